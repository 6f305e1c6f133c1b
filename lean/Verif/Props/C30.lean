import Verif.Props.C29
import Verif.Props.C05

/-! # C30 — conservation, 3D hydro -/

set_option linter.constructorNameAsVariable false
set_option linter.unusedSectionVars false

namespace EulerKokkos
open Spec

/-- total of a field over the interior cells (3D) -/
noncomputable def Spec.total3 {α : Type} (p : Params α) (f : Int → Int → Int → ℝ) : ℝ :=
  ∑ i ∈ Finset.Ico p.ghostWidth (p.ghostWidth + p.nx),
    ∑ j ∈ Finset.Ico p.ghostWidth (p.ghostWidth + p.ny),
      ∑ k ∈ Finset.Ico p.ghostWidth (p.ghostWidth + p.nz), f i j k

/-- net flux through the x-, y- and z-sides of the domain of the face fluxes `fx fy fz` -/
noncomputable def Spec.sides3 {α : Type} (p : Params α) (fx fy fz : Int → Int → Int → ℝ) : ℝ :=
  ∑ j ∈ Finset.Ico p.ghostWidth (p.ghostWidth + p.ny),
    ∑ k ∈ Finset.Ico p.ghostWidth (p.ghostWidth + p.nz),
      (fx p.ghostWidth j k - fx (p.ghostWidth + p.nx) j k)
  + ∑ i ∈ Finset.Ico p.ghostWidth (p.ghostWidth + p.nx),
    ∑ k ∈ Finset.Ico p.ghostWidth (p.ghostWidth + p.nz),
      (fy i p.ghostWidth k - fy i (p.ghostWidth + p.ny) k)
  + ∑ i ∈ Finset.Ico p.ghostWidth (p.ghostWidth + p.nx),
    ∑ j ∈ Finset.Ico p.ghostWidth (p.ghostWidth + p.ny),
      (fz i j p.ghostWidth - fz i j (p.ghostWidth + p.nz))

theorem total3_fluxUpdate (p : Params ℝ) (hw : p.WF) (u fx fy fz : Int → Int → Int → ℝ) :
    total3 p (fun i j k => u i j k + fx i j k - fx (i + 1) j k + fy i j k - fy i (j + 1) k
      + fz i j k - fz i j (k + 1)) = total3 p u + sides3 p fx fy fz := by
  have hx := hw.nx_pos
  have hy := hw.ny_pos
  have hz := hw.nz_pos
  unfold total3 sides3
  have e1 : ∀ i j, ∑ k ∈ Finset.Ico p.ghostWidth (p.ghostWidth + p.nz),
      (u i j k + fx i j k - fx (i + 1) j k + fy i j k - fy i (j + 1) k
      + fz i j k - fz i j (k + 1)) =
      ∑ k ∈ Finset.Ico p.ghostWidth (p.ghostWidth + p.nz), u i j k +
      ∑ k ∈ Finset.Ico p.ghostWidth (p.ghostWidth + p.nz), (fx i j k - fx (i + 1) j k) +
      ∑ k ∈ Finset.Ico p.ghostWidth (p.ghostWidth + p.nz), (fy i j k - fy i (j + 1) k) +
      (fz i j p.ghostWidth - fz i j (p.ghostWidth + p.nz)) := by
    intro i j
    rw [← sum_Ico_telescope (fun k => fz i j k) (by omega), ← Finset.sum_add_distrib,
      ← Finset.sum_add_distrib, ← Finset.sum_add_distrib]
    exact Finset.sum_congr rfl (fun k _ => by ring)
  simp only [e1]
  have e2 : ∀ i, ∑ j ∈ Finset.Ico p.ghostWidth (p.ghostWidth + p.ny),
      ∑ k ∈ Finset.Ico p.ghostWidth (p.ghostWidth + p.nz), (fy i j k - fy i (j + 1) k) =
      ∑ k ∈ Finset.Ico p.ghostWidth (p.ghostWidth + p.nz),
        (fy i p.ghostWidth k - fy i (p.ghostWidth + p.ny) k) := by
    intro i
    rw [Finset.sum_comm]
    exact Finset.sum_congr rfl (fun k _ => sum_Ico_telescope (fun j => fy i j k) (by omega))
  have e3 : ∑ i ∈ Finset.Ico p.ghostWidth (p.ghostWidth + p.nx),
      ∑ j ∈ Finset.Ico p.ghostWidth (p.ghostWidth + p.ny),
      ∑ k ∈ Finset.Ico p.ghostWidth (p.ghostWidth + p.nz), (fx i j k - fx (i + 1) j k) =
      ∑ j ∈ Finset.Ico p.ghostWidth (p.ghostWidth + p.ny),
      ∑ k ∈ Finset.Ico p.ghostWidth (p.ghostWidth + p.nz),
        (fx p.ghostWidth j k - fx (p.ghostWidth + p.nx) j k) := by
    rw [Finset.sum_comm]
    refine Finset.sum_congr rfl (fun j _ => ?_)
    rw [Finset.sum_comm]
    exact Finset.sum_congr rfl (fun k _ => sum_Ico_telescope (fun i => fx i j k) (by omega))
  simp only [Finset.sum_add_distrib, e2]
  rw [e3]
  ring

theorem fluxUpdate3_get (fx fy fz : Fld3 ℝ) (u : HS ℝ) (i j k : Int) {v : Nat} (hv : v < 5) :
    (fluxUpdate3 fx fy fz u i j k).get v =
      u.get v + (fx i j k).get v - (fx (i + 1) j k).get v + (fy i j k).get v
        - (fy i (j + 1) k).get v + (fz i j k).get v - (fz i j (k + 1)).get v := by
  unfold fluxUpdate3
  match v with
  | 0 | 1 | 2 | 3 | 4 => rfl
  | n + 5 => omega

theorem hs3_get (m : Mem Arr ℝ) (a : Arr) (i j k : Int) {v : Nat} (hv : v < 5) :
    (hs3 m a i j k).get v = m ⟨a, i, j, k, v⟩ := by
  match v with
  | 0 | 1 | 2 | 3 | 4 => rfl
  | n + 5 => omega

theorem fill3_interior {R : Type} [RealOps R] (p : Params R) (u : Fld3 R) {i j k : Int}
    (h : interior3 p i j k) : fill3 p u i j k = u i j k := by
  obtain ⟨⟨a, b⟩, ⟨c, d⟩, e, f⟩ := h
  unfold fill3
  simp only [srcCoord_self a b, srcCoord_self c d, srcCoord_self e f, signed, flips_not a b,
    flips_not c d, flips_not e f, if_false]

/-- **C30 (balance).** Without gravity the change of the total of each of the five conserved
variables over one step is exactly the flux through the six sides of the domain. -/
theorem C30_balance_3d {p : Params ℝ} (hp : Hydro3 p)
    (hi : p.implementationVersion = 0 ∨ p.implementationVersion = 1 ∨
      p.implementationVersion = 2)
    {g : GravityParams} (hg : g.enabled = false) (dt : ℝ) (jk : Junk ℝ) {inA outA : Arr}
    (hpp : PingPong inA outA) {m m' : Mem Arr ℝ} (hm : godunov3 p g dt jk inA outA m m')
    {v : Nat} (hv : v < 5) :
    let q := prim3 p (fill3 p (hs3 m inA))
    let fx := fun i j k => (fluxX3 p g dt (gravOf3 m .grav) q i j k).get v
    let fy := fun i j k => (fluxY3 p g dt (gravOf3 m .grav) q i j k).get v
    let fz := fun i j k => (fluxZ3 true p g dt (gravOf3 m .grav) q i j k).get v
    total3 p (fun i j k => m' ⟨outA, i, j, k, v⟩) =
      total3 p (fun i j k => m ⟨inA, i, j, k, v⟩) + sides3 p fx fy fz := by
  intro q fx fy fz
  rw [← total3_fluxUpdate p hp.wf]
  have hgw := hp.wf.gw_pos
  refine Finset.sum_congr rfl (fun i hi' => Finset.sum_congr rfl (fun j hj' =>
    Finset.sum_congr rfl (fun k hk' => ?_)))
  simp only [Finset.mem_Ico] at hi' hj' hk'
  have hint : interior3 p i j k := ⟨⟨by omega, by omega⟩, ⟨by omega, by omega⟩, by omega, by omega⟩
  beta_reduce
  rw [← hs3_get m' outA i j k hv, (godunov3_result hp signLaws_real (schemeOK3_real hp hi) hpp hm).2.2
    i j k ⟨⟨by omega, by omega⟩, ⟨by omega, by omega⟩, by omega, by omega⟩,
    fullStep3_noKick (by simp [hg]) _ true]
  unfold fullStep3 step3
  rw [if_pos hint, hg]
  simp only [Bool.false_eq_true, if_false]
  rw [fluxUpdate3_get _ _ _ _ _ _ _ hv, fill3_interior p _ hint, hs3_get m inA i j k hv]

/-- all six sides are periodic -/
def Periodic3 {α : Type} (p : Params α) : Prop :=
  Periodic2 p ∧ p.boundary_type_zmin = .periodic ∧ p.boundary_type_zmax = .periodic

section shift
variable {R : Type} [RealOps R]

theorem slopes3_shift (p : Params R) (q : Fld3 R) (a b c i j k : Int) :
    slopes3 p (fun i j k => q (i + a) (j + b) (k + c)) i j k =
      slopes3 p q (i + a) (j + b) (k + c) := by
  unfold slopes3
  rw [show i + a + 1 = i + 1 + a by ring, show i + a - 1 = i - 1 + a by ring,
    show j + b + 1 = j + 1 + b by ring, show j + b - 1 = j - 1 + b by ring,
    show k + c + 1 = k + 1 + c by ring, show k + c - 1 = k - 1 + c by ring]

theorem face3_shift (p : Params R) (g : GravityParams) (dt : R) (gf : Grav3 R) (q : Fld3 R)
    (f : Face) (a b c i j k : Int) :
    face3 p g dt (fun i j k => gf (i + a) (j + b) (k + c))
        (fun i j k => q (i + a) (j + b) (k + c)) f i j k =
      face3 p g dt gf q f (i + a) (j + b) (k + c) := by
  unfold face3 trace3; rw [slopes3_shift]

theorem fluxX3_shift (p : Params R) (g : GravityParams) (dt : R) (gf : Grav3 R) (q : Fld3 R)
    (a b c i j k : Int) :
    fluxX3 p g dt (fun i j k => gf (i + a) (j + b) (k + c))
        (fun i j k => q (i + a) (j + b) (k + c)) i j k =
      fluxX3 p g dt gf q (i + a) (j + b) (k + c) := by
  unfold fluxX3; rw [face3_shift, face3_shift, show i + a - 1 = i - 1 + a by ring]

theorem fluxY3_shift (p : Params R) (g : GravityParams) (dt : R) (gf : Grav3 R) (q : Fld3 R)
    (a b c i j k : Int) :
    fluxY3 p g dt (fun i j k => gf (i + a) (j + b) (k + c))
        (fun i j k => q (i + a) (j + b) (k + c)) i j k =
      fluxY3 p g dt gf q (i + a) (j + b) (k + c) := by
  unfold fluxY3; rw [face3_shift, face3_shift, show j + b - 1 = j - 1 + b by ring]

theorem fluxZ3_shift (p : Params R) (g : GravityParams) (dt : R) (gf : Grav3 R) (q : Fld3 R)
    (a b c i j k : Int) :
    fluxZ3 true p g dt (fun i j k => gf (i + a) (j + b) (k + c))
        (fun i j k => q (i + a) (j + b) (k + c)) i j k =
      fluxZ3 true p g dt gf q (i + a) (j + b) (k + c) := by
  unfold fluxZ3; simp only [if_true]
  rw [face3_shift, face3_shift, show k + c - 1 = k - 1 + c by ring]

end shift

theorem fill3_periodic {p : Params ℝ} (hP : Periodic3 p) (u : Fld3 ℝ) {i j k a b c : Int}
    (hx : srcCoord .periodic .periodic p.nx p.ghostWidth (i + a) =
      srcCoord .periodic .periodic p.nx p.ghostWidth i)
    (hy : srcCoord .periodic .periodic p.ny p.ghostWidth (j + b) =
      srcCoord .periodic .periodic p.ny p.ghostWidth j)
    (hz : srcCoord .periodic .periodic p.nz p.ghostWidth (k + c) =
      srcCoord .periodic .periodic p.nz p.ghostWidth k) :
    fill3 p u (i + a) (j + b) (k + c) = fill3 p u i j k := by
  obtain ⟨⟨e1, e2, e3, e4⟩, e5, e6⟩ := hP
  unfold fill3
  simp [e1, e2, e3, e4, e5, e6, hx, hy, hz, flips, signed]

theorem periodic_of_faces {bc : BC} {n gw : Int} (h : BCok bc n gw) (e : bc = .periodic) :
    gw ≤ n := by
  rcases h with h | h
  · rw [e] at h; cases h
  · exact h

/-- **C30 (one step).** Periodic 3D domain, no gravity: mass, energy and the three momenta summed
over the interior are unchanged, for every defined Riemann solver, version, schedule and `dt`. -/
theorem C30_conservation_step_3d {p : Params ℝ} (hp : Hydro3 p) (hP : Periodic3 p)
    (hi : p.implementationVersion = 0 ∨ p.implementationVersion = 1 ∨
      p.implementationVersion = 2)
    {g : GravityParams} (hg : g.enabled = false) (dt : ℝ) (jk : Junk ℝ) {inA outA : Arr}
    (hpp : PingPong inA outA) {m m' : Mem Arr ℝ} (hm : godunov3 p g dt jk inA outA m m')
    {v : Nat} (hv : v < 5) :
    total3 p (fun i j k => m' ⟨outA, i, j, k, v⟩) =
      total3 p (fun i j k => m ⟨inA, i, j, k, v⟩) := by
  have hgw := hp.wf.gw_pos
  obtain ⟨⟨f1, f2, f3, f4⟩, f5, f6⟩ := hp.faces
  have hnx := periodic_of_faces f1 hP.1.1
  have hny := periodic_of_faces f3 hP.1.2.2.1
  have hnz := periodic_of_faces f5 hP.2.1
  rw [C30_balance_3d hp hi hg dt jk hpp hm hv]
  have hx : ∀ j k, fluxX3 p g dt (gravOf3 m .grav) (prim3 p (fill3 p (hs3 m inA)))
      (p.ghostWidth + p.nx) j k = fluxX3 p g dt (gravOf3 m .grav)
      (prim3 p (fill3 p (hs3 m inA))) p.ghostWidth j k := by
    intro j k
    have := fluxX3_shift p g dt (gravOf3 m .grav) (prim3 p (fill3 p (hs3 m inA))) p.nx 0 0
      p.ghostWidth j k
    simp only [add_zero] at this
    rw [← this]
    refine fluxX3_congr (fun a b c h1 h2 _ _ _ _ => ?_) (fun a b c h1 h2 _ _ _ _ => ?_)
      (fun h => by simp [hg] at h)
    all_goals
      have := fill3_periodic hP (hs3 m inA) (i := a) (j := b) (k := c) (a := p.nx) (b := 0) (c := 0)
        (srcCoord_periodic hnx (by omega) (by omega)) (by rw [add_zero]) (by rw [add_zero])
      simp only [add_zero] at this
      unfold prim3; rw [this]
  have hy : ∀ i k, fluxY3 p g dt (gravOf3 m .grav) (prim3 p (fill3 p (hs3 m inA)))
      i (p.ghostWidth + p.ny) k = fluxY3 p g dt (gravOf3 m .grav)
      (prim3 p (fill3 p (hs3 m inA))) i p.ghostWidth k := by
    intro i k
    have := fluxY3_shift p g dt (gravOf3 m .grav) (prim3 p (fill3 p (hs3 m inA))) 0 p.ny 0
      i p.ghostWidth k
    simp only [add_zero] at this
    rw [← this]
    refine fluxY3_congr (fun a b c _ _ h1 h2 _ _ => ?_) (fun a b c _ _ h1 h2 _ _ => ?_)
      (fun h => by simp [hg] at h)
    all_goals
      have := fill3_periodic hP (hs3 m inA) (i := a) (j := b) (k := c) (a := 0) (b := p.ny) (c := 0)
        (by rw [add_zero]) (srcCoord_periodic hny (by omega) (by omega)) (by rw [add_zero])
      simp only [add_zero] at this
      unfold prim3; rw [this]
  have hz : ∀ i j, fluxZ3 true p g dt (gravOf3 m .grav) (prim3 p (fill3 p (hs3 m inA)))
      i j (p.ghostWidth + p.nz) = fluxZ3 true p g dt (gravOf3 m .grav)
      (prim3 p (fill3 p (hs3 m inA))) i j p.ghostWidth := by
    intro i j
    have := fluxZ3_shift p g dt (gravOf3 m .grav) (prim3 p (fill3 p (hs3 m inA))) 0 0 p.nz
      i j p.ghostWidth
    simp only [add_zero] at this
    rw [← this]
    refine fluxZ3_congr (fun a b c _ _ _ _ h1 h2 => ?_) (fun a b c _ _ _ _ h1 h2 => ?_)
      (fun h => by simp [hg] at h)
    all_goals
      have := fill3_periodic hP (hs3 m inA) (i := a) (j := b) (k := c) (a := 0) (b := 0) (c := p.nz)
        (by rw [add_zero]) (by rw [add_zero]) (srcCoord_periodic hnz (by omega) (by omega))
      simp only [add_zero] at this
      unfold prim3; rw [this]
  simp only [sides3, hx, hy, hz, sub_self, Finset.sum_const_zero, add_zero]

/-- **C30 (runs).** The same over any number of steps with any sequence of `dt`s. -/
theorem C30_conservation_run_3d {p : Params ℝ} (hp : Hydro3 p) (hP : Periodic3 p)
    (hi : p.implementationVersion = 0 ∨ p.implementationVersion = 1 ∨
      p.implementationVersion = 2)
    {g : GravityParams} (hg : g.enabled = false) (jk : Junk ℝ) (dts : List ℝ) (n : Nat)
    {m m' : Mem Arr ℝ} (hm : hydroRun3 p g jk n dts m m') {v : Nat} (hv : v < 5) :
    total3 p (fun i j k => m' ⟨pingIn (n + dts.length), i, j, k, v⟩) =
      total3 p (fun i j k => m ⟨pingIn n, i, j, k, v⟩) := by
  induction dts generalizing n m with
  | nil => cases hm; rfl
  | cons dt dts ih =>
    obtain ⟨mid, h1, h2⟩ := hm
    have := ih (n + 1) h2
    rw [show n + (dt :: dts).length = n + 1 + dts.length by simp; omega, this, ← pingOut_succ]
    exact C30_conservation_step_3d hp hP hi hg dt jk (pingPong n) h1 hv

/-- Non-vacuity: a 4 × 3 × 5 periodic grid; the run exists. -/
example : Hydro3 (sample3 .periodic .periodic) ∧ Periodic3 (sample3 .periodic .periodic) ∧
    ∃ m', godunov3 (sample3 .periodic .periodic) ⟨false, false⟩ (1/100) (fun _ _ _ _ => HS.zero) .U
      .U2 (fun _ => 1) m' :=
  ⟨sample_hydro3 _ _, ⟨⟨rfl, rfl, rfl, rfl⟩, rfl, rfl⟩,
    (C29_step_deterministic_3d (sample3_wf _ _) (sample_hydro3 _ _).faces (Or.inl rfl) _ _ _
      (Or.inl ⟨rfl, rfl⟩) _).exists⟩

end EulerKokkos
