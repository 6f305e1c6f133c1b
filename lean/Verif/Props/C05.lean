import Verif.Props.C02
import Verif.Lemmas.Telescope

/-!
# C05 — conservation, 2D hydro

The specification: the total of variable `v` over the interior cells of a view, and the fluxes of
the scheme through the domain boundary.
-/

set_option linter.constructorNameAsVariable false
set_option linter.unusedSectionVars false

namespace EulerKokkos
open Spec

/-- total of a field over the interior cells (2D) -/
noncomputable def Spec.total2 {α : Type} (p : Params α) (f : Int → Int → ℝ) : ℝ :=
  ∑ i ∈ Finset.Ico p.ghostWidth (p.ghostWidth + p.nx),
    ∑ j ∈ Finset.Ico p.ghostWidth (p.ghostWidth + p.ny), f i j

/-- the fluxes telescope: what remains are the fluxes through the four sides of the domain -/
theorem total2_fluxUpdate (p : Params ℝ) (hw : p.WF) (u fx fy : Int → Int → ℝ) :
    total2 p (fun i j => u i j + fx i j - fx (i + 1) j + fy i j - fy i (j + 1)) =
      total2 p u
      + ∑ j ∈ Finset.Ico p.ghostWidth (p.ghostWidth + p.ny),
          (fx p.ghostWidth j - fx (p.ghostWidth + p.nx) j)
      + ∑ i ∈ Finset.Ico p.ghostWidth (p.ghostWidth + p.nx),
          (fy i p.ghostWidth - fy i (p.ghostWidth + p.ny)) := by
  have hx := hw.nx_pos
  have hy := hw.ny_pos
  unfold total2
  have e1 : ∀ i, ∑ j ∈ Finset.Ico p.ghostWidth (p.ghostWidth + p.ny),
      (u i j + fx i j - fx (i + 1) j + fy i j - fy i (j + 1)) =
      ∑ j ∈ Finset.Ico p.ghostWidth (p.ghostWidth + p.ny), u i j +
      ∑ j ∈ Finset.Ico p.ghostWidth (p.ghostWidth + p.ny), (fx i j - fx (i + 1) j) +
      (fy i p.ghostWidth - fy i (p.ghostWidth + p.ny)) := by
    intro i
    rw [← sum_Ico_telescope (fun j => fy i j) (by omega), ← Finset.sum_add_distrib,
      ← Finset.sum_add_distrib]
    exact Finset.sum_congr rfl (fun j _ => by ring)
  simp only [e1, Finset.sum_add_distrib]
  congr 2
  rw [Finset.sum_comm]
  exact Finset.sum_congr rfl (fun j _ => sum_Ico_telescope (fun i => fx i j) (by omega))

theorem HS.get_trunc (a : HS ℝ) {v : Nat} (hv : v < 4) : a.trunc.get v = a.get v := by
  match v with
  | 0 | 1 | 2 | 3 => rfl
  | n + 4 => omega

theorem fluxUpdate2_get (fx fy : Fld2 ℝ) (u : HS ℝ) (i j : Int) {v : Nat} (hv : v < 4) :
    (fluxUpdate2 fx fy u i j).get v =
      u.get v + (fx i j).get v - (fx (i + 1) j).get v + (fy i j).get v - (fy i (j + 1)).get v := by
  unfold fluxUpdate2
  rw [HS.get_trunc _ hv]
  match v with
  | 0 | 1 | 2 | 3 => rfl
  | n + 4 => omega

/-- value of variable `v` of the 2D state -/
theorem hs2_get (m : Mem Arr ℝ) (a : Arr) (i j : Int) {v : Nat} (hv : v < 4) :
    (hs2 m a i j).get v = m ⟨a, i, j, 0, v⟩ := by
  match v with
  | 0 | 1 | 2 | 3 => rfl
  | n + 4 => omega

theorem srcCoord_self {bm bM : BC} {n gw c : Int} (h : gw ≤ c) (h' : c < gw + n) :
    srcCoord bm bM n gw c = c := by
  unfold srcCoord; rw [if_neg (by omega), if_neg (by omega)]

theorem flips_not {bm bM : BC} {n gw c : Int} (h : gw ≤ c) (h' : c < gw + n) :
    ¬ flips bm bM n gw c := by
  unfold flips; omega

theorem fill2_interior (p : Params ℝ) (u : Fld2 ℝ) {i j : Int} (h : interior2 p i j) {v : Nat}
    (hv : v < 4) : (fill2 p u i j).get v = (u i j).get v := by
  obtain ⟨a, b, c, d⟩ := h
  unfold fill2
  simp only [srcCoord_self a b, srcCoord_self c d, signed, flips_not a b, flips_not c d, if_false]
  match v with
  | 0 | 1 | 2 | 3 => rfl
  | n + 4 => omega

/-- **C05 (balance).** Without gravity the change of the total of each conserved variable over one
step is exactly the flux through the four sides of the domain: each interior face cancels. -/
theorem C05_balance_2d {p : Params ℝ} (hp : Hydro2 p)
    (hi : p.implementationVersion = 0 ∨ p.implementationVersion = 1 ∨
      p.implementationVersion = 2)
    {g : GravityParams} (hg : g.enabled = false) (dt : ℝ) (jk : Junk ℝ) {inA outA : Arr}
    (hpp : PingPong inA outA) {m m' : Mem Arr ℝ} (hm : godunov2 p g dt jk inA outA m m')
    {v : Nat} (hv : v < 4) :
    let q := prim2 p (fill2 p (hs2 m inA))
    let fx := fun i j => (fluxX2 p g dt (gravOf m .grav) q i j).get v
    let fy := fun i j => (fluxY2 p g dt (gravOf m .grav) q i j).get v
    total2 p (fun i j => m' ⟨outA, i, j, 0, v⟩) =
      total2 p (fun i j => m ⟨inA, i, j, 0, v⟩)
      + ∑ j ∈ Finset.Ico p.ghostWidth (p.ghostWidth + p.ny),
          (fx p.ghostWidth j - fx (p.ghostWidth + p.nx) j)
      + ∑ i ∈ Finset.Ico p.ghostWidth (p.ghostWidth + p.nx),
          (fy i p.ghostWidth - fy i (p.ghostWidth + p.ny)) := by
  intro q fx fy
  rw [← total2_fluxUpdate p hp.wf]
  have hgw := hp.wf.gw_pos
  refine Finset.sum_congr rfl (fun i hi' => Finset.sum_congr rfl (fun j hj' => ?_))
  simp only [Finset.mem_Ico] at hi' hj'
  have hint : interior2 p i j := ⟨by omega, by omega, by omega, by omega⟩
  beta_reduce
  rw [← hs2_get m' outA i j hv, C04_all_versions_agree hp hi g dt jk hpp hm i j
    ⟨by omega, by omega, by omega, by omega⟩]
  unfold fullStep2 step2
  rw [if_pos hint, hg]
  simp only [Bool.false_eq_true, if_false]
  rw [fluxUpdate2_get _ _ _ _ _ hv, fill2_interior p _ hint hv, hs2_get m inA i j hv]

/-- all four sides are periodic -/
def Periodic2 {α : Type} (p : Params α) : Prop :=
  p.boundary_type_xmin = .periodic ∧ p.boundary_type_xmax = .periodic ∧
  p.boundary_type_ymin = .periodic ∧ p.boundary_type_ymax = .periodic

theorem srcCoord_periodic {n gw c : Int} (hn : gw ≤ n) (h0 : 0 ≤ c) (h1 : c < 2 * gw) :
    srcCoord .periodic .periodic n gw (c + n) = srcCoord .periodic .periodic n gw c := by
  unfold srcCoord
  simp only
  split_ifs <;> omega

theorem fill2_periodic_x {p : Params ℝ} (hP : Periodic2 p) (hn : p.ghostWidth ≤ p.nx)
    (u : Fld2 ℝ) {i : Int} (j : Int) (h0 : 0 ≤ i) (h1 : i < 2 * p.ghostWidth) :
    fill2 p u (i + p.nx) j = fill2 p u i j := by
  obtain ⟨e1, e2, e3, e4⟩ := hP
  unfold fill2
  simp [e1, e2, e3, e4, srcCoord_periodic hn h0 h1, flips, signed]

theorem fill2_periodic_y {p : Params ℝ} (hP : Periodic2 p) (hn : p.ghostWidth ≤ p.ny)
    (u : Fld2 ℝ) (i : Int) {j : Int} (h0 : 0 ≤ j) (h1 : j < 2 * p.ghostWidth) :
    fill2 p u i (j + p.ny) = fill2 p u i j := by
  obtain ⟨e1, e2, e3, e4⟩ := hP
  unfold fill2
  simp [e1, e2, e3, e4, srcCoord_periodic hn h0 h1, flips, signed]

section shift
variable {R : Type} [RealOps R]

theorem slopes2_shift (p : Params R) (q : Fld2 R) (a b i j : Int) :
    slopes2 p (fun i j => q (i + a) (j + b)) i j = slopes2 p q (i + a) (j + b) := by
  unfold slopes2
  rw [show i + a + 1 = i + 1 + a by ring, show i + a - 1 = i - 1 + a by ring,
    show j + b + 1 = j + 1 + b by ring, show j + b - 1 = j - 1 + b by ring]

theorem face2_shift (p : Params R) (g : GravityParams) (dt : R) (gf : Grav2 R) (q : Fld2 R)
    (f : Face) (a b i j : Int) :
    face2 p g dt (fun i j => gf (i + a) (j + b)) (fun i j => q (i + a) (j + b)) f i j =
      face2 p g dt gf q f (i + a) (j + b) := by
  unfold face2; rw [slopes2_shift]

theorem fluxX2_shift (p : Params R) (g : GravityParams) (dt : R) (gf : Grav2 R) (q : Fld2 R)
    (a b i j : Int) :
    fluxX2 p g dt (fun i j => gf (i + a) (j + b)) (fun i j => q (i + a) (j + b)) i j =
      fluxX2 p g dt gf q (i + a) (j + b) := by
  unfold fluxX2; rw [face2_shift, face2_shift, show i + a - 1 = i - 1 + a by ring]

theorem fluxY2_shift (p : Params R) (g : GravityParams) (dt : R) (gf : Grav2 R) (q : Fld2 R)
    (a b i j : Int) :
    fluxY2 p g dt (fun i j => gf (i + a) (j + b)) (fun i j => q (i + a) (j + b)) i j =
      fluxY2 p g dt gf q (i + a) (j + b) := by
  unfold fluxY2; rw [face2_shift, face2_shift, show j + b - 1 = j - 1 + b by ring]

end shift

/-- opposite sides of a periodic domain carry the same flux -/
theorem fluxX2_periodic {p : Params ℝ} (hw : p.WF) (hP : Periodic2 p) (hn : p.ghostWidth ≤ p.nx)
    {g : GravityParams} (hg : g.enabled = false) (dt : ℝ) (gf : Grav2 ℝ) (u : Fld2 ℝ) (j : Int) :
    fluxX2 p g dt gf (prim2 p (fill2 p u)) (p.ghostWidth + p.nx) j =
      fluxX2 p g dt gf (prim2 p (fill2 p u)) p.ghostWidth j := by
  have hgw := hw.gw_pos
  have := fluxX2_shift p g dt gf (prim2 p (fill2 p u)) p.nx 0 p.ghostWidth j
  rw [add_zero] at this
  rw [← this]
  refine fluxX2_congr (fun a b h1 h2 _ _ => ?_) (fun h => by simp [hg] at h)
  unfold prim2
  rw [add_zero, fill2_periodic_x hP hn u b (by omega) (by omega)]

theorem fluxY2_periodic {p : Params ℝ} (hw : p.WF) (hP : Periodic2 p) (hn : p.ghostWidth ≤ p.ny)
    {g : GravityParams} (hg : g.enabled = false) (dt : ℝ) (gf : Grav2 ℝ) (u : Fld2 ℝ) (i : Int) :
    fluxY2 p g dt gf (prim2 p (fill2 p u)) i (p.ghostWidth + p.ny) =
      fluxY2 p g dt gf (prim2 p (fill2 p u)) i p.ghostWidth := by
  have hgw := hw.gw_pos
  have := fluxY2_shift p g dt gf (prim2 p (fill2 p u)) 0 p.ny i p.ghostWidth
  rw [add_zero] at this
  rw [← this]
  refine fluxY2_congr (fun a b _ _ h1 h2 => ?_) (fun h => by simp [hg] at h)
  unfold prim2
  rw [add_zero, fill2_periodic_y hP hn u a (by omega) (by omega)]

/-- **C05 (one step).** Periodic domain, no gravity: mass, energy and both momenta summed over the
interior are unchanged by a step, for every Riemann solver, version, schedule, state and `dt`. -/
theorem C05_conservation_step_2d {p : Params ℝ} (hp : Hydro2 p) (hP : Periodic2 p)
    (hi : p.implementationVersion = 0 ∨ p.implementationVersion = 1 ∨
      p.implementationVersion = 2)
    {g : GravityParams} (hg : g.enabled = false) (dt : ℝ) (jk : Junk ℝ) {inA outA : Arr}
    (hpp : PingPong inA outA) {m m' : Mem Arr ℝ} (hm : godunov2 p g dt jk inA outA m m')
    {v : Nat} (hv : v < 4) :
    total2 p (fun i j => m' ⟨outA, i, j, 0, v⟩) = total2 p (fun i j => m ⟨inA, i, j, 0, v⟩) := by
  have hnx : p.ghostWidth ≤ p.nx := by
    rcases hp.faces.1 with h | h
    · rw [hP.1] at h; cases h
    · exact h
  have hny : p.ghostWidth ≤ p.ny := by
    rcases hp.faces.2.2.1 with h | h
    · rw [hP.2.2.1] at h; cases h
    · exact h
  rw [C05_balance_2d hp hi hg dt jk hpp hm hv]
  simp only [fluxX2_periodic hp.wf hP hnx hg, fluxY2_periodic hp.wf hP hny hg, sub_self,
    Finset.sum_const_zero, add_zero]

/-- **C05 (runs).** The same over any number of steps with any sequence of `dt`s. -/
theorem C05_conservation_run_2d {p : Params ℝ} (hp : Hydro2 p) (hP : Periodic2 p)
    (hi : p.implementationVersion = 0 ∨ p.implementationVersion = 1 ∨
      p.implementationVersion = 2)
    {g : GravityParams} (hg : g.enabled = false) (jk : Junk ℝ) (dts : List ℝ) (n : Nat)
    {m m' : Mem Arr ℝ} (hm : hydroRun2 p g jk n dts m m') {v : Nat} (hv : v < 4) :
    total2 p (fun i j => m' ⟨pingIn (n + dts.length), i, j, 0, v⟩) =
      total2 p (fun i j => m ⟨pingIn n, i, j, 0, v⟩) := by
  induction dts generalizing n m with
  | nil => cases hm; rfl
  | cons dt dts ih =>
    obtain ⟨mid, h1, h2⟩ := hm
    have := ih (n + 1) h2
    rw [show n + (dt :: dts).length = n + 1 + dts.length by simp; omega, this, ← pingOut_succ]
    exact C05_conservation_step_2d hp hP hi hg dt jk (pingPong n) h1 hv

/-- Non-vacuity: a 4 × 3 periodic grid. -/
example : Hydro2 (sample .periodic .periodic) ∧ Periodic2 (sample .periodic .periodic) ∧
    ∃ m', godunov2 (sample .periodic .periodic) ⟨false, false⟩ (1/100) (fun _ _ _ _ => HS.zero) .U
      .U2 (fun _ => 1) m' :=
  ⟨sample_hydro2 _ _, ⟨rfl, rfl, rfl, rfl⟩,
    (C02_step_deterministic (sample_wf _ _) (sample_hydro2 _ _).faces (Or.inl rfl) _ _ _
      (Or.inl ⟨rfl, rfl⟩) _).exists⟩

end EulerKokkos
