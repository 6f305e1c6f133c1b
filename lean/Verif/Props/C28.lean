import Verif.Props.C44
import Verif.Props.C42

/-!
# C28 — constrained transport preserves the discrete divergence of the magnetic field (3D)

In MHD runs variable `IA` (`IB`, `IC`) of cell `(i,j,k)` is the x (y, z) component of the magnetic field on
the *left* x- (y-, z-) face of the cell.
-/

set_option linter.constructorNameAsVariable false
set_option linter.unusedSectionVars false
set_option linter.unusedSimpArgs false

namespace EulerKokkos
open Spec

/-- discrete divergence of the magnetic field in cell `(i,j,k)`: what flows out through the six faces,
divided by the cell volume -/
noncomputable def Spec.divB3 (p : Params ℝ) (u : FldM3 ℝ) (i j k : Int) : ℝ :=
  ((u (i + 1) j k).a - (u i j k).a) / p.dx + ((u i (j + 1) k).b - (u i j k).b) / p.dy +
    ((u i j (k + 1)).c - (u i j k).c) / p.dz

/-- the curl of any edge field has zero divergence -/
theorem div_of_ct3 (p : Params ℝ) (E : EmfDir → Int → Int → Int → ℝ) (dt : ℝ) (u u' : FldM3 ℝ)
    (i j k : Int)
    (h1 : (u' i j k).a = (ctUpdate3 E (dt / p.dx) (dt / p.dy) (dt / p.dz) (u i j k) i j k).a)
    (h2 : (u' i j k).b = (ctUpdate3 E (dt / p.dx) (dt / p.dy) (dt / p.dz) (u i j k) i j k).b)
    (h3 : (u' i j k).c = (ctUpdate3 E (dt / p.dx) (dt / p.dy) (dt / p.dz) (u i j k) i j k).c)
    (h4 : (u' (i + 1) j k).a =
      (ctUpdate3 E (dt / p.dx) (dt / p.dy) (dt / p.dz) (u (i + 1) j k) (i + 1) j k).a)
    (h5 : (u' i (j + 1) k).b =
      (ctUpdate3 E (dt / p.dx) (dt / p.dy) (dt / p.dz) (u i (j + 1) k) i (j + 1) k).b)
    (h6 : (u' i j (k + 1)).c =
      (ctUpdate3 E (dt / p.dx) (dt / p.dy) (dt / p.dz) (u i j (k + 1)) i j (k + 1)).c) :
    divB3 p u' i j k = divB3 p u i j k := by
  unfold divB3
  rw [h1, h2, h3, h4, h5, h6]
  simp only [ctUpdate3]
  ring

theorem stepM3_abc {p : Params ℝ} {dt : ℝ} {u : FldM3 ℝ} {i j k : Int} (h : interior3 p i j k) :
    let n := ctUpdate3 (schemeM3 p dt u).e (dt / p.dx) (dt / p.dy) (dt / p.dz) (u i j k) i j k
    (stepM3 p dt u i j k).a = n.a ∧ (stepM3 p dt u i j k).b = n.b ∧ (stepM3 p dt u i j k).c = n.c := by
  intro n
  unfold stepM3 stepOfM3
  rw [if_pos h]
  exact ⟨rfl, rfl, rfl⟩

/-- **C28 (cells away from the upper sides).** One MHD step, every boundary condition, version, schedule,
state and `dt`: the discrete divergence is unchanged in every interior cell whose three upper neighbours
are interior cells. -/
theorem C28_inner_cells_3d {p : Params ℝ} (hp : Mhd3 p)
    (hi : p.implementationVersion = 0 ∨ p.implementationVersion = 1 ∨
      p.implementationVersion = 2)
    (dt : ℝ) (jk : JunkM ℝ) {inA outA : Arr} (hpp : PingPong inA outA) {m m' : Mem Arr ℝ}
    (hm : godunovMhd3 p dt jk inA outA m m') (i j k : Int) (hij : interior3 p i j k)
    (hx : interior3 p (i + 1) j k) (hy : interior3 p i (j + 1) k) (hz : interior3 p i j (k + 1)) :
    divB3 p (ms m' outA) i j k = divB3 p (ms m inA) i j k := by
  have h := (godunovMhd3_result hp signLaws_real (mhdOK3_real hp hi) hpp hm).2
  have e : divB3 p (ms m inA) i j k = divB3 p (fillM3 p (ms m inA)) i j k := by
    unfold divB3
    rw [fillM3_interior p _ hij, fillM3_interior p _ hx, fillM3_interior p _ hy, fillM3_interior p _ hz]
  rw [e]
  refine div_of_ct3 p (schemeM3 p dt (fillM3 p (ms m inA))).e dt _ _ i j k ?_ ?_ ?_ ?_ ?_ ?_
  · rw [h i j k hij]; exact (stepM3_abc hij).1
  · rw [h i j k hij]; exact (stepM3_abc hij).2.1
  · rw [h i j k hij]; exact (stepM3_abc hij).2.2
  · rw [h _ _ _ hx]; exact (stepM3_abc hx).1
  · rw [h _ _ _ hy]; exact (stepM3_abc hy).2.1
  · rw [h _ _ _ hz]; exact (stepM3_abc hz).2.2

/-- the field on the upper sides of a periodic domain after the ghost fill -/
theorem fill_next3 {p : Params ℝ} (hp : Mhd3 p) (hP : PeriodicBox3 p) (dt : ℝ) (u : FldM3 ℝ)
    {i j k : Int} (hij : interior3 p i j k) :
    let E := (schemeM3 p dt (fillM3 p u)).e
    (fillM3 p (fullStepM3 p dt u) (i + 1) j k).a =
      (ctUpdate3 E (dt / p.dx) (dt / p.dy) (dt / p.dz) (fillM3 p u (i + 1) j k) (i + 1) j k).a ∧
    (fillM3 p (fullStepM3 p dt u) i (j + 1) k).b =
      (ctUpdate3 E (dt / p.dx) (dt / p.dy) (dt / p.dz) (fillM3 p u i (j + 1) k) i (j + 1) k).b ∧
    (fillM3 p (fullStepM3 p dt u) i j (k + 1)).c =
      (ctUpdate3 E (dt / p.dx) (dt / p.dy) (dt / p.dz) (fillM3 p u i j (k + 1)) i j (k + 1)).c := by
  intro E
  have hgw := hp.gw
  obtain ⟨tx, ty, tz⟩ := hP.thick hp.faces
  obtain ⟨⟨a, b⟩, ⟨c, d⟩, e, f⟩ := id hij
  refine ⟨?_, ?_, ?_⟩
  · by_cases hr : i + 1 < p.ghostWidth + p.nx
    · have h' : interior3 p (i + 1) j k := ⟨⟨by omega, hr⟩, ⟨c, d⟩, e, f⟩
      rw [fillM3_interior p _ h']
      exact (stepM3_abc h').1
    · have ei : i + 1 = p.ghostWidth + p.nx := by omega
      have h' : interior3 p p.ghostWidth j k := ⟨⟨by omega, by omega⟩, ⟨c, d⟩, e, f⟩
      rw [ei, fillM3_periodic_x hP tx _ j k (by omega) (by omega),
        fillM3_periodic_x hP tx _ j k (by omega) (by omega), fillM3_interior p _ h']
      refine (stepM3_abc h').1.trans ?_
      simp only [ctUpdate3, E, (periodic3_x hp hP dt u _ _).2]
  · by_cases hr : j + 1 < p.ghostWidth + p.ny
    · have h' : interior3 p i (j + 1) k := ⟨⟨a, b⟩, ⟨by omega, hr⟩, e, f⟩
      rw [fillM3_interior p _ h']
      exact (stepM3_abc h').2.1
    · have ei : j + 1 = p.ghostWidth + p.ny := by omega
      have h' : interior3 p i p.ghostWidth k := ⟨⟨a, b⟩, ⟨by omega, by omega⟩, e, f⟩
      rw [ei, fillM3_periodic_y hP ty _ i k (by omega) (by omega),
        fillM3_periodic_y hP ty _ i k (by omega) (by omega), fillM3_interior p _ h']
      refine (stepM3_abc h').2.1.trans ?_
      simp only [ctUpdate3, E, (periodic3_y hp hP dt u _ _).2]
  · by_cases hr : k + 1 < p.ghostWidth + p.nz
    · have h' : interior3 p i j (k + 1) := ⟨⟨a, b⟩, ⟨c, d⟩, by omega, hr⟩
      rw [fillM3_interior p _ h']
      exact (stepM3_abc h').2.2
    · have ei : k + 1 = p.ghostWidth + p.nz := by omega
      have h' : interior3 p i j p.ghostWidth := ⟨⟨a, b⟩, ⟨c, d⟩, by omega, by omega⟩
      rw [ei, fillM3_periodic_z hP tz _ i j (by omega) (by omega),
        fillM3_periodic_z hP tz _ i j (by omega) (by omega), fillM3_interior p _ h']
      refine (stepM3_abc h').2.2.trans ?_
      simp only [ctUpdate3, E, (periodic3_z hp hP dt u _ _).2]

theorem divB3_fullStep {p : Params ℝ} (hp : Mhd3 p) (hP : PeriodicBox3 p) (dt : ℝ) (u : FldM3 ℝ)
    (i j k : Int) (hij : interior3 p i j k) :
    divB3 p (fillM3 p (fullStepM3 p dt u)) i j k = divB3 p (fillM3 p u) i j k := by
  obtain ⟨h4, h5, h6⟩ := fill_next3 hp hP dt u hij
  refine div_of_ct3 p (schemeM3 p dt (fillM3 p u)).e dt _ _ i j k ?_ ?_ ?_ h4 h5 h6
  · rw [fillM3_interior p _ hij]; exact (stepM3_abc hij).1
  · rw [fillM3_interior p _ hij]; exact (stepM3_abc hij).2.1
  · rw [fillM3_interior p _ hij]; exact (stepM3_abc hij).2.2

theorem divB3_congr {p : Params ℝ} (hp : Mhd3 p) {u u' : FldM3 ℝ}
    (h : ∀ i j k, interior3 p i j k → u i j k = u' i j k) (i j k : Int) (hij : interior3 p i j k) :
    divB3 p (fillM3 p u) i j k = divB3 p (fillM3 p u') i j k := by
  have hgw := hp.gw
  obtain ⟨⟨a, b⟩, ⟨c, d⟩, e, f⟩ := hij
  have f := fillM3_congr hp.wf hp.faces h
  unfold divB3
  rw [f i j k ⟨⟨by omega, by omega⟩, ⟨by omega, by omega⟩, by omega, by omega⟩,
    f (i + 1) j k ⟨⟨by omega, by omega⟩, ⟨by omega, by omega⟩, by omega, by omega⟩,
    f i (j + 1) k ⟨⟨by omega, by omega⟩, ⟨by omega, by omega⟩, by omega, by omega⟩,
    f i j (k + 1) ⟨⟨by omega, by omega⟩, ⟨by omega, by omega⟩, by omega, by omega⟩]

/-- **C28 (periodic domain, one step).** In *every* interior cell the discrete divergence (of the field with
its ghost faces filled) is unchanged by a step, for every version, schedule, state and `dt`. -/
theorem C28_periodic_step_3d {p : Params ℝ} (hp : Mhd3 p) (hP : PeriodicBox3 p)
    (hi : p.implementationVersion = 0 ∨ p.implementationVersion = 1 ∨
      p.implementationVersion = 2)
    (dt : ℝ) (jk : JunkM ℝ) {inA outA : Arr} (hpp : PingPong inA outA) {m m' : Mem Arr ℝ}
    (hm : godunovMhd3 p dt jk inA outA m m') (i j k : Int) (hij : interior3 p i j k) :
    divB3 p (fillM3 p (ms m' outA)) i j k = divB3 p (fillM3 p (ms m inA)) i j k := by
  have h := (godunovMhd3_result hp signLaws_real (mhdOK3_real hp hi) hpp hm).2
  rw [divB3_congr hp h i j k hij]
  exact divB3_fullStep hp hP dt _ i j k hij

/-- **C28 (periodic domain, runs).** The same over any number of steps with any sequence of `dt`s. -/
theorem C28_periodic_run_3d {p : Params ℝ} (hp : Mhd3 p) (hP : PeriodicBox3 p)
    (hi : p.implementationVersion = 0 ∨ p.implementationVersion = 1 ∨
      p.implementationVersion = 2)
    (jk : JunkM ℝ) (dts : List ℝ) (n : Nat) {m m' : Mem Arr ℝ} (hm : mhdRun3 p jk n dts m m')
    (i j k : Int) (hij : interior3 p i j k) :
    divB3 p (fillM3 p (ms m' (pingIn (n + dts.length)))) i j k =
      divB3 p (fillM3 p (ms m (pingIn n))) i j k := by
  induction dts generalizing n m with
  | nil => cases hm; rfl
  | cons dt dts ih =>
    obtain ⟨mid, h1, h2⟩ := hm
    have := ih (n + 1) h2
    rw [show n + (dt :: dts).length = n + 1 + dts.length by simp; omega, this, ← pingOut_succ]
    exact C28_periodic_step_3d hp hP hi dt jk (pingPong n) h1 i j k hij

/-- **C28 (solenoidal for ever).** A field without discrete divergence stays so. -/
theorem C28_solenoidal_for_ever_3d {p : Params ℝ} (hp : Mhd3 p) (hP : PeriodicBox3 p)
    (hi : p.implementationVersion = 0 ∨ p.implementationVersion = 1 ∨
      p.implementationVersion = 2)
    (jk : JunkM ℝ) (dts : List ℝ) (n : Nat) {m m' : Mem Arr ℝ} (hm : mhdRun3 p jk n dts m m')
    (h0 : ∀ i j k, interior3 p i j k → divB3 p (fillM3 p (ms m (pingIn n))) i j k = 0)
    (i j k : Int) (hij : interior3 p i j k) :
    divB3 p (fillM3 p (ms m' (pingIn (n + dts.length)))) i j k = 0 := by
  rw [C28_periodic_run_3d hp hP hi jk dts n hm i j k hij]; exact h0 i j k hij

/-- **C28 (finding: open upper side).** With an absorbing (`neumann`) right side the ghost fill overwrites
the field on that side with the one of the last column: there the divergence is that of `By`, `Bz` alone,
whatever the step computed for `Bx`. -/
theorem C28_open_side_3d {p : Params ℝ} (hp : Mhd3 p) (hN : p.boundary_type_xmax = .neumann)
    (u : FldM3 ℝ) (i j k : Int) (hij : interior3 p i j k) (hlast : i + 1 = p.ghostWidth + p.nx) :
    divB3 p (fillM3 p u) i j k =
      ((fillM3 p u i (j + 1) k).b - (u i j k).b) / p.dy + ((fillM3 p u i j (k + 1)).c - (u i j k).c) / p.dz := by
  have hgw := hp.gw
  have side : (fillM3 p u (i + 1) j k).a = (u i j k).a := by
    obtain ⟨⟨a, b⟩, ⟨c, d⟩, e, f⟩ := hij
    have s1 : srcCoord p.boundary_type_xmin p.boundary_type_xmax p.nx p.ghostWidth (i + 1) = i := by
      unfold srcCoord; rw [if_neg (by omega), if_pos (by omega), hN]; simp only; omega
    have s2 : ∀ {bm bM : BC} {n c : Int}, p.ghostWidth ≤ c → c < p.ghostWidth + n →
        srcCoord bm bM n p.ghostWidth c = c ∧ ¬ flips bm bM n p.ghostWidth c := by
      intro bm bM n c h h'
      unfold srcCoord flips; rw [if_neg (by omega), if_neg (by omega)]
      exact ⟨rfl, by omega⟩
    have s3 : ¬ flips p.boundary_type_xmin p.boundary_type_xmax p.nx p.ghostWidth (i + 1) := by
      unfold flips; rw [hN]; simp; omega
    unfold fillM3 ghost3
    simp only [s1, (s2 c d).1, (s2 e f).1, (s2 c d).2, (s2 e f).2, s3, signed, and_false, if_false]
    rfl
  unfold divB3
  rw [side, fillM3_interior p _ hij]
  simp

theorem fillM3_uniform {p : Params ℝ} (hp : Mhd3 p) (hN : NoWall2 p)
    (hz : p.boundary_type_zmin ≠ .dirichlet ∧ p.boundary_type_zmax ≠ .dirichlet) {u : FldM3 ℝ} {s : MS ℝ}
    (h : ∀ i j k, interior3 p i j k → u i j k = s) (i j k : Int) (hij : inGrid3 p i j k) :
    fillM3 p u i j k = s := by
  rw [fillM3_congr hp.wf hp.faces (u' := fun _ _ _ => s) h i j k hij]
  obtain ⟨a, b, c, d⟩ := hN
  obtain ⟨e, f⟩ := hz
  have f1 : ∀ v, ¬ flips p.boundary_type_xmin p.boundary_type_xmax p.nx p.ghostWidth v := by
    intro v hv; unfold flips at hv
    rcases hv with ⟨_, h⟩ | ⟨_, h⟩ <;> contradiction
  have f2 : ∀ v, ¬ flips p.boundary_type_ymin p.boundary_type_ymax p.ny p.ghostWidth v := by
    intro v hv; unfold flips at hv
    rcases hv with ⟨_, h⟩ | ⟨_, h⟩ <;> contradiction
  have f3 : ∀ v, ¬ flips p.boundary_type_zmin p.boundary_type_zmax p.nz p.ghostWidth v := by
    intro v hv; unfold flips at hv
    rcases hv with ⟨_, h⟩ | ⟨_, h⟩ <;> contradiction
  unfold fillM3 ghost3
  simp only [signed, f1, f2, f3, and_false, false_and, if_false]
  rfl

/-- non-vacuity: a solenoidal (uniform) field on a periodic 4 × 3 × 5 grid, with a step of version 2 -/
example : Mhd3 (sampleM .periodic .periodic 2) ∧ PeriodicBox3 (sampleM .periodic .periodic 2) ∧
    (∀ i j k, interior3 (sampleM .periodic .periodic 2) i j k →
      divB3 (sampleM .periodic .periodic 2)
        (fillM3 (sampleM .periodic .periodic 2) (ms (fun _ => (1 : ℝ)) .U)) i j k = 0) ∧
    ∃ m', godunovMhd3 (sampleM .periodic .periodic 2) (1/100) (fun _ _ _ _ => MS.zero) .U .U2
      (fun _ => 1) m' := by
  refine ⟨sampleM_mhd3 _ _ _, ⟨rfl, rfl, rfl, rfl, rfl, rfl⟩, fun i j k h => ?_, sampleM_step3 _ _ _ _⟩
  have hp := sampleM_mhd3 .periodic .periodic 2
  have hgw := hp.gw
  obtain ⟨⟨a, b⟩, ⟨c, d⟩, e, f⟩ := h
  have f := fillM3_uniform hp ⟨by decide, by decide, by decide, by decide⟩ ⟨by decide, by decide⟩
    (u := ms (fun _ => (1 : ℝ)) .U) (s := ⟨1, 1, 1, 1, 1, 1, 1, 1⟩) (fun i j k _ => rfl)
  unfold divB3
  rw [f i j k ⟨⟨by omega, by omega⟩, ⟨by omega, by omega⟩, by omega, by omega⟩,
    f (i + 1) j k ⟨⟨by omega, by omega⟩, ⟨by omega, by omega⟩, by omega, by omega⟩,
    f i (j + 1) k ⟨⟨by omega, by omega⟩, ⟨by omega, by omega⟩, by omega, by omega⟩,
    f i j (k + 1) ⟨⟨by omega, by omega⟩, ⟨by omega, by omega⟩, by omega, by omega⟩]
  simp

end EulerKokkos
