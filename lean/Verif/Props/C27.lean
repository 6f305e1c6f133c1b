import Verif.Lemmas.MhdFull2D
import Verif.Props.C42

/-!
# C27 — constrained transport preserves the discrete divergence of the magnetic field (2D)

In MHD runs variable `IA` (`IB`) of cell `(i,j)` is the x (y) component of the magnetic field on the
*left* (*lower*) face of the cell.
-/

set_option linter.constructorNameAsVariable false
set_option linter.unusedSectionVars false
set_option linter.unusedSimpArgs false

namespace EulerKokkos
open Spec

/-- discrete divergence of the magnetic field in cell `(i,j)`: what flows out through the four faces,
divided by the cell area -/
noncomputable def Spec.divB2 (p : Params ℝ) (u : FldM2 ℝ) (i j : Int) : ℝ :=
  ((u (i + 1) j).a - (u i j).a) / p.dx + ((u i (j + 1)).b - (u i j).b) / p.dy

/-- the curl of any edge field has zero divergence -/
theorem div_of_ct (p : Params ℝ) (E : Int → Int → ℝ) (dt : ℝ) (u u' : FldM2 ℝ) (i j : Int)
    (h1 : (u' i j).a = (ctUpdate2 E (dt / p.dx) (dt / p.dy) (u i j) i j).a)
    (h2 : (u' i j).b = (ctUpdate2 E (dt / p.dx) (dt / p.dy) (u i j) i j).b)
    (h3 : (u' (i + 1) j).a = (ctUpdate2 E (dt / p.dx) (dt / p.dy) (u (i + 1) j) (i + 1) j).a)
    (h4 : (u' i (j + 1)).b = (ctUpdate2 E (dt / p.dx) (dt / p.dy) (u i (j + 1)) i (j + 1)).b) :
    divB2 p u' i j = divB2 p u i j := by
  unfold divB2
  rw [h1, h2, h3, h4]
  simp only [ctUpdate2]
  ring

theorem stepM2_ab {p : Params ℝ} {dt : ℝ} {u : FldM2 ℝ} {i j : Int} (h : interior2 p i j) :
    (stepM2 p dt u i j).a = (ctUpdate2 (emfM2 p (tracesM2 p dt u)) (dt / p.dx) (dt / p.dy) (u i j) i j).a ∧
    (stepM2 p dt u i j).b = (ctUpdate2 (emfM2 p (tracesM2 p dt u)) (dt / p.dx) (dt / p.dy) (u i j) i j).b := by
  unfold stepM2
  rw [if_pos h]
  exact ⟨rfl, rfl⟩

/-- **C27 (cells away from the upper sides).** One MHD step, every boundary condition, version, schedule,
state and `dt`: the discrete divergence is unchanged in every interior cell whose right and upper
neighbours are interior cells. -/
theorem C27_inner_cells_2d {p : Params ℝ} (hp : Mhd2 p)
    (hi : p.implementationVersion = 0 ∨ p.implementationVersion = 1 ∨
      p.implementationVersion = 2)
    (dt : ℝ) (jk : JunkM ℝ) {inA outA : Arr} (hpp : PingPong inA outA) {m m' : Mem Arr ℝ}
    (hm : godunovMhd2 p dt jk inA outA m m') (i j : Int) (hij : interior2 p i j)
    (hr : interior2 p (i + 1) j) (ht : interior2 p i (j + 1)) :
    divB2 p (ms2 m' outA) i j = divB2 p (ms2 m inA) i j := by
  have h := (godunovMhd2_result hp signLaws_real (mhdOK2_real hp hi) hpp hm).2
  have e : divB2 p (ms2 m inA) i j = divB2 p (fillM2 p (ms2 m inA)) i j := by
    unfold divB2
    rw [fillM2_interior p _ hij, fillM2_interior p _ hr, fillM2_interior p _ ht]
  rw [e]
  refine div_of_ct p (emfM2 p (tracesM2 p dt (fillM2 p (ms2 m inA)))) dt _ _ i j ?_ ?_ ?_ ?_
  · rw [h i j hij]; exact (stepM2_ab hij).1
  · rw [h i j hij]; exact (stepM2_ab hij).2
  · rw [h _ _ hr]; exact (stepM2_ab hr).1
  · rw [h _ _ ht]; exact (stepM2_ab ht).2

/-- the field on the right and upper sides of a periodic domain after the ghost fill -/
theorem fill_next {p : Params ℝ} (hp : Mhd2 p) (hP : PeriodicBox2 p) (dt : ℝ) (u : FldM2 ℝ)
    {i j : Int} (hij : interior2 p i j) :
    (fillM2 p (fullStepM2 p dt u) (i + 1) j).a =
      (ctUpdate2 (emfM2 p (tracesM2 p dt (fillM2 p u))) (dt / p.dx) (dt / p.dy)
        (fillM2 p u (i + 1) j) (i + 1) j).a ∧
    (fillM2 p (fullStepM2 p dt u) i (j + 1)).b =
      (ctUpdate2 (emfM2 p (tracesM2 p dt (fillM2 p u))) (dt / p.dx) (dt / p.dy)
        (fillM2 p u i (j + 1)) i (j + 1)).b := by
  have hgw := hp.gw
  obtain ⟨tx, ty⟩ := hP.thick hp.faces
  obtain ⟨a, b, c, d⟩ := id hij
  constructor
  · by_cases hr : i + 1 < p.ghostWidth + p.nx
    · have h' : interior2 p (i + 1) j := ⟨by omega, hr, c, d⟩
      rw [fillM2_interior p _ h']
      exact (stepM2_ab h').1
    · have ei : i + 1 = p.ghostWidth + p.nx := by omega
      have h' : interior2 p p.ghostWidth j := ⟨by omega, by omega, c, d⟩
      rw [ei, fillM2_periodic_x hP tx _ j (by omega) (by omega),
        fillM2_periodic_x hP tx _ j (by omega) (by omega), fillM2_interior p _ h']
      refine (stepM2_ab h').1.trans ?_
      simp only [ctUpdate2, (periodic_x hp hP dt u _).2]
  · by_cases hr : j + 1 < p.ghostWidth + p.ny
    · have h' : interior2 p i (j + 1) := ⟨a, b, by omega, hr⟩
      rw [fillM2_interior p _ h']
      exact (stepM2_ab h').2
    · have ei : j + 1 = p.ghostWidth + p.ny := by omega
      have h' : interior2 p i p.ghostWidth := ⟨a, b, by omega, by omega⟩
      rw [ei, fillM2_periodic_y hP ty _ i (by omega) (by omega),
        fillM2_periodic_y hP ty _ i (by omega) (by omega), fillM2_interior p _ h']
      refine (stepM2_ab h').2.trans ?_
      simp only [ctUpdate2, (periodic_y hp hP dt u _).2]

theorem divB2_fullStep {p : Params ℝ} (hp : Mhd2 p) (hP : PeriodicBox2 p) (dt : ℝ) (u : FldM2 ℝ)
    (i j : Int) (hij : interior2 p i j) :
    divB2 p (fillM2 p (fullStepM2 p dt u)) i j = divB2 p (fillM2 p u) i j := by
  obtain ⟨h3, h4⟩ := fill_next hp hP dt u hij
  refine div_of_ct p (emfM2 p (tracesM2 p dt (fillM2 p u))) dt _ _ i j ?_ ?_ h3 h4
  · rw [fillM2_interior p _ hij]; exact (stepM2_ab hij).1
  · rw [fillM2_interior p _ hij]; exact (stepM2_ab hij).2

theorem divB2_congr {p : Params ℝ} (hp : Mhd2 p) {u u' : FldM2 ℝ}
    (h : ∀ i j, interior2 p i j → u i j = u' i j) (i j : Int) (hij : interior2 p i j) :
    divB2 p (fillM2 p u) i j = divB2 p (fillM2 p u') i j := by
  have hgw := hp.gw
  obtain ⟨a, b, c, d⟩ := hij
  have f := fillM2_congr hp.wf hp.faces h
  unfold divB2
  rw [f i j ⟨by omega, by omega, by omega, by omega⟩,
    f (i + 1) j ⟨by omega, by omega, by omega, by omega⟩,
    f i (j + 1) ⟨by omega, by omega, by omega, by omega⟩]

/-- **C27 (periodic domain, one step).** In *every* interior cell the discrete divergence (of the field with
its ghost faces filled) is unchanged by a step, for every version, schedule, state and `dt`. -/
theorem C27_periodic_step_2d {p : Params ℝ} (hp : Mhd2 p) (hP : PeriodicBox2 p)
    (hi : p.implementationVersion = 0 ∨ p.implementationVersion = 1 ∨
      p.implementationVersion = 2)
    (dt : ℝ) (jk : JunkM ℝ) {inA outA : Arr} (hpp : PingPong inA outA) {m m' : Mem Arr ℝ}
    (hm : godunovMhd2 p dt jk inA outA m m') (i j : Int) (hij : interior2 p i j) :
    divB2 p (fillM2 p (ms2 m' outA)) i j = divB2 p (fillM2 p (ms2 m inA)) i j := by
  have h := (godunovMhd2_result hp signLaws_real (mhdOK2_real hp hi) hpp hm).2
  rw [divB2_congr hp h i j hij]
  exact divB2_fullStep hp hP dt _ i j hij

/-- **C27 (periodic domain, runs).** The same over any number of steps with any sequence of `dt`s. -/
theorem C27_periodic_run_2d {p : Params ℝ} (hp : Mhd2 p) (hP : PeriodicBox2 p)
    (hi : p.implementationVersion = 0 ∨ p.implementationVersion = 1 ∨
      p.implementationVersion = 2)
    (jk : JunkM ℝ) (dts : List ℝ) (n : Nat) {m m' : Mem Arr ℝ} (hm : mhdRun2 p jk n dts m m')
    (i j : Int) (hij : interior2 p i j) :
    divB2 p (fillM2 p (ms2 m' (pingIn (n + dts.length)))) i j =
      divB2 p (fillM2 p (ms2 m (pingIn n))) i j := by
  induction dts generalizing n m with
  | nil => cases hm; rfl
  | cons dt dts ih =>
    obtain ⟨mid, h1, h2⟩ := hm
    have := ih (n + 1) h2
    rw [show n + (dt :: dts).length = n + 1 + dts.length by simp; omega, this, ← pingOut_succ]
    exact C27_periodic_step_2d hp hP hi dt jk (pingPong n) h1 i j hij

/-- **C27 (solenoidal for ever).** A field without discrete divergence stays so. -/
theorem C27_solenoidal_for_ever_2d {p : Params ℝ} (hp : Mhd2 p) (hP : PeriodicBox2 p)
    (hi : p.implementationVersion = 0 ∨ p.implementationVersion = 1 ∨
      p.implementationVersion = 2)
    (jk : JunkM ℝ) (dts : List ℝ) (n : Nat) {m m' : Mem Arr ℝ} (hm : mhdRun2 p jk n dts m m')
    (h0 : ∀ i j, interior2 p i j → divB2 p (fillM2 p (ms2 m (pingIn n))) i j = 0)
    (i j : Int) (hij : interior2 p i j) :
    divB2 p (fillM2 p (ms2 m' (pingIn (n + dts.length)))) i j = 0 := by
  rw [C27_periodic_run_2d hp hP hi jk dts n hm i j hij]; exact h0 i j hij

/-- **C27 (versions 1 and 2, every cell, every boundary condition).** The kernels with atomic updates move
both faces next to every edge, so the divergence is unchanged in every cell of the grid, compared with
the input after its ghost fill (`fillM2`). -/
theorem C27_every_cell_atomic_2d {p : Params ℝ} (hp : Mhd2 p)
    (hi : p.implementationVersion = 1 ∨ p.implementationVersion = 2)
    (dt : ℝ) (jk : JunkM ℝ) {inA outA : Arr} (hpp : PingPong inA outA) {m m' : Mem Arr ℝ}
    (hm : godunovMhd2 p dt jk inA outA m m') (i j : Int) (hij : inGrid2 p i j)
    (hr : inGrid2 p (i + 1) j) (ht : inGrid2 p i (j + 1)) :
    divB2 p (ms2 m' outA) i j = divB2 p (fillM2 p (ms2 m inA)) i j := by
  obtain ⟨mb, hb, hs⟩ := hm
  obtain ⟨b1, b2, b3, b4, b5⟩ := preMhd2_result hp signLaws_real hpp hb
  have hx : ∀ i j, ms2 m' outA i j = stepM2x p dt (ms2 mb inA) i j := by
    rcases hi with h | h
    · exact (postMhd2_result1 hp h (zeroMul_real _) (zeroMul_real _) hpp b5 b4 hs).2
    · exact (postMhd2_result2 hp h (zeroMul_real _) (zeroMul_real _) hpp b5 b4 hs).2
  have e : divB2 p (fillM2 p (ms2 m inA)) i j = divB2 p (ms2 mb inA) i j := by
    unfold divB2
    rw [b2 i j hij, b2 _ _ hr, b2 _ _ ht]
  rw [e]
  have ha : ∀ x y, (ms2 m' outA x y).a = (ctUpdate2 (maskE p (emfM2 p (tracesM2 p dt (ms2 mb inA))))
      (dt / p.dx) (dt / p.dy) (ms2 mb inA x y) x y).a ∧
      (ms2 m' outA x y).b = (ctUpdate2 (maskE p (emfM2 p (tracesM2 p dt (ms2 mb inA))))
      (dt / p.dx) (dt / p.dy) (ms2 mb inA x y) x y).b := by
    intro x y
    rw [hx x y]
    unfold stepM2x
    split_ifs <;> exact ⟨rfl, rfl⟩
  exact div_of_ct p (maskE p (emfM2 p (tracesM2 p dt (ms2 mb inA)))) dt _ _ i j (ha i j).1 (ha i j).2
    (ha _ _).1 (ha _ _).2

/-- **C27 (finding: open upper side).** With an absorbing (`neumann`) right side the ghost fill overwrites the
field on the right side of the domain, so in the last column the divergence changes at each step by the
mixed difference of the emf: it is preserved there only when that difference vanishes. -/
theorem C27_open_side_defect_2d {p : Params ℝ} (hp : Mhd2 p)
    (hN : p.boundary_type_xmax = .neumann)
    (hi : p.implementationVersion = 0 ∨ p.implementationVersion = 1 ∨
      p.implementationVersion = 2)
    (dt : ℝ) (jk : JunkM ℝ) {inA outA : Arr} (hpp : PingPong inA outA) {m m' : Mem Arr ℝ}
    (hm : godunovMhd2 p dt jk inA outA m m') (i j : Int) (hij : interior2 p i j)
    (hlast : i + 1 = p.ghostWidth + p.nx) (ht : interior2 p i (j + 1)) :
    let E := emfM2 p (tracesM2 p dt (fillM2 p (ms2 m inA)))
    divB2 p (fillM2 p (ms2 m' outA)) i j - divB2 p (fillM2 p (ms2 m inA)) i j =
      -(dt / (p.dx * p.dy)) * ((E (i + 1) (j + 1) - E i (j + 1)) - (E (i + 1) j - E i j)) := by
  intro E
  have h := (godunovMhd2_result hp signLaws_real (mhdOK2_real hp hi) hpp hm).2
  have hgw := hp.gw
  have side : ∀ u : FldM2 ℝ, (fillM2 p u (i + 1) j).a = (u i j).a := by
    intro u
    obtain ⟨a, b, c, d⟩ := hij
    have s1 : srcCoord p.boundary_type_xmin p.boundary_type_xmax p.nx p.ghostWidth (i + 1) = i := by
      unfold srcCoord; rw [if_neg (by omega), if_pos (by omega), hN]; simp only; omega
    have s2 : srcCoord p.boundary_type_ymin p.boundary_type_ymax p.ny p.ghostWidth j = j := by
      unfold srcCoord; rw [if_neg (by omega), if_neg (by omega)]
    have s3 : ¬ flips p.boundary_type_xmin p.boundary_type_xmax p.nx p.ghostWidth (i + 1) := by
      unfold flips; rw [hN]; simp; omega
    have s4 : ¬ flips p.boundary_type_ymin p.boundary_type_ymax p.ny p.ghostWidth j := by
      unfold flips; omega
    unfold fillM2 ghost2
    simp only [s1, s2, s3, s4, signed, and_false, if_false]
    rfl
  unfold divB2
  rw [side, side, fillM2_interior p _ hij, fillM2_interior p _ hij, fillM2_interior p _ ht,
    fillM2_interior p _ ht]
  have e1 := (congrArg MS.b (h i j hij)).trans (stepM2_ab hij).2
  have e2 := (congrArg MS.b (h _ _ ht)).trans (stepM2_ab ht).2
  rw [e1, e2, fillM2_interior p _ hij, fillM2_interior p _ ht]
  simp only [ctUpdate2, sub_self, zero_div, zero_add, E]
  rw [show dt / (p.dx * p.dy) = dt / p.dx / p.dy by rw [div_div]]
  ring

/-- non-vacuity: a solenoidal (uniform) field on a periodic 4 × 3 grid, with a step of version 2 -/
example : Mhd2 (sampleM .periodic .periodic 2) ∧ PeriodicBox2 (sampleM .periodic .periodic 2) ∧
    (∀ i j, interior2 (sampleM .periodic .periodic 2) i j →
      divB2 (sampleM .periodic .periodic 2)
        (fillM2 (sampleM .periodic .periodic 2) (ms2 (fun _ => (1 : ℝ)) .U)) i j = 0) ∧
    ∃ m', godunovMhd2 (sampleM .periodic .periodic 2) (1/100) (fun _ _ _ _ => MS.zero) .U .U2
      (fun _ => 1) m' := by
  refine ⟨sampleM_mhd2 _ _ _, ⟨rfl, rfl, rfl, rfl⟩, fun i j h => ?_, sampleM_step _ _ _ _⟩
  have hp := sampleM_mhd2 .periodic .periodic 2
  have hgw := hp.gw
  obtain ⟨a, b, c, d⟩ := h
  have f := fillM2_uniform hp ⟨by decide, by decide, by decide, by decide⟩
    (u := ms2 (fun _ => (1 : ℝ)) .U) (s := ⟨1, 1, 1, 1, 1, 1, 1, 1⟩) (fun i j _ => rfl)
  unfold divB2
  rw [f i j ⟨by omega, by omega, by omega, by omega⟩,
    f (i + 1) j ⟨by omega, by omega, by omega, by omega⟩,
    f i (j + 1) ⟨by omega, by omega, by omega, by omega⟩]
  simp

/-- non-vacuity of the open-side theorem: an absorbing right side -/
example : Mhd2 (sampleM .neumann .periodic 0) ∧
    (sampleM .neumann .periodic 0).boundary_type_xmax = .neumann ∧
    interior2 (sampleM .neumann .periodic 0) 6 3 ∧
    (6 : Int) + 1 = (sampleM .neumann .periodic 0).ghostWidth + (sampleM .neumann .periodic 0).nx :=
  ⟨sampleM_mhd2 _ _ _, rfl, by
    simp [interior2, sampleM, sampleMHD, rawSample, Params.init], by
    simp [sampleM, sampleMHD, rawSample, Params.init]⟩

end EulerKokkos
