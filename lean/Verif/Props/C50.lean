import Verif.Lemmas.EulerPDE
import Verif.Model.Hydro3D

/-!
# C50 — the hydro predictor is the Taylor expansion of the Euler equations

`traceAlongDir2` / `traceAlongDir3` (MUSCL-Hancock predictor): if the limited differences `dqX, dqY, dqZ`
are `h` times the gradients of a field satisfying the Euler equations at the cell centre, the state computed
for a face is the first-order Taylor expansion of that field at the face centre, half a time step later; its
density is floored at `smallr` (the pressure is not floored).  `h` is the mesh size in the direction of the
face; the code uses the same `dt/h` for the transverse terms, so the expansion is the one of the Euler equations
for square (cubic) cells only.
-/

set_option linter.unusedSectionVars false

namespace EulerKokkos.Spec

open RealOps

/-- a state with its density floored -/
noncomputable def floored (r : ℝ) (q : HS ℝ) : HS ℝ := { q with d := max r q.d }

/-- **C50 (2D).**  For a field `W` satisfying the Euler equations at the centre `(x, y)` of a square cell at time
`t`, with `W.w = 0`, the face states computed by the predictor are the first-order expansions of `W` at
`(x ± h/2, y, t + dt/2)` and `(x, y ± h/2, t + dt/2)`, with the density floored. -/
theorem C50_predictor_2d {s : Settings ℝ} (hγ : 1 < s.gamma0) {W : ℝ → ℝ → ℝ → ℝ → HS ℝ}
    {x y z t h dt : ℝ} {gx gy gt : HS ℝ} (hh : 0 < h)
    (hW : EulerAt s.gamma0 W x y z t gx gy ⟨0, 0, 0, 0, 0⟩ gt)
    (hd : 0 < (W x y z t).d) (h2 : (W x y z t).w = 0) (hx2 : gx.w = 0) (hy2 : gy.w = 0) :
    let q := W x y z t
    let face := traceAlongDir2 s q (h • gx) (h • gy) (dt / h) (dt / h)
    face .xmin = floored s.smallr (q + (-h / 2) • gx + (dt / 2) • gt) ∧
    face .xmax = floored s.smallr (q + (h / 2) • gx + (dt / 2) • gt) ∧
    face .ymin = floored s.smallr (q + (-h / 2) • gy + (dt / 2) • gt) ∧
    face .ymax = floored s.smallr (q + (h / 2) • gy + (dt / 2) • gt) := by
  have e := hW.primitive (ne_of_gt hγ) (ne_of_gt hd)
  revert e hd h2
  generalize W x y z t = q
  intro hd h2 e
  have hh' : h ≠ 0 := ne_of_gt hh
  have hd' : q.d ≠ 0 := ne_of_gt hd
  dsimp only at e ⊢
  subst e
  refine ⟨?_, ?_, ?_, ?_⟩ <;> unfold traceAlongDir2 floored <;>
    simp only [hs_add, hs_smul, h2, hx2, hy2, lit_real, fmax_real, HS.mk.injEq] <;>
    refine ⟨?_, ?_, ?_, ?_, ?_⟩ <;> (try congr 1) <;> push_cast <;> field_simp <;> ring

/-- **C50 (3D).** -/
theorem C50_predictor_3d {s : Settings ℝ} (hγ : 1 < s.gamma0) {W : ℝ → ℝ → ℝ → ℝ → HS ℝ}
    {x y z t h dt : ℝ} {gx gy gz gt : HS ℝ} (hh : 0 < h)
    (hW : EulerAt s.gamma0 W x y z t gx gy gz gt) (hd : 0 < (W x y z t).d) :
    let q := W x y z t
    let face := traceAlongDir3 s q ⟨h • gx, h • gy, h • gz⟩ (dt / h) (dt / h) (dt / h)
    face .xmin = floored s.smallr (q + (-h / 2) • gx + (dt / 2) • gt) ∧
    face .xmax = floored s.smallr (q + (h / 2) • gx + (dt / 2) • gt) ∧
    face .ymin = floored s.smallr (q + (-h / 2) • gy + (dt / 2) • gt) ∧
    face .ymax = floored s.smallr (q + (h / 2) • gy + (dt / 2) • gt) ∧
    face .zmin = floored s.smallr (q + (-h / 2) • gz + (dt / 2) • gt) ∧
    face .zmax = floored s.smallr (q + (h / 2) • gz + (dt / 2) • gt) := by
  have e := hW.primitive (ne_of_gt hγ) (ne_of_gt hd)
  revert e hd
  generalize W x y z t = q
  intro hd e
  have hh' : h ≠ 0 := ne_of_gt hh
  have hd' : q.d ≠ 0 := ne_of_gt hd
  dsimp only at e ⊢
  subst e
  refine ⟨?_, ?_, ?_, ?_, ?_, ?_⟩ <;> unfold traceAlongDir3 floored <;>
    simp only [hs_add, hs_smul, lit_real, fmax_real, HS.mk.injEq] <;>
    refine ⟨?_, ?_, ?_, ?_, ?_⟩ <;> (try congr 1) <;> push_cast <;> field_simp <;> ring

/-- the hypotheses of the two theorems above can be met for every state and all gradients -/
theorem C50_hypotheses_met {γ : ℝ} (hγ : 1 < γ) {q : HS ℝ} (hd : 0 < q.d) (gx gy gz : HS ℝ) :
    ∃ W gt, W 0 0 0 0 = q ∧ EulerAt γ W 0 0 0 0 gx gy gz gt :=
  ⟨_, _, affineField_zero q gx gy gz _, affineField_euler (ne_of_gt hγ) (ne_of_gt hd) gx gy gz⟩

/-- **Finding.**  For cells that are not square the predictor is not the expansion of the Euler equations: the
transverse terms are divided by the mesh size of the other direction. -/
theorem C50_anisotropic_differs {s : Settings ℝ} (hγ : 1 < s.gamma0) (hr : s.smallr < 1) :
    ∃ W gx gy gt, ∃ hx hy dt : ℝ, 0 < hx ∧ 0 < hy ∧ 0 < dt ∧ 0 < (W 0 0 0 0).d ∧
      EulerAt s.gamma0 W 0 0 0 0 gx gy ⟨0, 0, 0, 0, 0⟩ gt ∧
      traceAlongDir2 s (W 0 0 0 0) (hx • gx) (hy • gy) (dt / hx) (dt / hy) .xmin ≠
        floored s.smallr (W 0 0 0 0 + (-hx / 2) • gx + (dt / 2) • gt) := by
  let q : HS ℝ := ⟨2, 1, 0, 1, 0⟩
  let gx : HS ℝ := ⟨0, 0, 0, 0, 0⟩
  let gy : HS ℝ := ⟨1, 0, 0, 0, 0⟩
  refine ⟨affineField q gx gy ⟨0, 0, 0, 0, 0⟩ (primRate s.gamma0 q gx gy ⟨0, 0, 0, 0, 0⟩), gx, gy, _,
    2, 1, 1, by norm_num, by norm_num, by norm_num, by rw [affineField_zero]; norm_num [q],
    affineField_euler (ne_of_gt hγ) (by norm_num [q]) gx gy _, ?_⟩
  rw [affineField_zero]
  intro h
  have h1 := congrArg HS.d h
  simp only [traceAlongDir2, floored, primRate, q, gx, gy, hs_add, hs_smul, lit_real, fmax_real] at h1
  push_cast at h1
  norm_num at h1
  rw [max_eq_right (by linarith), max_eq_right (by linarith)] at h1
  norm_num at h1

/-- non-vacuity: a flow with gradients in all variables -/
example : ∃ W gt, EulerAt (7/5) W 0 0 0 0 ⟨1, 2, 3, 4, 5⟩ ⟨-1, 2, -3, 4, 6⟩ ⟨7, 8, 9, 1, 2⟩ gt ∧
    0 < (W 0 0 0 0).d := by
  obtain ⟨W, gt, h0, hW⟩ := C50_hypotheses_met (γ := 7/5) (by norm_num)
    (q := ⟨1, 1, 2, -3, 1⟩) (by norm_num) ⟨1, 2, 3, 4, 5⟩ ⟨-1, 2, -3, 4, 6⟩ ⟨7, 8, 9, 1, 2⟩
  exact ⟨W, gt, hW, by rw [h0]; norm_num⟩

end EulerKokkos.Spec
