import Verif.Lemmas.CheckedMhd
import Verif.Spec.MhdFluxes

/-!
# The MHD Riemann solvers of the code against the textbook fluxes (exact arithmetic)
-/

set_option linter.unusedSimpArgs false
set_option linter.constructorNameAsVariable false
set_option linter.unusedSectionVars false
set_option linter.unnecessarySeqFocus false

namespace EulerKokkos

open Spec

attribute [local ext] MS

theorem findMhdFlux_spec {s : Settings ℝ} (hi : ¬ 0 < s.cIso) (q : MS ℝ) :
    findMhdFlux s q = (mhdCons s.gamma0 q, mhdFlux s.gamma0 q) := by
  have h : ¬ gtb s.cIso (lit 0) = true := by simpa [gtb] using hi
  unfold findMhdFlux
  simp only [if_neg h]
  refine Prod.ext ?_ ?_
  · simp only [mhdCons, mhdEnergy, magPressure, RealOps.lit_real]
    ext <;> first | rfl | (push_cast; ring)
  · simp only [mhdFlux, mhdEnergy, totalPressure, magPressure, RealOps.lit_real]
    ext <;> first | (push_cast; ring)

theorem findSpeedInfo1_spec {s : Settings ℝ} (hg : 1 < s.gamma0) {q : MS ℝ} (hq : PhysM q) :
    findSpeedInfo1 s q = |q.u| + fastSpeed s.gamma0 q.a q := by
  have := findSpeedFast_spec hg hq 0
  unfold findSpeedFast at this
  unfold findSpeedInfo1
  change _ = fastSpeed s.gamma0 q.a q at this
  dsimp only at this ⊢
  rw [show q.normalB 0 = q.a from rfl] at this
  rw [this, RealOps.fabs_real, add_comm]

theorem meanNormal_code (l r q : MS ℝ) :
    ({ q with a := lit (1/2) * (l.a + r.a) } : MS ℝ) = meanNormal l r q := by
  unfold meanNormal
  rw [show (lit (1/2) : ℝ) * (l.a + r.a) = (l.a + r.a) / 2 by rw [RealOps.lit_real]; push_cast; ring]

section
variable {s : Settings ℝ} (hg : 1 < s.gamma0) (hi : ¬ 0 < s.cIso) {l r : MS ℝ} (hl : PhysM l) (hr : PhysM r)
include hg hi hl hr

theorem mhdLlf_textbook : riemannMhdLlf s l r =
    mhdRusanov s.gamma0
      (max (|l.u| + fastSpeed s.gamma0 ((l.a + r.a) / 2) (meanNormal l r l))
        (|r.u| + fastSpeed s.gamma0 ((l.a + r.a) / 2) (meanNormal l r r)))
      (meanNormal l r l) (meanNormal l r r) := by
  have hl' : PhysM (meanNormal l r l) := ⟨hl.d, hl.p⟩
  have hr' : PhysM (meanNormal l r r) := ⟨hr.d, hr.p⟩
  unfold riemannMhdLlf
  simp only [meanNormal_code, findMhdFlux_spec hi, findSpeedInfo1_spec hg hl', findSpeedInfo1_spec hg hr',
    RealOps.fmax_real]
  rw [show (meanNormal l r l).a = (l.a + r.a) / 2 from rfl, show (meanNormal l r r).a = (l.a + r.a) / 2 from rfl,
    show (meanNormal l r l).u = l.u from rfl, show (meanNormal l r r).u = r.u from rfl]
  unfold mhdRusanov
  generalize mhdFlux s.gamma0 (meanNormal l r l) = FL
  generalize mhdFlux s.gamma0 (meanNormal l r r) = FR
  simp only [ms_add, ms_sub, ms_smul, RealOps.lit_real]
  ext <;> dsimp only <;> push_cast <;> ring

theorem mhdHll_textbook : riemannMhdHll s l r =
    mhdHllFlux s.gamma0 (min (speedL s.gamma0 (meanNormal l r l) (meanNormal l r r)) 0)
      (max (speedR s.gamma0 (meanNormal l r l) (meanNormal l r r)) 0)
      (meanNormal l r l) (meanNormal l r r) := by
  have hl' : PhysM (meanNormal l r l) := ⟨hl.d, hl.p⟩
  have hr' : PhysM (meanNormal l r r) := ⟨hr.d, hr.p⟩
  unfold riemannMhdHll
  simp only [meanNormal_code, findMhdFlux_spec hi, findSpeedFast_spec hg hl', findSpeedFast_spec hg hr',
    RealOps.fmax_real, RealOps.fmin_real]
  rw [show ∀ q : MS ℝ, q.normalB 0 = q.a from fun _ => rfl]
  rw [show ∀ q : MS ℝ, q.normalB 0 = q.a from fun _ => rfl]
  change _ = mhdHllFlux s.gamma0
    (min (min (meanNormal l r l).u (meanNormal l r r).u -
      max (fastSpeed s.gamma0 (meanNormal l r l).a (meanNormal l r l))
        (fastSpeed s.gamma0 (meanNormal l r r).a (meanNormal l r r))) 0)
    (max (max (meanNormal l r l).u (meanNormal l r r).u +
      max (fastSpeed s.gamma0 (meanNormal l r l).a (meanNormal l r l))
        (fastSpeed s.gamma0 (meanNormal l r r).a (meanNormal l r r))) 0) _ _
  simp only [show (meanNormal l r l).u = l.u from rfl, show (meanNormal l r r).u = r.u from rfl]
  rw [RealOps.lit_real, Rat.cast_zero]
  generalize max (max _ _ + _) (0:ℝ) = SR
  generalize min (min _ _ - _) (0:ℝ) = SL
  unfold mhdHllFlux
  generalize mhdFlux s.gamma0 (meanNormal l r l) = FL
  generalize mhdFlux s.gamma0 (meanNormal l r r) = FR
  simp only [ms_add, ms_sub, ms_smul, RealOps.lit_real]
  ext <;> dsimp only <;> rw [div_eq_mul_inv, one_div] <;> ring
end
end EulerKokkos
