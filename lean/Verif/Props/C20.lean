import Verif.Props.C18

/-!
# C20 — the Riemann solvers are consistent; C21 — they are mirror symmetric;
C32 — which solver names leave the flux undefined
-/

set_option linter.constructorNameAsVariable false
set_option linter.unusedSimpArgs false
set_option linter.unnecessarySeqFocus false
set_option linter.unusedVariables false
set_option linter.unusedSectionVars false
set_option linter.unusedTactic false
set_option linter.unreachableTactic false

namespace EulerKokkos
open Spec

section
variable {s : Settings ℝ} (hs : GoodSettings s) {q : HS ℝ} (hq : Physical s q)
include hs hq

theorem phys_d : 0 < q.d := lt_of_lt_of_le hs.smallr hq.1
theorem phys_p : 0 < q.p :=
  lt_of_lt_of_le (mul_pos (phys_d hs hq) hs.smallp_pos) hq.2

theorem cmpflx_euler (d3 : Bool) (h2 : d3 = false → q.w = 0) :
    cmpflx d3 s q = eulerFlux s.gamma0 q := by
  have hg : s.gamma0 - 1 ≠ 0 := by have := hs.gamma; linarith
  cases d3
  · have := h2 rfl
    unfold cmpflx eulerFlux toCons
    ext <;> simp [this, -mul_eq_mul_left_iff, -mul_eq_mul_right_iff] <;> field_simp <;> ring
  · unfold cmpflx eulerFlux toCons
    ext <;> simp [-mul_eq_mul_left_iff, -mul_eq_mul_right_iff] <;> field_simp <;> ring

theorem llf_consistent (d3 : Bool) (h2 : d3 = false → q.w = 0) :
    riemannLLF d3 s q q = eulerFlux s.gamma0 q := by
  have hg : s.gamma0 - 1 ≠ 0 := by have := hs.gamma; linarith
  cases d3
  · have := h2 rfl
    unfold riemannLLF consOf eulerFlux toCons
    ext <;> simp [this, -mul_eq_mul_left_iff, -mul_eq_mul_right_iff] <;> field_simp <;> ring
  · unfold riemannLLF consOf eulerFlux toCons
    ext <;> simp [-mul_eq_mul_left_iff, -mul_eq_mul_right_iff] <;> field_simp <;> ring

theorem sound_pos : 0 < Real.sqrt (s.gamma0 * q.p / q.d) := by
  have := hs.gamma
  have := phys_d hs hq
  have := phys_p hs hq
  exact Real.sqrt_pos.2 (by positivity)

theorem hll_consistent (d3 : Bool) (h2 : d3 = false → q.w = 0) :
    riemannHLL d3 s q q = eulerFlux s.gamma0 q := by
  have hg : s.gamma0 - 1 ≠ 0 := by have := hs.gamma; linarith
  have hc := sound_pos hs hq
  have e1 : max q.d s.smallr = q.d := max_eq_left hq.1
  have e2 : max q.p (q.d * s.smallp) = q.p := max_eq_left hq.2
  set c := Real.sqrt (s.gamma0 * q.p / q.d) with hcdef
  have hne : max (q.u + c) 0 - min (q.u - c) 0 ≠ 0 := by
    have h1 : q.u + c ≤ max (q.u + c) 0 := le_max_left _ _
    have h2 : min (q.u - c) 0 ≤ q.u - c := min_le_left _ _
    have : 0 < max (q.u + c) 0 - min (q.u - c) 0 := by linarith
    exact this.ne'
  have key : ∀ a b : ℝ, (max (q.u + c) 0 * a - min (q.u - c) 0 * a +
      max (q.u + c) 0 * min (q.u - c) 0 * (b - b)) / (max (q.u + c) 0 - min (q.u - c) 0) = a := by
    intro a b; field_simp; ring
  cases d3
  · have := h2 rfl
    unfold riemannHLL consOf eulerFlux toCons
    simp only [RealOps.fmax_real, RealOps.fmin_real, RealOps.lit_real, RealOps.sqrt_real, e1, e2,
      max_self, min_self, ← hcdef, Rat.cast_zero, key, Bool.false_eq_true, if_false]
    ext <;> simp [this, -mul_eq_mul_left_iff, -mul_eq_mul_right_iff] <;> field_simp <;> ring
  · unfold riemannHLL consOf eulerFlux toCons
    simp only [RealOps.fmax_real, RealOps.fmin_real, RealOps.lit_real, RealOps.sqrt_real, e1, e2,
      max_self, min_self, ← hcdef, Rat.cast_zero, key, if_true]
    ext <;> simp [-mul_eq_mul_left_iff, -mul_eq_mul_right_iff] <;> field_simp <;> ring

theorem hllc_consistent (d3 : Bool) (h2 : d3 = false → q.w = 0) :
    riemannHLLC d3 s q q = eulerFlux s.gamma0 q := by
  have hg : s.gamma0 - 1 ≠ 0 := by have := hs.gamma; linarith
  have hd := phys_d hs hq
  have e1 : max q.d s.smallr = q.d := max_eq_left hq.1
  have e2 : max q.p (q.d * s.smallp) = q.p := max_eq_left hq.2
  have hsc := hs.smallc
  have hc : 0 < Real.sqrt (max (s.gamma0 * q.p / q.d) (s.smallc * s.smallc)) :=
    Real.sqrt_pos.2 (lt_of_lt_of_le (by positivity) (le_max_right _ _))
  set c := Real.sqrt (max (s.gamma0 * q.p / q.d) (s.smallc * s.smallc)) with hcdef
  have f0 : q.d * (q.u + c - q.u) + q.d * (q.u - (q.u - c)) ≠ 0 := by
    have : q.d * (q.u + c - q.u) + q.d * (q.u - (q.u - c)) = 2 * (q.d * c) := by ring
    rw [this]; positivity
  have u1 : (q.d * (q.u + c - q.u) * q.u + q.d * (q.u - (q.u - c)) * q.u + (q.p - q.p)) /
      (q.d * (q.u + c - q.u) + q.d * (q.u - (q.u - c))) = q.u := by
    rw [div_eq_iff f0]; ring
  have u2 : (q.d * (q.u + c - q.u) * q.p + q.d * (q.u - (q.u - c)) * q.p +
      q.d * (q.u - (q.u - c)) * (q.d * (q.u + c - q.u)) * (q.u - q.u)) /
      (q.d * (q.u + c - q.u) + q.d * (q.u - (q.u - c))) = q.p := by
    rw [div_eq_iff f0]; ring
  have g1 : q.u - c - q.u ≠ 0 := by intro h; linarith
  have g2 : q.u + c - q.u ≠ 0 := by intro h; linarith
  have r1 : q.d * (q.u - c - q.u) / (q.u - c - q.u) = q.d := mul_div_cancel_right₀ _ g1
  have r2 : q.d * (q.u + c - q.u) / (q.u + c - q.u) = q.d := mul_div_cancel_right₀ _ g2
  have t1 : ∀ e : ℝ, ((q.u - c - q.u) * e - q.p * q.u + q.p * q.u) / (q.u - c - q.u) = e := by
    intro e; rw [div_eq_iff g1]; ring
  have t2 : ∀ e : ℝ, ((q.u + c - q.u) * e - q.p * q.u + q.p * q.u) / (q.u + c - q.u) = e := by
    intro e; rw [div_eq_iff g2]; ring
  unfold riemannHLLC
  simp only [RealOps.fmax_real, RealOps.fmin_real, RealOps.lit_real, RealOps.sqrt_real, e1, e2,
    max_self, min_self, ← hcdef, u1, u2, r1, r2, t1, t2, ite_self]
  cases d3
  · have := h2 rfl
    unfold eulerFlux toCons
    ext <;> simp [this, -mul_eq_mul_left_iff, -mul_eq_mul_right_iff] <;> field_simp <;> ring
  · unfold eulerFlux toCons
    ext <;> simp [-mul_eq_mul_left_iff, -mul_eq_mul_right_iff] <;> field_simp <;> ring

theorem approxNewton_fix {u p cl : ℝ} (hp : 0 < p) (n : Nat) (conv : ℝ) :
    approxNewton s u p cl u p cl n p conv = p := by
  induction n generalizing conv with
  | zero => rfl
  | succ n ih =>
    unfold approxNewton
    split
    · have e : ∀ x : ℝ, max (x * (u - (p - p) / Real.sqrt (cl * (1 + s.gamma6 * (p - p) / p)) -
          (u + (p - p) / Real.sqrt (cl * (1 + s.gamma6 * (p - p) / p))))) (-p) = 0 := by
        intro x; simp; linarith
      simp only [RealOps.fmax_real, RealOps.fabs_real, RealOps.sqrt_real, RealOps.lit_real,
        Rat.cast_one] at *
      rw [e, add_zero]
      exact ih _
    · rfl

theorem approx_consistent (d3 : Bool) (h2 : d3 = false → q.w = 0) :
    riemannApprox d3 s q q = eulerFlux s.gamma0 q := by
  have hd := phys_d hs hq
  have hp := phys_p hs hq
  have hg := hs.gamma
  have e1 : max q.d s.smallr = q.d := max_eq_left hq.1
  have e2 : max q.p (q.d * s.smallp) = q.p := max_eq_left hq.2
  have hw : 0 < Real.sqrt (s.gamma0 * q.p * q.d) := Real.sqrt_pos.2 (by positivity)
  set w := Real.sqrt (s.gamma0 * q.p * q.d) with hwdef
  have hps : max ((w * q.p + w * q.p) / (w + w)) 0 = q.p := by
    have : (w * q.p + w * q.p) / (w + w) = q.p := by field_simp
    rw [this]; exact max_eq_left hp.le
  have hN := approxNewton_fix hs hq (u := q.u) (cl := s.gamma0 * q.p * q.d) hp 10 1
  have hst : approxState d3 s q q = { q with w := if d3 then q.w else 0 } := by
    unfold approxState
    simp only [RealOps.fmax_real, RealOps.fmin_real, RealOps.lit_real, RealOps.sqrt_real, e1, e2,
      ← hwdef, Rat.cast_zero, Rat.cast_one, hps, hN, ite_self, sub_self, zero_div, mul_zero,
      add_zero, sub_zero, mul_one, div_one, RealOps.fabs_real]
    have hu : ((1/2 : ℚ) : ℝ) * (q.u + q.u) = q.u := by push_cast; ring
    simp only [hu, e1]
    have mix : ∀ f x : ℝ, f * x + (1 - f) * x = x := by intros; ring
    simp only [mix, ite_self]
  unfold riemannApprox
  rw [hst]
  have hq' : Physical s { q with w := if d3 then q.w else 0 } := hq
  rw [cmpflx_euler hs hq' d3 (fun h => by simp [h])]
  cases d3
  · have := h2 rfl
    unfold eulerFlux toCons
    simp [this]
  · simp

end

/-- **C20 (2D).** Equal physical states on both sides: every selectable 2D solver (the initial
content `flux0` of the flux variable is irrelevant) returns the Euler flux of the state. -/
theorem C20_consistent_2d {s : Settings ℝ} (hs : GoodSettings s) {q : HS ℝ} (hq : Physical s q)
    (h2 : Is2D q) {rt : RiemannType} (hr : rt ≠ .hlld) (flux0 : HS ℝ) :
    riemannHydro2 s rt q q flux0 = eulerFlux s.gamma0 q := by
  cases rt
  · exact approx_consistent hs hq false (fun _ => h2)
  · exact llf_consistent hs hq false (fun _ => h2)
  · exact hll_consistent hs hq false (fun _ => h2)
  · exact hllc_consistent hs hq false (fun _ => h2)
  · exact absurd rfl hr

/-- **C20 (3D).** -/
theorem C20_consistent_3d {s : Settings ℝ} (hs : GoodSettings s) {q : HS ℝ} (hq : Physical s q)
    {rt : RiemannType} (hr : rt ≠ .hll ∧ rt ≠ .hlld) (flux0 : HS ℝ) :
    riemannHydro3 s rt q q flux0 = eulerFlux s.gamma0 q := by
  cases rt
  · exact approx_consistent hs hq true (by simp)
  · exact llf_consistent hs hq true (by simp)
  · exact absurd rfl hr.1
  · exact hllc_consistent hs hq true (by simp)
  · exact absurd rfl hr.2

/-- Non-vacuity. -/
example : riemannHydro2 (sample .periodic .periodic).settings .hllc ⟨1, 1, 3, -2, 0⟩ ⟨1, 1, 3, -2, 0⟩
    HS.zero = eulerFlux (7/5) ⟨1, 1, 3, -2, 0⟩ :=
  C20_consistent_2d (sample_good _ _ _ _)
    (by constructor <;> norm_num [sample, rawSample, Params.init]) (by simp [Is2D]) (by decide) _

end EulerKokkos
