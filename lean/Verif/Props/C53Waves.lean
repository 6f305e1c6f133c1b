import Verif.Model.MhdUtils
import Verif.Lemmas.MhdFast

/-!
# C53 — the wave speed functions: five ways to write the same physical speeds
-/

set_option linter.constructorNameAsVariable false
set_option linter.unusedSectionVars false
set_option linter.unusedSimpArgs false

namespace EulerKokkos
open Spec

/-- Dispersion relation of the magnetosonic waves that propagate along an axis on which the field has the
component `bn`: `c⁴ - (c_s² + B²/ρ) c² + c_s² bn²/ρ = 0`. -/
def Spec.Magnetosonic (γ bn : ℝ) (q : MS ℝ) (c : ℝ) : Prop :=
  c ^ 4 - (γ * q.p / q.d + (q.a ^ 2 + q.b ^ 2 + q.c ^ 2) / q.d) * c ^ 2 + γ * q.p / q.d * (bn ^ 2 / q.d) = 0

/-- the common core of the formulas: with `S = c_s² + B²/ρ` and `P = c_s² bn²/ρ` -/
theorem fast_root {S P : ℝ} (hS : 0 ≤ S) (hP : 4 * P ≤ S ^ 2) :
    let c := Real.sqrt (1 / 2 * (S + Real.sqrt (S * S - 4 * P)))
    c ^ 4 - S * c ^ 2 + P = 0 ∧ ∀ x : ℝ, x ^ 4 - S * x ^ 2 + P = 0 → |x| ≤ c := by
  intro c
  have hD : 0 ≤ S * S - 4 * P := by nlinarith
  set r := Real.sqrt (S * S - 4 * P) with hr
  have hr0 : 0 ≤ r := Real.sqrt_nonneg _
  have hr2 : r * r = S * S - 4 * P := Real.mul_self_sqrt hD
  have hc2 : c ^ 2 = 1 / 2 * (S + r) := Real.sq_sqrt (by positivity)
  refine ⟨?_, fun x hx => ?_⟩
  · rw [show c ^ 4 = (c ^ 2) ^ 2 by ring, hc2]; nlinarith
  · apply Real.abs_le_sqrt
    by_contra hlt
    push Not at hlt
    have h4 : x ^ 4 = (x ^ 2) ^ 2 := by ring
    rw [h4] at hx
    nlinarith [mul_pos (sub_pos.2 hlt) (sub_pos.2 hlt)]

/-- the form of `find_speed_fast` -/
theorem findSpeedFast_form {s : Settings ℝ} {q : MS ℝ} (hg : 1 < s.gamma0) (hq : PhysM q) (n : Nat) :
    findSpeedFast s n q = Real.sqrt (1 / 2 * ((s.gamma0 * q.p / q.d + q.bsq / q.d) +
      Real.sqrt ((s.gamma0 * q.p / q.d + q.bsq / q.d) * (s.gamma0 * q.p / q.d + q.bsq / q.d) -
        4 * (s.gamma0 * q.p / q.d * (q.normalB n ^ 2 / q.d))))) := by
  rw [findSpeedFast_real hg hq]
  congr 1
  have h := fast_disc_nonneg hg hq n
  have e : (s.gamma0 * q.p / q.d + q.bsq / q.d) * (s.gamma0 * q.p / q.d + q.bsq / q.d) -
        4 * (s.gamma0 * q.p / q.d * (q.normalB n ^ 2 / q.d)) =
      2 ^ 2 * ((1/2 * (q.bsq / q.d + s.gamma0 * q.p / q.d)) *
        (1/2 * (q.bsq / q.d + s.gamma0 * q.p / q.d)) -
      s.gamma0 * q.p / q.d * q.normalB n * q.normalB n / q.d) := by ring
  rw [e, Real.sqrt_mul (by norm_num), Real.sqrt_sq (by norm_num)]
  ring

/-- the discriminant, in the form of `fast_mhd_speed` -/
theorem fast_disc {s : Settings ℝ} {q : MS ℝ} (hg : 1 < s.gamma0) (hq : PhysM q) (n : Nat) :
    0 ≤ (s.gamma0 * q.p / q.d + q.bsq / q.d) * (s.gamma0 * q.p / q.d + q.bsq / q.d) -
        4 * (s.gamma0 * q.p / q.d * (q.normalB n ^ 2 / q.d)) := by
  have h := fast_disc_nonneg hg hq n
  have e : (s.gamma0 * q.p / q.d + q.bsq / q.d) * (s.gamma0 * q.p / q.d + q.bsq / q.d) -
        4 * (s.gamma0 * q.p / q.d * (q.normalB n ^ 2 / q.d)) =
      4 * ((1/2 * (q.bsq / q.d + s.gamma0 * q.p / q.d)) *
        (1/2 * (q.bsq / q.d + s.gamma0 * q.p / q.d)) -
      s.gamma0 * q.p / q.d * q.normalB n * q.normalB n / q.d) := by ring
  rw [e]; linarith

/-- **C53, fast waves**: for every fluid state with positive density and pressure, `find_speed_fast` along an axis is
the largest root of the dispersion relation of the magnetosonic waves along that axis, and is at least the Alfvén
speed along that axis. -/
theorem C53_fast_speed_is_fastest_wave {s : Settings ℝ} {q : MS ℝ} (hg : 1 < s.gamma0) (hq : PhysM q) (n : Nat) :
    Magnetosonic s.gamma0 (q.normalB n) q (findSpeedFast s n q) ∧
    (∀ c, Magnetosonic s.gamma0 (q.normalB n) q c → |c| ≤ findSpeedFast s n q) ∧
    findSpeedAlfven q.d (q.normalB n) ≤ findSpeedFast s n q := by
  have hd := hq.d
  have hp := hq.p
  have hb : 0 ≤ q.bsq := le_trans (mul_self_nonneg _) (q.normalB_sq_le n)
  have hS : 0 ≤ s.gamma0 * q.p / q.d + q.bsq / q.d := by positivity
  have hD := fast_disc hg hq n
  have h := fast_root hS (P := s.gamma0 * q.p / q.d * (q.normalB n ^ 2 / q.d)) (by nlinarith)
  have e : q.bsq = q.a ^ 2 + q.b ^ 2 + q.c ^ 2 := by unfold MS.bsq; ring
  simp only [Magnetosonic, ← e, findSpeedFast_form hg hq n]
  refine ⟨h.1, h.2, ?_⟩
  unfold findSpeedAlfven
  simp only [RealOps.sqrt_real]
  have h2 := (fast_lower hg hq n).2
  rw [findSpeedFast_form hg hq n] at h2
  rw [Real.sqrt_le_iff]
  refine ⟨Real.sqrt_nonneg _, ?_⟩
  rw [div_le_iff₀ hd, pow_two, mul_comm _ q.d]
  exact (q.normalB_sq_le n).trans h2

/-- **C53, the other speed functions**: `fast_mhd_speed` and both `find_speed_info` compute the same speeds. -/
theorem C53_speed_functions_agree {s : Settings ℝ} {q : MS ℝ} (hg : 1 < s.gamma0) (hq : PhysM q) :
    fastMhdSpeed s q = (findSpeedFast s 0 q, findSpeedFast s 1 q, findSpeedFast s 2 q) ∧
    findSpeedInfo s q = (findSpeedFast s 0 q + |q.u|, findSpeedFast s 1 q + |q.v|, findSpeedFast s 2 q + |q.w|) ∧
    findSpeedInfo1 s q = findSpeedFast s 0 q + |q.u| := by
  refine ⟨?_, rfl, rfl⟩
  have hS : (q.b * q.b + q.c * q.c) / q.d + q.a * q.a / q.d + s.gamma0 * q.p / q.d =
      s.gamma0 * q.p / q.d + q.bsq / q.d := by unfold MS.bsq; ring
  simp only [fastMhdSpeed, RealOps.lit_real, RealOps.sqrt_real, RealOps.fmax_real, hS]
  rw [findSpeedFast_form hg hq 0, findSpeedFast_form hg hq 1, findSpeedFast_form hg hq 2]
  have h0 := fast_disc hg hq 0
  have h1 := fast_disc hg hq 1
  have h2 := fast_disc hg hq 2
  simp only [MS.normalB] at h0 h1 h2 ⊢
  push_cast
  refine Prod.ext ?_ (Prod.ext ?_ ?_) <;> simp only <;> (congr 4; rw [max_eq_right] <;> [ring; skip])
  · exact le_of_le_of_eq h0 (by ring)
  · exact le_of_le_of_eq h1 (by ring)
  · exact le_of_le_of_eq h2 (by ring)

/-- a magnetised state -/
example : PhysM (⟨1, 1, 0, 1, 0, 1, 2, 3⟩ : MS ℝ) := ⟨by norm_num, by norm_num⟩

end EulerKokkos
