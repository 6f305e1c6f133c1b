import Verif.Spec.EulerSystem
import Verif.Lemmas.EulerPDE
import Mathlib.Tactic.FieldSimp
import Mathlib.Tactic.LinearCombination

/-!
# C82: fluxes, equation of state and viscous terms of `EulerEquations`
-/

set_option linter.unusedSimpArgs false
set_option linter.unusedSectionVars false

namespace EulerKokkos
open Spec EulerEq RealOps

section
variable {γ : ℝ} (hg : 1 < γ) (W : HS ℝ) (hd : 0 < W.d) (hp : 1/10000000 * W.d < W.p)
include hg hd hp

theorem C82_pressure_3d : computePressure3 (toCons γ W) γ = W.p := by
  have h0 := hd.ne'
  have hg' : γ - 1 ≠ 0 := by linarith
  have e : (γ - 1) * (W.p / (γ - 1) + W.d * (W.u ^ 2 + W.v ^ 2 + W.w ^ 2) / 2
      - 1/2 * (W.d * W.u * (W.d * W.u) + W.d * W.v * (W.d * W.v) + W.d * W.w * (W.d * W.w)) / W.d) = W.p := by
    field_simp; ring
  simp only [computePressure3, toCons, smallp, lit_real, gtb, lt_real]
  push_cast
  rw [e, if_pos (by simpa using hp)]

theorem C82_primitive_3d : convertToPrimitive3 (toCons γ W) γ = W := by
  have h0 := hd.ne'
  have hg' : γ - 1 ≠ 0 := by linarith
  have e : (γ - 1) * (W.p / (γ - 1) + W.d * (W.u ^ 2 + W.v ^ 2 + W.w ^ 2) / 2
      - 1/2 * (W.d * W.u * (W.d * W.u) + W.d * W.v * (W.d * W.v) + W.d * W.w * (W.d * W.w)) / W.d) = W.p := by
    field_simp; ring
  simp only [convertToPrimitive3, toCons, smallp, lit_real, fmax_real]
  push_cast
  rw [e, max_eq_left hp.le, mul_div_cancel_left₀ _ h0, mul_div_cancel_left₀ _ h0, mul_div_cancel_left₀ _ h0]

theorem C82_pressure_2d (h2 : W.w = 0) : computePressure2 (toCons γ W) γ = W.p := by
  rw [← C82_pressure_3d hg W hd hp]
  simp [computePressure2, computePressure3, toCons, h2]

theorem C82_primitive_2d (h2 : W.w = 0) (hr : 1/100000000 ≤ W.d) :
    convertToPrimitive2 (toCons γ W) γ = W := by
  have h8 : max W.d (1/100000000) = W.d := max_eq_left hr
  have e : convertToPrimitive2 (toCons γ W) γ = convertToPrimitive3 (toCons γ W) γ := by
    simp only [convertToPrimitive2, convertToPrimitive3, toCons, lit_real, fmax_real, h2, smallp]
    push_cast
    rw [h8]
    simp
  rw [e, C82_primitive_3d hg W hd hp]

/-- the flux functions, fed with the pressure of `compute_pressure`, are the fluxes of the Euler equations -/
theorem C82_flux_3d (dir : Dir) :
    flux3 dir (toCons γ W) (computePressure3 (toCons γ W) γ) = fluxAlong γ dir W := by
  have h0 := hd.ne'
  rw [C82_pressure_3d hg W hd hp]
  cases dir <;>
    simp only [flux3, fluxAlong, eulerFlux, eulerFluxY, eulerFluxZ, toCons,
      mul_div_cancel_left₀ _ h0] <;>
    refine HS.ext ?_ ?_ ?_ ?_ ?_ <;> dsimp only <;> ring

theorem C82_flux_2d (dir : Dir) (hdir : dir ≠ .z) (h2 : W.w = 0) :
    flux2 dir (toCons γ W) (computePressure2 (toCons γ W) γ) = fluxAlong γ dir W := by
  have h0 := hd.ne'
  rw [C82_pressure_2d hg W hd hp h2]
  cases dir
  case z => exact absurd rfl hdir
  all_goals
    simp only [flux2, fluxAlong, eulerFlux, eulerFluxY, eulerFluxZ, toCons, h2, lit_real,
      mul_div_cancel_left₀ _ h0]
    refine HS.ext ?_ ?_ ?_ ?_ ?_ <;> dsimp only <;> first | (simp; done) | (push_cast; field_simp; done) | (push_cast; field_simp; ring)

/-- **Finding.**  `compute_speed_of_sound` returns the square of the speed of sound. -/
theorem C82_sound_speed_squared : computeSpeedOfSound W γ = soundSpeed γ W ^ 2 := by
  have : 0 < W.p := lt_trans (by positivity) hp
  rw [soundSpeed, Real.sq_sqrt (by positivity), computeSpeedOfSound]
  ring
end

/-- A state to which the theorems above apply. -/
example : (1:ℝ) < 7/5 ∧ (0:ℝ) < (⟨1/2, 3, 1, -2, 0⟩ : HS ℝ).d ∧
    1/10000000 * (⟨1/2, 3, 1, -2, 0⟩ : HS ℝ).d < (⟨1/2, 3, 1, -2, 0⟩ : HS ℝ).p := by norm_num

/-- **Finding.**  In two dimensions the two functions that compute the pressure disagree on a cold gas
thinner than `1e-8`: one floors the pressure at `1e-7 ρ`, the other at `1e-15`. -/
theorem C82_floors_disagree (γ ρ : ℝ) (h0 : 0 < ρ) (h : ρ < 1/100000000) :
    computePressure2 (⟨ρ, 0, 0, 0, 0⟩ : HS ℝ) γ = 1/10000000 * ρ ∧
    (convertToPrimitive2 (⟨ρ, 0, 0, 0, 0⟩ : HS ℝ) γ).p = 1/1000000000000000 ∧
    computePressure2 (⟨ρ, 0, 0, 0, 0⟩ : HS ℝ) γ < (convertToPrimitive2 (⟨ρ, 0, 0, 0, 0⟩ : HS ℝ) γ).p := by
  have a : computePressure2 (⟨ρ, 0, 0, 0, 0⟩ : HS ℝ) γ = 1/10000000 * ρ := by
    simp only [computePressure2, smallp, lit_real, gtb, lt_real]
    push_cast
    have : ¬ (1/10000000 * ρ < (γ - 1) * (0 - 1/2 * (0 * 0 + 0 * 0) / ρ)) := by
      have : (γ - 1) * (0 - 1/2 * (0 * 0 + 0 * 0) / ρ) = 0 := by simp
      rw [this]; push Not; positivity
    rw [if_neg (by simpa using this)]
  have b : (convertToPrimitive2 (⟨ρ, 0, 0, 0, 0⟩ : HS ℝ) γ).p = 1/1000000000000000 := by
    simp only [convertToPrimitive2, smallp, lit_real, fmax_real]
    push_cast
    rw [max_eq_right h.le]
    norm_num
  refine ⟨a, b, ?_⟩
  rw [a, b]; linarith

/-- Viscous fluxes in three dimensions: no mass flux, the momentum fluxes are the components of the
trace-free Newtonian stress, the energy flux is the work of the stress plus the given diffusive flux. -/
theorem C82_viscous_3d (dir : Dir) (g : Grad ℝ) (v f : Vec ℝ) (mu : ℝ) :
    (fluxVisc3 dir g v f mu).d = 0 ∧
    (∀ j, momentum (fluxVisc3 dir g v f mu) j = stress 3 mu (g.ux + g.vy + g.wz) g dir j) ∧
    (fluxVisc3 dir g v f mu).p =
      stress 3 mu (g.ux + g.vy + g.wz) g dir .x * v.x + stress 3 mu (g.ux + g.vy + g.wz) g dir .y * v.y
        + stress 3 mu (g.ux + g.vy + g.wz) g dir .z * v.z + comp f dir := by
  have e3 : ((1:ℚ):ℝ) / ((3:ℚ):ℝ) = 1/3 := by norm_num
  have e2 : ((2:ℚ):ℝ) = 2 := by norm_num
  have e0 : ((0:ℚ):ℝ) = 0 := by norm_num
  cases dir <;> refine ⟨by simp [fluxVisc3], fun j => ?_, ?_⟩
  any_goals cases j
  all_goals
    simp only [fluxVisc3, momentum, stress, gradV, comp, oneThird, lit_real, e3, e2, e0,
      reduceCtorEq, if_true, if_false]
    ring

/-- Viscous fluxes in two dimensions. -/
theorem C82_viscous_2d (dir : Dir) (hdir : dir ≠ .z) (g : Grad ℝ) (v f : Vec ℝ) (mu : ℝ) :
    (fluxVisc2 dir g v f mu).d = 0 ∧
    (∀ j, j ≠ .z → momentum (fluxVisc2 dir g v f mu) j = stress 2 mu (g.ux + g.vy) g dir j) ∧
    (fluxVisc2 dir g v f mu).p =
      stress 2 mu (g.ux + g.vy) g dir .x * v.x + stress 2 mu (g.ux + g.vy) g dir .y * v.y
        + comp f dir := by
  have e1 : (((1/2:ℚ)):ℝ) = 1/2 := by norm_num
  have e2 : ((2:ℚ):ℝ) = 2 := by norm_num
  have e0 : ((0:ℚ):ℝ) = 0 := by norm_num
  cases dir
  case z => exact absurd rfl hdir
  all_goals refine ⟨by simp [fluxVisc2], fun j hj => ?_, ?_⟩
  any_goals cases j
  any_goals exact absurd rfl hj
  all_goals
    simp only [fluxVisc2, momentum, stress, gradV, comp, lit_real, e1, e2, e0,
      reduceCtorEq, if_true, if_false]
    ring

/-- Viscosity dissipates: the work of the stress on the velocity gradient is never negative. -/
theorem C82_dissipation_3d (g : Grad ℝ) (v f : Vec ℝ) (mu : ℝ) (hm : 0 ≤ mu) :
    0 ≤ (fluxVisc3 .x g v f mu).u * g.ux + (fluxVisc3 .y g v f mu).u * g.uy + (fluxVisc3 .z g v f mu).u * g.uz
      + (fluxVisc3 .x g v f mu).v * g.vx + (fluxVisc3 .y g v f mu).v * g.vy + (fluxVisc3 .z g v f mu).v * g.vz
      + (fluxVisc3 .x g v f mu).w * g.wx + (fluxVisc3 .y g v f mu).w * g.wy + (fluxVisc3 .z g v f mu).w * g.wz := by
  simp only [fluxVisc3, oneThird, lit_real]
  push_cast
  have h : 0 ≤ mu * ((g.uy + g.vx) ^ 2 + (g.uz + g.wx) ^ 2 + (g.vz + g.wy) ^ 2
      + 2/3 * ((g.ux - g.vy) ^ 2 + (g.ux - g.wz) ^ 2 + (g.vy - g.wz) ^ 2)) := by positivity
  refine h.trans (le_of_eq ?_)
  ring

theorem C82_dissipation_2d (g : Grad ℝ) (v f : Vec ℝ) (mu : ℝ) (hm : 0 ≤ mu) :
    0 ≤ (fluxVisc2 .x g v f mu).u * g.ux + (fluxVisc2 .y g v f mu).u * g.uy
      + (fluxVisc2 .x g v f mu).v * g.vx + (fluxVisc2 .y g v f mu).v * g.vy := by
  simp only [fluxVisc2, lit_real]
  push_cast
  have h : 0 ≤ mu * ((g.uy + g.vx) ^ 2 + (g.ux - g.vy) ^ 2) := by positivity
  refine h.trans (le_of_eq ?_)
  ring

/-- A rigid motion (antisymmetric velocity gradient) feels no viscous stress. -/
theorem C82_rigid_motion (dir : Dir) (g : Grad ℝ) (v f : Vec ℝ) (mu : ℝ)
    (h : ∀ i j, gradV g i j = - gradV g j i) :
    fluxVisc3 dir g v f mu = ⟨0, comp f dir, 0, 0, 0⟩ := by
  have hx := h .x .x; have hy := h .y .y; have hz := h .z .z
  have hxy := h .x .y; have hxz := h .x .z; have hyz := h .y .z
  simp only [gradV] at *
  have hx : g.ux = 0 := by linarith
  have hy : g.vy = 0 := by linarith
  have hz : g.wz = 0 := by linarith
  cases dir <;> simp [fluxVisc3, comp, hx, hy, hz, hxy, hxz, hyz]

/-- A rotation about an axis is such a motion. -/
example : ∀ i j, gradV (⟨0, -1, 2, 1, 0, -3, -2, 3, 0⟩ : Grad ℝ) i j
    = - gradV (⟨0, -1, 2, 1, 0, -3, -2, 3, 0⟩ : Grad ℝ) j i := by
  intro i j; cases i <;> cases j <;> simp [gradV]

/-- **Finding.**  A planar flow is treated differently by the two- and three-dimensional viscous fluxes: the
normal stresses differ by a third of the viscosity times the divergence. -/
theorem C82_planar_viscous_differ (g : Grad ℝ) (v f : Vec ℝ) (mu : ℝ) (hz : g.wz = 0) :
    (fluxVisc3 .x g v f mu).u - (fluxVisc2 .x g v f mu).u = mu * (g.ux + g.vy) / 3 ∧
    (fluxVisc3 .y g v f mu).v - (fluxVisc2 .y g v f mu).v = mu * (g.ux + g.vy) / 3 := by
  simp only [fluxVisc3, fluxVisc2, oneThird, lit_real, hz]
  push_cast
  constructor <;> ring

end EulerKokkos
