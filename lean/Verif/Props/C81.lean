import Verif.Spec.EulerSystem
import Verif.Lemmas.EulerPDE
import Mathlib.Tactic.FieldSimp
import Mathlib.Tactic.LinearCombination

/-!
# C81: characteristic variables
-/

set_option linter.unusedSimpArgs false
set_option linter.unusedSectionVars false

namespace EulerKokkos
open Spec EulerEq RealOps

theorem C81_roundtrip_3d (dir : Dir) (data q : HS ℝ) (c γ : ℝ) (hc : c ≠ 0) (hg : γ ≠ 1) :
    characToCons3 dir (consToCharac3 dir data q c γ) q c γ = data ∧
    consToCharac3 dir (characToCons3 dir data q c γ) q c γ = data := by
  have hg' : γ - 1 ≠ 0 := sub_ne_zero.2 hg
  cases dir <;> refine ⟨?_, ?_⟩ <;>
    simp only [characToCons3, consToCharac3, lit_real, HS.ext_iff] <;>
    generalize q.u / q.d = u <;> generalize q.v / q.d = v <;> generalize q.w / q.d = w <;>
    push_cast <;> refine ⟨?_, ?_, ?_, ?_, ?_⟩ <;> field_simp <;> ring

theorem C81_roundtrip_2d (dir : Dir) (data q : HS ℝ) (c γ : ℝ) (hc : c ≠ 0) (hg : γ ≠ 1)
    (hw : data.w = 0) (hd : dir ≠ .z) :
    characToCons2 dir (consToCharac2 dir data q c γ) q c γ = data ∧
    consToCharac2 dir (characToCons2 dir data q c γ) q c γ = data := by
  have hg' : γ - 1 ≠ 0 := sub_ne_zero.2 hg
  cases dir
  case z => exact absurd rfl hd
  all_goals
    refine ⟨?_, ?_⟩ <;>
    simp only [characToCons2, consToCharac2, lit_real, HS.ext_iff] <;>
    generalize q.u / q.d = u <;> generalize q.v / q.d = v <;>
    push_cast <;> refine ⟨?_, ?_, ?_, ?_, hw.symm⟩ <;> field_simp <;> ring

/-- the characteristic variables of the flux derivative are the wave speeds times the characteristic
variables of the state derivative -/
theorem C81_eigen_3d (dir : Dir) (γ s₀ : ℝ) (hg : 1 < γ) (W : ℝ → HS ℝ) (g U' F' : HS ℝ)
    (hW : HasDerivHS W g s₀) (hd : 0 < (W s₀).d) (hp : 0 < (W s₀).p)
    (hU : HasDerivHS (fun s => toCons γ (W s)) U' s₀)
    (hF : HasDerivHS (fun s => fluxAlong γ dir (W s)) F' s₀) :
    consToCharac3 dir F' (toCons γ (W s₀)) (soundSpeed γ (W s₀)) γ =
      timesSpeeds (speedAlong dir (W s₀)) (soundSpeed γ (W s₀))
        (consToCharac3 dir U' (toCons γ (W s₀)) (soundSpeed γ (W s₀)) γ) := by
  have hg' : γ - 1 ≠ 0 := by linarith
  have hd0 := hd.ne'
  have hq : 0 < γ * (W s₀).p / (W s₀).d := by positivity
  have hc : soundSpeed γ (W s₀) ≠ 0 := (Real.sqrt_pos.2 hq).ne'
  have hc2 : soundSpeed γ (W s₀) ^ 2 * (W s₀).d = γ * (W s₀).p := by
    rw [soundSpeed, Real.sq_sqrt hq.le]; field_simp
  have hpe : (W s₀).p = soundSpeed γ (W s₀) ^ 2 * (W s₀).d / γ := by
    rw [hc2]; field_simp
  rw [hU.unique (hW.toCons γ)]
  cases dir
  case x =>
    rw [hF.unique (hW.fluxX γ)]
    generalize soundSpeed γ (W s₀) = c at *
    simp only [consToCharac3, timesSpeeds, speedAlong, toCons, dE, lit_real, HS.ext_iff, mul_div_cancel_left₀ _ hd0, hpe]
    push_cast
    refine ⟨?_, ?_, ?_, ?_, ?_⟩ <;> field_simp <;> ring
  case y =>
    rw [hF.unique (hW.fluxY γ)]
    generalize soundSpeed γ (W s₀) = c at *
    simp only [consToCharac3, timesSpeeds, speedAlong, toCons, dE, lit_real, HS.ext_iff, mul_div_cancel_left₀ _ hd0, hpe]
    push_cast
    refine ⟨?_, ?_, ?_, ?_, ?_⟩ <;> field_simp <;> ring
  case z =>
    rw [hF.unique (hW.fluxZ γ)]
    generalize soundSpeed γ (W s₀) = c at *
    simp only [consToCharac3, timesSpeeds, speedAlong, toCons, dE, lit_real, HS.ext_iff, mul_div_cancel_left₀ _ hd0, hpe]
    push_cast
    refine ⟨?_, ?_, ?_, ?_, ?_⟩ <;> field_simp <;> ring

theorem consToCharac2_eq (dir : Dir) (data q : HS ℝ) (c γ : ℝ) (hd : dir ≠ .z) (hw : data.w = 0)
    (hq : q.w = 0) : consToCharac2 dir data q c γ = consToCharac3 dir data q c γ := by
  cases dir
  case z => exact absurd rfl hd
  all_goals
    simp only [consToCharac2, consToCharac3, hw, hq, lit_real, HS.ext_iff]
    refine ⟨?_, ?_, ?_, ?_, ?_⟩ <;> simp

theorem C81_eigen_2d (dir : Dir) (γ s₀ : ℝ) (hg : 1 < γ) (W : ℝ → HS ℝ) (g U' F' : HS ℝ)
    (hW : HasDerivHS W g s₀) (hd : 0 < (W s₀).d) (hp : 0 < (W s₀).p)
    (h2 : ∀ s, (W s).w = 0) (hdir : dir ≠ .z)
    (hU : HasDerivHS (fun s => toCons γ (W s)) U' s₀)
    (hF : HasDerivHS (fun s => fluxAlong γ dir (W s)) F' s₀) :
    consToCharac2 dir F' (toCons γ (W s₀)) (soundSpeed γ (W s₀)) γ =
      timesSpeeds (speedAlong dir (W s₀)) (soundSpeed γ (W s₀))
        (consToCharac2 dir U' (toCons γ (W s₀)) (soundSpeed γ (W s₀)) γ) := by
  have z : ∀ f : ℝ → ℝ, (∀ s, f s = 0) → ∀ a, HasDerivAt f a s₀ → a = 0 := by
    intro f hf a ha
    have : f = fun _ => (0 : ℝ) := funext hf
    rw [this] at ha
    exact ha.unique (hasDerivAt_const s₀ (0 : ℝ))
  have hU0 : U'.w = 0 := z _ (fun s => by simp [toCons, h2]) _ hU.w
  have hF0 : F'.w = 0 := z _ (fun s => by
    cases dir
    · simp [fluxAlong, eulerFlux, h2]
    · simp [fluxAlong, eulerFluxY, h2]
    · exact absurd rfl hdir) _ hF.w
  have hq0 : (toCons γ (W s₀)).w = 0 := by simp [toCons, h2]
  rw [consToCharac2_eq _ _ _ _ _ hdir hF0 hq0, consToCharac2_eq _ _ _ _ _ hdir hU0 hq0]
  exact C81_eigen_3d dir γ s₀ hg W g U' F' hW hd hp hU hF

/-- A curve of states through `(ρ, p, u, v, w) = (1, 1, 1, 2, 3)` to which the theorem applies. -/
example : ∃ (W : ℝ → HS ℝ) (g U' F' : HS ℝ), HasDerivHS W g 0 ∧ 0 < (W 0).d ∧ 0 < (W 0).p ∧
    HasDerivHS (fun s => toCons (7/5) (W s)) U' 0 ∧
    HasDerivHS (fun s => fluxAlong (7/5) .y (W s)) F' 0 :=
  have h := hasDerivHS_line (⟨1, 1, 1, 2, 3⟩ : HS ℝ) ⟨1, 2, 3, 4, 5⟩
  ⟨_, _, _, _, h, by simp [hs_add, hs_smul], by simp [hs_add, hs_smul], h.toCons _,
    by simpa only [fluxAlong] using h.fluxY (7/5)⟩

/-- **Characteristic form.**  For a smooth solution of the Euler equations that varies along one direction
only, the characteristic variables (with coefficients frozen at the point) of the time derivative and of the
space derivative satisfy decoupled advection equations `ℓₜ + λ ℓₓ = 0`. -/
theorem C81_advection (dir : Dir) (γ x₀ t₀ : ℝ) (hg : 1 < γ) (W : ℝ → ℝ → HS ℝ) (gx Ut Ux F' : HS ℝ)
    (hW : HasDerivHS (fun ξ => W ξ t₀) gx x₀) (hd : 0 < (W x₀ t₀).d) (hp : 0 < (W x₀ t₀).p)
    (hUt : HasDerivHS (fun τ => toCons γ (W x₀ τ)) Ut t₀)
    (hUx : HasDerivHS (fun ξ => toCons γ (W ξ t₀)) Ux x₀)
    (hF : HasDerivHS (fun ξ => fluxAlong γ dir (W ξ t₀)) F' x₀)
    (pde : Ut + F' = ⟨0, 0, 0, 0, 0⟩) :
    consToCharac3 dir Ut (toCons γ (W x₀ t₀)) (soundSpeed γ (W x₀ t₀)) γ +
      timesSpeeds (speedAlong dir (W x₀ t₀)) (soundSpeed γ (W x₀ t₀))
        (consToCharac3 dir Ux (toCons γ (W x₀ t₀)) (soundSpeed γ (W x₀ t₀)) γ) = ⟨0, 0, 0, 0, 0⟩ := by
  rw [← C81_eigen_3d dir γ x₀ hg (fun ξ => W ξ t₀) gx Ux F' hW hd hp hUx hF]
  have hU : Ut = ⟨-F'.d, -F'.p, -F'.u, -F'.v, -F'.w⟩ := by
    have := HS.ext_iff.1 pde
    simp only [hs_add] at this
    obtain ⟨a, b, c, d, e⟩ := this
    ext <;> simp only <;> linarith
  rw [hU]
  cases dir <;> simp only [consToCharac3, hs_add, lit_real, HS.ext_iff] <;>
    refine ⟨?_, ?_, ?_, ?_, ?_⟩ <;> ring

end EulerKokkos
