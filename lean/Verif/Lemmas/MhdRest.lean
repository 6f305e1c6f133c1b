import Verif.Props.C90
import Verif.Props.C69
import Verif.Lemmas.MhdEmf

/-!
# A magnetised fluid at rest: fluxes and electromotive forces between states that differ in density only
-/

set_option linter.constructorNameAsVariable false
set_option linter.unusedSectionVars false
set_option linter.unusedSimpArgs false

namespace EulerKokkos
open Spec

/-- fluid at rest, pressure `P`, field `(A, B, C)`, density `ρ` -/
def Spec.restPrimM (P A B C ρ : ℝ) : MS ℝ := ⟨ρ, P, 0, 0, 0, A, B, C⟩

/-- not the switch-like case of C52 and C55: field along the normal and dominating the pressure -/
def Spec.NoSwitch (γ P n t1 t2 : ℝ) : Prop := t1 = 0 → t2 = 0 → n ^ 2 < γ * P

theorem noSwitch_iff {γ P A B C ρ : ℝ} (h : NoSwitch γ P A B C) : ¬ Switchlike γ (restPrimM P A B C ρ) := by
  rintro ⟨hb, hc, hp⟩
  have := h hb hc
  simp only [restPrimM] at hp
  linarith

/-- momentum flux of a fluid at rest: pressure and tension -/
noncomputable def restFluxM (P A B C : ℝ) : MS ℝ :=
  ⟨0, 0, P + (A ^ 2 + B ^ 2 + C ^ 2) / 2 - A ^ 2, -(A * B), -(A * C), 0, 0, 0⟩

theorem hlld_at_rest {s : Settings ℝ} (hs : GoodSettings s) (hi : s.cIso = 0) {P A B C r1 r2 : ℝ}
    (hP : 0 < P) (h1 : 0 < r1) (h2 : 0 < r2) (hn : NoSwitch s.gamma0 P A B C) (junk : MS ℝ) :
    riemannMhd s .hlld (restPrimM P A B C r1) (restPrimM P A B C r2) junk = restFluxM P A B C := by
  rw [C90_contact_exact (l := restPrimM P A B C r1) (r := restPrimM P A B C r2) hs hi ⟨h1, hP⟩ ⟨h2, hP⟩
    (noSwitch_iff hn) (noSwitch_iff hn) junk ⟨rfl, rfl, rfl, rfl, rfl, rfl, rfl⟩]
  unfold upwindFlux
  rw [if_neg (by simp [restPrimM])]
  unfold mhdFlux mhdEnergy totalPressure magPressure restPrimM restFluxM
  ext <;> simp <;> ring

/-- no electric field in a fluid at rest -/
theorem emf_at_rest {s : Settings ℝ} (hs : GoodSettings s) (hi : s.cIso = 0) {dir : EmfDir} {P A B C : ℝ}
    {e : Edge4 ℝ} (hP : 0 < P) {r1 r2 r3 r4 : ℝ} (h1 : 0 < r1) (h2 : 0 < r2) (h3 : 0 < r3) (h4 : 0 < r4)
    (e1 : e.rt = restPrimM P A B C r1) (e2 : e.rb = restPrimM P A B C r2)
    (e3 : e.lt = restPrimM P A B C r3) (e4 : e.lb = restPrimM P A B C r4) :
    computeEmf s dir e = 0 := by
  have key : ∀ a b c : ℝ, magRiemann2dHlld s (restPrimM P a b c r1) (restPrimM P a b c r3)
      (restPrimM P a b c r2) (restPrimM P a b c r4) 0 0 0 0 = 0 := by
    intro a b c
    have f : ∀ n r, 0 < r → 0 < findSpeedFast s n (restPrimM P a b c r) := by
      intro n r hr
      rw [findSpeedFast_spec hs.gamma ⟨hr, hP⟩]
      exact fastSpeed_pos hs.gamma ⟨hr, hP⟩ _
    unfold magRiemann2dHlld
    have gx := f 0 r1 h1
    have gy := f 1 r1 h1
    have hx : 0 < fmax4 (findSpeedFast s 0 (restPrimM P a b c r1)) (findSpeedFast s 0 (restPrimM P a b c r2))
        (findSpeedFast s 0 (restPrimM P a b c r3)) (findSpeedFast s 0 (restPrimM P a b c r4)) := by
      rw [fmax4_spec]; exact lt_of_lt_of_le gx (by simp [max4])
    have hy : 0 < fmax4 (findSpeedFast s 1 (restPrimM P a b c r1)) (findSpeedFast s 1 (restPrimM P a b c r2))
        (findSpeedFast s 1 (restPrimM P a b c r3)) (findSpeedFast s 1 (restPrimM P a b c r4)) := by
      rw [fmax4_spec]; exact lt_of_lt_of_le gy (by simp [max4])
    dsimp only
    generalize fmax4 (findSpeedFast s 0 (restPrimM P a b c r1)) (findSpeedFast s 0 (restPrimM P a b c r2))
        (findSpeedFast s 0 (restPrimM P a b c r3)) (findSpeedFast s 0 (restPrimM P a b c r4)) = X at *
    generalize fmax4 (findSpeedFast s 1 (restPrimM P a b c r1)) (findSpeedFast s 1 (restPrimM P a b c r2))
        (findSpeedFast s 1 (restPrimM P a b c r3)) (findSpeedFast s 1 (restPrimM P a b c r4)) = Y at *
    have z1 : fmin4 (0 : ℝ) 0 0 0 = 0 := by rw [fmin4_spec]; simp [min4]
    have z2 : fmax4 (0 : ℝ) 0 0 0 = 0 := by rw [fmax4_spec]; simp [max4]
    have d1 : ∀ x : ℝ, x * (0 - X) / (0 - X) = x := fun x => mul_div_cancel_right₀ _ (by linarith)
    have d2 : ∀ x : ℝ, x * (0 - Y) / (0 - Y) = x := fun x => mul_div_cancel_right₀ _ (by linarith)
    have d3 : ∀ x : ℝ, x * X / X = x := fun x => mul_div_cancel_right₀ _ hx.ne'
    have d4 : ∀ x : ℝ, x * Y / Y = x := fun x => mul_div_cancel_right₀ _ hy.ne'
    have us : ∀ x y z w q : ℝ, (x * 0 + y * 0 + z * 0 + w * 0 + (q - q + q - q)) / (x + y + z + w) = 0 := by
      intro x y z w q; simp
    unfold magBody magPtot
    simp only [restPrimM, z1, z2, us]
    unfold magTail magStar magSelect
    simp only [sub_zero, d1, d2, d3, d4, sub_self, zero_mul, mul_zero, zero_add, add_zero, zero_div,
      RealOps.lit_real, Rat.cast_zero]
  unfold computeEmf
  rw [e1, e2, e3, e4]
  have ni : ¬ gtb s.cIso (lit 0) = true := by simp [gtb, RealOps.lit_real, hi]
  have hh : ∀ x : ℝ, (lit (1/2) : ℝ) * (x + x) = x := by
    intro x; rw [RealOps.lit_real]; push_cast; ring
  cases dir <;>
    simp only [EmfDir.frame, restPrimM, if_neg ni, hh, zero_mul, sub_self] <;>
    exact key _ _ _

/-- floors do not act on a rest state -/
theorem floored_rest {s : Settings ℝ} (hsr : 0 < s.smallr) (hsp : 0 < s.smallp) {P A B C r M : ℝ} (hr : r ≤ 2 * M)
    (hM : s.smallr ≤ M) (hMP : 2 * M * s.smallp ≤ P) :
    ∃ r', 0 < r' ∧ MS.floored s (restPrimM P A B C r) = restPrimM P A B C r' := by
  refine ⟨max s.smallr r, lt_of_lt_of_le hsr (le_max_left _ _), ?_⟩
  unfold MS.floored restPrimM
  simp only [RealOps.fmax_real]
  rw [max_eq_right (a := s.smallp * max s.smallr r)]
  have h : max s.smallr r ≤ 2 * M := max_le (by linarith) hr
  have := mul_le_mul_of_nonneg_left h hsp.le
  linarith

/-- limited slopes of the density, halved: twice the largest density bounds every face and edge density -/
theorem rest_bounds {s : Settings ℝ} (hs : s.slope_type = 1 ∨ s.slope_type = 2) {M r xp xm : ℝ}
    (h1 : r ≤ M) (h2 : xp ≤ M) (h3 : xm ≤ M) (σ : ℝ) (hσ : σ = slopeScalarDir s.slope_type r xp xm) :
    r + σ * (1/2) ≤ M ∧ r - σ * (1/2) ≤ M := by
  have h0 : 0 ≤ s.slope_type := by rcases hs with h | h <;> rw [h] <;> norm_num
  have h2' : s.slope_type ≤ 2 := by rcases hs with h | h <;> rw [h] <;> norm_num
  obtain ⟨_, _, _, ⟨m1, m2, m3, m4⟩, _⟩ := slopeScalarDir_tvd h0 h2' r xp xm
  rw [← hσ] at *
  have : max r xp ≤ M := max_le h1 h2
  have : max xm r ≤ M := max_le h3 h1
  constructor <;> linarith

end EulerKokkos
