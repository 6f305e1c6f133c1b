import Verif.Lemmas.IeeeZero

/-!
# Double precision: numbers equal up to the sign of a zero, and the iteration of the `approx` Riemann solver
-/

set_option linter.constructorNameAsVariable false

namespace EulerKokkos
open Spec
namespace Ieee64

/-- equal, or both zero (of either sign) -/
def Twins (a b : Double) : Prop := a = b ∨ (IsZero a ∧ IsZero b)

theorem Twins.trans {a b c : Double} (h : Twins a b) (h' : Twins b c) : Twins a c := by
  rcases h with rfl | ⟨h1, h2⟩
  · exact h'
  · rcases h' with rfl | ⟨h3, h4⟩
    · exact .inr ⟨h1, h2⟩
    · exact .inr ⟨h1, h4⟩

theorem twins_add_right {a b : Double} (h : Twins a b) (x : Double) : Twins (a + x) (b + x) := by
  rcases h with rfl | ⟨⟨s, m, hm, rfl⟩, ⟨t, n, hn, rfl⟩⟩
  · exact .inl rfl
  · cases x with
    | nan => exact .inl rfl
    | inf u => exact .inl rfl
    | fin u k =>
      by_cases hk : k.1 = 0
      · exact .inr ⟨zero_add ⟨s, m, hm, rfl⟩ ⟨u, k, hk, rfl⟩, zero_add ⟨t, n, hn, rfl⟩ ⟨u, k, hk, rfl⟩⟩
      · exact .inl ((zero_fin_add hm hk).trans (zero_fin_add hn hk).symm)

theorem twins_add_left {a b : Double} (h : Twins a b) (x : Double) : Twins (x + a) (x + b) := by
  rcases h with rfl | ⟨⟨s, m, hm, rfl⟩, ⟨t, n, hn, rfl⟩⟩
  · exact .inl rfl
  · cases x with
    | nan => exact .inl rfl
    | inf u => exact .inl rfl
    | fin u k =>
      by_cases hk : k.1 = 0
      · exact .inr ⟨zero_add ⟨u, k, hk, rfl⟩ ⟨s, m, hm, rfl⟩, zero_add ⟨u, k, hk, rfl⟩ ⟨t, n, hn, rfl⟩⟩
      · exact .inl ((add_fin_zero hk hm).trans (add_fin_zero hk hn).symm)

theorem twins_neg {a b : Double} (h : Twins a b) : Twins (-a) (-b) := by
  rcases h with rfl | ⟨h1, h2⟩
  · exact .inl rfl
  · exact .inr ⟨zero_neg h1, zero_neg h2⟩

theorem twins_sub {a b c d : Double} (h : Twins a b) (h' : Twins c d) : Twins (a - c) (b - d) :=
  (twins_add_right h _).trans (twins_add_left (twins_neg h') _)

theorem twins_mul {a b : Double} (h : Twins a b) (x : Double) : Twins (x * a) (x * b) := by
  rcases h with rfl | ⟨⟨s, m, hm, rfl⟩, ⟨t, n, hn, rfl⟩⟩
  · exact .inl rfl
  · cases x with
    | nan => exact .inl rfl
    | inf u =>
      refine .inl ?_
      show Spec.Ieee.mul _ _ = Spec.Ieee.mul _ _
      unfold Spec.Ieee.mul
      dsimp only
      rw [if_pos hm, if_pos hn]
    | fin u k => exact .inr ⟨mul_zero ⟨u, k, rfl⟩ ⟨s, m, hm, rfl⟩, mul_zero ⟨u, k, rfl⟩ ⟨t, n, hn, rfl⟩⟩

theorem twins_div {a b : Double} (h : Twins a b) (x : Double) : Twins (a / x) (b / x) := by
  rcases h with rfl | ⟨⟨s, m, hm, rfl⟩, ⟨t, n, hn, rfl⟩⟩
  · exact .inl rfl
  · cases x with
    | nan => exact .inl rfl
    | inf u => exact .inr ⟨round_zero _, round_zero _⟩
    | fin u k =>
      by_cases hk : k.1 = 0
      · refine .inl ?_
        show Spec.Ieee.div _ _ = Spec.Ieee.div _ _
        unfold Spec.Ieee.div
        dsimp only
        rw [if_pos hk, if_pos hk, if_pos hm, if_pos hn]
      · refine .inr ⟨?_, ?_⟩
        · show IsZero (Spec.Ieee.div _ _)
          unfold Spec.Ieee.div; dsimp only
          rw [if_neg hk, hm, _root_.zero_div]
          exact round_zero _
        · show IsZero (Spec.Ieee.div _ _)
          unfold Spec.Ieee.div; dsimp only
          rw [if_neg hk, hn, _root_.zero_div]
          exact round_zero _

theorem zero_key {a : Double} (h : IsZero a) : a.key = 0 ∧ a.isNan = false := by
  obtain ⟨s, m, hm, rfl⟩ := h
  refine ⟨?_, rfl⟩
  show ((Spec.Ieee.real s m : ℝ) : EReal) = 0
  rw [real_zero hm]
  rfl

theorem twins_fmax {a b : Double} (h : Twins a b) (x : Double) : Twins (RealOps.fmax a x) (RealOps.fmax b x) := by
  rcases h with rfl | ⟨h1, h2⟩
  · exact .inl rfl
  · obtain ⟨k1, n1⟩ := zero_key h1
    obtain ⟨k2, n2⟩ := zero_key h2
    show Twins (Spec.Ieee.fmax a x) (Spec.Ieee.fmax b x)
    have e : Spec.Ieee.lt a x = Spec.Ieee.lt b x := by
      unfold Spec.Ieee.lt
      rw [k1, k2, n1, n2]
    unfold Spec.Ieee.fmax
    rw [n1, n2, e]
    simp only [Bool.false_eq_true, if_false]
    split_ifs
    · exact .inr ⟨h1, h2⟩
    · exact .inl rfl
    · exact .inr ⟨h1, h2⟩

theorem twins_fabs {a b : Double} (h : Twins a b) : fabs a = fabs b := by
  rcases h with rfl | ⟨⟨s, m, hm, rfl⟩, ⟨t, n, hn, rfl⟩⟩
  · rfl
  · rw [show m = n from Subtype.ext (hm.trans hn.symm)]
    rfl

/-- not the negative zero -/
def NotMinus (x : Double) : Prop := ∀ m : binary64.Mag, m.1 = 0 → x ≠ .fin true m

theorem twins_sum {a b : Double} (h : Twins a b) {x : Double} (hx : NotMinus x) : x + a = x + b := by
  rcases h with rfl | ⟨⟨s, m, hm, rfl⟩, ⟨t, n, hn, rfl⟩⟩
  · rfl
  · cases x with
    | nan => rfl
    | inf u => rfl
    | fin u k =>
      by_cases hk : k.1 = 0
      · have hu : u = false := by
          cases u
          · rfl
          · exact absurd rfl (hx k hk)
        subst hu
        rw [add_cancel (by rw [real_zero hm, real_zero hk, add_zero]), add_cancel (by rw [real_zero hn, real_zero hk, add_zero])]
        rfl
      · exact (add_fin_zero hk hm).trans (add_fin_zero hk hn).symm

theorem round_notMinus (x : ℝ) : NotMinus (Spec.Ieee.round false x) := by
  intro m _
  unfold Spec.Ieee.round
  split_ifs <;> simp

theorem sum_notMinus {x y : Double} (hx : NotMinus x) : NotMinus (x + RealOps.fmax y (-x)) := by
  cases x with
  | nan => intro m _ h; cases h
  | inf u =>
    intro m _
    cases RealOps.fmax y (-(.inf u) : Double) with
    | nan => intro h; cases h
    | inf v =>
      show Spec.Ieee.add _ _ ≠ _
      unfold Spec.Ieee.add
      dsimp only
      split_ifs <;> simp
    | fin v n => intro h; cases h
  | fin u k =>
    have key : ∀ v n, RealOps.fmax y (-(.fin u k) : Double) = .fin v n →
        0 ≤ Spec.Ieee.real u k + Spec.Ieee.real v n := by
      intro v n h
      have hneg : Spec.Ieee.real (!u) k = - Spec.Ieee.real u k := by cases u <;> simp [Spec.Ieee.real]
      have h : Spec.Ieee.fmax y (.fin (!u) k) = .fin v n := h
      unfold Spec.Ieee.fmax at h
      split_ifs at h with h1 h2 h3
      · cases h; rw [hneg]; linarith
      · cases h2
      · cases h; rw [hneg]; linarith
      · subst h
        have : ¬ Spec.Ieee.real v n < Spec.Ieee.real (!u) k := fun hlt =>
          h3 (Ieee.lt_iff.2 ⟨rfl, rfl, EReal.coe_lt_coe_iff.2 hlt⟩)
        rw [hneg] at this
        linarith
    cases hD : RealOps.fmax y (-(.fin u k) : Double) with
    | nan => intro m _ h; cases h
    | inf v => intro m _ h; cases h
    | fin v n =>
      have h0 := key v n hD
      by_cases hs : Spec.Ieee.real u k + Spec.Ieee.real v n = 0
      · rw [add_cancel hs]
        have : (u && v) = false := by
          cases u
          · rfl
          · cases v
            · rfl
            · rw [Ieee.real_true, Ieee.real_true] at hs
              have a := binary64.nonneg _ k.2.1
              have b := binary64.nonneg _ n.2.1
              exact absurd rfl (hx k (by linarith))
        rw [this]
        exact round_notMinus _
      · show NotMinus (Spec.Ieee.add _ _)
        unfold Spec.Ieee.add
        dsimp only
        rw [if_neg hs, decide_eq_false (not_lt.2 h0)]
        exact round_notMinus _

/-- The iteration does not see the signs of the zero velocities. -/
theorem newton_signs {s : Settings Double} {ul ur p c : Double} (hl : IsZero ul) (hr : IsZero ur) (n : Nat) {x : Double}
    (hx : NotMinus x) (conv : Double) :
    approxNewton s ul p c ur p c n x conv = approxNewton s (lit 0) p c (lit 0) p c n x conv := by
  induction n generalizing x conv with
  | zero => rfl
  | succ n ih =>
    unfold approxNewton
    split_ifs with h
    · dsimp only
      have tl : Twins ul (lit 0) := .inr ⟨hl, zero_lit⟩
      have tr : Twins ur (lit 0) := .inr ⟨hr, zero_lit⟩
      have t := twins_fmax (twins_mul (twins_sub (twins_sub tl (.inl (rfl : (x - p) / RealOps.sqrt (c * (lit 1 + s.gamma6 * (x - p) / p)) = _)))
        (twins_add_right tr ((x - p) / RealOps.sqrt (c * (lit 1 + s.gamma6 * (x - p) / p)))))
        (let ww := RealOps.sqrt (c * (lit 1 + s.gamma6 * (x - p) / p))
          let q := lit 2 * ww * ww * ww / (ww * ww + c)
          q * q / (q + q))) (-x)
      have e1 := twins_sum t hx
      have e2 := twins_fabs (twins_div t (x + RealOps.fmax ((let ww := RealOps.sqrt (c * (lit 1 + s.gamma6 * (x - p) / p))
          let q := lit 2 * ww * ww * ww / (ww * ww + c)
          q * q / (q + q)) * ((lit 0 - (x - p) / RealOps.sqrt (c * (lit 1 + s.gamma6 * (x - p) / p))) -
            (lit 0 + (x - p) / RealOps.sqrt (c * (lit 1 + s.gamma6 * (x - p) / p))))) (-x) + s.smallpp))
      dsimp only at e1 e2
      rw [e1, e2]
      exact ih (sum_notMinus hx) _
    · rfl

end Ieee64
end EulerKokkos
