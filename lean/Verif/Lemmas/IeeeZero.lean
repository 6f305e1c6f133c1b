import Verif.Lemmas.IeeeGrav

/-!
# Zeros in double precision: what adding and multiplying by zeros of either sign does
-/

set_option linter.constructorNameAsVariable false

namespace EulerKokkos
open Spec

namespace Spec
/-- a zero of either sign -/
def IsZero (x : Double) : Prop := ∃ (s : Bool) (m : binary64.Mag), m.1 = 0 ∧ x = .fin s m
/-- a number (not a NaN, not infinite) -/
def IsFin (x : Double) : Prop := ∃ (s : Bool) (m : binary64.Mag), x = .fin s m
end Spec

namespace Ieee64

theorem IsZero.fin {x : Double} (h : IsZero x) : IsFin x := by
  obtain ⟨s, m, -, rfl⟩ := h; exact ⟨s, m, rfl⟩
theorem pos_fin {x : Double} (h : FinitePos x) : IsFin x := by
  obtain ⟨m, -, rfl⟩ := h; exact ⟨_, m, rfl⟩
theorem zero_lit : IsZero (lit 0) := ⟨_, _, rfl, Ieee.lit_zero⟩
theorem fin_one : IsFin (lit 1) := ⟨_, _, Ieee.lit_one⟩
theorem fin_neg_one : IsFin (-lit 1) := by rw [Ieee.lit_one]; exact ⟨_, _, rfl⟩
theorem fin_half : IsFin (lit (1/2)) := by
  have h : Rep (1/2) := ⟨1, -1, by norm_num, by norm_num, by norm_num, by norm_num⟩
  exact ⟨_, _, lit_rep h⟩

theorem real_zero {s : Bool} {m : binary64.Mag} (h : m.1 = 0) : Spec.Ieee.real s m = 0 := by
  cases s <;> simp [Spec.Ieee.real, h]

theorem round_zero (s : Bool) : IsZero (Spec.Ieee.round s 0) :=
  ⟨s, ⟨0, binary64.zero_mem, binary64.zero_le_top⟩, rfl,
    Ieee.round_mag (⟨0, binary64.zero_mem, binary64.zero_le_top⟩ : binary64.Mag)⟩

theorem zero_neg {x : Double} (h : IsZero x) : IsZero (-x) := by
  obtain ⟨s, m, hm, rfl⟩ := h; exact ⟨!s, m, hm, rfl⟩

theorem zero_mul {x y : Double} (hx : IsZero x) (hy : IsFin y) : IsZero (x * y) := by
  obtain ⟨s, m, hm, rfl⟩ := hx
  obtain ⟨t, n, rfl⟩ := hy
  show IsZero (Spec.Ieee.round (s ^^ t) (m.1 * n.1))
  rw [hm, MulZeroClass.zero_mul]
  exact round_zero _

theorem mul_zero {x y : Double} (hx : IsFin x) (hy : IsZero y) : IsZero (x * y) := by
  obtain ⟨s, m, rfl⟩ := hx
  obtain ⟨t, n, hn, rfl⟩ := hy
  show IsZero (Spec.Ieee.round (s ^^ t) (m.1 * n.1))
  rw [hn, MulZeroClass.mul_zero]
  exact round_zero _

theorem zero_div {x y : Double} (hx : IsZero x) (hy : FinitePos y) : IsZero (x / y) := by
  obtain ⟨s, m, hm, rfl⟩ := hx
  obtain ⟨n, hn, rfl⟩ := hy
  show IsZero (Spec.Ieee.div _ _)
  unfold Spec.Ieee.div; dsimp only
  rw [if_neg hn.ne', hm, _root_.zero_div]
  exact round_zero _

theorem add_cancel {s t : Bool} {m n : binary64.Mag} (h : Spec.Ieee.real s m + Spec.Ieee.real t n = 0) :
    (.fin s m + .fin t n : Double) = Spec.Ieee.round (s && t) 0 := by
  show Spec.Ieee.add _ _ = _
  unfold Spec.Ieee.add; dsimp only
  rw [if_pos h]

theorem zero_add {x y : Double} (hx : IsZero x) (hy : IsZero y) : IsZero (x + y) := by
  obtain ⟨s, m, hm, rfl⟩ := hx
  obtain ⟨t, n, hn, rfl⟩ := hy
  rw [add_cancel (by rw [real_zero hm, real_zero hn, add_zero])]
  exact round_zero _

theorem zero_sub {x y : Double} (hx : IsZero x) (hy : IsZero y) : IsZero (x - y) := zero_add hx (zero_neg hy)

theorem sub_self {x : Double} (hx : IsFin x) : x - x = lit 0 := by
  obtain ⟨s, m, rfl⟩ := hx
  show (.fin s m + .fin (!s) m : Double) = _
  have e : Spec.Ieee.real s m + Spec.Ieee.real (!s) m = 0 := by cases s <;> simp [Spec.Ieee.real]
  rw [add_cancel e, Ieee.lit_zero, show (s && !s) = false by cases s <;> rfl]
  exact Ieee.round_mag (⟨0, binary64.zero_mem, binary64.zero_le_top⟩ : binary64.Mag)

theorem add_fin_zero {s t : Bool} {m n : binary64.Mag} (hm : m.1 ≠ 0) (hn : n.1 = 0) :
    (.fin s m + .fin t n : Double) = .fin s m := by
  show Spec.Ieee.add _ _ = _
  unfold Spec.Ieee.add; dsimp only
  have h0 := lt_of_le_of_ne (binary64.nonneg _ m.2.1) (Ne.symm hm)
  rw [real_zero hn, add_zero]
  cases s
  · rw [Ieee.real_false, if_neg hm, decide_eq_false (not_lt.2 h0.le), abs_of_pos h0]
    exact Ieee.round_mag m
  · rw [Ieee.real_true, if_neg (by linarith), decide_eq_true (by linarith), abs_neg, abs_of_pos h0]
    exact Ieee.round_mag m

theorem zero_fin_add {s t : Bool} {m n : binary64.Mag} (hm : m.1 = 0) (hn : n.1 ≠ 0) :
    (.fin s m + .fin t n : Double) = .fin t n := by
  show Spec.Ieee.add _ _ = _
  unfold Spec.Ieee.add; dsimp only
  have h0 := lt_of_le_of_ne (binary64.nonneg _ n.2.1) (Ne.symm hn)
  rw [real_zero hm, _root_.zero_add]
  cases t
  · rw [Ieee.real_false, if_neg hn, decide_eq_false (not_lt.2 h0.le), abs_of_pos h0]
    exact Ieee.round_mag n
  · rw [Ieee.real_true, if_neg (by linarith), decide_eq_true (by linarith), abs_neg, abs_of_pos h0]
    exact Ieee.round_mag n

/-- adding or subtracting a zero changes no bit of a positive number -/
theorem pos_add {x z : Double} (hx : FinitePos x) (hz : IsZero z) : x + z = x := by
  obtain ⟨m, hm, rfl⟩ := hx
  obtain ⟨t, n, hn, rfl⟩ := hz
  exact add_fin_zero hm.ne' hn

theorem pos_sub {x z : Double} (hx : FinitePos x) (hz : IsZero z) : x - z = x := pos_add hx (zero_neg hz)

theorem add_pos {x z : Double} (hx : FinitePos x) (hz : IsZero z) : z + x = x := by
  obtain ⟨m, hm, rfl⟩ := hx
  obtain ⟨t, n, hn, rfl⟩ := hz
  exact zero_fin_add hn hm.ne'

theorem zero_sub_pos {x z : Double} (hx : FinitePos x) (hz : IsZero z) : z - x = -x := by
  obtain ⟨m, hm, rfl⟩ := hx
  obtain ⟨t, n, hn, rfl⟩ := hz
  exact zero_fin_add hn hm.ne'

theorem neg_sub_zero {x z : Double} (hx : FinitePos x) (hz : IsZero z) : -x - z = -x := by
  obtain ⟨m, hm, rfl⟩ := hx
  obtain ⟨t, n, hn, rfl⟩ := hz
  exact add_fin_zero hm.ne' hn

theorem zero_sub_neg {x z : Double} (hx : FinitePos x) (hz : IsZero z) : z - -x = x := by
  obtain ⟨m, hm, rfl⟩ := hx
  obtain ⟨t, n, hn, rfl⟩ := hz
  exact zero_fin_add hn hm.ne'

/-- adding a number to a zero and taking it away gives `+0` -/
theorem zero_add_sub {x z : Double} (hx : IsFin x) (hz : IsZero z) : IsZero (z + x - x) := by
  obtain ⟨s, m, rfl⟩ := hx
  obtain ⟨t, n, hn, rfl⟩ := hz
  by_cases hm : m.1 = 0
  · exact zero_sub (zero_add ⟨t, n, hn, rfl⟩ ⟨s, m, hm, rfl⟩) ⟨s, m, hm, rfl⟩
  · rw [zero_fin_add hn hm, sub_self ⟨s, m, rfl⟩]
    exact zero_lit

theorem zero_fabs {x : Double} (h : IsZero x) : IsZero (fabs x) := by
  obtain ⟨s, m, hm, rfl⟩ := h; exact ⟨false, m, hm, rfl⟩

theorem zero_fmin {x y : Double} (hx : IsZero x) (hy : IsZero y) : IsZero (RealOps.fmin x y) := by
  show IsZero (Spec.Ieee.fmin x y)
  unfold Spec.Ieee.fmin
  split_ifs <;> assumption

theorem zero_fmax {x y : Double} (hx : IsZero x) (hy : IsZero y) : IsZero (RealOps.fmax x y) := by
  show IsZero (Spec.Ieee.fmax x y)
  unfold Spec.Ieee.fmax
  split_ifs <;> assumption

theorem zero_notgt {x : Double} (h : IsZero x) : gtb x (lit 0) = false := by
  obtain ⟨s, m, hm, rfl⟩ := h
  unfold gtb
  rw [Ieee.lit_zero, Bool.eq_false_iff]
  intro h
  have := EReal.coe_lt_coe_iff.1 (Ieee.lt_iff.1 h).2.2
  rw [real_zero hm, Ieee.real_false] at this
  exact absurd this (lt_irrefl _)

theorem neg_notgt {x : Double} (h : FinitePos x) : gtb (-x) (lit 0) = false := by
  obtain ⟨m, hm, rfl⟩ := h
  unfold gtb
  rw [Ieee.lit_zero, Bool.eq_false_iff]
  intro h
  have : (0 : ℝ) < Spec.Ieee.real true m := EReal.coe_lt_coe_iff.1 (Ieee.lt_iff.1 h).2.2
  rw [Ieee.real_true] at this
  linarith

theorem pos_gt {x : Double} (h : FinitePos x) : gtb x (lit 0) = true := by
  obtain ⟨m, hm, rfl⟩ := h
  unfold gtb
  rw [Ieee.lit_zero]
  exact Ieee.lt_iff.2 ⟨rfl, rfl, EReal.coe_lt_coe_iff.2 hm⟩

theorem fmax_same (x : Double) : RealOps.fmax x x = x := by
  show Spec.Ieee.fmax x x = x
  unfold Spec.Ieee.fmax
  split_ifs <;> rfl

/-- `fmax` of numbers in order -/
theorem fmax_left {x y : Double} (h : RealOps.lt y x = true) : RealOps.fmax x y = x := by
  obtain ⟨h1, h2, h3⟩ := Ieee.lt_iff.1 h
  show Spec.Ieee.fmax x y = x
  unfold Spec.Ieee.fmax
  rw [if_neg (by simp [h2]), if_neg (by simp [h1]), if_neg]
  intro h'
  exact absurd (Ieee.lt_iff.1 h').2.2 (not_lt.2 h3.le)

theorem fmax_right {x y : Double} (h : RealOps.lt x y = true) : RealOps.fmax x y = y := by
  obtain ⟨h1, h2, h3⟩ := Ieee.lt_iff.1 h
  show Spec.Ieee.fmax x y = y
  unfold Spec.Ieee.fmax
  rw [if_neg (by simp [h1]), if_neg (by simp [h2]), if_pos (show Spec.Ieee.lt x y = true from h)]

/-- the limited slope of a uniform quantity -/
theorem zero_slope {st q q1 q2 : Double} (hs : IsFin st) (h1 : IsZero (q - q2)) (h2 : IsZero (q1 - q))
    (h3 : IsZero (q1 - q2)) : IsZero (slopeScalarDir st q q1 q2) := by
  unfold slopeScalarDir
  dsimp only
  have hd := mul_zero fin_half h3
  have hm := zero_fmin (zero_fabs (mul_zero hs h1)) (zero_fabs (mul_zero hs h2))
  refine mul_zero ?_ (zero_fmin ?_ (zero_fabs hd))
  · split
    · exact fin_one
    · exact fin_neg_one
  · split
    · exact zero_lit
    · exact hm

end Ieee64
end EulerKokkos
