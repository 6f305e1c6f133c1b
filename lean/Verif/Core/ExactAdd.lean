import Verif.Core.Checked
import Mathlib.Algebra.BigOperators.Group.Finset.Basic

/-!
# Number types whose addition is exact

The atomic accumulations of the code add several contributions in an arbitrary order, so their result is
determined only when the addition is associative and commutative.  `ExactAdd` lists the laws the
proofs about them use; exact arithmetic (`ℝ`) has them and so has checked arithmetic (`Chk`), where `bad`
absorbs everything.  IEEE addition does not, and no theorem using `ExactAdd` speaks about it.
-/

namespace EulerKokkos

/-- the reciprocal -/
def recip {R : Type} [RealOps R] (a : R) : R := lit 1 / a

/-- laws of exact addition, subtraction and negation, and those laws of multiplication and division that
hold whatever the operands (in `Chk`: also when one of them is `bad`; so there is no `0 * a = 0` and no
`a / a = 1`, and `a + -a = 0` does not hold either) -/
class ExactAdd (R : Type) [RealOps R] : Prop where
  add_assoc' (a b c : R) : a + b + c = a + (b + c)
  add_comm' (a b : R) : a + b = b + a
  zero_add' (a : R) : lit 0 + a = a
  sub_eq' (a b : R) : a - b = a + -b
  neg_add' (a b : R) : -(a + b) = -a + -b
  neg_neg' (a : R) : - -a = a
  neg_zero' : -(lit 0 : R) = lit 0
  neg_unique' (a b : R) (h : a + b = lit 0) : -a = b
  neg_mul' (a b : R) : -a * b = -(a * b)
  mul_neg' (a b : R) : a * -b = -(a * b)
  add_mul' (a b c : R) : (a + b) * c = a * c + b * c
  mul_comm' (a b : R) : a * b = b * a
  mul_assoc' (a b c : R) : a * b * c = a * (b * c)
  div_eq' (a b : R) : a / b = a * recip b
  one_mul' (a : R) : lit 1 * a = a
  neg_one_mul' (a : R) : lit (-1) * a = -a

/-- the additive structure behind `ExactAdd` -/
@[reducible] def ExactAdd.monoid (R : Type) [RealOps R] [ExactAdd R] : SubtractionCommMonoid R where
  add_assoc := ExactAdd.add_assoc'
  zero := lit 0
  zero_add := ExactAdd.zero_add'
  add_zero a := (ExactAdd.add_comm' a _).trans (ExactAdd.zero_add' a)
  nsmul := @nsmulRec R ⟨lit 0⟩ _
  zsmul := @zsmulRec R ⟨lit 0⟩ _ _ (@nsmulRec R ⟨lit 0⟩ _)
  sub_eq_add_neg := ExactAdd.sub_eq'
  neg_neg := ExactAdd.neg_neg'
  neg_add_rev a b := (ExactAdd.neg_add' a b).trans (ExactAdd.add_comm' _ _)
  neg_eq_of_add a b h := ExactAdd.neg_unique' a b h
  add_comm := ExactAdd.add_comm'

instance : ExactAdd ℝ where
  add_assoc' := add_assoc
  add_comm' := add_comm
  zero_add' a := by simp
  sub_eq' := sub_eq_add_neg
  neg_add' := neg_add
  neg_neg' := neg_neg
  neg_zero' := by simp
  neg_unique' a b h := by
    simp only [RealOps.lit_real, Rat.cast_zero] at h
    exact neg_eq_of_add_eq_zero_right h
  neg_mul' := neg_mul
  mul_neg' := mul_neg
  add_mul' := add_mul
  mul_comm' := mul_comm
  mul_assoc' := mul_assoc
  div_eq' a b := by simp [recip, div_eq_mul_inv]
  one_mul' a := by simp
  neg_one_mul' a := by simp

instance : ExactAdd Chk where
  add_assoc' a b c := by
    cases a <;> cases b <;> cases c <;> first | rfl | simp only [Chk.ok_add, add_assoc]
  add_comm' a b := by cases a <;> cases b <;> first | rfl | simp only [Chk.ok_add, add_comm]
  zero_add' a := by cases a <;> first | rfl | simp only [Chk.ok_add, Chk.ok_lit, RealOps.lit_real, Rat.cast_zero, zero_add]
  sub_eq' a b := by cases a <;> cases b <;> first | rfl | simp only [Chk.ok_add, Chk.ok_sub, Chk.ok_neg, sub_eq_add_neg]
  neg_add' a b := by cases a <;> cases b <;> first | rfl | simp only [Chk.ok_add, Chk.ok_neg, neg_add]
  neg_neg' a := by cases a <;> first | rfl | simp only [Chk.ok_neg, neg_neg]
  neg_zero' := by simp only [Chk.ok_lit, Chk.ok_neg, RealOps.lit_real, Rat.cast_zero, neg_zero]
  neg_unique' a b h := by
    cases a <;> cases b <;> first | (exfalso; cases h; done) | skip
    simp only [Chk.ok_lit, Chk.ok_add, RealOps.lit_real, Rat.cast_zero, Chk.ok.injEq] at h
    rw [Chk.ok_neg, neg_eq_of_add_eq_zero_right h]
  neg_mul' a b := by cases a <;> cases b <;> first | rfl | simp only [Chk.ok_mul, Chk.ok_neg, neg_mul]
  mul_neg' a b := by cases a <;> cases b <;> first | rfl | simp only [Chk.ok_mul, Chk.ok_neg, mul_neg]
  add_mul' a b c := by cases a <;> cases b <;> cases c <;> first | rfl | simp only [Chk.ok_add, Chk.ok_mul, add_mul]
  mul_comm' a b := by cases a <;> cases b <;> first | rfl | simp only [Chk.ok_mul, mul_comm]
  mul_assoc' a b c := by
    cases a <;> cases b <;> cases c <;> first | rfl | simp only [Chk.ok_mul, mul_assoc]
  div_eq' a b := by
    rcases b with b | _
    · by_cases hb : b = 0
      · subst hb
        unfold recip
        rw [Chk.ok_lit, Chk.div_zero, Chk.mul_bad]
        cases a
        · exact Chk.div_zero
        · rfl
      · unfold recip
        rw [Chk.ok_lit, Chk.ok_div hb]
        cases a
        · rw [Chk.ok_div hb, Chk.ok_mul]; simp [div_eq_mul_inv]
        · rfl
    · unfold recip
      rw [Chk.div_bad, Chk.div_bad, Chk.mul_bad]
  one_mul' a := by
    cases a
    · rw [Chk.ok_lit, Chk.ok_mul]; simp
    · exact Chk.mul_bad _
  neg_one_mul' a := by
    cases a
    · rw [Chk.ok_lit, Chk.ok_mul, Chk.ok_neg]; simp
    · exact Chk.mul_bad _

attribute [local instance] ExactAdd.monoid in
/-- the zero of the sums is the literal `0.0` -/
theorem ExactAdd.zero_def (R : Type) [RealOps R] [ExactAdd R] : (0 : R) = lit 0 := rfl

theorem ExactAdd.add_zero' {R : Type} [RealOps R] [ExactAdd R] (a : R) : a + lit 0 = a :=
  (ExactAdd.add_comm' a _).trans (ExactAdd.zero_add' a)

theorem ExactAdd.add_left_comm' {R : Type} [RealOps R] [ExactAdd R] (a b c : R) :
    a + (b + c) = b + (a + c) := by
  rw [← ExactAdd.add_assoc', ExactAdd.add_comm' a b, ExactAdd.add_assoc']

/-- multiplying by `c` sends zero to zero; in `Chk`: `c` is a number -/
def ZeroMul {R : Type} [RealOps R] (c : R) : Prop := lit 0 * c = lit 0

theorem zeroMul_real (c : ℝ) : ZeroMul c := by simp [ZeroMul]

theorem zeroMul_ok (c : ℝ) : ZeroMul (Chk.ok c) := by
  unfold ZeroMul
  rw [Chk.ok_lit, Chk.ok_mul]
  simp

/-- equality of two sums of the same contributions -/
macro "exact_add" : tactic => `(tactic|
  first | rfl | (simp only [ExactAdd.sub_eq', ExactAdd.neg_add', ExactAdd.neg_neg', ExactAdd.neg_mul', ExactAdd.mul_neg',
    ExactAdd.add_mul', ExactAdd.zero_def, ExactAdd.neg_zero', ExactAdd.zero_add', ExactAdd.add_zero',
    ExactAdd.add_assoc', ExactAdd.add_comm', ExactAdd.add_left_comm']; done))

theorem ExactAdd.mul_add' {R : Type} [RealOps R] [ExactAdd R] (a b c : R) :
    a * (b + c) = a * b + a * c := by
  rw [ExactAdd.mul_comm', ExactAdd.add_mul', ExactAdd.mul_comm' b, ExactAdd.mul_comm' c]

theorem ExactAdd.mul_left_comm' {R : Type} [RealOps R] [ExactAdd R] (a b c : R) :
    a * (b * c) = b * (a * c) := by
  rw [← ExactAdd.mul_assoc', ExactAdd.mul_comm' a b, ExactAdd.mul_assoc']

/-- polynomial identities without cancellation -/
macro "exact_ring" : tactic => `(tactic|
  first | rfl | (simp only [ExactAdd.sub_eq', ExactAdd.neg_add', ExactAdd.neg_neg', ExactAdd.neg_mul', ExactAdd.mul_neg',
    ExactAdd.add_mul', ExactAdd.mul_add', ExactAdd.zero_def, ExactAdd.neg_zero', ExactAdd.zero_add', ExactAdd.add_zero',
    ExactAdd.div_eq', ExactAdd.mul_assoc', ExactAdd.mul_comm', ExactAdd.mul_left_comm',
    ExactAdd.add_assoc', ExactAdd.add_comm', ExactAdd.add_left_comm']; done))

end EulerKokkos
