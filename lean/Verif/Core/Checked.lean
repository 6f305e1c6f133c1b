import Verif.Core.RealOps

/-!
# Checked arithmetic

`Chk` is exact real arithmetic with one extra value `bad`, the result of an undefined operation: a
division by zero or the square root of a negative number (where IEEE arithmetic produces an infinity or a
NaN and where `ℝ` in Lean silently returns `0`).  `bad` is contagious, except that a comparison with
`bad` is false, as it is for NaN.  A theorem saying that a computation in `Chk` on ordinary numbers returns
ordinary numbers says that its result does not depend on any undefined operation.
-/

namespace EulerKokkos

/-- real numbers with a value for undefined results -/
inductive Chk
  | ok (x : ℝ)
  | bad

namespace Chk

/-- unary operation -/
noncomputable def map1 (f : ℝ → ℝ) : Chk → Chk
  | ok x => ok (f x)
  | bad => bad

/-- binary operation -/
noncomputable def map2 (f : ℝ → ℝ → ℝ) : Chk → Chk → Chk
  | ok x, ok y => ok (f x y)
  | _, _ => bad

/-- comparison -/
noncomputable def cmp (f : ℝ → ℝ → Bool) : Chk → Chk → Bool
  | ok x, ok y => f x y
  | _, _ => false

open Classical in
/-- division -/
noncomputable def div : Chk → Chk → Chk
  | ok x, ok y => if y = 0 then bad else ok (x / y)
  | _, _ => bad

open Classical in
/-- square root -/
noncomputable def sqrt : Chk → Chk
  | ok x => if x < 0 then bad else ok (Real.sqrt x)
  | bad => bad

end Chk

noncomputable instance instRealOpsChk : RealOps Chk where
  add := Chk.map2 (· + ·)
  sub := Chk.map2 (· - ·)
  mul := Chk.map2 (· * ·)
  div := Chk.div
  neg := Chk.map1 (- ·)
  lit q := .ok q
  fmax := Chk.map2 max
  fmin := Chk.map2 min
  fabs := Chk.map1 (fun x => |x|)
  sqrt := Chk.sqrt
  lt := Chk.cmp RealOps.lt
  le := Chk.cmp RealOps.le
  beq := Chk.cmp RealOps.beq
  copysign := Chk.map2 RealOps.copysign

namespace Chk

variable (a b : ℝ)

theorem ok_add : (ok a + ok b : Chk) = ok (a + b) := rfl
theorem ok_sub : (ok a - ok b : Chk) = ok (a - b) := rfl
theorem ok_mul : (ok a * ok b : Chk) = ok (a * b) := rfl
theorem ok_neg : (-ok a : Chk) = ok (-a) := rfl
theorem ok_lit (q : ℚ) : (lit q : Chk) = ok (lit q) := rfl
theorem ok_fmax : fmax (ok a) (ok b) = ok (fmax a b) := rfl
theorem ok_fmin : fmin (ok a) (ok b) = ok (fmin a b) := rfl
theorem ok_fabs : fabs (ok a) = ok (fabs a) := rfl
theorem ok_lt : RealOps.lt (ok a) (ok b) = RealOps.lt a b := rfl
theorem ok_le : RealOps.le (ok a) (ok b) = RealOps.le a b := rfl
theorem ok_beq : RealOps.beq (ok a) (ok b) = RealOps.beq a b := rfl
theorem ok_copysign : RealOps.copysign (ok a) (ok b) = ok (RealOps.copysign a b) := rfl
variable {a b}
theorem ok_div (h : b ≠ 0) : (ok a / ok b : Chk) = ok (a / b) := by
  change Chk.div _ _ = _
  simp [Chk.div, h]
theorem ok_sqrt (h : 0 ≤ a) : RealOps.sqrt (ok a) = ok (RealOps.sqrt a) := by
  change Chk.sqrt _ = _
  simp [Chk.sqrt, not_lt.2 h]
theorem div_zero : (ok a / ok 0 : Chk) = bad := by
  change Chk.div _ _ = _
  simp [Chk.div]
theorem ite_ok (c : Bool) (a b : ℝ) :
    (if c = true then ok a else ok b : Chk) = ok (if c = true then a else b) := by
  cases c <;> rfl
theorem bad_add (x : Chk) : bad + x = bad := rfl
theorem add_bad (x : Chk) : x + bad = bad := by cases x <;> rfl
theorem bad_sub (x : Chk) : bad - x = bad := rfl
theorem sub_bad (x : Chk) : x - bad = bad := by cases x <;> rfl
theorem bad_mul (x : Chk) : bad * x = bad := rfl
theorem mul_bad (x : Chk) : x * bad = bad := by cases x <;> rfl
theorem bad_div (x : Chk) : bad / x = bad := rfl
theorem div_bad (x : Chk) : x / bad = bad := by cases x <;> rfl

end Chk

end EulerKokkos
