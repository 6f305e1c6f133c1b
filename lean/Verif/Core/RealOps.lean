import Mathlib.Analysis.Real.Sqrt

/-!
# Arithmetic interface

`/repo/src/shared/real_type.h` defines `real_t` (`double`, or `float` when
`EULER_KOKKOS_USE_DOUBLE` is off) and the constants `ZERO_F`, `HALF_F`, `ONE_F`, `TWO_F`.
The model is generic over the number type.  `RealOps` lists the operations the C++ code applies
to `real_t`, **without any law**: a theorem about a generic `R` therefore also covers IEEE-754
numbers.  Two instances are given: `ℝ` (exact arithmetic) and `Float` (executable, IEEE double).
-/

namespace EulerKokkos

/-- Operations on `real_t` used by the code (`fmax`, `fmin`, `fabs`, `sqrt`, comparisons,
literals; see `/repo/src/shared/real_type.h:20-90`).  No laws. -/
class RealOps (R : Type) extends Add R, Sub R, Mul R, Div R, Neg R where
  /-- a decimal literal of the source text -/
  lit : ℚ → R
  /-- C `fmax` -/
  fmax : R → R → R
  /-- C `fmin` -/
  fmin : R → R → R
  /-- C `fabs` -/
  fabs : R → R
  /-- C `sqrt` -/
  sqrt : R → R
  /-- C `<` -/
  lt : R → R → Bool
  /-- C `<=` -/
  le : R → R → Bool
  /-- C `==` -/
  beq : R → R → Bool
  /-- C `copysign` (`COPYSIGN`, `/repo/src/shared/real_type.h`) -/
  copysign : R → R → R

export RealOps (lit fmax fmin fabs)

/-- Exact real arithmetic.  `copysign a b` has the magnitude of `a` and the sign of `b`
(`b = 0` counts as positive: `+0.0`). -/
noncomputable instance instRealOpsReal : RealOps ℝ where
  toAdd := inferInstance
  toSub := inferInstance
  toMul := inferInstance
  toDiv := inferInstance
  toNeg := inferInstance
  lit q := (q : ℝ)
  fmax := max
  fmin := min
  fabs x := |x|
  sqrt := Real.sqrt
  lt a b := @decide (a < b) (Classical.propDecidable _)
  le a b := @decide (a ≤ b) (Classical.propDecidable _)
  beq a b := @decide (a = b) (Classical.propDecidable _)
  copysign a b := if 0 ≤ b then |a| else -|a|

/-- IEEE-754 double, for running the model. C's `fmax`/`fmin` ignore one NaN. -/
instance instRealOpsFloat : RealOps Float where
  toAdd := inferInstance
  toSub := inferInstance
  toMul := inferInstance
  toDiv := inferInstance
  toNeg := inferInstance
  lit q := Float.ofInt q.num / Float.ofNat q.den
  fmax a b := if a.isNaN then b else if b.isNaN then a else if a < b then b else a
  fmin a b := if a.isNaN then b else if b.isNaN then a else if b < a then b else a
  fabs := Float.abs
  sqrt := Float.sqrt
  lt a b := a < b
  le a b := a ≤ b
  beq a b := a == b
  copysign a b := if b < 0 then -Float.abs a else Float.abs a

namespace RealOps

@[simp] theorem lit_real (q : ℚ) : (lit q : ℝ) = (q : ℝ) := rfl
@[simp] theorem fmax_real (a b : ℝ) : fmax a b = max a b := rfl
@[simp] theorem fmin_real (a b : ℝ) : fmin a b = min a b := rfl
@[simp] theorem fabs_real (a : ℝ) : fabs a = |a| := rfl
@[simp] theorem sqrt_real (a : ℝ) : RealOps.sqrt a = Real.sqrt a := rfl
@[simp] theorem lt_real (a b : ℝ) : (RealOps.lt a b = true) ↔ a < b := by
  simp [RealOps.lt]
@[simp] theorem le_real (a b : ℝ) : (RealOps.le a b = true) ↔ a ≤ b := by
  simp [RealOps.le]
@[simp] theorem beq_real (a b : ℝ) : (RealOps.beq a b = true) ↔ a = b := by
  simp [RealOps.beq]
theorem copysign_real (a b : ℝ) : RealOps.copysign a b = if 0 ≤ b then |a| else -|a| := rfl

end RealOps

end EulerKokkos
