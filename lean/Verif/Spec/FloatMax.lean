import Verif.Core.RealOps

/-!
# The laws of floating point the maximum reduction relies on

The time step is a maximum over the cells, taken by threads in an unspecified order.  In floating point the
result is nevertheless unique, because a handful of facts of IEEE 754 arithmetic hold *exactly* (without
rounding error).  `MaxLaws R num sg` lists them, for a type `R` of numbers and two sets:

* `num x`: `x` is not a NaN and not the negative zero,
* `sg x`: the sign bit of `x` is clear, or `x` is a NaN.

All of them are theorems of IEEE 754 binary arithmetic with rounding to nearest, infinities and NaNs included
(in particular `sqrt x + fabs y` is never the negative zero, although `sqrt (-0)` is), and of exact
arithmetic (`maxLaws_real`).  Nothing else is assumed of `R`: no associativity, no distributivity, no rounding
model.
-/

namespace EulerKokkos
namespace Spec

/-- exact facts about `fmax`, `<` and signs; see the file header -/
structure MaxLaws (R : Type) [RealOps R] (num sg : R → Prop) : Prop where
  /-- `fmax` of two numbers is the larger -/
  max_num : ∀ a x : R, num a → num x → fmax a x = if RealOps.lt a x then x else a
  /-- `fmax` ignores a NaN -/
  max_nan : ∀ a x : R, num a → ¬ num x → sg x → fmax a x = a
  /-- `<` is a strict total order on numbers -/
  asymm : ∀ a b : R, num a → num b → RealOps.lt a b = true → RealOps.lt b a = false
  trans : ∀ a b c : R, num a → num b → num c → RealOps.lt a b = true → RealOps.lt b c = true →
    RealOps.lt a c = true
  total : ∀ a b : R, num a → num b → RealOps.lt a b = false → RealOps.lt b a = false → a = b
  /-- signs -/
  sg_zero : sg (lit 0)
  sg_speed : ∀ x y : R, sg (RealOps.sqrt x + fabs y)
  sg_add : ∀ x y : R, sg x → sg y → sg (x + y)
  sg_mul : ∀ x y : R, sg x → sg y → sg (x * y)
  sg_div : ∀ x y : R, sg x → sg y → sg (x / y)
  sg_min : ∀ x y : R, sg x → sg y → sg (fmin x y)
  /-- the correction of the gravity time step, `k ↦ sqrt(1 + 2 k) - 1` with `k` at least `1e-4` -/
  sg_floor : ∀ x : R, sg (fmax x (lit (1 / 10000)))
  sg_grav : ∀ x : R, sg (RealOps.sqrt (lit 1 + lit 2 * fmax x (lit (1 / 10000))) - lit 1)

end Spec
end EulerKokkos
