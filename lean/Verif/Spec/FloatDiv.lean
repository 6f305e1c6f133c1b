import Verif.Spec.FloatMax

/-!
# Facts about minimum and quotient used for the time step of the MPI build

`compute_dt_local` returns `cfl / invDt` and the processes combine their values with `MPI_MIN`
(`/repo/src/shared/SolverBase.cpp:125-146`); the serial build takes the largest `invDt` first and divides once.  That the
two agree to the last bit needs three facts about the arithmetic, met by exact arithmetic and by every arithmetic whose
quotient is correctly rounded in a fixed direction or to nearest (for a finite positive `c`, infinite and subnormal
divisors included).  As in `MaxLaws`, `num x` says that `x` is neither a NaN nor a negative zero.
-/

namespace EulerKokkos.Spec

/-- exact facts about `fmin` and about the quotients `c / a` of the (finite, positive) Courant number `c` by the rates `a`
with `pos a`: the positive numbers in any arithmetic, the numbers that are not negative in IEEE 754 (where `c / 0` is
infinite); see the file header -/
structure DivLaws (R : Type) [RealOps R] (num pos : R → Prop) (c : R) : Prop where
  /-- a rate is a number -/
  pos_num : ∀ a : R, pos a → num a
  /-- a number not smaller than a rate is one -/
  pos_up : ∀ a b : R, pos a → num b → RealOps.lt b a = false → pos b
  /-- the minimum of two numbers is the smaller -/
  min_num : ∀ a b : R, num a → num b → fmin a b = if RealOps.lt b a then b else a
  /-- the quotient of `c` and a rate is a number -/
  div_num : ∀ a : R, pos a → num (c / a)
  /-- a larger divisor does not give a larger quotient -/
  div_anti : ∀ a b : R, pos a → pos b → RealOps.lt a b = false → RealOps.lt (c / b) (c / a) = false

end EulerKokkos.Spec
