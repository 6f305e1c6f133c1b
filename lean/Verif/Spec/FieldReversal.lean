import Verif.Model.MhdState

/-!
# Reversing the magnetic field

Specification of the symmetry `B → -B` of ideal magnetohydrodynamics: density, momentum, energy and pressure
keep their values, the three magnetic components change sign.
-/

namespace EulerKokkos.Spec

/-- the state (primitive or conservative) with the opposite magnetic field -/
def reverseB (q : MS ℝ) : MS ℝ := ⟨q.d, q.p, q.u, q.v, q.w, -q.a, -q.b, -q.c⟩

end EulerKokkos.Spec
