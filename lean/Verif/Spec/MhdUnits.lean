import Verif.Spec.Units
import Verif.Spec.MhdSimulation

/-!
# Specification: change of units with a magnetic field

Factors of density, velocity and length; the density factor is written as a square `r²` (every positive number is
one).  The equations fix the factor of the magnetic field: `B²/2` is a pressure, so the field scales like `r V`.
-/

namespace EulerKokkos.Spec

/-- factors by which numbers change; the density factor is `r ^ 2` -/
structure MhdUnits where
  r : ℝ
  V : ℝ
  L : ℝ
  hr : 0 < r
  hV : 0 < V
  hL : 0 < L

namespace MhdUnits
variable (U : MhdUnits)

/-- the factors of density, velocity and length -/
noncomputable def units : Units := ⟨U.r ^ 2, U.V, U.L, pow_pos U.hr 2, U.hV, U.hL⟩

/-- factor of the magnetic field -/
noncomputable def B : ℝ := U.r * U.V

/-- factor of times -/
noncomputable def T : ℝ := U.L / U.V

/-- a primitive state (density, pressure, velocity, field) in the new units -/
noncomputable def prim (q : MS ℝ) : MS ℝ :=
  ⟨U.r ^ 2 * q.d, U.r ^ 2 * U.V ^ 2 * q.p, U.V * q.u, U.V * q.v, U.V * q.w, U.B * q.a, U.B * q.b, U.B * q.c⟩

/-- a conservative state (density, energy density, momentum density, field) in the new units -/
noncomputable def cons (q : MS ℝ) : MS ℝ :=
  ⟨U.r ^ 2 * q.d, U.r ^ 2 * U.V ^ 2 * q.p, U.r ^ 2 * U.V * q.u, U.r ^ 2 * U.V * q.v, U.r ^ 2 * U.V * q.w,
    U.B * q.a, U.B * q.b, U.B * q.c⟩

/-- a flux (of mass, energy, momentum, field) in the new units -/
noncomputable def flux (q : MS ℝ) : MS ℝ :=
  ⟨U.r ^ 2 * U.V * q.d, U.r ^ 2 * U.V ^ 3 * q.p, U.r ^ 2 * U.V ^ 2 * q.u, U.r ^ 2 * U.V ^ 2 * q.v,
    U.r ^ 2 * U.V ^ 2 * q.w, U.B * U.V * q.a, U.B * U.V * q.b, U.B * U.V * q.c⟩

/-- the parameters of a run in the new units -/
noncomputable def params (p : Params ℝ) : Params ℝ := U.units.params p

end MhdUnits
end EulerKokkos.Spec
