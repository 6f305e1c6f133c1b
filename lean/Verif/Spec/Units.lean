import Verif.Spec.Scheme3D
import Verif.Core.RealOps

/-!
# Specification: change of units

A change of the units of density, velocity and length, acting on parameters, states, fluxes, fields and
gravity fields.  Time scales like length over velocity, pressure and energy density like density times
velocity squared.
-/

namespace EulerKokkos.Spec

/-- factors by which numbers change when the units of density, velocity and length change -/
structure Units where
  D : ℝ
  V : ℝ
  L : ℝ
  hD : 0 < D
  hV : 0 < V
  hL : 0 < L

namespace Units
variable (U : Units)

/-- factor of times -/
noncomputable def T : ℝ := U.L / U.V

/-- factor of accelerations -/
noncomputable def G : ℝ := U.V ^ 2 / U.L

/-- a primitive state (density, pressure, velocity) in the new units -/
noncomputable def prim (q : HS ℝ) : HS ℝ :=
  ⟨U.D * q.d, U.D * U.V ^ 2 * q.p, U.V * q.u, U.V * q.v, U.V * q.w⟩

/-- a conservative state (density, energy density, momentum density) in the new units -/
noncomputable def cons (q : HS ℝ) : HS ℝ :=
  ⟨U.D * q.d, U.D * U.V ^ 2 * q.p, U.D * U.V * q.u, U.D * U.V * q.v, U.D * U.V * q.w⟩

/-- a flux (of mass, energy, momentum) in the new units -/
noncomputable def flux (q : HS ℝ) : HS ℝ :=
  ⟨U.D * U.V * q.d, U.D * U.V ^ 3 * q.p, U.D * U.V ^ 2 * q.u, U.D * U.V ^ 2 * q.v, U.D * U.V ^ 2 * q.w⟩

/-- the floors in the new units; `gamma0`, `gamma6`, `cfl` and `slope_type` are pure numbers -/
noncomputable def settings (s : Settings ℝ) : Settings ℝ :=
  { s with
    smallr := U.D * s.smallr, smallc := U.V * s.smallc, smallp := U.V ^ 2 * s.smallp
    smallpp := U.D * U.V ^ 2 * s.smallpp, cIso := U.V * s.cIso }

/-- the parameters of a run in the new units -/
noncomputable def params (p : Params ℝ) : Params ℝ :=
  { p with
    tEnd := U.T * p.tEnd
    xmin := U.L * p.xmin, xmax := U.L * p.xmax, ymin := U.L * p.ymin, ymax := U.L * p.ymax
    zmin := U.L * p.zmin, zmax := U.L * p.zmax
    dx := U.L * p.dx, dy := U.L * p.dy, dz := U.L * p.dz
    settings := U.settings p.settings }

/-- a 2D gravity field in the new units -/
noncomputable def grav2 (gf : Grav2 ℝ) : Grav2 ℝ := fun i j => (U.G * (gf i j).1, U.G * (gf i j).2)

/-- a 3D gravity field in the new units -/
noncomputable def grav3 (gf : Grav3 ℝ) : Grav3 ℝ := fun i j k =>
  (U.G * (gf i j k).1, U.G * (gf i j k).2.1, U.G * (gf i j k).2.2)

end Units
end EulerKokkos.Spec
