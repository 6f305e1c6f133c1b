import Verif.Spec.MhdRiemann

/-!
# Primitive variables of a cell with its magnetic field on the faces

`U` holds the conserved variables of a cell: mass, total energy (thermal, kinetic and magnetic),
momentum, and the magnetic field on its lower faces; `bx`, `by`, `bz` is the field on its upper faces.
-/

namespace EulerKokkos.Spec

/-- `q` are the primitive variables of the cell: density not below the floor, velocity = momentum over
density, magnetic field = mean of the two faces, pressure from the thermal energy (total minus kinetic
minus magnetic), not below the floor. -/
structure PrimitivesOf (s : Settings ℝ) (U : MS ℝ) (bx by' bz : ℝ) (q : MS ℝ) : Prop where
  d : q.d = max U.d s.smallr
  u : q.d * q.u = U.u
  v : q.d * q.v = U.v
  w : q.d * q.w = U.w
  a : q.a = (U.a + bx) / 2
  b : q.b = (U.b + by') / 2
  c : q.c = (U.c + bz) / 2
  p : q.p = max ((s.gamma0 - 1) * (U.p - q.d * (q.u ^ 2 + q.v ^ 2 + q.w ^ 2) / 2 -
    (q.a ^ 2 + q.b ^ 2 + q.c ^ 2) / 2)) (q.d * s.smallp)

/-- the conserved contents of a cell in the state `q` whose lower faces carry the field `l` -/
noncomputable def cellContents (γ : ℝ) (q : MS ℝ) (l : BF ℝ) : MS ℝ :=
  { mhdCons γ q with a := l.x, b := l.y, c := l.z }

end EulerKokkos.Spec
