import Verif.Spec.FloatDiv
import Verif.Spec.Decomposition
import Verif.Model.Hydro2D
import Verif.Model.Hydro3D
import Verif.Model.Mhd2D

/-!
# The inverse time step required by one cell, operation by operation

Formulas of the `ComputeDt` functors as functions of the state of one cell, in any arithmetic.
-/

namespace EulerKokkos.Spec

variable {R : Type} [RealOps R]

/-- the rate with the gravity correction: velocity `vel`, acceleration `acc`, cell size `h` -/
def gravRate (cfl h vel acc : R) : R :=
  let k := fmax (acc * (cfl * h / (vel * vel))) (lit (1 / 10000))
  vel * (k / (RealOps.sqrt (lit 1 + lit 2 * k) - lit 1)) / h

/-- inverse time step of a cell with conserved state `u` and acceleration `(gx, gy)` (2D hydro) -/
def cellRate2 (p : Params R) (g : GravityParams) (u : HS R) (a : R × R) : R :=
  let q := (computePrimitives2 p.settings u).1
  let c := (computePrimitives2 p.settings u).2
  if g.enabled then
    gravRate p.settings.cfl (fmin p.dx p.dy) (lit 0 + (c + fabs q.u) + (c + fabs q.v)) (fabs a.1 + fabs a.2)
  else (c + fabs q.u) / p.dx + (c + fabs q.v) / p.dy

/-- the same in 3D -/
def cellRate3 (p : Params R) (g : GravityParams) (u : HS R) (a : R × R × R) : R :=
  let q := (computePrimitives3 p.settings u).1
  let c := (computePrimitives3 p.settings u).2
  if g.enabled then
    gravRate p.settings.cfl (fmin (fmin p.dx p.dy) p.dz)
      (lit 0 + (c + fabs q.u) + (c + fabs q.v) + (c + fabs q.w)) (fabs a.1 + fabs a.2.1 + fabs a.2.2)
  else (c + fabs q.u) / p.dx + (c + fabs q.v) / p.dy + (c + fabs q.w) / p.dz

/-- inverse time step of a cell with primitive state `q` (2D MHD) -/
def cellRateM2 (p : Params R) (q : MS R) : R :=
  let s := findSpeedInfo p.settings q
  s.1 / p.dx + s.2.1 / p.dy

/-- inverse time step of a cell with primitive state `q` (3D MHD) -/
def cellRateM3 (p : Params R) (q : MS R) : R :=
  let s := findSpeedInfo p.settings q
  s.1 / p.dx + s.2.1 / p.dy + s.2.2 / p.dz

/-- a number greater than zero -/
def PosNum (num : R → Prop) (x : R) : Prop := num x ∧ RealOps.lt (lit 0) x = true

end EulerKokkos.Spec
