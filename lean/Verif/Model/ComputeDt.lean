import Verif.Core.Reduce
import Verif.Model.Hydro3D
import Verif.Model.HydroStep

/-!
# The CFL time step

Models `ComputeDtFunctor2D/3D`, `ComputeDtGravityFunctor2D/3D` and
`SolverHydroMuscl::compute_dt_local`.
-/

set_option linter.constructorNameAsVariable false

namespace EulerKokkos

variable {R : Type} [RealOps R]
open Prog (rd)

/-- `ComputeDtFunctor2D::operator()`, `/repo/src/muscl/HydroRunFunctors2D.h:46-78`; `acc` is the
reduction variable `invDt`. -/
def computeDt2 (p : Params R) (U : Arr) (t : Int × Int) (acc : R) : Prog Arr R R :=
  if cellGuard2 p t then do
    let uLoc ← getHS2 U t.1 t.2
    let qc := computePrimitives2 p.settings uLoc
    let vx := qc.2 + fabs qc.1.u
    let vy := qc.2 + fabs qc.1.v
    pure (fmax acc (vx / p.dx + vy / p.dy))
  else pure acc

/-- `ComputeDtGravityFunctor2D::operator()`, `/repo/src/muscl/HydroRunFunctors2D.h:124-173`. -/
def computeDtGravity2 (p : Params R) (cfl : R) (grav U : Arr) (t : Int × Int) (acc : R) :
    Prog Arr R R :=
  let dx := fmin p.dx p.dy
  if cellGuard2 p t then do
    let uLoc ← getHS2 U t.1 t.2
    let qc := computePrimitives2 p.settings uLoc
    let velocity : R := lit 0
    let velocity := velocity + (qc.2 + fabs qc.1.u)
    let velocity := velocity + (qc.2 + fabs qc.1.v)
    let gx ← rd ⟨grav, t.1, t.2, 0, IX⟩
    let gy ← rd ⟨grav, t.1, t.2, 0, IY⟩
    let k := fabs gx + fabs gy
    let k := k * (cfl * dx / (velocity * velocity))
    let k := fmax k (lit (1/10000))
    let velocity := velocity * (k / (RealOps.sqrt (lit 1 + lit 2 * k) - lit 1))
    pure (fmax acc (velocity / dx))
  else pure acc

/-- `ComputeDtFunctor3D::operator()`, `/repo/src/muscl/HydroRunFunctors3D.h:44-83`. -/
def computeDt3 (p : Params R) (U : Arr) (t : Int × Int × Int) (acc : R) : Prog Arr R R :=
  if cellGuard3 p t then do
    let uLoc ← getHS3 U t.1 t.2.1 t.2.2
    let qc := computePrimitives3 p.settings uLoc
    let vx := qc.2 + fabs qc.1.u
    let vy := qc.2 + fabs qc.1.v
    let vz := qc.2 + fabs qc.1.w
    pure (fmax acc (vx / p.dx + vy / p.dy + vz / p.dz))
  else pure acc

/-- `ComputeDtGravityFunctor3D::operator()`, `/repo/src/muscl/HydroRunFunctors3D.h:133-188`. -/
def computeDtGravity3 (p : Params R) (cfl : R) (grav U : Arr) (t : Int × Int × Int) (acc : R) :
    Prog Arr R R :=
  let dx := fmin p.dx p.dy
  let dx := fmin dx p.dz
  if cellGuard3 p t then do
    let uLoc ← getHS3 U t.1 t.2.1 t.2.2
    let qc := computePrimitives3 p.settings uLoc
    let velocity : R := lit 0
    let velocity := velocity + (qc.2 + fabs qc.1.u)
    let velocity := velocity + (qc.2 + fabs qc.1.v)
    let velocity := velocity + (qc.2 + fabs qc.1.w)
    let gx ← rd ⟨grav, t.1, t.2.1, t.2.2, IX⟩
    let gy ← rd ⟨grav, t.1, t.2.1, t.2.2, IY⟩
    let gz ← rd ⟨grav, t.1, t.2.1, t.2.2, IZ⟩
    let k := fabs gx + fabs gy + fabs gz
    let k := k * (cfl * dx / (velocity * velocity))
    let k := fmax k (lit (1/10000))
    let velocity := velocity * (k / (RealOps.sqrt (lit 1 + lit 2 * k) - lit 1))
    pure (fmax acc (velocity / dx))
  else pure acc

/-- `Kokkos::Max<real_t>::join`: `if (dest < src) dest = src`. -/
def kokkosMaxJoin (dest src : R) : R := if RealOps.lt dest src then src else dest

/-- `SolverHydroMuscl<2>::compute_dt_local`, `/repo/src/muscl/SolverHydroMuscl.h:589-631`, as a
relation to its result (any schedule of the reduction).  `ident` is the identity of `Kokkos::Max`
(the lowest finite number).  The view is the current one, `pingIn iteration`. -/
def computeDtLocal2 (p : Params R) (g : GravityParams) (ident : R) (iteration : Nat)
    (m : Mem Arr R) (dt : R) : Prop :=
  let S := range2 p.isize p.jsize
  let U := pingIn iteration
  ∃ invDt,
    (if g.enabled then
      ParReduce S (computeDtGravity2 p p.settings.cfl .grav U) kokkosMaxJoin ident m invDt
    else ParReduce S (computeDt2 p U) kokkosMaxJoin ident m invDt) ∧
    dt = p.settings.cfl / invDt

/-- `SolverHydroMuscl<3>::compute_dt_local`, `/repo/src/muscl/SolverHydroMuscl.h:589-631`. -/
def computeDtLocal3 (p : Params R) (g : GravityParams) (ident : R) (iteration : Nat)
    (m : Mem Arr R) (dt : R) : Prop :=
  let S := range3 p.isize p.jsize p.ksize
  let U := pingIn iteration
  ∃ invDt,
    (if g.enabled then
      ParReduce S (computeDtGravity3 p p.settings.cfl .grav U) kokkosMaxJoin ident m invDt
    else ParReduce S (computeDt3 p U) kokkosMaxJoin ident m invDt) ∧
    dt = p.settings.cfl / invDt

end EulerKokkos
