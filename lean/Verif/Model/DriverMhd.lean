import Verif.Model.Driver
import Verif.Model.Mhd3D

/-!
# The MHD solvers under the run driver

`SolverMHDMuscl` plugged into the driver of `Verif.Model.Driver`: the ghost cells are filled and the
primitive variables computed before `compute_dt`, which reads the primitive variables.
-/

set_option linter.constructorNameAsVariable false

namespace EulerKokkos

variable {R : Type} [RealOps R]

/-- the 2D MHD solver: end of the constructor `/repo/src/muscl/SolverMHDMuscl.h:384-397`
(`make_boundaries(U)`, `deep_copy(U2, U)`, `convertToPrimitives(U)`, which are the launches of
`preMhd2`), `compute_dt_local` `:718-737`, `next_iteration_impl` and `godunov_unsplit` `:741-800`,
`/repo/src/muscl/SolverMHDMuscl.cpp:365-455` -/
def mhdOps2 (p : Params R) (ident : R) (jk : JunkM R) : SolverOps R where
  pre n := runLaunches (preMhd2 p (pingIn n) (pingOut n))
  dtLocal _ m d := computeDtLocalMhd2 p ident m d
  post n dt := runLaunches (postMhd2 p dt jk (pingIn n) (pingOut n))
  setup := runLaunches (preMhd2 p .U .U2)

/-- the 3D MHD solver: the same members of the class, `/repo/src/muscl/SolverMHDMuscl.cpp:461-569` -/
def mhdOps3 (p : Params R) (ident : R) (jk : JunkM R) : SolverOps R where
  pre n := runLaunches (preMhd3 p (pingIn n) (pingOut n))
  dtLocal _ m d := computeDtLocalMhd3 p ident m d
  post n dt := runLaunches (postMhd3 p dt jk (pingIn n) (pingOut n))
  setup := runLaunches (preMhd3 p .U .U2)

end EulerKokkos
