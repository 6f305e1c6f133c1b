import Verif.Model.MpiRun
import Verif.Model.DriverMhd

/-!
# The MPI build with the MHD solvers
-/

set_option linter.constructorNameAsVariable false

namespace EulerKokkos

open Spmd (Phase)
variable {R : Type} [RealOps R]

/-- the part of `godunov_unsplit_impl` (2D) between `make_boundaries(data_in)` and `compute_dt`:
`deep_copy(data_out, data_in)`, `convertToPrimitives(data_in)`;
`/repo/src/muscl/SolverMHDMuscl.cpp:375-385` (the last two launches of `preMhd2`) -/
def primMhd2 (p : Params R) (inA outA : Arr) : List (Launch Arr R) :=
  [.copy outA inA, .par (range2 p.isize p.jsize) (convertMhd2 p inA .Q)]

/-- the same in 3D, `/repo/src/muscl/SolverMHDMuscl.cpp:471-481` -/
def primMhd3 (p : Params R) (inA outA : Arr) : List (Launch Arr R) :=
  [.copy outA inA, .par (range3 p.isize p.jsize p.ksize) (convertMhd3 p inA .Q)]

/-- everything `godunov_unsplit_impl` of the MPI build does before `compute_dt` (2D) -/
def preMpiMhd2 (lay : Layout) (T : Topo) (p : Params R) (inA outA : Arr) :
    List (Phase T.Rank (Mem Arr R) (Msg R)) :=
  makeBoundariesMpi2 lay true T p inA ++ [ .loc fun _ => runLaunches (primMhd2 p inA outA) ]

/-- everything `godunov_unsplit_impl` of the MPI build does before `compute_dt` (3D) -/
def preMpiMhd3 (lay : Layout) (T : Topo) (p : Params R) (inA outA : Arr) :
    List (Phase T.Rank (Mem Arr R) (Msg R)) :=
  makeBoundariesMpi3 lay true T p inA ++ [ .loc fun _ => runLaunches (primMhd3 p inA outA) ]

/-- the 2D MHD solver of the MPI build: end of the constructor `/repo/src/muscl/SolverMHDMuscl.h:387-397`,
`compute_dt_local` `:718-737`, `godunov_unsplit_impl` `/repo/src/muscl/SolverMHDMuscl.cpp:365-455`, with
`make_boundaries` = `make_boundaries_mpi` (`/repo/src/shared/SolverBase.cpp`) -/
def mpiMhd2 (lay : Layout) (T : Topo) (p : Params R) (ident : R) (jk : T.Rank → JunkM R) :
    MpiOps T R where
  setup := preMpiMhd2 lay T p .U .U2
  pre := preMpiMhd2 lay T p
  dtLocal _ _ m d := computeDtLocalMhd2 p ident m d
  halo _ := []
  scheme r dt inA outA := runLaunches (postMhd2 p dt (jk r) inA outA)

/-- one time step of the MPI build with a prescribed `dt` (2D) -/
def godunovMpiMhd2 (lay : Layout) (T : Topo) (p : Params R) (dt : R) (jk : T.Rank → JunkM R)
    (inA outA : Arr) : List (Phase T.Rank (Mem Arr R) (Msg R)) :=
  preMpiMhd2 lay T p inA outA ++
    [ .loc fun r => runLaunches (postMhd2 p dt (jk r) inA outA) ]

/-- the 3D MHD solver of the MPI build: end of the constructor `/repo/src/muscl/SolverMHDMuscl.h:387-397`,
`compute_dt_local` `:718-737`, `godunov_unsplit_impl` `/repo/src/muscl/SolverMHDMuscl.cpp:461-569`, with
`make_boundaries` = `make_boundaries_mpi` (`/repo/src/shared/SolverBase.cpp`) -/
def mpiMhd3 (lay : Layout) (T : Topo) (p : Params R) (ident : R) (jk : T.Rank → JunkM R) :
    MpiOps T R where
  setup := preMpiMhd3 lay T p .U .U2
  pre := preMpiMhd3 lay T p
  dtLocal _ _ m d := computeDtLocalMhd3 p ident m d
  halo _ := []
  scheme r dt inA outA := runLaunches (postMhd3 p dt (jk r) inA outA)

/-- one time step of the MPI build with a prescribed `dt` (3D) -/
def godunovMpiMhd3 (lay : Layout) (T : Topo) (p : Params R) (dt : R) (jk : T.Rank → JunkM R)
    (inA outA : Arr) : List (Phase T.Rank (Mem Arr R) (Msg R)) :=
  preMpiMhd3 lay T p inA outA ++
    [ .loc fun r => runLaunches (postMhd3 p dt (jk r) inA outA) ]

end EulerKokkos
