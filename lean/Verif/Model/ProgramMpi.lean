import Verif.Model.Program
import Verif.Model.MpiMhd

/-!
# The program, MPI build

`main` of the MPI build from the text of the parameter file, `/repo/src/main.cpp:53-160`.  Every process reads
the same configuration (`Ini.broadcastMpi`) and computes the initial condition of its block without
communication; from there on the processes follow `mpiMain` asynchronously.

Not modelled: a number of processes other than that of the topology, `reorder` of `MPI_Cart_create` (it only renames the processes: a process is identified by its rank in
the Cartesian communicator).
-/

set_option linter.constructorNameAsVariable false

namespace EulerKokkos
open Spmd

variable {R : Type} [RealOps R]

/-- the topology of the file: `/repo/src/main.cpp:68-78`; the 2D solvers ignore `mz` (the code uses it only for
`dz`, `/repo/src/shared/HydroParams.cpp:306`, which no 2D kernel reads; here it must be 1) -/
def TopoOf (c : Ini.Reader) (T : Topo) : Prop :=
  cfgInt c "mpi" "mx" 1 = T.mx ∧ cfgInt c "mpi" "my" 1 = T.my ∧ cfgInt c "mpi" "mz" 1 = T.mz ∧
  (getDim c = .two → T.mz = 1)

/-- what an execution may depend on besides the parameter file and the schedules; see `Env` -/
structure EnvMpi (T : Topo) (R : Type) where
  ident : R
  jk : T.Rank → Junk R
  jkM : T.Rank → JunkM R
  ju : T.Rank → R × R
  rnd : T.Rank → Int → Int → Int → Nat → R
  lay : Layout

variable {T : Topo}

/-- the solver object of every process, `/repo/src/shared/SolverFactory.cpp:19-25` -/
def solverOpsMpi (e : EnvMpi T R) (c : Ini.Reader) (p : Params R) : SolverKind → MpiOps T R
  | .hydro2 => mpiHydro2 e.lay T p (gravityParams c) e.ident e.jk
  | .hydro3 => mpiHydro3 e.lay T p (gravityParams c) e.ident e.jk
  | .mhd2 => mpiMhd2 e.lay T p e.ident e.jkM
  | .mhd3 => mpiMhd3 e.lay T p e.ident e.jkM

/-- `init(U)` of process `r` without restart: `/repo/src/muscl/SolverHydroMuscl.cpp:92-125, 161-190`,
`/repo/src/muscl/SolverMHDMuscl.h:658-706`; the functors add the position of the process
(`params.myMpiPos`) to the cell indices. -/
def initProblemMpi (F : FloatLib R) (M : MathLib R) (e : EnvMpi T R) (c : Ini.Reader) (p : Params R)
    (r : T.Rank) (m : Mem Arr R) : SolverKind → Prop
  | .hydro2 => gravityAllocated (gravityParams c) (hydroProblem2 F M c (e.ju r)) ∧
      runLaunches (initHydro2 M p (T.coords r) (e.rnd r) (hydroProblem2 F M c (e.ju r))) freshMem m
  | .hydro3 => gravityAllocated (gravityParams c) (hydroProblem3 F M c (e.ju r)) ∧
      runLaunches (initHydro3 M p (T.coords r) (e.rnd r) (hydroProblem3 F M c (e.ju r))) freshMem m
  | .mhd2 => runLaunches (initMhd2 M p (T.coords r) (e.rnd r) (mhdProblem F M c (e.ju r))) freshMem m
  | .mhd3 => runLaunches (initMhd3 M p (T.coords r) (e.rnd r) (mhdProblem F M c (e.ju r))) freshMem m

/-- the processes of the MPI build, started on the parameter file without `restart_enabled`: `st` are their
states when `init(U)` has returned, `flow` is the program they follow from there -/
def MpiStarts (F : FloatLib R) (M : MathLib R) (e : EnvMpi T R) (file : Option (List Char))
    (st : T.Rank → RunState R) (flow : Flow Ctl T.Rank (RunState R) (Msg R)) : Prop :=
  let c := Ini.broadcastMpi file
  let p := hydroParamsMpi T F c
  TopoOf c T ∧ cfgBool c "run" "restart_enabled" false = false ∧
  ∃ (k : SolverKind) (m : T.Rank → Mem Arr R), findSolver (mainSolverName c) = some k ∧
    (∀ r, initProblemMpi F M e c p r (m r) k) ∧
    st = (fun r => startState (m r) (cfgFloat F c "run" "tCurrent" 0) 0) ∧
    flow = mpiMain p (solverOpsMpi e c p k)

/-- the processes of the MPI build, started on a parameter file with `restart_enabled`:
`/repo/src/muscl/SolverHydroMuscl.cpp:80-90, 149-160`, `/repo/src/muscl/SolverHydroMuscl.h:510-543`,
`/repo/src/muscl/SolverMHDMuscl.h:609-656`.  Every process opens the file and reads its block
(`Load_HDF5_mpi`, `/repo/src/utils/io/IO_HDF5.h:2253-2770`); no array but `U` is written, the constructor has zeroed
the others.  `hdf5`: the build has HDF5; `disk`: the files found under a name. -/
def MpiRestarts (F : FloatLib R) (e : EnvMpi T R) (hdf5 : Bool) (disk : List Char → Option (H5File R))
    (file : Option (List Char)) (st : T.Rank → RunState R) (flow : Flow Ctl T.Rank (RunState R) (Msg R)) : Prop :=
  let c := Ini.broadcastMpi file
  let p := hydroParamsMpi T F c
  TopoOf c T ∧ cfgBool c "run" "restart_enabled" false = true ∧
  ∃ (k : SolverKind) (m : T.Rank → Mem Arr R) (t : T.Rank → R) (sv : T.Rank → Int),
    findSolver (mainSolverName c) = some k ∧
    (∀ r, (∀ l, l.arr ≠ .U → m r l = freshMem l) ∧
      initRestart (hdf5 && cfgBool c "output" "hdf5_enabled" false)
        (cfgBool c "run" "restart_reset_totaltime" false) (cfgString c "run" "restart_filename" "") disk
        (fun f U => ∃ host, loadH5Mpi e.lay (h5Options c) T p r f host U) (viewOf freshMem .U)
        (cfgFloat F c "run" "tCurrent" 0) (viewOf (m r) .U) (sv r) (t r)) ∧
    st = (fun r => startState (m r) (t r) (sv r)) ∧
    flow = mpiMain p (solverOpsMpi e c p k)

end EulerKokkos
