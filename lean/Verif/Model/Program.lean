import Verif.Model.DriverMhd
import Verif.Model.InitMhd
import Verif.Model.Hdf5

/-!
# The program

`main` of the serial build from the text of the parameter file to the end of the process:
`/repo/src/main.cpp:53-160`, `SolverFactory` (`/repo/src/shared/SolverFactory.h:65-113`,
`/repo/src/shared/SolverFactory.cpp:13-29`), the constructors of `SolverBase`
(`/repo/src/shared/SolverBase.cpp:23-51`) and of `GravityParams`
(`/repo/src/shared/GravityParams.h:32-37`), and `init` of the solvers.

Not modelled: `argv[1]` missing (the code does not check), the banner and the timing report, the failure of
an allocation.
-/

set_option linter.constructorNameAsVariable false

namespace EulerKokkos

/-- the four classes `SolverHydroMuscl<2>`, `<3>`, `SolverMHDMuscl<2>`, `<3>` -/
inductive SolverKind
  | hydro2 | hydro3 | mhd2 | mhd3
deriving DecidableEq, Repr

/-- the map filled by `SolverFactory::SolverFactory`, `/repo/src/shared/SolverFactory.cpp:19-25` -/
def solverRegistry : List (String × SolverKind) :=
  [("Hydro_Muscl_2D", .hydro2), ("Hydro_Muscl_3D", .hydro3), ("MHD_Muscl_2D", .mhd2),
   ("MHD_Muscl_3D", .mhd3)]

/-- `m_solverCreateMap.find(solver_name)`, `/repo/src/shared/SolverFactory.h:86-89` -/
def findSolver (name : List Char) : Option SolverKind :=
  (solverRegistry.find? fun e => e.1.toList == name).map (·.2)

/-- the name `main` passes to the factory, `/repo/src/main.cpp:112` (its default is `Unknown`, that of
`HydroParams` and `SolverBase` is `unknown`) -/
def mainSolverName (c : Ini.Reader) : List Char := cfgString c "run" "solver_name" "Unknown"

/-- `GravityParams::GravityParams`, `/repo/src/shared/GravityParams.h:32-37` -/
def gravityParams (c : Ini.Reader) : GravityParams where
  enabled := cfgBool c "gravity" "enabled" false
  hancock_predictor_enabled := cfgBool c "gravity" "hancock_predictor_enabled" false

/-- the options the HDF5 reader takes from the file, `/repo/src/utils/io/IO_HDF5.h:1873-1877` -/
def h5Options (c : Ini.Reader) : H5Options where
  ghostIncluded := cfgBool c "output" "ghostIncluded" false
  allghostIncluded := cfgBool c "output" "allghostIncluded" false
  reassembleInFile := cfgBool c "output" "reassembleInFile" true
  restartUpscale := cfgBool c "run" "restart_upscale" false

variable {R : Type} [RealOps R]

/-- What the outcome of an execution may depend on besides the parameter file and the schedules of the
kernels: the identity of Kokkos' maximum, the contents of uninitialised locals and members, the numbers drawn
by the random generator, the build (HDF5 or not, memory layout) and the HDF5 files on disk. -/
structure Env (R : Type) where
  ident : R
  jk : Junk R
  jkM : JunkM R
  ju : R × R
  rnd : Int → Int → Int → Nat → R
  hdf5 : Bool
  lay : Layout
  disk : Disk (H5File R)

/-- the solver object, `/repo/src/shared/SolverFactory.cpp:19-25` -/
def solverOps (e : Env R) (c : Ini.Reader) (p : Params R) : SolverKind → SolverOps R
  | .hydro2 => hydroOps2 p (gravityParams c) e.ident e.jk
  | .hydro3 => hydroOps3 p (gravityParams c) e.ident e.jk
  | .mhd2 => mhdOps2 p e.ident e.jkM
  | .mhd3 => mhdOps3 p e.ident e.jkM

/-- `init_rayleigh_taylor` stores into `gravity_field`, allocated only if gravity is enabled
(`/repo/src/muscl/SolverHydroMuscl.h:228-232, 505-508`): otherwise undefined behaviour, no execution. -/
def gravityAllocated (g : GravityParams) : HydroProblem R → Prop
  | .rayleighTaylor _ => g.enabled = true
  | _ => True

/-- the regular initialization of `init(U)`: `/repo/src/muscl/SolverHydroMuscl.cpp:92-125, 161-190`,
`/repo/src/muscl/SolverMHDMuscl.h:658-706` -/
def initProblem (F : FloatLib R) (M : MathLib R) (e : Env R) (c : Ini.Reader) (p : Params R)
    (m : Mem Arr R) : SolverKind → Prop
  | .hydro2 => gravityAllocated (gravityParams c) (hydroProblem2 F M c e.ju) ∧
      runLaunches (initHydro2 M p (0, 0, 0) e.rnd (hydroProblem2 F M c e.ju)) freshMem m
  | .hydro3 => gravityAllocated (gravityParams c) (hydroProblem3 F M c e.ju) ∧
      runLaunches (initHydro3 M p (0, 0, 0) e.rnd (hydroProblem3 F M c e.ju)) freshMem m
  | .mhd2 => runLaunches (initMhd2 M p (0, 0, 0) e.rnd (mhdProblem F M c e.ju)) freshMem m
  | .mhd3 => runLaunches (initMhd3 M p (0, 0, 0) e.rnd (mhdProblem F M c e.ju)) freshMem m

/-- `init(U)`: `/repo/src/muscl/SolverHydroMuscl.cpp:80-125, 149-190`,
`/repo/src/muscl/SolverMHDMuscl.h:643-706`; leaves the views in `m`, the time `t`
(`/repo/src/shared/SolverBase.cpp:28`) and the output counter `sv` (`:45`). -/
def initSolver (F : FloatLib R) (M : MathLib R) (e : Env R) (c : Ini.Reader) (p : Params R) (k : SolverKind)
    (m : Mem Arr R) (t : R) (sv : Int) : Prop :=
  let tCurrent := cfgFloat F c "run" "tCurrent" 0
  if cfgBool c "run" "restart_enabled" false then
    (∀ l, l.arr ≠ .U → m l = freshMem l) ∧
    initRestart (e.hdf5 && cfgBool c "output" "hdf5_enabled" false)
      (cfgBool c "run" "restart_reset_totaltime" false) (cfgString c "run" "restart_filename" "") e.disk
      (fun f U => ∃ host, loadH5 e.lay (h5Options c) p f host U) (viewOf freshMem .U) tCurrent
      (viewOf m .U) sv t
  else initProblem F M e c p m k ∧ t = tCurrent ∧ sv = 0

/-- how the process ends -/
inductive Outcome (R : Type)
  /-- `std::abort` in the factory, before anything is computed or written -/
  | aborted
  /-- `main` returns; the solver object is left in state `s` -/
  | finished (s : RunState R)

/-- `main` of the serial build; `file` is the contents of the parameter file (`none`: it cannot be opened) -/
def serialMain (F : FloatLib R) (M : MathLib R) (e : Env R) (file : Option (List Char)) : Outcome R → Prop :=
  let c := Ini.broadcastSerial file
  let p := hydroParams F c
  fun
  | .aborted => findSolver (mainSolverName c) = none
  | .finished s' => ∃ k m t sv, findSolver (mainSolverName c) = some k ∧
      initSolver F M e c p k m t sv ∧ runMain p (solverOps e c p k) m t sv s'

end EulerKokkos
