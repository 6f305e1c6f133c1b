import Verif.Model.Driver
import Verif.Model.Program
import Verif.Model.Memory

/-!
# Timers and the performance report

`/repo/src/utils/monitoring/{SimpleTimer,OpenMPTimer}.cpp`, `/repo/src/shared/solver_utils.h`: every solver owns eight
timers; the phases of a run are bracketed by `start()` and `stop()`; at the end the accumulated times are printed.

The clock is a parameter: `τ n` is what it shows at the `n`-th call of `start` or `stop`.  Only the order of the calls
is modelled, not what happens between them (that is `Model/Driver.lean`).
-/

namespace EulerKokkos

/-- `enum TimerIds`, `/repo/src/shared/enums.h` -/
inductive TimerId
  | total | io | dt | primitives | fluxes | update | boundaries | scheme
  deriving DecidableEq, Repr

/-- the calls made on timers -/
inductive TimerCall
  | start (i : TimerId)
  | stop (i : TimerId)
  deriving DecidableEq, Repr

/-- the members of a timer, `/repo/src/utils/monitoring/SimpleTimer.h:40-44` -/
structure Stopwatch (R : Type) where
  start_time : R
  total_time : R

variable {R : Type} [RealOps R]

/-- `start()` and `stop()` when the clock shows `now`: `/repo/src/utils/monitoring/SimpleTimer.cpp:44-76`,
`/repo/src/utils/monitoring/OpenMPTimer.cpp:42-61` -/
def timerCall (now : R) (c : TimerCall) (T : TimerId → Stopwatch R) : TimerId → Stopwatch R := fun j =>
  match c with
  | .start i => if j = i then { T i with start_time := now } else T j
  | .stop i => if j = i then { T i with total_time := (T i).total_time + (now - (T i).start_time) } else T j

/-- a sequence of calls, the first one being the `n`-th call of the program -/
def timerCalls (τ : Nat → R) : Nat → List TimerCall → (TimerId → Stopwatch R) → TimerId → Stopwatch R
  | _, [], T => T
  | n, c :: l, T => timerCalls τ (n + 1) l (timerCall (τ n) c T)

/-- a bracketed phase without timers inside -/
def phase (i : TimerId) : List TimerCall := [.start i, .stop i]

/-- `save_solution_impl`: `/repo/src/muscl/SolverHydroMuscl.h:752-762`, `/repo/src/muscl/SolverMHDMuscl.h:893-903` -/
def saveCalls (b : Bool) : List TimerCall := if b then phase .io else []

/-- `godunov_unsplit_impl`: `/repo/src/muscl/SolverHydroMuscl.cpp:219-295, 309-388` (only version 0 in 2D times fluxes
and update; `convertToPrimitives` is timed, `/repo/src/muscl/SolverHydroMuscl.h:741-743`),
`/repo/src/muscl/SolverMHDMuscl.cpp:374-452, 466-566` (`convertToPrimitives` is not timed, `compute_dt` is inside) -/
def godunovCalls (k : SolverKind) (version : Int) : List TimerCall :=
  phase .boundaries ++ [.start .scheme] ++
    (match k with
      | .hydro2 => phase .primitives ++ (if version = 0 then phase .fluxes ++ phase .update else [])
      | .hydro3 => phase .primitives
      | .mhd2 | .mhd3 => phase .dt) ++
    [.stop .scheme]

/-- `next_iteration_impl`: `/repo/src/muscl/SolverHydroMuscl.h:635-679` (`compute_dt` is timed),
`/repo/src/muscl/SolverMHDMuscl.h:741-781`; `saved`: this turn writes a file -/
def turnCalls (k : SolverKind) (version : Int) (saved : Bool) : List TimerCall :=
  saveCalls saved ++
    (match k with
      | .hydro2 | .hydro3 => phase .dt
      | .mhd2 | .mhd3 => []) ++
    godunovCalls k version

/-- the turns of the loop -/
def loopCalls (k : SolverKind) (version : Int) : List Bool → List TimerCall
  | [] => []
  | b :: l => turnCalls k version b ++ loopCalls k version l

/-- `main` after the constructor: `/repo/src/main.cpp:117-138`; `ends`: `params.nOutput != 0` -/
def mainCalls (k : SolverKind) (version : Int) (ends : Bool) (saves : List Bool) : List TimerCall :=
  saveCalls ends ++ [.start .total] ++ loopCalls k version saves ++ [.stop .total] ++ saveCalls ends

/-- the timers made by the constructor `SolverBase::SolverBase`, `/repo/src/shared/SolverBase.cpp:49-57`; the
constructor of a timer calls `start()`, `/repo/src/utils/monitoring/SimpleTimer.cpp:14-20` -/
def freshTimers (t₀ : TimerId → R) : TimerId → Stopwatch R := fun i => ⟨t₀ i, lit 0⟩

/-- turns of the loop, with the turns that write a file, `/repo/src/main.cpp:126-131` -/
inductive TurnsT (p : Params R) (S : SolverOps R) : List Bool → RunState R → RunState R → Prop
  | nil (s) : TurnsT p S [] s s
  | snoc {l s s₁ s'} : TurnsT p S l s s₁ → ¬ finished p s₁ → nextIteration p S s₁ s' →
      TurnsT p S (l ++ [p.enableOutput && shouldSave p s₁]) s s'

/-- a run of the program (`runMain`) with the calls it makes on its timers -/
def timedMain (p : Params R) (S : SolverOps R) (k : SolverKind) (m : Mem Arr R) (t : R) (saved : Int)
    (calls : List TimerCall) (s' : RunState R) : Prop :=
  ∃ s₀ s₁ l, construct p S m t saved s₀ ∧ TurnsT p S l (mainSave p s₀) s₁ ∧ finished p s₁ ∧ s' = mainSave p s₁ ∧
    calls = mainCalls k p.implementationVersion (decide (p.nOutput ≠ 0)) l

/-- the times `print_solver_monitoring_info` prints, `/repo/src/shared/solver_utils.h:18-25`, when the clock showed
`t₀` in the constructors of the timers and `τ n` at the `n`-th call -/
def reportedTime (t₀ : TimerId → R) (τ : Nat → R) (calls : List TimerCall) (i : TimerId) : R :=
  (timerCalls τ 0 calls (freshTimers t₀) i).total_time

/-- `m_iteration * m_nCells * nProcs / t_tot * 1e-6`, `/repo/src/shared/solver_utils.h:50-51`; the products are
taken in `long long` (here: unbounded) -/
def reportedPerf (iteration : Nat) (nCells : Int) (nProcs : Nat) (t_tot : R) : R :=
  intLit (iteration * nCells * nProcs) / t_tot * lit (1 / 1000000)

end EulerKokkos
