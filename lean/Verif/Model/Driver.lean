import Verif.Model.ComputeDt
import Verif.Model.HydroStep3

/-!
# The run driver

Models `main` (`/repo/src/main.cpp:48-160`), `SolverBase::{compute_dt, finished, next_iteration,
save_solution, should_save_solution}` (`/repo/src/shared/SolverBase.cpp:123-264`),
`next_iteration_impl`, `save_solution_impl` and the end of the constructors of `SolverHydroMuscl` and
`SolverMHDMuscl`.

The numerical part is abstracted by `SolverOps`; `hydroOps2`/`hydroOps3` are the hydro instances.
Everything is relational, because the parallel kernels are.  Serial build (the MPI build is modelled
elsewhere).  Not modelled: timers, text printed on the terminal other than the log line, the file
format (an output is the number, the time and the contents of the saved view).
-/

set_option linter.constructorNameAsVariable false

namespace EulerKokkos

variable {R : Type} [RealOps R]

/-- The parts of a solver the driver calls.  An iteration is `pre` (MHD: boundaries, copy, primitive
variables, `/repo/src/muscl/SolverMHDMuscl.cpp:372-389`; hydro: nothing), `compute_dt`, `post`. -/
structure SolverOps (R : Type) where
  /-- work done before `compute_dt` -/
  pre : Nat → Kern Arr R
  /-- `compute_dt_local` -/
  dtLocal : Nat → Mem Arr R → R → Prop
  /-- work done after `compute_dt`, with the time step -/
  post : Nat → R → Kern Arr R
  /-- the kernels the constructor applies between `init(U)` and `compute_dt()` -/
  setup : Kern Arr R

/-- One output file: its number, the time and iteration at which it is written, and the contents of
the view given to `save_data`. -/
structure Output (R : Type) where
  number : Int
  time : R
  iteration : Nat
  data : Loc Unit → R

/-- Fields of `SolverBase` used by the driver (`/repo/src/shared/SolverBase.h:70-142`), the views, the
files written and the log lines printed so far. -/
structure RunState (R : Type) where
  mem : Mem Arr R
  t : R
  dt : R
  iteration : Nat
  times_saved : Int
  outputs : List (Output R)
  logs : List (Nat × R × R)

/-- the contents of one view -/
def viewOf (m : Mem Arr R) (a : Arr) : Loc Unit → R := fun l => m ⟨a, l.i, l.j, l.k, l.v⟩

/-- the correction at the end of `SolverBase::compute_dt`,
`/repo/src/shared/SolverBase.cpp:148-152` -/
def clipDt (p : Params R) (t dt : R) : R :=
  if RealOps.lt p.tEnd (t + dt) then p.tEnd - t else dt

/-- `SolverBase::compute_dt`, serial build, `/repo/src/shared/SolverBase.cpp:125-154` -/
def computeDt (p : Params R) (S : SolverOps R) (s s' : RunState R) : Prop :=
  ∃ d, S.dtLocal s.iteration s.mem d ∧ s' = { s with dt := clipDt p s.t d }

/-- `SolverBase::finished`, `/repo/src/shared/SolverBase.cpp:171-176` -/
def finished (p : Params R) (s : RunState R) : Prop :=
  RealOps.le (p.tEnd - lit (1 / 100000000000000)) s.t = true ∨ p.nStepmax ≤ (s.iteration : Int)

instance (p : Params R) (s : RunState R) : Decidable (finished p s) := by
  unfold finished; infer_instance

/-- `SolverBase::save_solution`, `/repo/src/shared/SolverBase.cpp:210-219`, with
`save_solution_impl`, `/repo/src/muscl/SolverHydroMuscl.h:750-762` (and
`/repo/src/muscl/SolverMHDMuscl.h:891-903`): the view is chosen by the parity of the iteration. -/
def saveSolution (s : RunState R) : RunState R :=
  { s with
    outputs := s.outputs ++
      [{ number := s.times_saved, time := s.t, iteration := s.iteration
         data := viewOf s.mem (if s.iteration % 2 = 0 then .U else .U2) }]
    times_saved := s.times_saved + 1 }

/-- `SolverBase::should_save_solution`, `/repo/src/shared/SolverBase.cpp:239-264`; `ISFUZZYNULL` is
`/repo/src/shared/utils.h:20-22`. -/
def shouldSave (p : Params R) (s : RunState R) : Bool :=
  let interval := p.tEnd / intLit p.nOutput
  if p.nOutput < 0 then true
  else if RealOps.lt interval (s.t - intLit (s.times_saved - 1) * interval) then true
  else RealOps.lt (fabs (s.t - p.tEnd)) (lit (1 / 1000000000000))

/-- the log line of `next_iteration_impl`, `/repo/src/muscl/SolverHydroMuscl.h:646-652`.  C++ `%`
truncates; the test `== 0` does not depend on that. -/
def logLine (p : Params R) (s : RunState R) : RunState R :=
  if (s.iteration : Int) % p.nlog = 0 then
    { s with logs := s.logs ++ [(s.iteration, s.dt, s.t)] }
  else s

/-- the output part of `next_iteration_impl`, `/repo/src/muscl/SolverHydroMuscl.h:655-669`
(`/repo/src/muscl/SolverMHDMuscl.h:761-775`) -/
def maybeSave (p : Params R) (s : RunState R) : RunState R :=
  if p.enableOutput && shouldSave p s then saveSolution s else s

/-- `next_iteration_impl`, `/repo/src/muscl/SolverHydroMuscl.h:635-679`
(`/repo/src/muscl/SolverMHDMuscl.h:741-781` with `godunov_unsplit_impl`).  `m_iteration % m_nlog` is
undefined for `nlog = 0`: no execution. -/
def nextIterationImpl (p : Params R) (S : SolverOps R) (s s' : RunState R) : Prop :=
  p.nlog ≠ 0 ∧
  ∃ m₁ s₂ m₃,
    let s₁ := maybeSave p (logLine p s)
    S.pre s₁.iteration s₁.mem m₁ ∧
    computeDt p S { s₁ with mem := m₁ } s₂ ∧
    S.post s₂.iteration s₂.dt s₂.mem m₃ ∧
    s' = { s₂ with mem := m₃ }

/-- `SolverBase::next_iteration`, `/repo/src/shared/SolverBase.cpp:181-195` -/
def nextIteration (p : Params R) (S : SolverOps R) (s s' : RunState R) : Prop :=
  ∃ s₁, nextIterationImpl p S s s₁ ∧
    s' = { s₁ with iteration := s₁.iteration + 1, t := s₁.t + s₁.dt }

/-- `k` turns of the loop `while (!solver->finished()) solver->next_iteration();`,
`/repo/src/main.cpp:126-131` -/
inductive Turns (p : Params R) (S : SolverOps R) : Nat → RunState R → RunState R → Prop
  | zero (s) : Turns p S 0 s s
  | succ {k s s₁ s'} : Turns p S k s s₁ → ¬ finished p s₁ → nextIteration p S s₁ s' →
      Turns p S (k + 1) s s'

/-- the whole loop -/
def Loop (p : Params R) (S : SolverOps R) (s s' : RunState R) : Prop :=
  ∃ k, Turns p S k s s' ∧ finished p s'

/-- `if (params.nOutput != 0) solver->save_solution();`, `/repo/src/main.cpp:117-118, 136-138` -/
def mainSave (p : Params R) (s : RunState R) : RunState R :=
  if p.nOutput ≠ 0 then saveSolution s else s

/-- The end of the constructor, after `init(U)` left the views in `m`, the time `t` and the output
counter `saved` (both differ from 0 only for a restart or with `tCurrent`):
`/repo/src/muscl/SolverHydroMuscl.h:276-286`, `/repo/src/muscl/SolverMHDMuscl.h:384-397`. -/
def construct (p : Params R) (S : SolverOps R) (m : Mem Arr R) (t : R) (saved : Int)
    (s : RunState R) : Prop :=
  ∃ m₁, S.setup m m₁ ∧
    computeDt p S { mem := m₁, t := t, dt := lit 0, iteration := 0, times_saved := saved
                    outputs := [], logs := [] } s

/-- `main`, `/repo/src/main.cpp:112-138`, from the state left by `init(U)` -/
def runMain (p : Params R) (S : SolverOps R) (m : Mem Arr R) (t : R) (saved : Int)
    (s' : RunState R) : Prop :=
  ∃ s₀ s₁, construct p S m t saved s₀ ∧ Loop p S (mainSave p s₀) s₁ ∧ s' = mainSave p s₁

/-- the part of a run of `main` up to some loop head (after `k` turns) -/
def reaches (p : Params R) (S : SolverOps R) (m : Mem Arr R) (t : R) (saved : Int) (k : Nat)
    (s : RunState R) : Prop :=
  ∃ s₀, construct p S m t saved s₀ ∧ Turns p S k (mainSave p s₀) s

/-- the 2D hydro solver: `/repo/src/muscl/SolverHydroMuscl.h:276-286, 589-700`,
`/repo/src/muscl/SolverHydroMuscl.cpp:214-297` -/
def hydroOps2 (p : Params R) (g : GravityParams) (ident : R) (jk : Junk R) : SolverOps R where
  pre _ := Kern.skip
  dtLocal n m d := computeDtLocal2 p g ident n m d
  post n dt := godunov2 p g dt jk (pingIn n) (pingOut n)
  setup := Kern.seq (makeBoundaries2 false p .U) (Launch.kern (.copy .U2 .U))

/-- the 3D hydro solver: `/repo/src/muscl/SolverHydroMuscl.h:276-286, 589-700`,
`/repo/src/muscl/SolverHydroMuscl.cpp:304-410` -/
def hydroOps3 (p : Params R) (g : GravityParams) (ident : R) (jk : Junk R) : SolverOps R where
  pre _ := Kern.skip
  dtLocal n m d := computeDtLocal3 p g ident n m d
  post n dt := godunov3 p g dt jk (pingIn n) (pingOut n)
  setup := Kern.seq (makeBoundaries3 false p .U) (Launch.kern (.copy .U2 .U))

end EulerKokkos
