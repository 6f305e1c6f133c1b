import Verif.Core.Flow
import Verif.Model.Mpi
import Verif.Model.HydroStep3

/-!
# The MPI build of a whole run

`main` (`/repo/src/main.cpp:48-160`) and `SolverBase` (`/repo/src/shared/SolverBase.cpp:123-264`) as
executed by every MPI process.  Each process has its own `RunState`: its own time, iteration, output
counter, and evaluates the loop condition on them.

Simplifications: an output is recorded as in the serial driver (the collective I/O inside the parallel
writers synchronises but changes no state); timers and printed text other than the log line are left
out.
-/

set_option linter.constructorNameAsVariable false

namespace EulerKokkos

open Spmd (Phase Flow Ctl loopFlow)
variable {R : Type} [RealOps R]

/-- a phase that works on the views only -/
def onMem {ρ : Type} : Phase ρ (Mem Arr R) (Msg R) → Phase ρ (RunState R) (Msg R)
  | .loc k => .loc fun r s s' => ∃ m', k r s.mem m' ∧ s' = { s with mem := m' }
  | .exch dst src tS tR pack unpack =>
    .exch dst src tS tR (fun s => pack s.mem) (fun x s => { s with mem := unpack x s.mem })
  | .coll contrib combine =>
    .coll (fun s => contrib s.mem) (fun all s => { s with mem := combine all s.mem })

/-- the parts of a solver of the MPI build -/
structure MpiOps (T : Topo) (R : Type) where
  /-- end of the constructor, between `init(U)` and `compute_dt` -/
  setup : List (Phase T.Rank (Mem Arr R) (Msg R))
  /-- the part of `next_iteration_impl` on the views `(data_in, data_out)` before `compute_dt` -/
  pre : Arr → Arr → List (Phase T.Rank (Mem Arr R) (Msg R))
  /-- `compute_dt_local` -/
  dtLocal : T.Rank → Nat → Mem Arr R → R → Prop
  /-- exchanges after `compute_dt` -/
  halo : Arr → List (Phase T.Rank (Mem Arr R) (Msg R))
  /-- the rest of `godunov_unsplit_impl(data_in, data_out, dt)` -/
  scheme : T.Rank → R → Arr → Arr → Kern Arr R

/-- smallest of the values of all ranks, `MPI_MIN` (combined in rank order; over `ℝ` the order is
irrelevant) -/
def minOver {n : Nat} (v : Fin n → R) : R :=
  match (List.finRange n).map v with
  | [] => lit 0
  | a :: l => l.foldl fmin a

variable {T : Topo}

/-- `SolverBase::compute_dt`, MPI build: `compute_dt_local`, `MPI_Barrier`, `MPI_Allreduce` with
`MPI_MIN`, then the correction at `tEnd`; `/repo/src/shared/SolverBase.cpp:125-154`. -/
def mpiComputeDt (p : Params R) (O : MpiOps T R) : List (Phase T.Rank (RunState R) (Msg R)) :=
  [ .loc fun r s s' => ∃ d, O.dtLocal r s.iteration s.mem d ∧ s' = { s with dt := d },
    barrier _ _,
    .coll (fun s => ⟨1, fun _ => s.dt⟩)
      (fun all s => { s with dt := clipDt p s.t (minOver fun a => (all a).data 0) }) ]

/-- One turn of the loop of `main`: `next_iteration` with `next_iteration_impl`, on an iteration of
parity `odd`; `/repo/src/shared/SolverBase.cpp:181-195`,
`/repo/src/muscl/SolverHydroMuscl.h:635-700`, `/repo/src/muscl/SolverMHDMuscl.h:741-800`.  Rank 0
prints the log line. -/
def mpiTurn (p : Params R) (O : MpiOps T R) (odd : Bool) :
    List (Phase T.Rank (RunState R) (Msg R)) :=
  let inA : Arr := if odd then .U2 else .U
  let outA : Arr := if odd then .U else .U2
  [ .loc fun r s s' => p.nlog ≠ 0 ∧ s' = maybeSave p (if r.val = 0 then logLine p s else s) ] ++
  (O.pre inA outA).map onMem ++
  mpiComputeDt p O ++
  (O.halo inA).map onMem ++
  [ .loc fun r s s' => ∃ m', O.scheme r s.dt inA outA s.mem m' ∧
      s' = { s with mem := m', iteration := s.iteration + 1, t := s.t + s.dt } ]

/-- the end of the constructor (`/repo/src/muscl/SolverHydroMuscl.h:279-286`,
`/repo/src/muscl/SolverMHDMuscl.h:387-397`) and the first output of
`main` (`/repo/src/main.cpp:117-118`) -/
def mpiStart (p : Params R) (O : MpiOps T R) : List (Phase T.Rank (RunState R) (Msg R)) :=
  O.setup.map onMem ++
  mpiComputeDt p O ++
  [ .loc fun _ s s' => s' = mainSave p s ]

/-- `main` of the MPI build from the return of `init(U)`, `/repo/src/main.cpp:112-138` -/
def mpiMain (p : Params R) (O : MpiOps T R) : Flow Ctl T.Rank (RunState R) (Msg R) :=
  loopFlow (mpiStart p O) (mpiTurn p O) [ .loc fun _ s s' => s' = mainSave p s ]
    (finished p) (fun s => s.iteration % 2 == 1)

/-- state of a process when `init(U)` has left the views in `m`, the time `t` and the output counter
`saved` -/
def startState (m : Mem Arr R) (t : R) (saved : Int) : RunState R :=
  ⟨m, t, lit 0, 0, saved, [], []⟩

/-- the 2D hydro solver, `/repo/src/muscl/SolverHydroMuscl.cpp:214-297` -/
def mpiHydro2 (lay : Layout) (T : Topo) (p : Params R) (g : GravityParams) (ident : R)
    (jk : T.Rank → Junk R) : MpiOps T R where
  setup := makeBoundariesMpi2 lay false T p .U ++ [ .loc fun _ => Launch.kern (.copy .U2 .U) ]
  pre _ _ := []
  halo := makeBoundariesMpi2 lay false T p
  dtLocal _ n m d := computeDtLocal2 p g ident n m d
  scheme r dt inA outA := Kern.seqs (scheme2 p g dt (jk r) inA outA)

/-- the 3D hydro solver, `/repo/src/muscl/SolverHydroMuscl.cpp:304-410` -/
def mpiHydro3 (lay : Layout) (T : Topo) (p : Params R) (g : GravityParams) (ident : R)
    (jk : T.Rank → Junk R) : MpiOps T R where
  setup := makeBoundariesMpi3 lay false T p .U ++ [ .loc fun _ => Launch.kern (.copy .U2 .U) ]
  pre _ _ := []
  halo := makeBoundariesMpi3 lay false T p
  dtLocal _ n m d := computeDtLocal3 p g ident n m d
  scheme r dt inA outA := Kern.seqs (scheme3 p g dt (jk r) inA outA)

/-- `godunov_unsplit_impl` of the MPI build, 2D, `/repo/src/muscl/SolverHydroMuscl.cpp:214-297` -/
def godunovMpi2 (lay : Layout) (T : Topo) (p : Params R) (g : GravityParams) (dt : R)
    (jk : T.Rank → Junk R) (inA outA : Arr) : List (Phase T.Rank (Mem Arr R) (Msg R)) :=
  makeBoundariesMpi2 lay false T p inA ++
    [ .loc fun r => Kern.seqs (scheme2 p g dt (jk r) inA outA) ]

/-- `godunov_unsplit_impl` of the MPI build, 3D, `/repo/src/muscl/SolverHydroMuscl.cpp:304-410` -/
def godunovMpi3 (lay : Layout) (T : Topo) (p : Params R) (g : GravityParams) (dt : R)
    (jk : T.Rank → Junk R) (inA outA : Arr) : List (Phase T.Rank (Mem Arr R) (Msg R)) :=
  makeBoundariesMpi3 lay false T p inA ++
    [ .loc fun r => Kern.seqs (scheme3 p g dt (jk r) inA outA) ]

end EulerKokkos
