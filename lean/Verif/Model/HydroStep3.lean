import Verif.Model.HydroStep
import Verif.Model.Hydro3D

/-!
# One and several 3D hydro time steps

`SolverHydroMuscl<3>::godunov_unsplit_impl` (`/repo/src/muscl/SolverHydroMuscl.cpp:304-390`) and the
ping-pong of `SolverHydroMuscl::godunov_unsplit` (`/repo/src/muscl/SolverHydroMuscl.h:686-700`).
-/

namespace EulerKokkos

variable {R : Type} [RealOps R]

/-- `SolverHydroMuscl<3>::godunov_unsplit_impl(data_in, data_out, dt)`,
`/repo/src/muscl/SolverHydroMuscl.cpp:304-390` (timers have no effect on the arrays; serial build:
`make_boundaries` is `make_boundaries_serial`). -/
def godunov3 (p : Params R) (g : GravityParams) (dt : R) (jk : Junk R) (inA outA : Arr) :
    Kern Arr R :=
  Kern.seq (makeBoundaries3 false p inA) (Kern.seqs (scheme3 p g dt jk inA outA))

/-- The launches of one 3D step in order (same source as `godunov3`; used for statements about
memory accesses). -/
def launches3 (p : Params R) (g : GravityParams) (dt : R) (jk : Junk R) (inA outA : Arr) :
    List (Launch Arr R) :=
  let S := range3 p.isize p.jsize p.ksize
  let grav : List (Launch Arr R) :=
    if g.enabled then [.par S (gravitySource3 p inA outA .grav dt)] else []
  [.par (range1 (nbIter3 p)) (makeBoundary3 false p inA .xmin),
   .par (range1 (nbIter3 p)) (makeBoundary3 false p inA .xmax),
   .par (range1 (nbIter3 p)) (makeBoundary3 false p inA .ymin),
   .par (range1 (nbIter3 p)) (makeBoundary3 false p inA .ymax),
   .par (range1 (nbIter3 p)) (makeBoundary3 false p inA .zmin),
   .par (range1 (nbIter3 p)) (makeBoundary3 false p inA .zmax),
   .copy outA inA,
   .par S (convertToPrimitives3 p inA .Q)] ++
  (if p.implementationVersion = 0 then
    [.par S (computeAndStoreFluxes3 p .Q .Fx .Fy .Fz .grav dt g jk),
     .par S (update3 p outA .Fx .Fy .Fz)] ++ grav
  else if p.implementationVersion = 1 then
    [.par S (computeSlopes3 p .Q .Sx .Sy .Sz jk),
     .par S (computeTraceAndFluxes3 .x p .Q .Sx .Sy .Sz .Fx .grav dt g jk),
     .par S (updateDir3 .x p outA .Fx),
     .par S (computeTraceAndFluxes3 .y p .Q .Sx .Sy .Sz .Fx .grav dt g jk),
     .par S (updateDir3 .y p outA .Fx),
     .par S (computeTraceAndFluxes3 .z p .Q .Sx .Sy .Sz .Fx .grav dt g jk),
     .par S (updateDir3 .z p outA .Fx)] ++ grav
  else if p.implementationVersion = 2 then
    [.par S (computeAllFluxesAndUpdate3 p .Q outA .grav dt g jk)] ++ grav
  else [])

/-- Which view elements are allocated, 3D: `/repo/src/muscl/SolverHydroMuscl.h:234-274`. -/
def Alloc3 (p : Params R) (g : GravityParams) (l : Loc Arr) : Prop :=
  (0 ≤ l.i ∧ l.i < p.isize) ∧ (0 ≤ l.j ∧ l.j < p.jsize) ∧ (0 ≤ l.k ∧ l.k < p.ksize) ∧
  match l.arr with
  | .U | .U2 | .Q => l.v < p.nbvar
  | .Fx => (p.implementationVersion = 0 ∨ p.implementationVersion = 1) ∧ l.v < p.nbvar
  | .Fy | .Fz => p.implementationVersion = 0 ∧ l.v < p.nbvar
  | .Sx | .Sy | .Sz => p.implementationVersion = 1 ∧ l.v < p.nbvar
  | .grav => g.enabled = true ∧ l.v < 3
  | _ => False

/-- consecutive time steps with the given `dt`s, starting at iteration `n`
(`/repo/src/shared/SolverBase.cpp` `next_iteration`, repeated by the loop of `/repo/src/main.cpp`) -/
def hydroRun3 (p : Params R) (g : GravityParams) (jk : Junk R) : Nat → List R → Kern Arr R
  | _, [] => Kern.skip
  | n, dt :: dts =>
    Kern.seq (godunov3 p g dt jk (pingIn n) (pingOut n)) (hydroRun3 p g jk (n + 1) dts)

end EulerKokkos
