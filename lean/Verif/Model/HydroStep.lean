import Verif.Model.Boundaries
import Verif.Model.Hydro2D

/-!
# One and several 2D hydro time steps

`SolverHydroMuscl<2>::godunov_unsplit_impl` (`/repo/src/muscl/SolverHydroMuscl.cpp:214-297`) and the
ping-pong of `SolverHydroMuscl::godunov_unsplit` (`/repo/src/muscl/SolverHydroMuscl.h:686-700`).
-/

namespace EulerKokkos

variable {R : Type} [RealOps R]

/-- `SolverHydroMuscl<2>::godunov_unsplit_impl(data_in, data_out, dt)`,
`/repo/src/muscl/SolverHydroMuscl.cpp:214-297` (timers have no effect on the arrays; serial build:
`make_boundaries` is `make_boundaries_serial`). -/
def godunov2 (p : Params R) (g : GravityParams) (dt : R) (jk : Junk R) (inA outA : Arr) :
    Kern Arr R :=
  Kern.seq (makeBoundaries2 false p inA) (Kern.seqs (scheme2 p g dt jk inA outA))

/-- The launches of one 2D step in order (same source as `godunov2`; used for statements about
memory accesses). -/
def launches2 (p : Params R) (g : GravityParams) (dt : R) (jk : Junk R) (inA outA : Arr) :
    List (Launch Arr R) :=
  let S := range2 p.isize p.jsize
  let grav : List (Launch Arr R) :=
    if g.enabled then [.par S (gravitySource2 p inA outA .grav dt)] else []
  [.par (range1 (nbIter2 p)) (makeBoundary2 false p inA .xmin),
   .par (range1 (nbIter2 p)) (makeBoundary2 false p inA .xmax),
   .par (range1 (nbIter2 p)) (makeBoundary2 false p inA .ymin),
   .par (range1 (nbIter2 p)) (makeBoundary2 false p inA .ymax),
   .copy outA inA,
   .par S (convertToPrimitives2 p inA .Q)] ++
  (if p.implementationVersion = 0 then
    [.par S (computeAndStoreFluxes2 p .Q .Fx .Fy .grav dt g jk),
     .par S (update2 p outA .Fx .Fy)] ++ grav
  else if p.implementationVersion = 1 then
    [.par S (computeSlopes2 p .Q .Sx .Sy),
     .par S (computeTraceAndFluxes2 .x p .Q .Sx .Sy .Fx .grav dt g jk),
     .par S (updateDir2 .x p outA .Fx),
     .par S (computeTraceAndFluxes2 .y p .Q .Sx .Sy .Fx .grav dt g jk),
     .par S (updateDir2 .y p outA .Fx)] ++ grav
  else if p.implementationVersion = 2 then
    [.par S (computeAllFluxesAndUpdate2 p .Q outA .grav dt g jk)] ++ grav
  else [])

/-- Which view elements are allocated, 2D: `/repo/src/muscl/SolverHydroMuscl.h:196-233`. -/
def Alloc2 (p : Params R) (g : GravityParams) (l : Loc Arr) : Prop :=
  (0 ≤ l.i ∧ l.i < p.isize) ∧ (0 ≤ l.j ∧ l.j < p.jsize) ∧ l.k = 0 ∧
  match l.arr with
  | .U | .U2 | .Q => l.v < p.nbvar
  | .Fx => (p.implementationVersion = 0 ∨ p.implementationVersion = 1) ∧ l.v < p.nbvar
  | .Fy => p.implementationVersion = 0 ∧ l.v < p.nbvar
  | .Sx | .Sy => p.implementationVersion = 1 ∧ l.v < p.nbvar
  | .grav => g.enabled = true ∧ l.v < 2
  | _ => False

/-- `SolverHydroMuscl::godunov_unsplit`, `/repo/src/muscl/SolverHydroMuscl.h:686-700`: even iterations `U → U2`, odd ones `U2 → U`. -/
def pingIn (iteration : Nat) : Arr := if iteration % 2 = 0 then .U else .U2
/-- output view of iteration `iteration`, `/repo/src/muscl/SolverHydroMuscl.h:686-700` -/
def pingOut (iteration : Nat) : Arr := if iteration % 2 = 0 then .U2 else .U

/-- consecutive time steps with the given `dt`s, starting at iteration `n`
(`/repo/src/shared/SolverBase.cpp` `next_iteration`, repeated by the loop of `/repo/src/main.cpp`) -/
def hydroRun2 (p : Params R) (g : GravityParams) (jk : Junk R) : Nat → List R → Kern Arr R
  | _, [] => Kern.skip
  | n, dt :: dts =>
    Kern.seq (godunov2 p g dt jk (pingIn n) (pingOut n)) (hydroRun2 p g jk (n + 1) dts)

end EulerKokkos
