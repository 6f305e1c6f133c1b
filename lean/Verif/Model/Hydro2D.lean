import Verif.Model.Arrays

/-!
# The 2D hydro MUSCL-Hancock kernels

Models `/repo/src/muscl/HydroBaseFunctor2D.h` (per-cell functions) and
`/repo/src/muscl/HydroRunFunctors2D.h` (kernels).  Simplification common to all kernels: the four
variables of one cell are read (written) together, the C++ text interleaves the variables of the
cells of the stencil; no kernel writes a cell between the reads of its stencil.
Uninitialised local variables are the adversarial parameter `jk` (slots: 0 `dqX`, 1 `dqY`,
2 `dqX_neighbor`, 3 `dqY_neighbor`, 4 `flux_x`/`flux`, 5 `flux_y`).
-/

set_option linter.constructorNameAsVariable false

namespace EulerKokkos

open Prog (rd wr add pif)

variable {R : Type} [RealOps R]

/-- Component indices of the gravity field, `/repo/src/shared/enums.h:163-168`. -/
abbrev IX : Nat := 0
/-- y component -/
abbrev IY : Nat := 1
/-- z component -/
abbrev IZ : Nat := 2

/-! ## Per-cell functions -/

/-- `HydroBaseFunctor2D::computePrimitives`, `/repo/src/muscl/HydroBaseFunctor2D.h:79-105`.
Returns the primitive state and the sound speed. -/
def computePrimitives2 (s : Settings R) (u : HS R) : HS R × R :=
  let d := fmax u.d s.smallr
  let ux := u.u / d
  let uy := u.v / d
  let eken := lit (1/2) * (ux * ux + uy * uy)
  let e := u.p / d - eken
  let p := fmax ((s.gamma0 - lit 1) * d * e) (d * s.smallp)
  let c := RealOps.sqrt (s.gamma0 * p / d)
  (⟨d, p, ux, uy, lit 0⟩, c)

/-- One direction of `slope_unsplit_hydro_2d_scalar`,
`/repo/src/muscl/HydroBaseFunctor2D.h:434-443` (x) and `:446-455` (y); the 3D function
`/repo/src/muscl/HydroBaseFunctor3D.h` repeats the same text three times. -/
def slopeScalarDir (slope_type q qPlus qMinus : R) : R :=
  let dlft := slope_type * (q - qMinus)
  let drgt := slope_type * (qPlus - q)
  let dcen := lit (1/2) * (qPlus - qMinus)
  let dsgn : R := if geb dcen (lit 0) then lit 1 else -lit 1
  let slop := fmin (fabs dlft) (fabs drgt)
  let dlim := slop
  let dlim := if RealOps.le (dlft * drgt) (lit 0) then lit 0 else dlim
  dsgn * fmin dlim (fabs dcen)

/-- `slope_unsplit_hydro_2d_scalar`, `/repo/src/muscl/HydroBaseFunctor2D.h:420-457`. -/
def slopeScalar2 (slope_type q qPlusX qMinusX qPlusY qMinusY : R) : R × R :=
  (slopeScalarDir slope_type q qPlusX qMinusX, slopeScalarDir slope_type q qPlusY qMinusY)

/-- `slope_unsplit_hydro_2d`, `/repo/src/muscl/HydroBaseFunctor2D.h:475-518`.  `dqX0`, `dqY0` are
the contents of the output arguments before the call: they are kept when `slope_type` is none of
0, 1, 2. -/
def slope2 (s : Settings R) (q qPlusX qMinusX qPlusY qMinusY dqX0 dqY0 : HS R) : HS R × HS R :=
  if RealOps.beq s.slope_type (lit 0) then (HS.zero, HS.zero)
  else if RealOps.beq s.slope_type (lit 1) || RealOps.beq s.slope_type (lit 2) then
    let sd := slopeScalar2 s.slope_type q.d qPlusX.d qMinusX.d qPlusY.d qMinusY.d
    let sp := slopeScalar2 s.slope_type q.p qPlusX.p qMinusX.p qPlusY.p qMinusY.p
    let su := slopeScalar2 s.slope_type q.u qPlusX.u qMinusX.u qPlusY.u qMinusY.u
    let sv := slopeScalar2 s.slope_type q.v qPlusX.v qMinusX.v qPlusY.v qMinusY.v
    (⟨sd.1, sp.1, su.1, sv.1, lit 0⟩, ⟨sd.2, sp.2, su.2, sv.2, lit 0⟩)
  else (dqX0, dqY0)

/-- `trace_unsplit_2d_along_dir`, `/repo/src/muscl/HydroBaseFunctor2D.h:216-293`.  It is only
called with the four x/y faces; the z faces are given an arbitrary result here. -/
def traceAlongDir2 (s : Settings R) (q dqX dqY : HS R) (dtdx dtdy : R) (face : Face) : HS R :=
  let r := q.d
  let p := q.p
  let u := q.u
  let v := q.v
  let drx := dqX.d
  let dpx := dqX.p
  let dux := dqX.u
  let dvx := dqX.v
  let dry := dqY.d
  let dpy := dqY.p
  let duy := dqY.u
  let dvy := dqY.v
  let sr0 := -u * drx - v * dry - (dux + dvy) * r
  let sp0 := -u * dpx - v * dpy - (dux + dvy) * s.gamma0 * p
  let su0 := -u * dux - v * duy - dpx / r
  let sv0 := -u * dvx - v * dvy - dpy / r
  let half : R := lit (1/2)
  match face with
  | .xmin =>
    ⟨fmax s.smallr (r - half * drx + sr0 * dtdx * half), p - half * dpx + sp0 * dtdx * half,
      u - half * dux + su0 * dtdx * half, v - half * dvx + sv0 * dtdx * half, lit 0⟩
  | .xmax =>
    ⟨fmax s.smallr (r + half * drx + sr0 * dtdx * half), p + half * dpx + sp0 * dtdx * half,
      u + half * dux + su0 * dtdx * half, v + half * dvx + sv0 * dtdx * half, lit 0⟩
  | .ymin =>
    ⟨fmax s.smallr (r - half * dry + sr0 * dtdy * half), p - half * dpy + sp0 * dtdy * half,
      u - half * duy + su0 * dtdy * half, v - half * dvy + sv0 * dtdy * half, lit 0⟩
  | .ymax =>
    ⟨fmax s.smallr (r + half * dry + sr0 * dtdy * half), p + half * dpy + sp0 * dtdy * half,
      u + half * duy + su0 * dtdy * half, v + half * dvy + sv0 * dtdy * half, lit 0⟩
  | _ => q

/-! ## Kernels -/

/-- Gravity predictor applied to one face state,
`/repo/src/muscl/HydroRunFunctors2D.h:656-666`, `:730-740`, `:1132-1139`, `:1163-1170`,
`:1194-1201`, `:1225-1232`, `:1420-1430`, `:1512-1522`. -/
def gravPredictor2 (g : GravityParams) (grav : Arr) (dt : R) (i j : Int) (q : HS R) :
    Prog Arr R (HS R) :=
  if g.enabled && g.hancock_predictor_enabled then do
    let gx ← rd ⟨grav, i, j, 0, IX⟩
    let gy ← rd ⟨grav, i, j, 0, IY⟩
    pure { q with u := q.u + lit (1/2) * dt * gx, v := q.v + lit (1/2) * dt * gy }
  else pure q

/-- `ConvertToPrimitivesFunctor2D::operator()`,
`/repo/src/muscl/HydroRunFunctors2D.h:213-242`. -/
def convertToPrimitives2 (p : Params R) (U Q : Arr) (t : Int × Int) : Prog Arr R Unit :=
  if t.2 ≥ 0 ∧ t.2 < p.jsize ∧ t.1 ≥ 0 ∧ t.1 < p.isize then do
    let uLoc ← getHS2 U t.1 t.2
    let q := (computePrimitives2 p.settings uLoc).1
    putHS2 Q t.1 t.2 q
  else pure ()

/-- The interior-plus-one-face guard `gw <= i <= isize-gw`, `gw <= j <= jsize-gw`
(`/repo/src/muscl/HydroRunFunctors2D.h:548`, `:1100`, `:1313`). -/
def faceGuard2 (p : Params R) (t : Int × Int) : Prop :=
  t.2 ≥ p.ghostWidth ∧ t.2 ≤ p.jsize - p.ghostWidth ∧ t.1 ≥ p.ghostWidth ∧
    t.1 ≤ p.isize - p.ghostWidth

instance (p : Params R) (t : Int × Int) : Decidable (faceGuard2 p t) := by
  unfold faceGuard2; infer_instance

/-- The interior guard `gw <= i < isize-gw`, `gw <= j < jsize-gw`
(`/repo/src/muscl/HydroRunFunctors2D.h:813`, `:889`, `:1600`). -/
def cellGuard2 (p : Params R) (t : Int × Int) : Prop :=
  t.2 ≥ p.ghostWidth ∧ t.2 < p.jsize - p.ghostWidth ∧ t.1 ≥ p.ghostWidth ∧
    t.1 < p.isize - p.ghostWidth

instance (p : Params R) (t : Int × Int) : Decidable (cellGuard2 p t) := by
  unfold cellGuard2; infer_instance

/-- Result of the x-interface part of the all-in-one kernels: cell state, its slopes, the slopes
of the left neighbour (kept as leftover content of `dqX_neighbor`, `dqY_neighbor`) and the flux. -/
structure XPart (R : Type) where
  qLoc : HS R
  dqX : HS R
  dqY : HS R
  dqXn : HS R
  dqYn : HS R
  flux : HS R

/-- First half (left interface along x) of `ComputeAndStoreFluxesFunctor2D::operator()`,
`/repo/src/muscl/HydroRunFunctors2D.h:575-670`; `ComputeAllFluxesAndUpdateFunctor2D::operator()`
`:1340-1433` has the same text. -/
def xInterface2 (p : Params R) (Q grav : Arr) (dt : R) (g : GravityParams) (jk : Junk R)
    (i j : Int) : Prog Arr R (XPart R) := do
  let dtdx := dt / p.dx
  let dtdy := dt / p.dy
  let qLoc ← getHS2 Q i j
  let n0 ← getHS2 Q (i + 1) j
  let n1 ← getHS2 Q (i - 1) j
  let n2 ← getHS2 Q i (j + 1)
  let n3 ← getHS2 Q i (j - 1)
  let dq := slope2 p.settings qLoc n0 n1 n2 n3 (jk 0 i j 0) (jk 1 i j 0)
  let qLocN ← getHS2 Q (i - 1) j
  let n0 ← getHS2 Q i j
  let n1 ← getHS2 Q (i - 2) j
  let n2 ← getHS2 Q (i - 1) (j + 1)
  let n3 ← getHS2 Q (i - 1) (j - 1)
  let dqn := slope2 p.settings qLocN n0 n1 n2 n3 (jk 2 i j 0) (jk 3 i j 0)
  let qright := traceAlongDir2 p.settings qLoc dq.1 dq.2 dtdx dtdy .xmin
  let qleft := traceAlongDir2 p.settings qLocN dqn.1 dqn.2 dtdx dtdy .xmax
  let qleft ← gravPredictor2 g grav dt (i - 1) j qleft
  let qright ← gravPredictor2 g grav dt i j qright
  let flux := riemannHydro2 p.settings p.riemannSolverType qleft qright (jk 4 i j 0)
  pure ⟨qLoc, dq.1, dq.2, dqn.1, dqn.2, flux⟩

/-- Second half (left interface along y), `/repo/src/muscl/HydroRunFunctors2D.h:685-746` and
`:1458-1527`: returns the flux in the swapped frame (normal component in `IU`). -/
def yInterface2 (p : Params R) (Q grav : Arr) (dt : R) (g : GravityParams) (jk : Junk R)
    (i j : Int) (x : XPart R) : Prog Arr R (HS R) := do
  let dtdx := dt / p.dx
  let dtdy := dt / p.dy
  let qLocN ← getHS2 Q i (j - 1)
  let n0 ← getHS2 Q (i + 1) (j - 1)
  let n1 ← getHS2 Q (i - 1) (j - 1)
  let n2 ← getHS2 Q i j
  let n3 ← getHS2 Q i (j - 2)
  let dqn := slope2 p.settings qLocN n0 n1 n2 n3 x.dqXn x.dqYn
  let qright := traceAlongDir2 p.settings x.qLoc x.dqX x.dqY dtdx dtdy .ymin
  let qleft := traceAlongDir2 p.settings qLocN dqn.1 dqn.2 dtdx dtdy .ymax
  let qleft ← gravPredictor2 g grav dt i (j - 1) qleft
  let qright ← gravPredictor2 g grav dt i j qright
  pure (riemannHydro2 p.settings p.riemannSolverType qleft.swapUV qright.swapUV (jk 5 i j 0))

/-- `ComputeAndStoreFluxesFunctor2D::operator()`,
`/repo/src/muscl/HydroRunFunctors2D.h:540-758`. -/
def computeAndStoreFluxes2 (p : Params R) (Q Fx Fy grav : Arr) (dt : R) (g : GravityParams)
    (jk : Junk R) (t : Int × Int) : Prog Arr R Unit :=
  if faceGuard2 p t then do
    let x ← xInterface2 p Q grav dt g jk t.1 t.2
    putHS2 Fx t.1 t.2 (x.flux.smul (dt / p.dx))
    let fy ← yInterface2 p Q grav dt g jk t.1 t.2 x
    putHS2 Fy t.1 t.2 (fy.smul (dt / p.dy)).swapUV
  else pure ()

/-- `UpdateFunctor2D::operator()`, `/repo/src/muscl/HydroRunFunctors2D.h:805-839`. -/
def update2 (p : Params R) (U Fx Fy : Arr) (t : Int × Int) : Prog Arr R Unit :=
  if cellGuard2 p t then do
    plusEq2 U t.1 t.2 Fx t.1 t.2
    minusEq2 U t.1 t.2 Fx (t.1 + 1) t.2
    plusEq2 U t.1 t.2 Fy t.1 t.2
    minusEq2 U t.1 t.2 Fy t.1 (t.2 + 1)
  else pure ()

/-- `Direction`, `/repo/src/shared/enums.h`. -/
inductive Dir
  | x
  | y
  | z
deriving DecidableEq, Repr

/-- `UpdateDirFunctor2D<dir>::operator()`, `/repo/src/muscl/HydroRunFunctors2D.h:881-919`. -/
def updateDir2 (dir : Dir) (p : Params R) (U F : Arr) (t : Int × Int) : Prog Arr R Unit :=
  if cellGuard2 p t then
    match dir with
    | .x => do
      plusEq2 U t.1 t.2 F t.1 t.2
      minusEq2 U t.1 t.2 F (t.1 + 1) t.2
    | .y => do
      plusEq2 U t.1 t.2 F t.1 t.2
      minusEq2 U t.1 t.2 F t.1 (t.2 + 1)
    | .z => pure ()
  else pure ()

/-- Guard of the slope kernel, `/repo/src/muscl/HydroRunFunctors2D.h:970-971`. -/
def slopeGuard2 (p : Params R) (t : Int × Int) : Prop :=
  t.2 ≥ p.ghostWidth - 1 ∧ t.2 ≤ p.jsize - p.ghostWidth ∧ t.1 ≥ p.ghostWidth - 1 ∧
      t.1 ≤ p.isize - p.ghostWidth

instance (p : Params R) (t : Int × Int) : Decidable (slopeGuard2 p t) := by
  unfold slopeGuard2; infer_instance

/-- `ComputeSlopesFunctor2D::operator()`, `/repo/src/muscl/HydroRunFunctors2D.h:962-1029`.
The slopes are zero-initialised (`HydroState dqX{}`). -/
def computeSlopes2 (p : Params R) (Q Sx Sy : Arr) (t : Int × Int) : Prog Arr R Unit :=
  if slopeGuard2 p t then do
    let qLoc ← getHS2 Q t.1 t.2
    let n0 ← getHS2 Q (t.1 + 1) t.2
    let n1 ← getHS2 Q (t.1 - 1) t.2
    let n2 ← getHS2 Q t.1 (t.2 + 1)
    let n3 ← getHS2 Q t.1 (t.2 - 1)
    let dq := slope2 p.settings qLoc n0 n1 n2 n3 HS.zero HS.zero
    putHS2 Sx t.1 t.2 dq.1
    putHS2 Sy t.1 t.2 dq.2
  else pure ()

/-- `ComputeTraceAndFluxes_Functor2D<dir>::operator()`,
`/repo/src/muscl/HydroRunFunctors2D.h:1092-1255`. -/
def computeTraceAndFluxes2 (dir : Dir) (p : Params R) (Q Sx Sy F grav : Arr) (dt : R)
    (g : GravityParams) (jk : Junk R) (t : Int × Int) : Prog Arr R Unit :=
  if faceGuard2 p t then do
    let dtdx := dt / p.dx
    let dtdy := dt / p.dy
    let qLoc ← getHS2 Q t.1 t.2
    let dqX ← getHS2 Sx t.1 t.2
    let dqY ← getHS2 Sy t.1 t.2
    match dir with
    | .x =>
      let qright := traceAlongDir2 p.settings qLoc dqX dqY dtdx dtdy .xmin
      let qright ← gravPredictor2 g grav dt t.1 t.2 qright
      let qLocN ← getHS2 Q (t.1 - 1) t.2
      let dqXn ← getHS2 Sx (t.1 - 1) t.2
      let dqYn ← getHS2 Sy (t.1 - 1) t.2
      let qleft := traceAlongDir2 p.settings qLocN dqXn dqYn dtdx dtdy .xmax
      let qleft ← gravPredictor2 g grav dt (t.1 - 1) t.2 qleft
      let flux := riemannHydro2 p.settings p.riemannSolverType qleft qright (jk 4 t.1 t.2 0)
      putHS2 F t.1 t.2 (flux.smul dtdx)
    | .y =>
      let qright := traceAlongDir2 p.settings qLoc dqX dqY dtdx dtdy .ymin
      let qright ← gravPredictor2 g grav dt t.1 t.2 qright
      let qLocN ← getHS2 Q t.1 (t.2 - 1)
      let dqXn ← getHS2 Sx t.1 (t.2 - 1)
      let dqYn ← getHS2 Sy t.1 (t.2 - 1)
      let qleft := traceAlongDir2 p.settings qLocN dqXn dqYn dtdx dtdy .ymax
      let qleft ← gravPredictor2 g grav dt t.1 (t.2 - 1) qleft
      let flux := riemannHydro2 p.settings p.riemannSolverType qleft.swapUV qright.swapUV
        (jk 4 t.1 t.2 0)
      putHS2 F t.1 t.2 (flux.smul dtdy).swapUV
    | .z => pure ()
  else pure ()

/-- `ComputeAllFluxesAndUpdateFunctor2D::operator()`,
`/repo/src/muscl/HydroRunFunctors2D.h:1305-1541`. -/
def computeAllFluxesAndUpdate2 (p : Params R) (Q U grav : Arr) (dt : R) (g : GravityParams)
    (jk : Junk R) (t : Int × Int) : Prog Arr R Unit :=
  if faceGuard2 p t then do
    let i := t.1
    let j := t.2
    let gw := p.ghostWidth
    let x ← xInterface2 p Q grav dt g jk i j
    let fx := x.flux.smul (dt / p.dx)
    pif (j < p.jsize - gw ∧ i < p.isize - gw) (atomicAdd2 U i j fx)
    pif (j < p.jsize - gw ∧ i > gw) (atomicSub2 U (i - 1) j fx)
    let fy ← yInterface2 p Q grav dt g jk i j x
    let fy := fy.swapUV.smul (dt / p.dy)
    pif (j < p.jsize - gw ∧ i < p.isize - gw) (atomicAdd2 U i j fy)
    pif (j > gw ∧ i < p.isize - gw) (atomicSub2 U i (j - 1) fy)
  else pure ()

/-- `GravitySourceTermFunctor2D::operator()`, `/repo/src/muscl/HydroRunFunctors2D.h:1592-1625`. -/
def gravitySource2 (p : Params R) (Uin Uout grav : Arr) (dt : R) (t : Int × Int) :
    Prog Arr R Unit :=
  if cellGuard2 p t then do
    let rhoOld ← rd ⟨Uin, t.1, t.2, 0, ID⟩
    let d ← rd ⟨Uout, t.1, t.2, 0, ID⟩
    let rhoNew := fmax p.settings.smallr d
    let rhou ← rd ⟨Uout, t.1, t.2, 0, IU⟩
    let rhov ← rd ⟨Uout, t.1, t.2, 0, IV⟩
    let ekin_old := lit (1/2) * (rhou * rhou + rhov * rhov) / rhoNew
    let gx ← rd ⟨grav, t.1, t.2, 0, IX⟩
    let rhou := rhou + lit (1/2) * dt * gx * (rhoOld + rhoNew)
    let gy ← rd ⟨grav, t.1, t.2, 0, IY⟩
    let rhov := rhov + lit (1/2) * dt * gy * (rhoOld + rhoNew)
    wr ⟨Uout, t.1, t.2, 0, IU⟩ rhou
    wr ⟨Uout, t.1, t.2, 0, IV⟩ rhov
    let ekin_new := lit (1/2) * (rhou * rhou + rhov * rhov) / rhoNew
    let e ← rd ⟨Uout, t.1, t.2, 0, IP⟩
    wr ⟨Uout, t.1, t.2, 0, IP⟩ (e + (ekin_new - ekin_old))
  else pure ()

/-! ## The numerical scheme after the ghost fill -/

open Prog (forRange)

/-- `GravitySourceTermFunctor2D::apply` guarded by `m_gravity.enabled`,
`/repo/src/muscl/SolverHydroMuscl.cpp:249-252`, `:276-279`, `:289-292`. -/
def gravityStep2 (p : Params R) (g : GravityParams) (dt : R) (inA outA : Arr) : Kern Arr R :=
  if g.enabled then forRange (range2 p.isize p.jsize) (gravitySource2 p inA outA .grav dt)
  else Kern.skip

/-- The kernels launched by `SolverHydroMuscl<2>::godunov_unsplit_impl` after `make_boundaries`,
`/repo/src/muscl/SolverHydroMuscl.cpp:225-294`, as a list in launch order.  Implementation
version 1 uses one flux view for both directions (`Fluxes_y = Fluxes_x`,
`/repo/src/muscl/SolverHydroMuscl.h:221-222`). -/
def scheme2 (p : Params R) (g : GravityParams) (dt : R) (jk : Junk R) (inA outA : Arr) :
    List (Kern Arr R) :=
  let S := range2 p.isize p.jsize
  deepCopy outA inA ::
  forRange S (convertToPrimitives2 p inA .Q) ::
  (if p.implementationVersion = 0 then
    [forRange S (computeAndStoreFluxes2 p .Q .Fx .Fy .grav dt g jk),
     forRange S (update2 p outA .Fx .Fy),
     gravityStep2 p g dt inA outA]
  else if p.implementationVersion = 1 then
    [forRange S (computeSlopes2 p .Q .Sx .Sy),
     forRange S (computeTraceAndFluxes2 .x p .Q .Sx .Sy .Fx .grav dt g jk),
     forRange S (updateDir2 .x p outA .Fx),
     forRange S (computeTraceAndFluxes2 .y p .Q .Sx .Sy .Fx .grav dt g jk),
     forRange S (updateDir2 .y p outA .Fx),
     gravityStep2 p g dt inA outA]
  else if p.implementationVersion = 2 then
    [forRange S (computeAllFluxesAndUpdate2 p .Q outA .grav dt g jk),
     gravityStep2 p g dt inA outA]
  else [])

end EulerKokkos
