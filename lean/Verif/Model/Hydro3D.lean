import Verif.Model.Hydro2D

/-!
# The 3D hydro MUSCL-Hancock kernels

Models `/repo/src/muscl/HydroBaseFunctor3D.h` (per-cell functions) and
`/repo/src/muscl/HydroRunFunctors3D.h` (kernels).  Same simplification as in 2D: the five variables
of one cell are read (written) together.  Uninitialised locals are the adversarial parameter `jk`
(slots: 0 `dqX`, 1 `dqY`, 2 `dqZ`, 3 `dqX_neighbor`, 4 `dqY_neighbor`, 5 `dqZ_neighbor`,
6 `flux_x`/`flux`, 7 `flux_y`, 8 `flux_z`).
-/

set_option linter.constructorNameAsVariable false

namespace EulerKokkos

open Prog (rd wr add pif)

variable {R : Type} [RealOps R]

/-! ## Per-cell functions -/

/-- `HydroBaseFunctor3D::computePrimitives`, `/repo/src/muscl/HydroBaseFunctor3D.h:79-107`. -/
def computePrimitives3 (s : Settings R) (u : HS R) : HS R × R :=
  let d := fmax u.d s.smallr
  let ux := u.u / d
  let uy := u.v / d
  let uz := u.w / d
  let eken := lit (1/2) * (ux * ux + uy * uy + uz * uz)
  let e := u.p / d - eken
  let p := fmax ((s.gamma0 - lit 1) * d * e) (d * s.smallp)
  let c := RealOps.sqrt (s.gamma0 * p / d)
  (⟨d, p, ux, uy, uz⟩, c)

/-- three slopes, one per direction -/
structure Slopes3 (R : Type) where
  x : HS R
  y : HS R
  z : HS R

/-- `slope_unsplit_hydro_3d`, `/repo/src/muscl/HydroBaseFunctor3D.h:489-573`, calling
`slope_unsplit_hydro_3d_scalar` (`:411-463`) for each variable; `d0` is the content of the output
arguments before the call, kept when `slope_type` is none of 0, 1, 2. -/
def slope3 (s : Settings R) (q qPlusX qMinusX qPlusY qMinusY qPlusZ qMinusZ : HS R)
    (d0 : Slopes3 R) : Slopes3 R :=
  if RealOps.beq s.slope_type (lit 0) then ⟨HS.zero, HS.zero, HS.zero⟩
  else if RealOps.beq s.slope_type (lit 1) || RealOps.beq s.slope_type (lit 2) then
    let dir (a b : HS R) : HS R :=
      ⟨slopeScalarDir s.slope_type q.d a.d b.d, slopeScalarDir s.slope_type q.p a.p b.p,
       slopeScalarDir s.slope_type q.u a.u b.u, slopeScalarDir s.slope_type q.v a.v b.v,
       slopeScalarDir s.slope_type q.w a.w b.w⟩
    ⟨dir qPlusX qMinusX, dir qPlusY qMinusY, dir qPlusZ qMinusZ⟩
  else d0

/-- `trace_unsplit_3d_along_dir`, `/repo/src/muscl/HydroBaseFunctor3D.h:276-389`.  All source terms
are multiplied by the `dt/dx` of the direction of the face. -/
def traceAlongDir3 (s : Settings R) (q : HS R) (dq : Slopes3 R) (dtdx dtdy dtdz : R)
    (face : Face) : HS R :=
  let r := q.d
  let p := q.p
  let u := q.u
  let v := q.v
  let w := q.w
  let drx := dq.x.d
  let dpx := dq.x.p
  let dux := dq.x.u
  let dvx := dq.x.v
  let dwx := dq.x.w
  let dry := dq.y.d
  let dpy := dq.y.p
  let duy := dq.y.u
  let dvy := dq.y.v
  let dwy := dq.y.w
  let drz := dq.z.d
  let dpz := dq.z.p
  let duz := dq.z.u
  let dvz := dq.z.v
  let dwz := dq.z.w
  let sr0 := -u * drx - v * dry - w * drz - (dux + dvy + dwz) * r
  let sp0 := -u * dpx - v * dpy - w * dpz - (dux + dvy + dwz) * s.gamma0 * p
  let su0 := -u * dux - v * duy - w * duz - dpx / r
  let sv0 := -u * dvx - v * dvy - w * dvz - dpy / r
  let sw0 := -u * dwx - v * dwy - w * dwz - dpz / r
  let half : R := lit (1/2)
  match face with
  | .xmin =>
    ⟨fmax s.smallr (r - half * drx + sr0 * dtdx * half), p - half * dpx + sp0 * dtdx * half,
      u - half * dux + su0 * dtdx * half, v - half * dvx + sv0 * dtdx * half,
      w - half * dwx + sw0 * dtdx * half⟩
  | .xmax =>
    ⟨fmax s.smallr (r + half * drx + sr0 * dtdx * half), p + half * dpx + sp0 * dtdx * half,
      u + half * dux + su0 * dtdx * half, v + half * dvx + sv0 * dtdx * half,
      w + half * dwx + sw0 * dtdx * half⟩
  | .ymin =>
    ⟨fmax s.smallr (r - half * dry + sr0 * dtdy * half), p - half * dpy + sp0 * dtdy * half,
      u - half * duy + su0 * dtdy * half, v - half * dvy + sv0 * dtdy * half,
      w - half * dwy + sw0 * dtdy * half⟩
  | .ymax =>
    ⟨fmax s.smallr (r + half * dry + sr0 * dtdy * half), p + half * dpy + sp0 * dtdy * half,
      u + half * duy + su0 * dtdy * half, v + half * dvy + sv0 * dtdy * half,
      w + half * dwy + sw0 * dtdy * half⟩
  | .zmin =>
    ⟨fmax s.smallr (r - half * drz + sr0 * dtdz * half), p - half * dpz + sp0 * dtdz * half,
      u - half * duz + su0 * dtdz * half, v - half * dvz + sv0 * dtdz * half,
      w - half * dwz + sw0 * dtdz * half⟩
  | .zmax =>
    ⟨fmax s.smallr (r + half * drz + sr0 * dtdz * half), p + half * dpz + sp0 * dtdz * half,
      u + half * duz + su0 * dtdz * half, v + half * dvz + sv0 * dtdz * half,
      w + half * dwz + sw0 * dtdz * half⟩

/-! ## Kernels -/

/-- Gravity predictor applied to one face state,
`/repo/src/muscl/HydroRunFunctors3D.h:488-500`, `:583-595`, `:678-690`, `:1201-1209`. -/
def gravPredictor3 (g : GravityParams) (grav : Arr) (dt : R) (i j k : Int) (q : HS R) :
    Prog Arr R (HS R) :=
  if g.enabled && g.hancock_predictor_enabled then do
    let gx ← rd ⟨grav, i, j, k, IX⟩
    let gy ← rd ⟨grav, i, j, k, IY⟩
    let gz ← rd ⟨grav, i, j, k, IZ⟩
    pure { q with u := q.u + lit (1/2) * dt * gx, v := q.v + lit (1/2) * dt * gy,
                  w := q.w + lit (1/2) * dt * gz }
  else pure q

/-- `ConvertToPrimitivesFunctor3D::operator()`,
`/repo/src/muscl/HydroRunFunctors3D.h:229-259`. -/
def convertToPrimitives3 (p : Params R) (U Q : Arr) (t : Int × Int × Int) : Prog Arr R Unit :=
  if t.2.2 ≥ 0 ∧ t.2.2 < p.ksize ∧ t.2.1 ≥ 0 ∧ t.2.1 < p.jsize ∧ t.1 ≥ 0 ∧ t.1 < p.isize then do
    let uLoc ← getHS3 U t.1 t.2.1 t.2.2
    let q := (computePrimitives3 p.settings uLoc).1
    putHS3 Q t.1 t.2.1 t.2.2 q
  else pure ()

/-- The guard `gw <= i <= isize-gw` (and `j`, `k`),
`/repo/src/muscl/HydroRunFunctors3D.h:336`, `:1145`, `:1475`. -/
def faceGuard3 (p : Params R) (t : Int × Int × Int) : Prop :=
  t.2.2 ≥ p.ghostWidth ∧ t.2.2 ≤ p.ksize - p.ghostWidth ∧ t.2.1 ≥ p.ghostWidth ∧
    t.2.1 ≤ p.jsize - p.ghostWidth ∧ t.1 ≥ p.ghostWidth ∧ t.1 ≤ p.isize - p.ghostWidth

instance (p : Params R) (t : Int × Int × Int) : Decidable (faceGuard3 p t) := by
  unfold faceGuard3; infer_instance

/-- The interior guard, `/repo/src/muscl/HydroRunFunctors3D.h:771`, `:863`, `:1949`. -/
def cellGuard3 (p : Params R) (t : Int × Int × Int) : Prop :=
  t.2.2 ≥ p.ghostWidth ∧ t.2.2 < p.ksize - p.ghostWidth ∧ t.2.1 ≥ p.ghostWidth ∧
    t.2.1 < p.jsize - p.ghostWidth ∧ t.1 ≥ p.ghostWidth ∧ t.1 < p.isize - p.ghostWidth

instance (p : Params R) (t : Int × Int × Int) : Decidable (cellGuard3 p t) := by
  unfold cellGuard3; infer_instance

/-- read the seven states of the stencil around `(i,j,k)` and compute the slopes
(`/repo/src/muscl/HydroRunFunctors3D.h:376-429`; the same text for the neighbour cells
`:431-478`, `:526-573`, `:621-668`, in `ComputeSlopesFunctor3D` `:990-1043` and in
`ComputeAllFluxesAndUpdateFunctor3D`). -/
def stencilSlopes3 (p : Params R) (Q : Arr) (i j k : Int) (d0 : Slopes3 R) :
    Prog Arr R (HS R × Slopes3 R) := do
  let qLoc ← getHS3 Q i j k
  let n0 ← getHS3 Q (i + 1) j k
  let n1 ← getHS3 Q (i - 1) j k
  let n2 ← getHS3 Q i (j + 1) k
  let n3 ← getHS3 Q i (j - 1) k
  let n4 ← getHS3 Q i j (k + 1)
  let n5 ← getHS3 Q i j (k - 1)
  pure (qLoc, slope3 p.settings qLoc n0 n1 n2 n3 n4 n5 d0)

/-- State carried between the three interface parts of the all-in-one kernels. -/
structure CellPart3 (R : Type) where
  qLoc : HS R
  dq : Slopes3 R
  dqn : Slopes3 R
  flux : HS R

/-- Left interface along x: `/repo/src/muscl/HydroRunFunctors3D.h:372-503` and, same text,
`ComputeAllFluxesAndUpdateFunctor3D` `:1513-1646`. -/
def xInterface3 (p : Params R) (Q grav : Arr) (dt : R) (g : GravityParams) (jk : Junk R)
    (i j k : Int) : Prog Arr R (CellPart3 R) := do
  let dtdx := dt / p.dx
  let dtdy := dt / p.dy
  let dtdz := dt / p.dz
  let c ← stencilSlopes3 p Q i j k ⟨jk 0 i j k, jk 1 i j k, jk 2 i j k⟩
  let n ← stencilSlopes3 p Q (i - 1) j k ⟨jk 3 i j k, jk 4 i j k, jk 5 i j k⟩
  let qright := traceAlongDir3 p.settings c.1 c.2 dtdx dtdy dtdz .xmin
  let qleft := traceAlongDir3 p.settings n.1 n.2 dtdx dtdy dtdz .xmax
  let qleft ← gravPredictor3 g grav dt (i - 1) j k qleft
  let qright ← gravPredictor3 g grav dt i j k qright
  let flux := riemannHydro3 p.settings p.riemannSolverType qleft qright (jk 6 i j k)
  pure ⟨c.1, c.2, n.2, flux⟩

/-- Left interface along y: `/repo/src/muscl/HydroRunFunctors3D.h:515-600`, `:1669-1751`.  Returns
the flux in the swapped frame and the neighbour slopes. -/
def yInterface3 (p : Params R) (Q grav : Arr) (dt : R) (g : GravityParams) (jk : Junk R)
    (i j k : Int) (x : CellPart3 R) : Prog Arr R (HS R × Slopes3 R) := do
  let dtdx := dt / p.dx
  let dtdy := dt / p.dy
  let dtdz := dt / p.dz
  let n ← stencilSlopes3 p Q i (j - 1) k x.dqn
  let qright := traceAlongDir3 p.settings x.qLoc x.dq dtdx dtdy dtdz .ymin
  let qleft := traceAlongDir3 p.settings n.1 n.2 dtdx dtdy dtdz .ymax
  let qleft ← gravPredictor3 g grav dt i (j - 1) k qleft
  let qright ← gravPredictor3 g grav dt i j k qright
  pure (riemannHydro3 p.settings p.riemannSolverType qleft.swapUV qright.swapUV (jk 7 i j k), n.2)

/-- Left interface along z: `/repo/src/muscl/HydroRunFunctors3D.h:611-695`, `:1774-1861`. -/
def zInterface3 (p : Params R) (Q grav : Arr) (dt : R) (g : GravityParams) (jk : Junk R)
    (i j k : Int) (x : CellPart3 R) (dqn : Slopes3 R) : Prog Arr R (HS R) := do
  let dtdx := dt / p.dx
  let dtdy := dt / p.dy
  let dtdz := dt / p.dz
  let n ← stencilSlopes3 p Q i j (k - 1) dqn
  let qright := traceAlongDir3 p.settings x.qLoc x.dq dtdx dtdy dtdz .zmin
  let qleft := traceAlongDir3 p.settings n.1 n.2 dtdx dtdy dtdz .zmax
  let qleft ← gravPredictor3 g grav dt i j (k - 1) qleft
  let qright ← gravPredictor3 g grav dt i j k qright
  pure (riemannHydro3 p.settings p.riemannSolverType qleft.swapUW qright.swapUW (jk 8 i j k))

/-- `ComputeAndStoreFluxesFunctor3D::operator()`,
`/repo/src/muscl/HydroRunFunctors3D.h:329-707`. -/
def computeAndStoreFluxes3 (p : Params R) (Q Fx Fy Fz grav : Arr) (dt : R) (g : GravityParams)
    (jk : Junk R) (t : Int × Int × Int) : Prog Arr R Unit :=
  if faceGuard3 p t then do
    let x ← xInterface3 p Q grav dt g jk t.1 t.2.1 t.2.2
    putHS3 Fx t.1 t.2.1 t.2.2 (x.flux.smul (dt / p.dx))
    let fy ← yInterface3 p Q grav dt g jk t.1 t.2.1 t.2.2 x
    putHS3 Fy t.1 t.2.1 t.2.2 (fy.1.smul (dt / p.dy)).swapUV
    let fz ← zInterface3 p Q grav dt g jk t.1 t.2.1 t.2.2 x fy.2
    putHS3 Fz t.1 t.2.1 t.2.2 (fz.smul (dt / p.dz)).swapUW
  else pure ()

/-- `UpdateFunctor3D::operator()`, `/repo/src/muscl/HydroRunFunctors3D.h:764-813`. -/
def update3 (p : Params R) (U Fx Fy Fz : Arr) (t : Int × Int × Int) : Prog Arr R Unit :=
  if cellGuard3 p t then do
    plusEq3 U t.1 t.2.1 t.2.2 Fx t.1 t.2.1 t.2.2
    minusEq3 U t.1 t.2.1 t.2.2 Fx (t.1 + 1) t.2.1 t.2.2
    plusEq3 U t.1 t.2.1 t.2.2 Fy t.1 t.2.1 t.2.2
    minusEq3 U t.1 t.2.1 t.2.2 Fy t.1 (t.2.1 + 1) t.2.2
    plusEq3 U t.1 t.2.1 t.2.2 Fz t.1 t.2.1 t.2.2
    minusEq3 U t.1 t.2.1 t.2.2 Fz t.1 t.2.1 (t.2.2 + 1)
  else pure ()

/-- `UpdateDirFunctor3D<dir>::operator()`, `/repo/src/muscl/HydroRunFunctors3D.h:856-915`. -/
def updateDir3 (dir : Dir) (p : Params R) (U F : Arr) (t : Int × Int × Int) : Prog Arr R Unit :=
  if cellGuard3 p t then
    match dir with
    | .x => do
      plusEq3 U t.1 t.2.1 t.2.2 F t.1 t.2.1 t.2.2
      minusEq3 U t.1 t.2.1 t.2.2 F (t.1 + 1) t.2.1 t.2.2
    | .y => do
      plusEq3 U t.1 t.2.1 t.2.2 F t.1 t.2.1 t.2.2
      minusEq3 U t.1 t.2.1 t.2.2 F t.1 (t.2.1 + 1) t.2.2
    | .z => do
      plusEq3 U t.1 t.2.1 t.2.2 F t.1 t.2.1 t.2.2
      minusEq3 U t.1 t.2.1 t.2.2 F t.1 t.2.1 (t.2.2 + 1)
  else pure ()

/-- Guard of the slope kernel, `/repo/src/muscl/HydroRunFunctors3D.h:973-974`. -/
def slopeGuard3 (p : Params R) (t : Int × Int × Int) : Prop :=
  t.2.2 ≥ p.ghostWidth - 1 ∧ t.2.2 ≤ p.ksize - p.ghostWidth ∧ t.2.1 ≥ p.ghostWidth - 1 ∧
    t.2.1 ≤ p.jsize - p.ghostWidth ∧ t.1 ≥ p.ghostWidth - 1 ∧ t.1 ≤ p.isize - p.ghostWidth

instance (p : Params R) (t : Int × Int × Int) : Decidable (slopeGuard3 p t) := by
  unfold slopeGuard3; infer_instance

/-- `ComputeSlopesFunctor3D::operator()`, `/repo/src/muscl/HydroRunFunctors3D.h:966-1068`.  Unlike
in 2D the local slopes are not initialised. -/
def computeSlopes3 (p : Params R) (Q Sx Sy Sz : Arr) (jk : Junk R) (t : Int × Int × Int) :
    Prog Arr R Unit :=
  if slopeGuard3 p t then do
    let c ← stencilSlopes3 p Q t.1 t.2.1 t.2.2
      ⟨jk 0 t.1 t.2.1 t.2.2, jk 1 t.1 t.2.1 t.2.2, jk 2 t.1 t.2.1 t.2.2⟩
    putHS3 Sx t.1 t.2.1 t.2.2 c.2.x
    putHS3 Sy t.1 t.2.1 t.2.2 c.2.y
    putHS3 Sz t.1 t.2.1 t.2.2 c.2.z
  else pure ()

/-- read a state and its three stored slopes -/
def getCell3 (Q Sx Sy Sz : Arr) (i j k : Int) : Prog Arr R (HS R × Slopes3 R) := do
  let q ← getHS3 Q i j k
  let dx ← getHS3 Sx i j k
  let dy ← getHS3 Sy i j k
  let dz ← getHS3 Sz i j k
  pure (q, ⟨dx, dy, dz⟩)

/-- `ComputeTraceAndFluxes_Functor3D<dir>::operator()`,
`/repo/src/muscl/HydroRunFunctors3D.h:1138-1414`.  In the z direction (`:1336-1410`) the gravity
predictor is applied to the left state only, as in the source. -/
def computeTraceAndFluxes3 (dir : Dir) (p : Params R) (Q Sx Sy Sz F grav : Arr) (dt : R)
    (g : GravityParams) (jk : Junk R) (t : Int × Int × Int) : Prog Arr R Unit :=
  if faceGuard3 p t then do
    let dtdx := dt / p.dx
    let dtdy := dt / p.dy
    let dtdz := dt / p.dz
    let c ← getCell3 Q Sx Sy Sz t.1 t.2.1 t.2.2
    match dir with
    | .x =>
      let qright := traceAlongDir3 p.settings c.1 c.2 dtdx dtdy dtdz .xmin
      let qright ← gravPredictor3 g grav dt t.1 t.2.1 t.2.2 qright
      let n ← getCell3 Q Sx Sy Sz (t.1 - 1) t.2.1 t.2.2
      let qleft := traceAlongDir3 p.settings n.1 n.2 dtdx dtdy dtdz .xmax
      let qleft ← gravPredictor3 g grav dt (t.1 - 1) t.2.1 t.2.2 qleft
      let flux := riemannHydro3 p.settings p.riemannSolverType qleft qright (jk 6 t.1 t.2.1 t.2.2)
      putHS3 F t.1 t.2.1 t.2.2 (flux.smul dtdx)
    | .y =>
      let qright := traceAlongDir3 p.settings c.1 c.2 dtdx dtdy dtdz .ymin
      let qright ← gravPredictor3 g grav dt t.1 t.2.1 t.2.2 qright
      let n ← getCell3 Q Sx Sy Sz t.1 (t.2.1 - 1) t.2.2
      let qleft := traceAlongDir3 p.settings n.1 n.2 dtdx dtdy dtdz .ymax
      let qleft ← gravPredictor3 g grav dt t.1 (t.2.1 - 1) t.2.2 qleft
      let flux := riemannHydro3 p.settings p.riemannSolverType qleft.swapUV qright.swapUV
        (jk 6 t.1 t.2.1 t.2.2)
      putHS3 F t.1 t.2.1 t.2.2 (flux.smul dtdy).swapUV
    | .z =>
      let qright := traceAlongDir3 p.settings c.1 c.2 dtdx dtdy dtdz .zmin
      let n ← getCell3 Q Sx Sy Sz t.1 t.2.1 (t.2.2 - 1)
      let qleft := traceAlongDir3 p.settings n.1 n.2 dtdx dtdy dtdz .zmax
      let qleft ← gravPredictor3 g grav dt t.1 t.2.1 (t.2.2 - 1) qleft
      let flux := riemannHydro3 p.settings p.riemannSolverType qleft.swapUW qright.swapUW
        (jk 6 t.1 t.2.1 t.2.2)
      putHS3 F t.1 t.2.1 t.2.2 (flux.smul dtdz).swapUW
  else pure ()

/-- `ComputeAllFluxesAndUpdateFunctor3D::operator()`,
`/repo/src/muscl/HydroRunFunctors3D.h:1468-1885`. -/
def computeAllFluxesAndUpdate3 (p : Params R) (Q U grav : Arr) (dt : R) (g : GravityParams)
    (jk : Junk R) (t : Int × Int × Int) : Prog Arr R Unit :=
  if faceGuard3 p t then do
    let i := t.1
    let j := t.2.1
    let k := t.2.2
    let gw := p.ghostWidth
    let x ← xInterface3 p Q grav dt g jk i j k
    let fx := x.flux.smul (dt / p.dx)
    pif (k < p.ksize - gw ∧ j < p.jsize - gw ∧ i < p.isize - gw) (atomicAdd3 U i j k fx)
    pif (k < p.ksize - gw ∧ j < p.jsize - gw ∧ i > gw) (atomicSub3 U (i - 1) j k fx)
    let fy ← yInterface3 p Q grav dt g jk i j k x
    let fys := fy.1.swapUV.smul (dt / p.dy)
    pif (k < p.ksize - gw ∧ j < p.jsize - gw ∧ i < p.isize - gw) (atomicAdd3 U i j k fys)
    pif (k < p.ksize - gw ∧ j > gw ∧ i < p.isize - gw) (atomicSub3 U i (j - 1) k fys)
    let fz ← zInterface3 p Q grav dt g jk i j k x fy.2
    let fzs := fz.swapUW.smul (dt / p.dz)
    pif (k < p.ksize - gw ∧ j < p.jsize - gw ∧ i < p.isize - gw) (atomicAdd3 U i j k fzs)
    pif (k > gw ∧ j < p.jsize - gw ∧ i < p.isize - gw) (atomicSub3 U i j (k - 1) fzs)
  else pure ()

/-- `GravitySourceTermFunctor3D::operator()`, `/repo/src/muscl/HydroRunFunctors3D.h:1942-1978`.
Unlike in 2D the new density is not floored. -/
def gravitySource3 (p : Params R) (Uin Uout grav : Arr) (dt : R) (t : Int × Int × Int) :
    Prog Arr R Unit :=
  if cellGuard3 p t then do
    let i := t.1
    let j := t.2.1
    let k := t.2.2
    let rhoOld ← rd ⟨Uin, i, j, k, ID⟩
    let rhoNew ← rd ⟨Uout, i, j, k, ID⟩
    let rhou ← rd ⟨Uout, i, j, k, IU⟩
    let rhov ← rd ⟨Uout, i, j, k, IV⟩
    let rhow ← rd ⟨Uout, i, j, k, IW⟩
    let ekin_old := lit (1/2) * (rhou * rhou + rhov * rhov + rhow * rhow) / rhoNew
    let gx ← rd ⟨grav, i, j, k, IX⟩
    let rhou := rhou + lit (1/2) * dt * gx * (rhoOld + rhoNew)
    let gy ← rd ⟨grav, i, j, k, IY⟩
    let rhov := rhov + lit (1/2) * dt * gy * (rhoOld + rhoNew)
    let gz ← rd ⟨grav, i, j, k, IZ⟩
    let rhow := rhow + lit (1/2) * dt * gz * (rhoOld + rhoNew)
    wr ⟨Uout, i, j, k, IU⟩ rhou
    wr ⟨Uout, i, j, k, IV⟩ rhov
    wr ⟨Uout, i, j, k, IW⟩ rhow
    let ekin_new := lit (1/2) * (rhou * rhou + rhov * rhov + rhow * rhow) / rhoNew
    let e ← rd ⟨Uout, i, j, k, IP⟩
    wr ⟨Uout, i, j, k, IP⟩ (e + (ekin_new - ekin_old))
  else pure ()

/-! ## The numerical scheme after the ghost fill -/

open Prog (forRange)

/-- `GravitySourceTermFunctor3D::apply` guarded by `m_gravity.enabled`,
`/repo/src/muscl/SolverHydroMuscl.cpp:336-340`, `:371-374`, `:383-386`. -/
def gravityStep3 (p : Params R) (g : GravityParams) (dt : R) (inA outA : Arr) : Kern Arr R :=
  if g.enabled then
    forRange (range3 p.isize p.jsize p.ksize) (gravitySource3 p inA outA .grav dt)
  else Kern.skip

/-- The kernels launched by `SolverHydroMuscl<3>::godunov_unsplit_impl` after `make_boundaries`,
`/repo/src/muscl/SolverHydroMuscl.cpp:313-390`.  Version 1 uses one flux view for the three
directions (`/repo/src/muscl/SolverHydroMuscl.h:262-264`). -/
def scheme3 (p : Params R) (g : GravityParams) (dt : R) (jk : Junk R) (inA outA : Arr) :
    List (Kern Arr R) :=
  let S := range3 p.isize p.jsize p.ksize
  deepCopy outA inA ::
  forRange S (convertToPrimitives3 p inA .Q) ::
  (if p.implementationVersion = 0 then
    [forRange S (computeAndStoreFluxes3 p .Q .Fx .Fy .Fz .grav dt g jk),
     forRange S (update3 p outA .Fx .Fy .Fz),
     gravityStep3 p g dt inA outA]
  else if p.implementationVersion = 1 then
    [forRange S (computeSlopes3 p .Q .Sx .Sy .Sz jk),
     forRange S (computeTraceAndFluxes3 .x p .Q .Sx .Sy .Sz .Fx .grav dt g jk),
     forRange S (updateDir3 .x p outA .Fx),
     forRange S (computeTraceAndFluxes3 .y p .Q .Sx .Sy .Sz .Fx .grav dt g jk),
     forRange S (updateDir3 .y p outA .Fx),
     forRange S (computeTraceAndFluxes3 .z p .Q .Sx .Sy .Sz .Fx .grav dt g jk),
     forRange S (updateDir3 .z p outA .Fx),
     gravityStep3 p g dt inA outA]
  else if p.implementationVersion = 2 then
    [forRange S (computeAllFluxesAndUpdate3 p .Q outA .grav dt g jk),
     gravityStep3 p g dt inA outA]
  else [])

end EulerKokkos
