import Verif.Model.RiemannMhd
import Verif.Model.ComputeDt

/-!
# The 2D MHD kernels (constrained transport)

Models `/repo/src/muscl/MHDBaseFunctor2D.h` (per-cell functions) and
`/repo/src/muscl/MHDRunFunctors2D.h` (kernels).  `ComputeTraceAndFluxes_Functor2D_MHD`
(`/repo/src/muscl/MHDRunFunctors2D.h:1706-…`) is never launched and is not modelled.  Simplifications
common to all kernels: the eight variables of a cell are read (written) together; neighbourhood arrays
`qNb[3][3]`, `bfNb[4][4]` are indexed by the offset from the cell (`CENTER` is 0).  Uninitialised local
variables are the adversarial parameter `jk` (slots: 0 `dq[IX]`, 1 `dq[IY]`, 4 `flux`).
-/

set_option linter.constructorNameAsVariable false

namespace EulerKokkos

open Prog (rd wr add pif forRange)

variable {R : Type} [RealOps R]

/-! ## Per-cell functions -/

/-- `constoprim_mhd`, `/repo/src/muscl/MHDBaseFunctor2D.h:192-240` (the text of
`/repo/src/muscl/MHDBaseFunctor3D.h` is the same).  `nb` holds `magFieldNeighbors`.  Returns the
primitive state and the sound speed. -/
def constoprimMhd (s : Settings R) (u : MS R) (nb : BF R) : MS R × R :=
  let d := fmax u.d s.smallr
  let vx := u.u / d
  let vy := u.v / d
  let vz := u.w / d
  let a := lit (1/2) * (u.a + nb.x)
  let b := lit (1/2) * (u.b + nb.y)
  let c := lit (1/2) * (u.c + nb.z)
  let eken := lit (1/2) * (vx * vx + vy * vy + vz * vz)
  let emag := lit (1/2) * (a * a + b * b + c * c)
  if gtb s.cIso (lit 0) then
    (⟨d, d * s.cIso * s.cIso, vx, vy, vz, a, b, c⟩, s.cIso)
  else
    let eint := (u.p - emag) / d - eken
    let p := fmax ((s.gamma0 - lit 1) * d * eint) (d * s.smallp)
    (⟨d, p, vx, vy, vz, a, b, c⟩, RealOps.sqrt (s.gamma0 * p / d))

/-- One direction of `slope_unsplit_hydro_2d`, `/repo/src/muscl/MHDBaseFunctor2D.h:345-440`: eight
scalar slopes (the scalar formula `:259-330` is the text of the hydro `slopeScalarDir`); `dq0` is the
content of the output before the call, kept when `slope_type` is neither 1 nor 2. -/
def slopeM (s : Settings R) (q qp qm dq0 : MS R) : MS R :=
  if RealOps.beq s.slope_type (lit 1) || RealOps.beq s.slope_type (lit 2) then
    let f := slopeScalarDir s.slope_type
    ⟨f q.d qp.d qm.d, f q.p qp.p qm.p, f q.u qp.u qm.u, f q.v qp.v qm.v, f q.w qp.w qm.w,
      f q.a qp.a qm.a, f q.b qp.b qm.b, f q.c qp.c qm.c⟩
  else dq0

/-- floors applied to every reconstructed state, e.g. `/repo/src/muscl/MHDBaseFunctor2D.h:986-987`:
`q[ID] = fmax(smallR, q[ID]); q[IP] = fmax(smallp * q[ID], q[IP]);` -/
def MS.floored (s : Settings R) (q : MS R) : MS R :=
  let d := fmax s.smallr q.d
  { q with d := d, p := fmax (s.smallp * d) q.p }

/-- Source terms of the primitive variables, `/repo/src/muscl/MHDBaseFunctor2D.h:937-949`; the text of
`/repo/src/muscl/MHDRunFunctors2D.h:1021-1034` is the same.  `dqx`, `dqy` are slopes of the cell
centred variables, `dAx`, `dBy` the differences of the normal field over the cell. -/
def sourceM2 (s : Settings R) (q dqx dqy : MS R) (dAx dBy dtdx dtdy : R) : MS R :=
  let r := q.d
  let p := q.p
  let u := q.u
  let v := q.v
  let w := q.w
  let A := q.a
  let B := q.b
  let C := q.c
  let sr0 := (-u * dqx.d - dqx.u * r) * dtdx + (-v * dqy.d - dqy.v * r) * dtdy
  let su0 := (-u * dqx.u - dqx.p / r - B * dqx.b / r - C * dqx.c / r) * dtdx +
    (-v * dqy.u + B * dqy.a / r) * dtdy
  let sv0 := (-u * dqx.v + A * dqx.b / r) * dtdx +
    (-v * dqy.v - dqy.p / r - A * dqy.a / r - C * dqy.c / r) * dtdy
  let sw0 := (-u * dqx.w + A * dqx.c / r) * dtdx + (-v * dqy.w + B * dqy.c / r) * dtdy
  let sp0 := (-u * dqx.p - dqx.u * s.gamma0 * p) * dtdx + (-v * dqy.p - dqy.v * s.gamma0 * p) * dtdy
  let sA0 := (u * dBy + B * dqy.u - v * dqy.a - A * dqy.v) * dtdy
  let sB0 := (-u * dqx.b - B * dqx.u + v * dAx + A * dqx.v) * dtdx
  let sC0 := (w * dAx + A * dqx.w - u * dqx.c - C * dqx.u) * dtdx +
    (-v * dqy.c - C * dqy.v + w * dBy + B * dqy.w) * dtdy
  ⟨sr0, sp0, su0, sv0, sw0, sA0, sB0, sC0⟩

/-- electric field at the lower left edge of the cell at offset `(x,y)`,
`/repo/src/muscl/MHDBaseFunctor2D.h:821-843` -/
def elecZ2 (q : Int × Int → MS R) (b : Int × Int → BF R) (x y : Int) : R :=
  let u := lit (1/4) * ((q (x - 1, y - 1)).u + (q (x - 1, y)).u + (q (x, y - 1)).u + (q (x, y)).u)
  let v := lit (1/4) * ((q (x - 1, y - 1)).v + (q (x - 1, y)).v + (q (x, y - 1)).v + (q (x, y)).v)
  let A := lit (1/2) * ((b (x, y - 1)).x + (b (x, y)).x)
  let B := lit (1/2) * ((b (x - 1, y)).y + (b (x, y)).y)
  u * B - v * A

/-- outputs of `trace_unsplit_mhd_2d`: face states `qm[0], qp[0], qm[1], qp[1]` and edge states -/
structure TraceM2 (R : Type) where
  qmx : MS R
  qpx : MS R
  qmy : MS R
  qpy : MS R
  rt : MS R
  rb : MS R
  lt : MS R
  lb : MS R

/-- componentwise multiplication by one half (`d *= 0.5`), `/repo/src/muscl/MHDBaseFunctor2D.h:881-913` -/
def MS.half (q : MS R) : MS R :=
  let h : R := lit (1/2)
  ⟨q.d * h, q.p * h, q.u * h, q.v * h, q.w * h, q.a * h, q.b * h, q.c * h⟩

/-- `trace_unsplit_mhd_2d`, `/repo/src/muscl/MHDBaseFunctor2D.h:774-1110`.  `q`, `b`: neighbourhood by
offset; `j0`, `j1`: uninitialised content of `dq[2]`. -/
def traceMhd2 (s : Settings R) (q : Int × Int → MS R) (b : Int × Int → BF R) (dtdx dtdy : R)
    (j0 j1 : MS R) : TraceM2 R :=
  let h : R := lit (1/2)
  let ELL := elecZ2 q b 0 0
  let ELR := elecZ2 q b 0 1
  let ERL := elecZ2 q b 1 0
  let ERR := elecZ2 q b 1 1
  let AL := (b (0, 0)).x
  let AR := (b (1, 0)).x
  let BL := (b (0, 0)).y
  let BR := (b (0, 1)).y
  let c := q (0, 0)
  let dx := (slopeM s c (q (1, 0)) (q (-1, 0)) j0).half
  let dy := (slopeM s c (q (0, 1)) (q (0, -1)) j1).half
  -- face centred transverse slopes, `slope_unsplit_mhd_2d`, `/repo/src/muscl/MHDBaseFunctor2D.h:454-510`
  let f := slopeScalarDir s.slope_type
  let dALy := h * f (b (0, 0)).x (b (0, 1)).x (b (0, -1)).x
  let dBLx := h * f (b (0, 0)).y (b (1, 0)).y (b (-1, 0)).y
  let dARy := h * f (b (1, 0)).x (b (1, 1)).x (b (1, -1)).x
  let dBRx := h * f (b (0, 1)).y (b (1, 1)).y (b (-1, 1)).y
  let dAx := h * (AR - AL)
  let dBy := h * (BR - BL)
  let so := sourceM2 s c dx dy dAx dBy dtdx dtdy
  let sAL0 := (ELR - ELL) * h * dtdy
  let sAR0 := (ERR - ERL) * h * dtdy
  let sBL0 := -(ERL - ELL) * h * dtdx
  let sBR0 := -(ERR - ELR) * h * dtdx
  let r := c.d + so.d
  let u := c.u + so.u
  let v := c.v + so.v
  let w := c.w + so.w
  let p := c.p + so.p
  let A := c.a + so.a
  let B := c.b + so.b
  let C := c.c + so.c
  let AL := AL + sAL0
  let AR := AR + sAR0
  let BL := BL + sBL0
  let BR := BR + sBR0
  { qpx := MS.floored s ⟨r - dx.d, p - dx.p, u - dx.u, v - dx.v, w - dx.w, AL, B - dx.b, C - dx.c⟩
    qmx := MS.floored s ⟨r + dx.d, p + dx.p, u + dx.u, v + dx.v, w + dx.w, AR, B + dx.b, C + dx.c⟩
    qpy := MS.floored s ⟨r - dy.d, p - dy.p, u - dy.u, v - dy.v, w - dy.w, A - dy.a, BL, C - dy.c⟩
    qmy := MS.floored s ⟨r + dy.d, p + dy.p, u + dy.u, v + dy.v, w + dy.w, A + dy.a, BR, C + dy.c⟩
    rt := MS.floored s ⟨r + (dx.d + dy.d), p + (dx.p + dy.p), u + (dx.u + dy.u), v + (dx.v + dy.v),
      w + (dx.w + dy.w), AR + dARy, BR + dBRx, C + (dx.c + dy.c)⟩
    rb := MS.floored s ⟨r + (dx.d - dy.d), p + (dx.p - dy.p), u + (dx.u - dy.u), v + (dx.v - dy.v),
      w + (dx.w - dy.w), AR + -dARy, BL + dBLx, C + (dx.c - dy.c)⟩
    lb := MS.floored s ⟨r + (-dx.d - dy.d), p + (-dx.p - dy.p), u + (-dx.u - dy.u),
      v + (-dx.v - dy.v), w + (-dx.w - dy.w), AL + -dALy, BL + -dBLx, C + (-dx.c - dy.c)⟩
    lt := MS.floored s ⟨r + (-dx.d + dy.d), p + (-dx.p + dy.p), u + (-dx.u + dy.u),
      v + (-dx.v + dy.v), w + (-dx.w + dy.w), AL + dALy, BR + -dBRx, C + (-dx.c + dy.c)⟩ }

/-! ## Kernels -/

/-- `ConvertToPrimitivesFunctor2D_MHD::operator()`, `/repo/src/muscl/MHDRunFunctors2D.h:105-153`. -/
def convertMhd2 (p : Params R) (U Q : Arr) (t : Int × Int) : Prog Arr R Unit :=
  if t.2 ≥ 0 ∧ t.2 < p.jsize - 1 ∧ t.1 ≥ 0 ∧ t.1 < p.isize - 1 then do
    let u ← getMS U t.1 t.2 0
    let nx ← rd ⟨U, t.1 + 1, t.2, 0, IA⟩
    let ny ← rd ⟨U, t.1, t.2 + 1, 0, IB⟩
    putMS Q t.1 t.2 0 (constoprimMhd p.settings u ⟨nx, ny, lit 0⟩).1
  else pure ()

/-- `ComputeDtFunctor2D_MHD::operator()`, `/repo/src/muscl/MHDRunFunctors2D.h:38-76`. -/
def computeDtMhd2 (p : Params R) (Q : Arr) (t : Int × Int) (acc : R) : Prog Arr R R :=
  if cellGuard2 p t then do
    let q ← getMS Q t.1 t.2 0
    let sp := findSpeedInfo p.settings q
    pure (fmax acc (sp.1 / p.dx + sp.2.1 / p.dy))
  else pure acc

/-- offsets of the 3-by-3 neighbourhood in loop order -/
def offs3 : List (Int × Int) :=
  [(-1, -1), (-1, 0), (-1, 1), (0, -1), (0, 0), (0, 1), (1, -1), (1, 0), (1, 1)]

/-- offsets of the 4-by-4 neighbourhood in loop order -/
def offs4 : List (Int × Int) :=
  [(-1, -1), (-1, 0), (-1, 1), (-1, 2), (0, -1), (0, 0), (0, 1), (0, 2), (1, -1), (1, 0), (1, 1),
   (1, 2), (2, -1), (2, 0), (2, 1), (2, 2)]

/-- guard `gw-2 <= i < isize-gw+1` of the trace kernels, `/repo/src/muscl/MHDRunFunctors2D.h:857-858`,
`:972-973` -/
def traceGuardM2 (p : Params R) (t : Int × Int) : Prop :=
  t.2 ≥ p.ghostWidth - 2 ∧ t.2 < p.jsize - p.ghostWidth + 1 ∧ t.1 ≥ p.ghostWidth - 2 ∧
    t.1 < p.isize - p.ghostWidth + 1

instance (p : Params R) (t : Int × Int) : Decidable (traceGuardM2 p t) := by
  unfold traceGuardM2; infer_instance

/-- guard `gw <= i < isize-gw+1` of the flux and emf kernels, `/repo/src/muscl/MHDRunFunctors2D.h:427-428`,
`:523-524`, `:661-662`, `:740-741`, `:1127-1128`, `:1447-1448` -/
def faceGuardM2 (p : Params R) (t : Int × Int) : Prop :=
  t.2 ≥ p.ghostWidth ∧ t.2 < p.jsize - p.ghostWidth + 1 ∧ t.1 ≥ p.ghostWidth ∧
    t.1 < p.isize - p.ghostWidth + 1

instance (p : Params R) (t : Int × Int) : Decidable (faceGuardM2 p t) := by
  unfold faceGuardM2; infer_instance

/-- `ComputeTraceFunctor2D_MHD::operator()`, `/repo/src/muscl/MHDRunFunctors2D.h:848-906`. -/
def computeTraceMhd2 (p : Params R) (U Q : Arr) (dtdx dtdy : R) (jk : JunkM R) (t : Int × Int) :
    Prog Arr R Unit :=
  if traceGuardM2 p t then do
    let qNb ← gather (fun o => getMS Q (t.1 + o.1) (t.2 + o.2) 0) offs3 (fun _ => MS.zero)
    let bfNb ← gather (fun o => getBF U (t.1 + o.1) (t.2 + o.2) 0) offs4
      (fun _ => ⟨lit 0, lit 0, lit 0⟩)
    let r := traceMhd2 p.settings qNb bfNb dtdx dtdy (jk 0 t.1 t.2 0) (jk 1 t.1 t.2 0)
    putMS .Qm_x t.1 t.2 0 r.qmx
    putMS .Qp_x t.1 t.2 0 r.qpx
    putMS .Qm_y t.1 t.2 0 r.qmy
    putMS .Qp_y t.1 t.2 0 r.qpy
    putMS (.QEdge 0) t.1 t.2 0 r.rt
    putMS (.QEdge 1) t.1 t.2 0 r.rb
    putMS (.QEdge 2) t.1 t.2 0 r.lt
    putMS (.QEdge 3) t.1 t.2 0 r.lb
  else pure ()

/-- `ComputeFluxesAndStoreFunctor2D_MHD::operator()`, `/repo/src/muscl/MHDRunFunctors2D.h:418-464`.  The
y flux is stored in the swapped frame; the local variable `flux` is reused. -/
def fluxesAndStoreMhd2 (p : Params R) (Fx Fy : Arr) (jk : JunkM R) (t : Int × Int) :
    Prog Arr R Unit :=
  if faceGuardM2 p t then do
    let ql ← getMS .Qm_x (t.1 - 1) t.2 0
    let qr ← getMS .Qp_x t.1 t.2 0
    let flux := riemannMhd p.settings p.riemannSolverType ql qr (jk 4 t.1 t.2 0)
    putMS Fx t.1 t.2 0 flux
    let ql ← getMS .Qm_y t.1 (t.2 - 1) 0
    let qr ← getMS .Qp_y t.1 t.2 0
    let flux := riemannMhd p.settings p.riemannSolverType ql.swapXY qr.swapXY flux
    putMS Fy t.1 t.2 0 flux
  else pure ()

/-- `udata[v] += flux[v]*c` for the six variables of a 2D flux, and the three other sign / frame
combinations, `/repo/src/muscl/MHDRunFunctors2D.h:1592-1630` -/
def MS.plus6 (u f : MS R) (c : R) : MS R :=
  { u with d := u.d + f.d * c, p := u.p + f.p * c, u := u.u + f.u * c, v := u.v + f.v * c,
           w := u.w + f.w * c, c := u.c + f.c * c }
/-- `udata[v] -= flux[v]*c`, `/repo/src/muscl/MHDRunFunctors2D.h:1602-1610` -/
def MS.minus6 (u f : MS R) (c : R) : MS R :=
  { u with d := u.d - f.d * c, p := u.p - f.p * c, u := u.u - f.u * c, v := u.v - f.v * c,
           w := u.w - f.w * c, c := u.c - f.c * c }

/-- `UpdateFunctor2D_MHD::operator()`, `/repo/src/muscl/MHDRunFunctors2D.h:1572-1636`.  The y fluxes are
in the swapped frame: `udata[IU] += flux[IV]*dtdy`, `udata[IV] += flux[IU]*dtdy`; `swapXY` also swaps
`IA, IB`, which are not read here. -/
def updateMhd2 (p : Params R) (U Fx Fy : Arr) (dtdx dtdy : R) (t : Int × Int) : Prog Arr R Unit :=
  if cellGuard2 p t then do
    let u ← getMS U t.1 t.2 0
    let f ← getMS Fx t.1 t.2 0
    let u := u.plus6 f dtdx
    let f ← getMS Fx (t.1 + 1) t.2 0
    let u := u.minus6 f dtdx
    let f ← getMS Fy t.1 t.2 0
    let u := u.plus6 f.swapXY dtdy
    let f ← getMS Fy t.1 (t.2 + 1) 0
    let u := u.minus6 f.swapXY dtdy
    putMS U t.1 t.2 0 u
  else pure ()

/-- the four edge states around the lower left edge of cell `(i,j)`,
`/repo/src/muscl/MHDRunFunctors2D.h:669-672`, `:749-752` -/
def getEdge4 (i j : Int) : Prog Arr R (Edge4 R) := do
  let rt ← getMS (.QEdge 0) (i - 1) (j - 1) 0
  let rb ← getMS (.QEdge 1) (i - 1) j 0
  let lt ← getMS (.QEdge 2) i (j - 1) 0
  let lb ← getMS (.QEdge 3) i j 0
  pure ⟨rt, rb, lt, lb⟩

/-- `ComputeEmfAndStoreFunctor2D::operator()`, `/repo/src/muscl/MHDRunFunctors2D.h:652-682`. -/
def emfAndStoreMhd2 (p : Params R) (Emf : Arr) (t : Int × Int) : Prog Arr R Unit :=
  if faceGuardM2 p t then do
    let e ← getEdge4 t.1 t.2
    wr ⟨Emf, t.1, t.2, 0, 0⟩ (computeEmf p.settings .z e)
  else pure ()

/-- `UpdateEmfFunctor2D::operator()`, `/repo/src/muscl/MHDRunFunctors2D.h:1672-1693`. -/
def updateEmfMhd2 (p : Params R) (U Emf : Arr) (dtdx dtdy : R) (t : Int × Int) : Prog Arr R Unit :=
  if cellGuard2 p t then do
    let a ← rd ⟨U, t.1, t.2, 0, IA⟩
    let e1 ← rd ⟨Emf, t.1, t.2 + 1, 0, 0⟩
    let e0 ← rd ⟨Emf, t.1, t.2, 0, 0⟩
    wr ⟨U, t.1, t.2, 0, IA⟩ (a + (e1 - e0) * dtdy)
    let b ← rd ⟨U, t.1, t.2, 0, IB⟩
    let e1 ← rd ⟨Emf, t.1 + 1, t.2, 0, 0⟩
    let e0 ← rd ⟨Emf, t.1, t.2, 0, 0⟩
    wr ⟨U, t.1, t.2, 0, IB⟩ (b - (e1 - e0) * dtdx)
  else pure ()

/-- the flux updates of the x interface, `/repo/src/muscl/MHDRunFunctors2D.h:546-566`, `:1222-1242` -/
def atomicX2 (p : Params R) (U : Arr) (i j : Int) (f : MS R) (dtdx : R) : Prog Arr R Unit := do
  pif (j < p.jsize - p.ghostWidth ∧ i < p.isize - p.ghostWidth) (atomicAddM6 U i j 0 f dtdx)
  pif (j < p.jsize - p.ghostWidth ∧ i > p.ghostWidth) (atomicSubM6 U (i - 1) j 0 f dtdx)

/-- the flux updates of the y interface, `/repo/src/muscl/MHDRunFunctors2D.h:586-605`, `:1246-1264` -/
def atomicY2 (p : Params R) (U : Arr) (i j : Int) (f : MS R) (dtdy : R) : Prog Arr R Unit := do
  pif (j < p.jsize - p.ghostWidth ∧ i < p.isize - p.ghostWidth) (atomicAddM6 U i j 0 f dtdy)
  pif (j > p.ghostWidth ∧ i < p.isize - p.ghostWidth) (atomicSubM6 U i (j - 1) 0 f dtdy)

/-- `ComputeFluxesAndUpdateFunctor2D_MHD::operator()`, `/repo/src/muscl/MHDRunFunctors2D.h:514-607`. -/
def fluxesAndUpdateMhd2 (p : Params R) (U : Arr) (dtdx dtdy : R) (jk : JunkM R) (t : Int × Int) :
    Prog Arr R Unit :=
  if faceGuardM2 p t then do
    let ql ← getMS .Qm_x (t.1 - 1) t.2 0
    let qr ← getMS .Qp_x t.1 t.2 0
    let flux := riemannMhd p.settings p.riemannSolverType ql qr (jk 4 t.1 t.2 0)
    atomicX2 p U t.1 t.2 flux dtdx
    let ql ← getMS .Qm_y t.1 (t.2 - 1) 0
    let qr ← getMS .Qp_y t.1 t.2 0
    let flux := riemannMhd p.settings p.riemannSolverType ql.swapXY qr.swapXY flux
    atomicY2 p U t.1 t.2 flux.swapXY dtdy
  else pure ()

/-- the four face updates of an edge emf, `/repo/src/muscl/MHDRunFunctors2D.h:757-761`, `:1513-1517` -/
def atomicEmf2 (U : Arr) (i j : Int) (emfZ dtdx dtdy : R) : Prog Arr R Unit := do
  add ⟨U, i, j, 0, IA⟩ (-(emfZ * dtdy))
  add ⟨U, i, j, 0, IB⟩ (emfZ * dtdx)
  add ⟨U, i, j - 1, 0, IA⟩ (emfZ * dtdy)
  add ⟨U, i - 1, j, 0, IB⟩ (-(emfZ * dtdx))

/-- `ComputeEmfAndUpdateFunctor2D::operator()`, `/repo/src/muscl/MHDRunFunctors2D.h:731-763`. -/
def emfAndUpdateMhd2 (p : Params R) (U : Arr) (dtdx dtdy : R) (t : Int × Int) : Prog Arr R Unit :=
  if faceGuardM2 p t then do
    let e ← getEdge4 t.1 t.2
    atomicEmf2 U t.1 t.2 (computeEmf p.settings .z e) dtdx dtdy
  else pure ()

/-- `ComputeSlopesFunctor2D_MHD::operator()`, `/repo/src/muscl/MHDRunFunctors2D.h:207-246`. -/
def computeSlopesMhd2 (p : Params R) (U Q : Arr) (jk : JunkM R) (t : Int × Int) : Prog Arr R Unit :=
  if t.2 ≥ 1 ∧ t.2 < p.jsize - 1 ∧ t.1 ≥ 1 ∧ t.1 < p.isize - 1 then do
    let qc ← getMS Q t.1 t.2 0
    let qm ← getMS Q (t.1 - 1) t.2 0
    let qp ← getMS Q (t.1 + 1) t.2 0
    let dq := slopeM p.settings qc qp qm (jk 0 t.1 t.2 0)
    putMS .Sx t.1 t.2 0 dq
    let a1 ← rd ⟨U, t.1 + 1, t.2, 0, IA⟩
    let a0 ← rd ⟨U, t.1, t.2, 0, IA⟩
    wr ⟨.Sx, t.1, t.2, 0, IA⟩ (a1 - a0)
    let qm ← getMS Q t.1 (t.2 - 1) 0
    let qp ← getMS Q t.1 (t.2 + 1) 0
    let dq := slopeM p.settings qc qp qm dq
    putMS .Sy t.1 t.2 0 dq
    let b1 ← rd ⟨U, t.1, t.2 + 1, 0, IB⟩
    let b0 ← rd ⟨U, t.1, t.2, 0, IB⟩
    wr ⟨.Sy, t.1, t.2, 0, IB⟩ (b1 - b0)
  else pure ()

/-- `ComputeUpdatedPrimVarFunctor2D_MHD::operator()`, `/repo/src/muscl/MHDRunFunctors2D.h:960-1048` (with
`compute_normal_mag_field_slopes`, `/repo/src/muscl/MHDBaseFunctor2D.h:109-124`). -/
def updatedPrimVarMhd2 (p : Params R) (U Q Q2 : Arr) (dtdx dtdy : R) (t : Int × Int) :
    Prog Arr R Unit :=
  if traceGuardM2 p t then do
    let q ← getMS Q t.1 t.2 0
    let dqx ← getMS .Sx t.1 t.2 0
    let dqy ← getMS .Sy t.1 t.2 0
    let a1 ← rd ⟨U, t.1 + 1, t.2, 0, IA⟩
    let a0 ← rd ⟨U, t.1, t.2, 0, IA⟩
    let b1 ← rd ⟨U, t.1, t.2 + 1, 0, IB⟩
    let b0 ← rd ⟨U, t.1, t.2, 0, IB⟩
    let so := sourceM2 p.settings q dqx dqy (a1 - a0) (b1 - b0) dtdx dtdy
    let h : R := lit (1/2)
    putMS Q2 t.1 t.2 0 ⟨q.d + h * so.d, q.p + h * so.p, q.u + h * so.u, q.v + h * so.v,
      q.w + h * so.w, q.a + h * so.a, q.b + h * so.b, q.c + h * so.c⟩
  else pure ()

/-- `ComputeElecFieldFunctor2D::operator()`, `/repo/src/muscl/MHDRunFunctors2D.h:275-311`. -/
def elecFieldMhd2 (p : Params R) (U Q : Arr) (t : Int × Int) : Prog Arr R Unit :=
  if t.2 > 0 ∧ t.2 < p.jsize ∧ t.1 > 0 ∧ t.1 < p.isize then do
    let u0 ← rd ⟨Q, t.1 - 1, t.2 - 1, 0, IU⟩
    let u1 ← rd ⟨Q, t.1 - 1, t.2, 0, IU⟩
    let u2 ← rd ⟨Q, t.1, t.2 - 1, 0, IU⟩
    let u3 ← rd ⟨Q, t.1, t.2, 0, IU⟩
    let u := lit (1/4) * (u0 + u1 + u2 + u3)
    let v0 ← rd ⟨Q, t.1 - 1, t.2 - 1, 0, IV⟩
    let v1 ← rd ⟨Q, t.1 - 1, t.2, 0, IV⟩
    let v2 ← rd ⟨Q, t.1, t.2 - 1, 0, IV⟩
    let v3 ← rd ⟨Q, t.1, t.2, 0, IV⟩
    let v := lit (1/4) * (v0 + v1 + v2 + v3)
    let a0 ← rd ⟨U, t.1, t.2 - 1, 0, IA⟩
    let a1 ← rd ⟨U, t.1, t.2, 0, IA⟩
    let A := lit (1/2) * (a0 + a1)
    let b0 ← rd ⟨U, t.1 - 1, t.2, 0, IB⟩
    let b1 ← rd ⟨U, t.1, t.2, 0, IB⟩
    let B := lit (1/2) * (b0 + b1)
    wr ⟨.ElecField, t.1, t.2, 0, 0⟩ (u * B - v * A)
  else pure ()

/-- `ComputeSourceFaceMagFunctor2D::operator()`, `/repo/src/muscl/MHDRunFunctors2D.h:343-365`. -/
def sourceFaceMagMhd2 (p : Params R) (dtdx dtdy : R) (t : Int × Int) : Prog Arr R Unit :=
  if t.2 > 0 ∧ t.2 < p.jsize - 1 ∧ t.1 > 0 ∧ t.1 < p.isize - 1 then do
    let e1 ← rd ⟨.ElecField, t.1, t.2 + 1, 0, 0⟩
    let e0 ← rd ⟨.ElecField, t.1, t.2, 0, 0⟩
    wr ⟨.sFaceMag, t.1, t.2, 0, IX⟩ ((e1 - e0) * lit (1/2) * dtdy)
    let e1 ← rd ⟨.ElecField, t.1 + 1, t.2, 0, 0⟩
    let e0 ← rd ⟨.ElecField, t.1, t.2, 0, 0⟩
    wr ⟨.sFaceMag, t.1, t.2, 0, IY⟩ (-(e1 - e0) * lit (1/2) * dtdx)
  else pure ()

/-- `ComputeFluxAndUpdateAlongDirFunctor2D_MHD<DIR_X>::operator()`,
`/repo/src/muscl/MHDRunFunctors2D.h:1110-1266`. -/
def fluxAlongXMhd2 (p : Params R) (Uin Uout Q2 : Arr) (dtdx : R) (jk : JunkM R) (t : Int × Int) :
    Prog Arr R Unit :=
  if faceGuardM2 p t then do
    let h : R := lit (1/2)
    let dq ← getMS .Sx t.1 t.2 0
    let q2 ← getMS Q2 t.1 t.2 0
    let a ← rd ⟨Uin, t.1, t.2, 0, IA⟩
    let sa ← rd ⟨.sFaceMag, t.1, t.2, 0, IX⟩
    let qR := MS.floored p.settings ⟨q2.d - h * dq.d, q2.p - h * dq.p, q2.u - h * dq.u,
      q2.v - h * dq.v, q2.w - h * dq.w, a + sa, q2.b - h * dq.b, q2.c - h * dq.c⟩
    let dqN ← getMS .Sx (t.1 - 1) t.2 0
    let q2N ← getMS Q2 (t.1 - 1) t.2 0
    let qL := MS.floored p.settings ⟨q2N.d + h * dqN.d, q2N.p + h * dqN.p, q2N.u + h * dqN.u,
      q2N.v + h * dqN.v, q2N.w + h * dqN.w, qR.a, q2N.b + h * dqN.b, q2N.c + h * dqN.c⟩
    let flux := riemannMhd p.settings p.riemannSolverType qL qR (jk 4 t.1 t.2 0)
    atomicX2 p Uout t.1 t.2 flux dtdx
  else pure ()

/-- `ComputeFluxAndUpdateAlongDirFunctor2D_MHD<DIR_Y>::operator()`,
`/repo/src/muscl/MHDRunFunctors2D.h:1110-1266`. -/
def fluxAlongYMhd2 (p : Params R) (Uin Uout Q2 : Arr) (dtdy : R) (jk : JunkM R) (t : Int × Int) :
    Prog Arr R Unit :=
  if faceGuardM2 p t then do
    let h : R := lit (1/2)
    let dq ← getMS .Sy t.1 t.2 0
    let q2 ← getMS Q2 t.1 t.2 0
    let b ← rd ⟨Uin, t.1, t.2, 0, IB⟩
    let sb ← rd ⟨.sFaceMag, t.1, t.2, 0, IY⟩
    let qR := MS.floored p.settings ⟨q2.d - h * dq.d, q2.p - h * dq.p, q2.u - h * dq.u,
      q2.v - h * dq.v, q2.w - h * dq.w, q2.a - h * dq.a, b + sb, q2.c - h * dq.c⟩
    let dqN ← getMS .Sy t.1 (t.2 - 1) 0
    let q2N ← getMS Q2 t.1 (t.2 - 1) 0
    let qL := MS.floored p.settings ⟨q2N.d + h * dqN.d, q2N.p + h * dqN.p, q2N.u + h * dqN.u,
      q2N.v + h * dqN.v, q2N.w + h * dqN.w, q2N.a + h * dqN.a, qR.b, q2N.c + h * dqN.c⟩
    let flux := riemannMhd p.settings p.riemannSolverType qL.swapXY qR.swapXY (jk 5 t.1 t.2 0)
    atomicY2 p Uout t.1 t.2 flux.swapXY dtdy
  else pure ()

/-- `compute_limited_slope<DIR_X>(udata, i, j, IB)` and `<DIR_Y>(udata, i, j, IA)`,
`/repo/src/muscl/MHDBaseFunctor2D.h:130-160`; `(di,dj)` is the direction. -/
def limitedSlope2 (p : Params R) (U : Arr) (i j di dj : Int) (v : Nat) : Prog Arr R R := do
  let b ← rd ⟨U, i, j, 0, v⟩
  let b_plus ← rd ⟨U, i + di, j + dj, 0, v⟩
  let b_minus ← rd ⟨U, i - di, j - dj, 0, v⟩
  pure (slopeScalarDir p.settings.slope_type b b_plus b_minus)

/-- `sign * x` with an `int` sign equal to `1` or `-1` (converted to `real_t`) -/
def sgnMul (plus : Bool) (x : R) : R := lit (if plus then 1 else -1) * x

/-- `reconstruct_state_at_edge`, `/repo/src/muscl/MHDRunFunctors2D.h:1347-1435`.  `(ia,ja)`, `(ib,jb)`,
`sx`, `sy`, `sa`, `sb` are the values the `if` chain selects for each edge location (the index arguments
are `uint32_t` in the code, converted from non-negative `int`). -/
def reconstructEdge2 (p : Params R) (Uin : Arr) (q : MS R) (i0 j0 ia ja ib jb : Int)
    (sx sy sa sb : Bool) : Prog Arr R (MS R) := do
  let h : R := lit (1/2)
  let a ← rd ⟨Uin, ia, ja, 0, IA⟩
  let fa ← rd ⟨.sFaceMag, ia, ja, 0, IX⟩
  let A := a + fa
  let dAy ← limitedSlope2 p Uin ia ja 0 1 IA
  let b ← rd ⟨Uin, ib, jb, 0, IB⟩
  let fb ← rd ⟨.sFaceMag, ib, jb, 0, IY⟩
  let B := b + fb
  let dBx ← limitedSlope2 p Uin ib jb 1 0 IB
  let dqX ← getMS .Sx i0 j0 0
  let dqY ← getMS .Sy i0 j0 0
  let f := fun x y => h * (sgnMul sx x + sgnMul sy y)
  pure (MS.floored p.settings ⟨q.d + f dqX.d dqY.d, q.p + f dqX.p dqY.p, q.u + f dqX.u dqY.u,
    q.v + f dqX.v dqY.v, q.w + f dqX.w dqY.w, A + h * sgnMul sa dAy, B + h * sgnMul sb dBx,
    q.c + f dqX.c dqY.c⟩)

/-- `ReconstructEdgeComputeEmfAndUpdateFunctor2D::operator()`,
`/repo/src/muscl/MHDRunFunctors2D.h:1437-1519`. -/
def reconstructEmfMhd2 (p : Params R) (Uin Uout Q2 : Arr) (dtdx dtdy : R) (t : Int × Int) :
    Prog Arr R Unit :=
  if faceGuardM2 p t then do
    let i := t.1
    let j := t.2
    let qLB ← getMS Q2 i j 0
    let qLT ← getMS Q2 i (j - 1) 0
    let qRB ← getMS Q2 (i - 1) j 0
    let qRT ← getMS Q2 (i - 1) (j - 1) 0
    let lb ← reconstructEdge2 p Uin qLB i j i j i j false false false false
    let rt ← reconstructEdge2 p Uin qRT (i - 1) (j - 1) (i - 1 + 1) (j - 1) (i - 1) (j - 1 + 1)
      true true true true
    let rb ← reconstructEdge2 p Uin qRB (i - 1) j (i - 1 + 1) j (i - 1) j true false false true
    let lt ← reconstructEdge2 p Uin qLT i (j - 1) i (j - 1) i (j - 1 + 1) false true true false
    atomicEmf2 Uout i j (computeEmf p.settings .z ⟨rt, rb, lt, lb⟩) dtdx dtdy
  else pure ()

/-! ## One time step -/

/-- First part of `SolverMHDMuscl<2>::godunov_unsplit_impl`,
`/repo/src/muscl/SolverMHDMuscl.cpp:372-387`: ghost cells of `data_in`, copy, primitive variables. -/
def preMhd2 (p : Params R) (inA outA : Arr) : List (Launch Arr R) :=
  let S := range2 p.isize p.jsize
  [.par (range1 (nbIter2 p)) (makeBoundary2 true p inA .xmin),
   .par (range1 (nbIter2 p)) (makeBoundary2 true p inA .xmax),
   .par (range1 (nbIter2 p)) (makeBoundary2 true p inA .ymin),
   .par (range1 (nbIter2 p)) (makeBoundary2 true p inA .ymax),
   .copy outA inA,
   .par S (convertMhd2 p inA .Q)]

/-- Last part of `SolverMHDMuscl<2>::godunov_unsplit_impl` (after `compute_dt`),
`/repo/src/muscl/SolverMHDMuscl.cpp:394-450`. -/
def postMhd2 (p : Params R) (dt : R) (jk : JunkM R) (inA outA : Arr) : List (Launch Arr R) :=
  let S := range2 p.isize p.jsize
  let dtdx := dt / p.dx
  let dtdy := dt / p.dy
  if p.implementationVersion = 0 then
    [.par S (computeTraceMhd2 p inA .Q dtdx dtdy jk),
     .par S (fluxesAndStoreMhd2 p .Fx .Fy jk),
     .par S (emfAndStoreMhd2 p .Emf),
     .par S (updateMhd2 p outA .Fx .Fy dtdx dtdy),
     .par S (updateEmfMhd2 p outA .Emf dtdx dtdy)]
  else if p.implementationVersion = 1 then
    [.par S (computeTraceMhd2 p inA .Q dtdx dtdy jk),
     .par S (fluxesAndUpdateMhd2 p outA dtdx dtdy jk),
     .par S (emfAndUpdateMhd2 p outA dtdx dtdy)]
  else if p.implementationVersion = 2 then
    [.par S (computeSlopesMhd2 p inA .Q jk),
     .par S (updatedPrimVarMhd2 p inA .Q .Q2 dtdx dtdy),
     .par S (elecFieldMhd2 p inA .Q),
     .par S (sourceFaceMagMhd2 p dtdx dtdy),
     .par S (fluxAlongXMhd2 p inA outA .Q2 dtdx jk),
     .par S (fluxAlongYMhd2 p inA outA .Q2 dtdy jk),
     .par S (reconstructEmfMhd2 p inA outA .Q2 dtdx dtdy)]
  else []

/-- run launches in order -/
def runLaunches (ls : List (Launch Arr R)) : Kern Arr R := Kern.seqs (ls.map Launch.kern)

/-- `SolverMHDMuscl<2>::godunov_unsplit_impl(data_in, data_out)` with the time step `dt` found by
`compute_dt` in the middle, `/repo/src/muscl/SolverMHDMuscl.cpp:365-455` (serial build). -/
def godunovMhd2 (p : Params R) (dt : R) (jk : JunkM R) (inA outA : Arr) : Kern Arr R :=
  Kern.seq (runLaunches (preMhd2 p inA outA)) (runLaunches (postMhd2 p dt jk inA outA))

/-- `SolverMHDMuscl<2>::compute_dt_local`, `/repo/src/muscl/SolverMHDMuscl.h:718-737`; `ident` is the
identity of `Kokkos::Max`. -/
def computeDtLocalMhd2 (p : Params R) (ident : R) (m : Mem Arr R) (dt : R) : Prop :=
  ∃ invDt, ParReduce (range2 p.isize p.jsize) (computeDtMhd2 p .Q) kokkosMaxJoin ident m invDt ∧
    dt = p.settings.cfl / invDt

/-- consecutive time steps with the given `dt`s, starting at iteration `n`
(`SolverMHDMuscl::godunov_unsplit`, `/repo/src/muscl/SolverMHDMuscl.h:789-800`) -/
def mhdRun2 (p : Params R) (jk : JunkM R) : Nat → List R → Kern Arr R
  | _, [] => Kern.skip
  | n, dt :: dts =>
    Kern.seq (godunovMhd2 p dt jk (pingIn n) (pingOut n)) (mhdRun2 p jk (n + 1) dts)

/-- Which view elements are allocated, 2D MHD: `/repo/src/muscl/SolverMHDMuscl.h:268-310`. -/
def AllocM2 (p : Params R) (l : Loc Arr) : Prop :=
  (0 ≤ l.i ∧ l.i < p.isize) ∧ (0 ≤ l.j ∧ l.j < p.jsize) ∧ l.k = 0 ∧
  match l.arr with
  | .U | .U2 | .Q => l.v < p.nbvar
  | .Qm_x | .Qm_y | .Qp_x | .Qp_y =>
    (p.implementationVersion = 0 ∨ p.implementationVersion = 1) ∧ l.v < p.nbvar
  | .QEdge n => n < 4 ∧ (p.implementationVersion = 0 ∨ p.implementationVersion = 1) ∧ l.v < p.nbvar
  | .Fx | .Fy => p.implementationVersion = 0 ∧ l.v < p.nbvar
  | .Emf => p.implementationVersion = 0 ∧ l.v < 1
  | .Q2 | .Sx | .Sy => p.implementationVersion = 2 ∧ l.v < p.nbvar
  | .sFaceMag => p.implementationVersion = 2 ∧ l.v < 2
  | .ElecField => p.implementationVersion = 2 ∧ l.v < 1
  | _ => False

end EulerKokkos
