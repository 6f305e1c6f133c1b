import Verif.Model.Mhd2D
import Verif.Model.HydroStep3

/-!
# The 3D MHD kernels (constrained transport)

Models `/repo/src/muscl/MHDBaseFunctor3D.h` (per-cell functions) and
`/repo/src/muscl/MHDRunFunctors3D.h` (kernels).  Simplifications common to all kernels: the eight
variables of a cell are read (written) together; the twelve arrays of edge states `QEdge_RT, QEdge_RB,
QEdge_LT, QEdge_LB, QEdge_RT2, …, QEdge_LB3` are `QEdge 0 … QEdge 11`.  Uninitialised local variables are
the adversarial parameter `jk` (slots: 0 `dq` of the slope kernel, 4 `flux`).
-/

set_option linter.constructorNameAsVariable false

namespace EulerKokkos

open Prog (rd wr add pif forRange)

variable {R : Type} [RealOps R]

/-! ## Per-cell functions -/

/-- one direction of `slope_unsplit_hydro_3d` (seven states),
`/repo/src/muscl/MHDBaseFunctor3D.h:364-490`: zero when `slope_type` is neither 1 nor 2.  `qmC` is the
state whose `IC` component is used for the slope of `IC` (see `slopesM7`). -/
def slopeM7 (s : Settings R) (q qp qm qmC : MS R) : MS R :=
  if RealOps.beq s.slope_type (lit 1) || RealOps.beq s.slope_type (lit 2) then
    let f := slopeScalarDir s.slope_type
    ⟨f q.d qp.d qm.d, f q.p qp.p qm.p, f q.u qp.u qm.u, f q.v qp.v qm.v, f q.w qp.w qm.w,
      f q.a qp.a qm.a, f q.b qp.b qm.b, f q.c qp.c qmC.c⟩
  else MS.zero

/-- floors of the states of `trace_unsplit_mhd_3d_simpler`, e.g.
`/repo/src/muscl/MHDBaseFunctor3D.h:907-908`: `q[ID] = fmax(smallR, q[ID]); q[IP] = fmax(smallp, q[IP])`
(the pressure floor is not multiplied by the density, unlike in `MS.floored`). -/
def MS.flooredP (s : Settings R) (q : MS R) : MS R :=
  { q with d := fmax s.smallr q.d, p := fmax s.smallp q.p }

/-- Source terms of the primitive variables, `/repo/src/muscl/MHDBaseFunctor3D.h:843-857`; the text of
`/repo/src/muscl/MHDRunFunctors3D.h:985-1003` is the same.  The branch `Omega0 > 0` (`:858-868`) is
unreachable: `Omega0` is set to `0.0` in `/repo/src/shared/HydroParams.h` and never read from the
parameter file. -/
def sourceM3 (s : Settings R) (q dqx dqy dqz : MS R) (dAx dBy dCz dtdx dtdy dtdz : R) : MS R :=
  let r := q.d
  let p := q.p
  let u := q.u
  let v := q.v
  let w := q.w
  let A := q.a
  let B := q.b
  let C := q.c
  let gamma := s.gamma0
  let sr0 := (-u * dqx.d - dqx.u * r) * dtdx + (-v * dqy.d - dqy.v * r) * dtdy +
    (-w * dqz.d - dqz.w * r) * dtdz
  let su0 := (-u * dqx.u - (dqx.p + B * dqx.b + C * dqx.c) / r) * dtdx +
    (-v * dqy.u + B * dqy.a / r) * dtdy + (-w * dqz.u + C * dqz.a / r) * dtdz
  let sv0 := (-u * dqx.v + A * dqx.b / r) * dtdx +
    (-v * dqy.v - (dqy.p + A * dqy.a + C * dqy.c) / r) * dtdy + (-w * dqz.v + C * dqz.b / r) * dtdz
  let sw0 := (-u * dqx.w + A * dqx.c / r) * dtdx + (-v * dqy.w + B * dqy.c / r) * dtdy +
    (-w * dqz.w - (dqz.p + A * dqz.a + B * dqz.b) / r) * dtdz
  let sp0 := (-u * dqx.p - dqx.u * gamma * p) * dtdx + (-v * dqy.p - dqy.v * gamma * p) * dtdy +
    (-w * dqz.p - dqz.w * gamma * p) * dtdz
  let sA0 := (u * dBy + B * dqy.u - v * dqy.a - A * dqy.v) * dtdy +
    (u * dCz + C * dqz.u - w * dqz.a - A * dqz.w) * dtdz
  let sB0 := (v * dAx + A * dqx.v - u * dqx.b - B * dqx.u) * dtdx +
    (v * dCz + C * dqz.v - w * dqz.b - B * dqz.w) * dtdz
  let sC0 := (w * dAx + A * dqx.w - u * dqx.c - C * dqx.u) * dtdx +
    (w * dBy + B * dqy.w - v * dqy.c - C * dqy.v) * dtdy
  ⟨sr0, sp0, su0, sv0, sw0, sA0, sB0, sC0⟩

/-- `real_t E[2][2]`: electric field component at four edges, `/repo/src/muscl/MHDRunFunctors3D.h:690-694` -/
structure Quad (R : Type) where
  ll : R
  lr : R
  rl : R
  rr : R

/-- `real_t dbf[12]`: transverse slopes of the face-centred field, left faces then right faces,
`/repo/src/muscl/MHDRunFunctors3D.h:728-741` -/
structure Dbf3 (R : Type) where
  aly : R
  alz : R
  blx : R
  blz : R
  clx : R
  cly : R
  ary : R
  arz : R
  brx : R
  brz : R
  crx : R
  cry : R

/-- inputs of `trace_unsplit_mhd_3d_simpler`: the seven states, `bfNb[6]`, `dbf[12]`, `Ex, Ey, Ez` -/
structure TraceIn3 (R : Type) where
  q : MS R
  xp : MS R
  xm : MS R
  yp : MS R
  ym : MS R
  zp : MS R
  zm : MS R
  al : R
  ar : R
  bl : R
  br : R
  cl : R
  cr : R
  dbf : Dbf3 R
  ex : Quad R
  ey : Quad R
  ez : Quad R

/-- outputs of `trace_unsplit_mhd_3d_simpler`: `qm[3]`, `qp[3]` and the edge states `qEdge[4][3]` -/
structure TraceM3 (R : Type) where
  qmx : MS R
  qpx : MS R
  qmy : MS R
  qpy : MS R
  qmz : MS R
  qpz : MS R
  ex : Edge4 R
  ey : Edge4 R
  ez : Edge4 R

/-- `trace_unsplit_mhd_3d_simpler`, `/repo/src/muscl/MHDBaseFunctor3D.h:690-1113`, with the call of
`slope_unsplit_hydro_3d` (`/repo/src/muscl/MHDRunFunctors3D.h:718`) that precedes it.  In the latter the
z slope of `IC` is computed with `qMinusY[IC]` (`/repo/src/muscl/MHDBaseFunctor3D.h:443-451`); that slope
is not used afterwards. -/
def traceMhd3 (s : Settings R) (n : TraceIn3 R) (dtdx dtdy dtdz : R) : TraceM3 R :=
  let h : R := lit (1/2)
  let c := n.q
  let dx := (slopeM7 s c n.xp n.xm n.xm).half
  let dy := (slopeM7 s c n.yp n.ym n.ym).half
  let dz := (slopeM7 s c n.zp n.zm n.ym).half
  let dALy := h * n.dbf.aly
  let dALz := h * n.dbf.alz
  let dBLx := h * n.dbf.blx
  let dBLz := h * n.dbf.blz
  let dCLx := h * n.dbf.clx
  let dCLy := h * n.dbf.cly
  let dARy := h * n.dbf.ary
  let dARz := h * n.dbf.arz
  let dBRx := h * n.dbf.brx
  let dBRz := h * n.dbf.brz
  let dCRx := h * n.dbf.crx
  let dCRy := h * n.dbf.cry
  let dAx := h * (n.ar - n.al)
  let dBy := h * (n.br - n.bl)
  let dCz := h * (n.cr - n.cl)
  let so := sourceM3 s c dx dy dz dAx dBy dCz dtdx dtdy dtdz
  let sAL0 := (n.ez.lr - n.ez.ll) * dtdy * h - (n.ey.lr - n.ey.ll) * dtdz * h
  let sAR0 := (n.ez.rr - n.ez.rl) * dtdy * h - (n.ey.rr - n.ey.rl) * dtdz * h
  let sBL0 := -(n.ez.rl - n.ez.ll) * dtdx * h + (n.ex.lr - n.ex.ll) * dtdz * h
  let sBR0 := -(n.ez.rr - n.ez.lr) * dtdx * h + (n.ex.rr - n.ex.rl) * dtdz * h
  let sCL0 := (n.ey.rl - n.ey.ll) * dtdx * h - (n.ex.rl - n.ex.ll) * dtdy * h
  let sCR0 := (n.ey.rr - n.ey.lr) * dtdx * h - (n.ex.rr - n.ex.lr) * dtdy * h
  let r := c.d + so.d
  let u := c.u + so.u
  let v := c.v + so.v
  let w := c.w + so.w
  let p := c.p + so.p
  let A := c.a + so.a
  let B := c.b + so.b
  let C := c.c + so.c
  let AL := n.al + sAL0
  let AR := n.ar + sAR0
  let BL := n.bl + sBL0
  let BR := n.br + sBR0
  let CL := n.cl + sCL0
  let CR := n.cr + sCR0
  -- a corner state: density, pressure and velocity moved by `f` of the two slopes
  let corner (f : R → R → R) (e g : MS R) (a b c : R) : MS R :=
    MS.flooredP s ⟨r + f e.d g.d, p + f e.p g.p, u + f e.u g.u, v + f e.v g.v, w + f e.w g.w, a, b, c⟩
  let pp : R → R → R := fun x y => x + y
  let pm : R → R → R := fun x y => x - y
  let mp : R → R → R := fun x y => -x + y
  let mm : R → R → R := fun x y => -x - y
  { qpx := MS.flooredP s ⟨r - dx.d, p - dx.p, u - dx.u, v - dx.v, w - dx.w, AL, B - dx.b, C - dx.c⟩
    qmx := MS.flooredP s ⟨r + dx.d, p + dx.p, u + dx.u, v + dx.v, w + dx.w, AR, B + dx.b, C + dx.c⟩
    qpy := MS.flooredP s ⟨r - dy.d, p - dy.p, u - dy.u, v - dy.v, w - dy.w, A - dy.a, BL, C - dy.c⟩
    qmy := MS.flooredP s ⟨r + dy.d, p + dy.p, u + dy.u, v + dy.v, w + dy.w, A + dy.a, BR, C + dy.c⟩
    qpz := MS.flooredP s ⟨r - dz.d, p - dz.p, u - dz.u, v - dz.v, w - dz.w, A - dz.a, B - dz.b, CL⟩
    qmz := MS.flooredP s ⟨r + dz.d, p + dz.p, u + dz.u, v + dz.v, w + dz.w, A + dz.a, B + dz.b, CR⟩
    ex := ⟨corner pp dy dz (A + pp dy.a dz.a) (BR + dBRz) (CR + dCRy),
      corner pm dy dz (A + pm dy.a dz.a) (BR + -dBRz) (CL + dCLy),
      corner mp dy dz (A + mp dy.a dz.a) (BL + dBLz) (CR + -dCRy),
      corner mm dy dz (A + mm dy.a dz.a) (BL + -dBLz) (CL + -dCLy)⟩
    ey := ⟨corner pp dx dz (AR + dARz) (B + pp dx.b dz.b) (CR + dCRx),
      corner pm dx dz (AR + -dARz) (B + pm dx.b dz.b) (CL + dCLx),
      corner mp dx dz (AL + dALz) (B + mp dx.b dz.b) (CR + -dCRx),
      corner mm dx dz (AL + -dALz) (B + mm dx.b dz.b) (CL + -dCLx)⟩
    ez := ⟨corner pp dx dy (AR + dARy) (BR + dBRx) (C + pp dx.c dy.c),
      corner pm dx dy (AR + -dARy) (BL + dBLx) (C + pm dx.c dy.c),
      corner mp dx dy (AL + dALy) (BR + -dBRx) (C + mp dx.c dy.c),
      corner mm dx dy (AL + -dALy) (BL + -dBLx) (C + mm dx.c dy.c)⟩ }

/-! ## Kernels -/

/-- `ConvertToPrimitivesFunctor3D_MHD::operator()`, `/repo/src/muscl/MHDRunFunctors3D.h:107-157`. -/
def convertMhd3 (p : Params R) (U Q : Arr) (t : Int × Int × Int) : Prog Arr R Unit :=
  if t.2.2 ≥ 0 ∧ t.2.2 < p.ksize - 1 ∧ t.2.1 ≥ 0 ∧ t.2.1 < p.jsize - 1 ∧ t.1 ≥ 0 ∧
      t.1 < p.isize - 1 then do
    let u ← getMS U t.1 t.2.1 t.2.2
    let nx ← rd ⟨U, t.1 + 1, t.2.1, t.2.2, IA⟩
    let ny ← rd ⟨U, t.1, t.2.1 + 1, t.2.2, IB⟩
    let nz ← rd ⟨U, t.1, t.2.1, t.2.2 + 1, IC⟩
    putMS Q t.1 t.2.1 t.2.2 (constoprimMhd p.settings u ⟨nx, ny, nz⟩).1
  else pure ()

/-- `ComputeDtFunctor3D_MHD::operator()`, `/repo/src/muscl/MHDRunFunctors3D.h:37-79`. -/
def computeDtMhd3 (p : Params R) (Q : Arr) (t : Int × Int × Int) (acc : R) : Prog Arr R R :=
  if cellGuard3 p t then do
    let q ← getMS Q t.1 t.2.1 t.2.2
    let sp := findSpeedInfo p.settings q
    pure (fmax acc (sp.1 / p.dx + sp.2.1 / p.dy + sp.2.2 / p.dz))
  else pure acc

/-- guard `0 < i < isize-1`, `/repo/src/muscl/MHDRunFunctors3D.h:311-313`, `:408-410`, `:480-482`; the guard
`i >= 1 and i < isize - 1` of `:225-227` is the same -/
def innerGuardM3 (p : Params R) (t : Int × Int × Int) : Prop :=
  t.2.2 > 0 ∧ t.2.2 < p.ksize - 1 ∧ t.2.1 > 0 ∧ t.2.1 < p.jsize - 1 ∧ t.1 > 0 ∧ t.1 < p.isize - 1

instance (p : Params R) (t : Int × Int × Int) : Decidable (innerGuardM3 p t) := by
  unfold innerGuardM3; infer_instance

/-- guard `gw-2 <= i < isize-gw+1` of the trace kernels, `/repo/src/muscl/MHDRunFunctors3D.h:678-680`,
`:922-924` -/
def traceGuardM3 (p : Params R) (t : Int × Int × Int) : Prop :=
  t.2.2 ≥ p.ghostWidth - 2 ∧ t.2.2 < p.ksize - p.ghostWidth + 1 ∧ t.2.1 ≥ p.ghostWidth - 2 ∧
    t.2.1 < p.jsize - p.ghostWidth + 1 ∧ t.1 ≥ p.ghostWidth - 2 ∧ t.1 < p.isize - p.ghostWidth + 1

instance (p : Params R) (t : Int × Int × Int) : Decidable (traceGuardM3 p t) := by
  unfold traceGuardM3; infer_instance

/-- guard `gw <= i < isize-gw+1` of the flux and emf kernels, `/repo/src/muscl/MHDRunFunctors3D.h:1115-1117`,
`:1541-1543`, `:1847-1849`, `:1972-1974`, `:2191-2193`, `:2334-2336` -/
def faceGuardM3 (p : Params R) (t : Int × Int × Int) : Prop :=
  t.2.2 ≥ p.ghostWidth ∧ t.2.2 < p.ksize - p.ghostWidth + 1 ∧ t.2.1 ≥ p.ghostWidth ∧
    t.2.1 < p.jsize - p.ghostWidth + 1 ∧ t.1 ≥ p.ghostWidth ∧ t.1 < p.isize - p.ghostWidth + 1

instance (p : Params R) (t : Int × Int × Int) : Decidable (faceGuardM3 p t) := by
  unfold faceGuardM3; infer_instance

/-- `ONE_FOURTH_F * (a(..,v) + b(..,v) + c(..,v) + d(..,v))`, `/repo/src/muscl/MHDRunFunctors3D.h:319-320` -/
def mean4 (a : Arr) (v : Nat) (c1 c2 c3 c4 : Int × Int × Int) : Prog Arr R R := do
  let x1 ← rd ⟨a, c1.1, c1.2.1, c1.2.2, v⟩
  let x2 ← rd ⟨a, c2.1, c2.2.1, c2.2.2, v⟩
  let x3 ← rd ⟨a, c3.1, c3.2.1, c3.2.2, v⟩
  let x4 ← rd ⟨a, c4.1, c4.2.1, c4.2.2, v⟩
  pure (lit (1/4) * (x1 + x2 + x3 + x4))

/-- `HALF_F * (a(..,v) + b(..,v))`, `/repo/src/muscl/MHDRunFunctors3D.h:325-326` -/
def mean2 (a : Arr) (v : Nat) (c1 c2 : Int × Int × Int) : Prog Arr R R := do
  let x1 ← rd ⟨a, c1.1, c1.2.1, c1.2.2, v⟩
  let x2 ← rd ⟨a, c2.1, c2.2.1, c2.2.2, v⟩
  pure (lit (1/2) * (x1 + x2))

/-- `ComputeElecFieldFunctor3D::operator()`, `/repo/src/muscl/MHDRunFunctors3D.h:301-357`. -/
def elecFieldMhd3 (p : Params R) (U Q : Arr) (t : Int × Int × Int) : Prog Arr R Unit :=
  if innerGuardM3 p t then do
    let i := t.1
    let j := t.2.1
    let k := t.2.2
    let v ← mean4 Q IV (i, j - 1, k - 1) (i, j - 1, k) (i, j, k - 1) (i, j, k)
    let w ← mean4 Q IW (i, j - 1, k - 1) (i, j - 1, k) (i, j, k - 1) (i, j, k)
    let B ← mean2 U IB (i, j, k - 1) (i, j, k)
    let C ← mean2 U IC (i, j - 1, k) (i, j, k)
    wr ⟨.ElecField, i, j, k, IX⟩ (v * C - w * B)
    let u ← mean4 Q IU (i - 1, j, k - 1) (i - 1, j, k) (i, j, k - 1) (i, j, k)
    let w ← mean4 Q IW (i - 1, j, k - 1) (i - 1, j, k) (i, j, k - 1) (i, j, k)
    let A ← mean2 U IA (i, j, k - 1) (i, j, k)
    let C ← mean2 U IC (i - 1, j, k) (i, j, k)
    wr ⟨.ElecField, i, j, k, IY⟩ (w * A - u * C)
    let u ← mean4 Q IU (i - 1, j - 1, k) (i - 1, j, k) (i, j - 1, k) (i, j, k)
    let v ← mean4 Q IV (i - 1, j - 1, k) (i - 1, j, k) (i, j - 1, k) (i, j, k)
    let A ← mean2 U IA (i, j - 1, k) (i, j, k)
    let B ← mean2 U IB (i - 1, j, k) (i, j, k)
    wr ⟨.ElecField, i, j, k, IZ⟩ (u * B - v * A)
  else pure ()

/-- `a(c1, v) - a(c2, v)` -/
def diffRd (a : Arr) (v : Nat) (c1 c2 : Int × Int × Int) : Prog Arr R R := do
  let x1 ← rd ⟨a, c1.1, c1.2.1, c1.2.2, v⟩
  let x2 ← rd ⟨a, c2.1, c2.2.1, c2.2.2, v⟩
  pure (x1 - x2)

/-- one transverse slope of `slope_unsplit_mhd_3d` (`/repo/src/muscl/MHDBaseFunctor3D.h:563-667`), with
`xslope_type = fmin(slope_type, 2.0)`, of component `v` of `U` between `cm`, `c0`, `cp` (values fetched at
`/repo/src/muscl/MHDRunFunctors3D.h:496-512`). -/
def magSlope3 (p : Params R) (U : Arr) (v : Nat) (c0 cp cm : Int × Int × Int) : Prog Arr R R := do
  let b0 ← rd ⟨U, c0.1, c0.2.1, c0.2.2, v⟩
  let bp ← rd ⟨U, cp.1, cp.2.1, cp.2.2, v⟩
  let bm ← rd ⟨U, cm.1, cm.2.1, cm.2.2, v⟩
  pure (slopeScalarDir (fmin p.settings.slope_type (lit 2)) b0 bp bm)

/-- `ComputeMagSlopesFunctor3D::operator()`, `/repo/src/muscl/MHDRunFunctors3D.h:470-532`. -/
def magSlopesMhd3 (p : Params R) (U : Arr) (t : Int × Int × Int) : Prog Arr R Unit :=
  if innerGuardM3 p t then do
    let i := t.1
    let j := t.2.1
    let k := t.2.2
    let ay ← magSlope3 p U IA (i, j, k) (i, j + 1, k) (i, j - 1, k)
    let az ← magSlope3 p U IA (i, j, k) (i, j, k + 1) (i, j, k - 1)
    let bx ← magSlope3 p U IB (i, j, k) (i + 1, j, k) (i - 1, j, k)
    let bz ← magSlope3 p U IB (i, j, k) (i, j, k + 1) (i, j, k - 1)
    let cx ← magSlope3 p U IC (i, j, k) (i + 1, j, k) (i - 1, j, k)
    let cy ← magSlope3 p U IC (i, j, k) (i, j + 1, k) (i, j - 1, k)
    wr ⟨.DeltaA, i, j, k, 0⟩ (lit 0)
    wr ⟨.DeltaA, i, j, k, 1⟩ ay
    wr ⟨.DeltaA, i, j, k, 2⟩ az
    wr ⟨.DeltaB, i, j, k, 0⟩ bx
    wr ⟨.DeltaB, i, j, k, 1⟩ (lit 0)
    wr ⟨.DeltaB, i, j, k, 2⟩ bz
    wr ⟨.DeltaC, i, j, k, 0⟩ cx
    wr ⟨.DeltaC, i, j, k, 1⟩ cy
    wr ⟨.DeltaC, i, j, k, 2⟩ (lit 0)
  else pure ()

/-- the reads of `ComputeTraceFunctor3D_MHD`, `/repo/src/muscl/MHDRunFunctors3D.h:705-757` -/
def getTraceIn3 (U Q : Arr) (i j k : Int) : Prog Arr R (TraceIn3 R) := do
  let q ← getMS Q i j k
  let xp ← getMS Q (i + 1) j k
  let xm ← getMS Q (i - 1) j k
  let yp ← getMS Q i (j + 1) k
  let ym ← getMS Q i (j - 1) k
  let zp ← getMS Q i j (k + 1)
  let zm ← getMS Q i j (k - 1)
  let al ← rd ⟨U, i, j, k, IA⟩
  let ar ← rd ⟨U, i + 1, j, k, IA⟩
  let bl ← rd ⟨U, i, j, k, IB⟩
  let br ← rd ⟨U, i, j + 1, k, IB⟩
  let cl ← rd ⟨U, i, j, k, IC⟩
  let cr ← rd ⟨U, i, j, k + 1, IC⟩
  let aly ← rd ⟨.DeltaA, i, j, k, IY⟩
  let alz ← rd ⟨.DeltaA, i, j, k, IZ⟩
  let blx ← rd ⟨.DeltaB, i, j, k, IX⟩
  let blz ← rd ⟨.DeltaB, i, j, k, IZ⟩
  let clx ← rd ⟨.DeltaC, i, j, k, IX⟩
  let cly ← rd ⟨.DeltaC, i, j, k, IY⟩
  let ary ← rd ⟨.DeltaA, i + 1, j, k, IY⟩
  let arz ← rd ⟨.DeltaA, i + 1, j, k, IZ⟩
  let brx ← rd ⟨.DeltaB, i, j + 1, k, IX⟩
  let brz ← rd ⟨.DeltaB, i, j + 1, k, IZ⟩
  let crx ← rd ⟨.DeltaC, i, j, k + 1, IX⟩
  let cry ← rd ⟨.DeltaC, i, j, k + 1, IY⟩
  let e00 ← rd ⟨.ElecField, i, j, k, IX⟩
  let e01 ← rd ⟨.ElecField, i, j, k + 1, IX⟩
  let e10 ← rd ⟨.ElecField, i, j + 1, k, IX⟩
  let e11 ← rd ⟨.ElecField, i, j + 1, k + 1, IX⟩
  let f00 ← rd ⟨.ElecField, i, j, k, IY⟩
  let f01 ← rd ⟨.ElecField, i, j, k + 1, IY⟩
  let f10 ← rd ⟨.ElecField, i + 1, j, k, IY⟩
  let f11 ← rd ⟨.ElecField, i + 1, j, k + 1, IY⟩
  let g00 ← rd ⟨.ElecField, i, j, k, IZ⟩
  let g01 ← rd ⟨.ElecField, i, j + 1, k, IZ⟩
  let g10 ← rd ⟨.ElecField, i + 1, j, k, IZ⟩
  let g11 ← rd ⟨.ElecField, i + 1, j + 1, k, IZ⟩
  pure ⟨q, xp, xm, yp, ym, zp, zm, al, ar, bl, br, cl, cr,
    ⟨aly, alz, blx, blz, clx, cly, ary, arz, brx, brz, crx, cry⟩,
    ⟨e00, e01, e10, e11⟩, ⟨f00, f01, f10, f11⟩, ⟨g00, g01, g10, g11⟩⟩

/-- `ComputeTraceFunctor3D_MHD::operator()`, `/repo/src/muscl/MHDRunFunctors3D.h:668-845` (the call of
`slope_unsplit_hydro_3d` is inside `traceMhd3`; `xPos` is only used by the unreachable shear branch). -/
def computeTraceMhd3 (p : Params R) (U Q : Arr) (dtdx dtdy dtdz : R) (t : Int × Int × Int) :
    Prog Arr R Unit :=
  if traceGuardM3 p t then do
    let n ← getTraceIn3 U Q t.1 t.2.1 t.2.2
    let r := traceMhd3 p.settings n dtdx dtdy dtdz
    putMS .Qm_x t.1 t.2.1 t.2.2 r.qmx
    putMS .Qp_x t.1 t.2.1 t.2.2 r.qpx
    putMS .Qm_y t.1 t.2.1 t.2.2 r.qmy
    putMS .Qp_y t.1 t.2.1 t.2.2 r.qpy
    putMS .Qm_z t.1 t.2.1 t.2.2 r.qmz
    putMS .Qp_z t.1 t.2.1 t.2.2 r.qpz
    putMS (.QEdge 0) t.1 t.2.1 t.2.2 r.ex.rt
    putMS (.QEdge 1) t.1 t.2.1 t.2.2 r.ex.rb
    putMS (.QEdge 2) t.1 t.2.1 t.2.2 r.ex.lt
    putMS (.QEdge 3) t.1 t.2.1 t.2.2 r.ex.lb
    putMS (.QEdge 4) t.1 t.2.1 t.2.2 r.ey.rt
    putMS (.QEdge 5) t.1 t.2.1 t.2.2 r.ey.rb
    putMS (.QEdge 6) t.1 t.2.1 t.2.2 r.ey.lt
    putMS (.QEdge 7) t.1 t.2.1 t.2.2 r.ey.lb
    putMS (.QEdge 8) t.1 t.2.1 t.2.2 r.ez.rt
    putMS (.QEdge 9) t.1 t.2.1 t.2.2 r.ez.rb
    putMS (.QEdge 10) t.1 t.2.1 t.2.2 r.ez.lt
    putMS (.QEdge 11) t.1 t.2.1 t.2.2 r.ez.lb
  else pure ()

/-- `ComputeFluxesAndStoreFunctor3D_MHD::operator()`, `/repo/src/muscl/MHDRunFunctors3D.h:1837-1905`.  The
y and z fluxes are stored in the swapped frame; the local variable `flux` is reused. -/
def fluxesAndStoreMhd3 (p : Params R) (Fx Fy Fz : Arr) (jk : JunkM R) (t : Int × Int × Int) :
    Prog Arr R Unit :=
  if faceGuardM3 p t then do
    let ql ← getMS .Qm_x (t.1 - 1) t.2.1 t.2.2
    let qr ← getMS .Qp_x t.1 t.2.1 t.2.2
    let flux := riemannMhd p.settings p.riemannSolverType ql qr (jk 4 t.1 t.2.1 t.2.2)
    putMS Fx t.1 t.2.1 t.2.2 flux
    let ql ← getMS .Qm_y t.1 (t.2.1 - 1) t.2.2
    let qr ← getMS .Qp_y t.1 t.2.1 t.2.2
    let flux := riemannMhd p.settings p.riemannSolverType ql.swapXY qr.swapXY flux
    putMS Fy t.1 t.2.1 t.2.2 flux
    let ql ← getMS .Qm_z t.1 t.2.1 (t.2.2 - 1)
    let qr ← getMS .Qp_z t.1 t.2.1 t.2.2
    let flux := riemannMhd p.settings p.riemannSolverType ql.swapXZ qr.swapXZ flux
    putMS Fz t.1 t.2.1 t.2.2 flux
  else pure ()

/-- `udata[v] += flux[v]*c` for the five variables of a 3D flux,
`/repo/src/muscl/MHDRunFunctors3D.h:2491-2495` -/
def MS.plus5 (u f : MS R) (c : R) : MS R :=
  { u with d := u.d + f.d * c, p := u.p + f.p * c, u := u.u + f.u * c, v := u.v + f.v * c,
           w := u.w + f.w * c }
/-- `udata[v] -= flux[v]*c`, `/repo/src/muscl/MHDRunFunctors3D.h:2498-2502` -/
def MS.minus5 (u f : MS R) (c : R) : MS R :=
  { u with d := u.d - f.d * c, p := u.p - f.p * c, u := u.u - f.u * c, v := u.v - f.v * c,
           w := u.w - f.w * c }

/-- `UpdateFunctor3D_MHD::operator()`, `/repo/src/muscl/MHDRunFunctors3D.h:2469-2539`.  The y and z fluxes
are in the swapped frame: `udata[IU] += flux[IV]*dtdy`, …; `swapXY`, `swapXZ` also swap magnetic
components, which are not read here. -/
def updateMhd3 (p : Params R) (U Fx Fy Fz : Arr) (dtdx dtdy dtdz : R) (t : Int × Int × Int) :
    Prog Arr R Unit :=
  if cellGuard3 p t then do
    let u ← getMS U t.1 t.2.1 t.2.2
    let f ← getMS Fx t.1 t.2.1 t.2.2
    let u := u.plus5 f dtdx
    let f ← getMS Fx (t.1 + 1) t.2.1 t.2.2
    let u := u.minus5 f dtdx
    let f ← getMS Fy t.1 t.2.1 t.2.2
    let u := u.plus5 f.swapXY dtdy
    let f ← getMS Fy t.1 (t.2.1 + 1) t.2.2
    let u := u.minus5 f.swapXY dtdy
    let f ← getMS Fz t.1 t.2.1 t.2.2
    let u := u.plus5 f.swapXZ dtdz
    let f ← getMS Fz t.1 t.2.1 (t.2.2 + 1)
    let u := u.minus5 f.swapXZ dtdz
    putMS U t.1 t.2.1 t.2.2 u
  else pure ()

/-- the four states around the lower left edge along `d`: `/repo/src/muscl/MHDRunFunctors3D.h:2204-2207` (z),
`:2214-2217` (y: the array entries `IRB` and `ILT` receive the left-top and right-bottom states),
`:2224-2227` (x); same in `:2347-2350`, `:2371-2374`, `:2395-2398`. -/
def getEdge4M3 (d : EmfDir) (i j k : Int) : Prog Arr R (Edge4 R) :=
  match d with
  | .z => do
    let rt ← getMS (.QEdge 8) (i - 1) (j - 1) k
    let rb ← getMS (.QEdge 9) (i - 1) j k
    let lt ← getMS (.QEdge 10) i (j - 1) k
    let lb ← getMS (.QEdge 11) i j k
    pure ⟨rt, rb, lt, lb⟩
  | .y => do
    let rt ← getMS (.QEdge 4) (i - 1) j (k - 1)
    let rb ← getMS (.QEdge 6) i j (k - 1)
    let lt ← getMS (.QEdge 5) (i - 1) j k
    let lb ← getMS (.QEdge 7) i j k
    pure ⟨rt, rb, lt, lb⟩
  | .x => do
    let rt ← getMS (.QEdge 0) i (j - 1) (k - 1)
    let rb ← getMS (.QEdge 1) i (j - 1) k
    let lt ← getMS (.QEdge 2) i j (k - 1)
    let lb ← getMS (.QEdge 3) i j k
    pure ⟨rt, rb, lt, lb⟩

/-- `I_EMFZ = 0, I_EMFY = 1, I_EMFX = 2`, `/repo/src/shared/enums.h:217-222` -/
def EmfDir.slot : EmfDir → Nat
  | .z => 0
  | .y => 1
  | .x => 2

/-- `ComputeEmfAndStoreFunctor3D::operator()`, `/repo/src/muscl/MHDRunFunctors3D.h:2181-2233`. -/
def emfAndStoreMhd3 (p : Params R) (Emf : Arr) (t : Int × Int × Int) : Prog Arr R Unit :=
  if faceGuardM3 p t then do
    let e ← getEdge4M3 .z t.1 t.2.1 t.2.2
    wr ⟨Emf, t.1, t.2.1, t.2.2, EmfDir.z.slot⟩ (computeEmf p.settings .z e)
    let e ← getEdge4M3 .y t.1 t.2.1 t.2.2
    wr ⟨Emf, t.1, t.2.1, t.2.2, EmfDir.y.slot⟩ (computeEmf p.settings .y e)
    let e ← getEdge4M3 .x t.1 t.2.1 t.2.2
    wr ⟨Emf, t.1, t.2.1, t.2.2, EmfDir.x.slot⟩ (computeEmf p.settings .x e)
  else pure ()

/-- `UpdateEmfFunctor3D::operator()`, `/repo/src/muscl/MHDRunFunctors3D.h:2581-2625`. -/
def updateEmfMhd3 (p : Params R) (U Emf : Arr) (dtdx dtdy dtdz : R) (t : Int × Int × Int) :
    Prog Arr R Unit :=
  if cellGuard3 p t then do
    let i := t.1
    let j := t.2.1
    let k := t.2.2
    let u ← getMS U i j k
    let z1 ← diffRd Emf EmfDir.z.slot (i, j + 1, k) (i, j, k)
    let z2 ← diffRd Emf EmfDir.z.slot (i + 1, j, k) (i, j, k)
    let y1 ← diffRd Emf EmfDir.y.slot (i, j, k + 1) (i, j, k)
    let x1 ← diffRd Emf EmfDir.x.slot (i, j, k + 1) (i, j, k)
    let y2 ← diffRd Emf EmfDir.y.slot (i + 1, j, k) (i, j, k)
    let x2 ← diffRd Emf EmfDir.x.slot (i, j + 1, k) (i, j, k)
    wr ⟨U, i, j, k, IA⟩ (u.a + z1 * dtdy - y1 * dtdz)
    wr ⟨U, i, j, k, IB⟩ (u.b - z2 * dtdx + x1 * dtdz)
    wr ⟨U, i, j, k, IC⟩ (u.c + y2 * dtdx - x2 * dtdy)
  else pure ()

/-- `Kokkos::atomic_add(&a(i,j,k,v), f[v]*c)` for `ID, IP, IU, IV, IW`
(`/repo/src/muscl/MHDRunFunctors3D.h:1999-2003`) -/
def atomicAddM5 (a : Arr) (i j k : Int) (f : MS R) (c : R) : Prog Arr R Unit := do
  add ⟨a, i, j, k, ID⟩ (f.d * c)
  add ⟨a, i, j, k, IP⟩ (f.p * c)
  add ⟨a, i, j, k, IU⟩ (f.u * c)
  add ⟨a, i, j, k, IV⟩ (f.v * c)
  add ⟨a, i, j, k, IW⟩ (f.w * c)

/-- `Kokkos::atomic_sub(&a(i,j,k,v), f[v]*c)` for the same variables
(`/repo/src/muscl/MHDRunFunctors3D.h:2008-2012`) -/
def atomicSubM5 (a : Arr) (i j k : Int) (f : MS R) (c : R) : Prog Arr R Unit := do
  add ⟨a, i, j, k, ID⟩ (-(f.d * c))
  add ⟨a, i, j, k, IP⟩ (-(f.p * c))
  add ⟨a, i, j, k, IU⟩ (-(f.u * c))
  add ⟨a, i, j, k, IV⟩ (-(f.v * c))
  add ⟨a, i, j, k, IW⟩ (-(f.w * c))

/-- the flux updates of the interface along `d`: `/repo/src/muscl/MHDRunFunctors3D.h:1997-2013`, `:1255-1272`
(x), `:2034-2050`, `:1276-1292` (y), `:2070-2086`, `:1296-1312` (z) -/
def atomicFlux3 (d : Dir) (p : Params R) (U : Arr) (i j k : Int) (f : MS R) (c : R) :
    Prog Arr R Unit :=
  match d with
  | .x => do
    pif (k < p.ksize - p.ghostWidth ∧ j < p.jsize - p.ghostWidth ∧ i < p.isize - p.ghostWidth)
      (atomicAddM5 U i j k f c)
    pif (k < p.ksize - p.ghostWidth ∧ j < p.jsize - p.ghostWidth ∧ i > p.ghostWidth)
      (atomicSubM5 U (i - 1) j k f c)
  | .y => do
    pif (k < p.ksize - p.ghostWidth ∧ j < p.jsize - p.ghostWidth ∧ i < p.isize - p.ghostWidth)
      (atomicAddM5 U i j k f c)
    pif (k < p.ksize - p.ghostWidth ∧ j > p.ghostWidth ∧ i < p.isize - p.ghostWidth)
      (atomicSubM5 U i (j - 1) k f c)
  | .z => do
    pif (k < p.ksize - p.ghostWidth ∧ j < p.jsize - p.ghostWidth ∧ i < p.isize - p.ghostWidth)
      (atomicAddM5 U i j k f c)
    pif (k > p.ghostWidth ∧ j < p.jsize - p.ghostWidth ∧ i < p.isize - p.ghostWidth)
      (atomicSubM5 U i j (k - 1) f c)

/-- `ComputeFluxesAndUpdateFunctor3D_MHD::operator()`, `/repo/src/muscl/MHDRunFunctors3D.h:1962-2088`. -/
def fluxesAndUpdateMhd3 (p : Params R) (U : Arr) (dtdx dtdy dtdz : R) (jk : JunkM R)
    (t : Int × Int × Int) : Prog Arr R Unit :=
  if faceGuardM3 p t then do
    let ql ← getMS .Qm_x (t.1 - 1) t.2.1 t.2.2
    let qr ← getMS .Qp_x t.1 t.2.1 t.2.2
    let flux := riemannMhd p.settings p.riemannSolverType ql qr (jk 4 t.1 t.2.1 t.2.2)
    atomicFlux3 .x p U t.1 t.2.1 t.2.2 flux dtdx
    let ql ← getMS .Qm_y t.1 (t.2.1 - 1) t.2.2
    let qr ← getMS .Qp_y t.1 t.2.1 t.2.2
    let flux := (riemannMhd p.settings p.riemannSolverType ql.swapXY qr.swapXY flux).swapXY
    atomicFlux3 .y p U t.1 t.2.1 t.2.2 flux dtdy
    let ql ← getMS .Qm_z t.1 t.2.1 (t.2.2 - 1)
    let qr ← getMS .Qp_z t.1 t.2.1 t.2.2
    let flux := (riemannMhd p.settings p.riemannSolverType ql.swapXZ qr.swapXZ flux).swapXZ
    atomicFlux3 .z p U t.1 t.2.1 t.2.2 flux dtdz
  else pure ()

/-- the face updates of an edge emf along `d`: `/repo/src/muscl/MHDRunFunctors3D.h:1637-1652`, `:2353-2366`
(z), `:1703-1717`, `:2377-2390` (y), `:1753-1766`, `:2401-2414` (x) -/
def atomicEmf3 (d : EmfDir) (p : Params R) (U : Arr) (i j k : Int) (e dtdx dtdy dtdz : R) :
    Prog Arr R Unit :=
  match d with
  | .z => do
    pif (k < p.ksize - p.ghostWidth ∧ j < p.jsize - p.ghostWidth ∧ i < p.isize - p.ghostWidth) (do
      add ⟨U, i, j, k, IA⟩ (-(e * dtdy))
      add ⟨U, i, j, k, IB⟩ (e * dtdx))
    pif (k < p.ksize - p.ghostWidth ∧ j > p.ghostWidth ∧ i < p.isize - p.ghostWidth)
      (add ⟨U, i, j - 1, k, IA⟩ (e * dtdy))
    pif (k < p.ksize - p.ghostWidth ∧ j < p.jsize - p.ghostWidth ∧ i > p.ghostWidth)
      (add ⟨U, i - 1, j, k, IB⟩ (-(e * dtdx)))
  | .y => do
    pif (k < p.ksize - p.ghostWidth ∧ j < p.jsize - p.ghostWidth ∧ i < p.isize - p.ghostWidth) (do
      add ⟨U, i, j, k, IA⟩ (e * dtdz)
      add ⟨U, i, j, k, IC⟩ (-(e * dtdx)))
    pif (k > p.ghostWidth ∧ j < p.jsize - p.ghostWidth ∧ i < p.isize - p.ghostWidth)
      (add ⟨U, i, j, k - 1, IA⟩ (-(e * dtdz)))
    pif (k < p.ksize - p.ghostWidth ∧ j < p.jsize - p.ghostWidth ∧ i > p.ghostWidth)
      (add ⟨U, i - 1, j, k, IC⟩ (e * dtdx))
  | .x => do
    pif (k < p.ksize - p.ghostWidth ∧ j < p.jsize - p.ghostWidth ∧ i < p.isize - p.ghostWidth) (do
      add ⟨U, i, j, k, IB⟩ (-(e * dtdz))
      add ⟨U, i, j, k, IC⟩ (e * dtdy))
    pif (k > p.ghostWidth ∧ j < p.jsize - p.ghostWidth ∧ i < p.isize - p.ghostWidth)
      (add ⟨U, i, j, k - 1, IB⟩ (e * dtdz))
    pif (k < p.ksize - p.ghostWidth ∧ j > p.ghostWidth ∧ i < p.isize - p.ghostWidth)
      (add ⟨U, i, j - 1, k, IC⟩ (-(e * dtdy)))

/-- `ComputeEmfAndUpdateFunctor3D::operator()`, `/repo/src/muscl/MHDRunFunctors3D.h:2324-2418`. -/
def emfAndUpdateMhd3 (p : Params R) (U : Arr) (dtdx dtdy dtdz : R) (t : Int × Int × Int) :
    Prog Arr R Unit :=
  if faceGuardM3 p t then do
    let e ← getEdge4M3 .z t.1 t.2.1 t.2.2
    atomicEmf3 .z p U t.1 t.2.1 t.2.2 (computeEmf p.settings .z e) dtdx dtdy dtdz
    let e ← getEdge4M3 .y t.1 t.2.1 t.2.2
    atomicEmf3 .y p U t.1 t.2.1 t.2.2 (computeEmf p.settings .y e) dtdx dtdy dtdz
    let e ← getEdge4M3 .x t.1 t.2.1 t.2.2
    atomicEmf3 .x p U t.1 t.2.1 t.2.2 (computeEmf p.settings .x e) dtdx dtdy dtdz
  else pure ()

/-! ## Version 2 -/

/-- `ComputeSlopesFunctor3D_MHD::operator()`, `/repo/src/muscl/MHDRunFunctors3D.h:215-266`, with the
three-argument `slope_unsplit_hydro_3d` (`/repo/src/muscl/MHDBaseFunctor3D.h:511-541`, same text as in 2D).
`dq` is reused. -/
def computeSlopesMhd3 (p : Params R) (U Q : Arr) (jk : JunkM R) (t : Int × Int × Int) :
    Prog Arr R Unit :=
  if innerGuardM3 p t then do
    let i := t.1
    let j := t.2.1
    let k := t.2.2
    let qc ← getMS Q i j k
    let qm ← getMS Q (i - 1) j k
    let qp ← getMS Q (i + 1) j k
    let dq := slopeM p.settings qc qp qm (jk 0 i j k)
    putMS .Sx i j k dq
    let da ← diffRd U IA (i + 1, j, k) (i, j, k)
    wr ⟨.Sx, i, j, k, IA⟩ da
    let qm ← getMS Q i (j - 1) k
    let qp ← getMS Q i (j + 1) k
    let dq := slopeM p.settings qc qp qm dq
    putMS .Sy i j k dq
    let db ← diffRd U IB (i, j + 1, k) (i, j, k)
    wr ⟨.Sy, i, j, k, IB⟩ db
    let qm ← getMS Q i j (k - 1)
    let qp ← getMS Q i j (k + 1)
    let dq := slopeM p.settings qc qp qm dq
    putMS .Sz i j k dq
    let dc ← diffRd U IC (i, j, k + 1) (i, j, k)
    wr ⟨.Sz, i, j, k, IC⟩ dc
  else pure ()

/-- `q + 0.5 * s` in every variable, `/repo/src/muscl/MHDRunFunctors3D.h:1006-1013` -/
def MS.addHalf (q s : MS R) : MS R :=
  let h : R := lit (1/2)
  ⟨q.d + h * s.d, q.p + h * s.p, q.u + h * s.u, q.v + h * s.v, q.w + h * s.w, q.a + h * s.a,
    q.b + h * s.b, q.c + h * s.c⟩

/-- `q - 0.5 * s` in every variable, `/repo/src/muscl/MHDRunFunctors3D.h:1152-1181` -/
def MS.subHalf (q s : MS R) : MS R :=
  let h : R := lit (1/2)
  ⟨q.d - h * s.d, q.p - h * s.p, q.u - h * s.u, q.v - h * s.v, q.w - h * s.w, q.a - h * s.a,
    q.b - h * s.b, q.c - h * s.c⟩

/-- `ComputeUpdatedPrimVarFunctor3D_MHD::operator()`, `/repo/src/muscl/MHDRunFunctors3D.h:911-1015` (with
`compute_normal_mag_field_slopes`, `/repo/src/muscl/MHDBaseFunctor3D.h:109-122`). -/
def updatedPrimVarMhd3 (p : Params R) (U Q Q2 : Arr) (dtdx dtdy dtdz : R) (t : Int × Int × Int) :
    Prog Arr R Unit :=
  if traceGuardM3 p t then do
    let i := t.1
    let j := t.2.1
    let k := t.2.2
    let q ← getMS Q i j k
    let dqx ← getMS .Sx i j k
    let dqy ← getMS .Sy i j k
    let dqz ← getMS .Sz i j k
    let dAx ← diffRd U IA (i + 1, j, k) (i, j, k)
    let dBy ← diffRd U IB (i, j + 1, k) (i, j, k)
    let dCz ← diffRd U IC (i, j, k + 1) (i, j, k)
    putMS Q2 i j k (q.addHalf (sourceM3 p.settings q dqx dqy dqz dAx dBy dCz dtdx dtdy dtdz))
  else pure ()

/-- `ComputeSourceFaceMagFunctor3D::operator()`, `/repo/src/muscl/MHDRunFunctors3D.h:399-430`. -/
def sourceFaceMagMhd3 (p : Params R) (dtdx dtdy dtdz : R) (t : Int × Int × Int) : Prog Arr R Unit :=
  if innerGuardM3 p t then do
    let i := t.1
    let j := t.2.1
    let k := t.2.2
    let h : R := lit (1/2)
    let z ← diffRd .ElecField IZ (i, j + 1, k) (i, j, k)
    let y ← diffRd .ElecField IY (i, j, k + 1) (i, j, k)
    wr ⟨.sFaceMag, i, j, k, IX⟩ (z * h * dtdy - y * h * dtdz)
    let z ← diffRd .ElecField IZ (i + 1, j, k) (i, j, k)
    let x ← diffRd .ElecField IX (i, j, k + 1) (i, j, k)
    wr ⟨.sFaceMag, i, j, k, IY⟩ (-z * h * dtdx + x * h * dtdz)
    let y ← diffRd .ElecField IY (i + 1, j, k) (i, j, k)
    let x ← diffRd .ElecField IX (i, j + 1, k) (i, j, k)
    wr ⟨.sFaceMag, i, j, k, IZ⟩ (y * h * dtdx - x * h * dtdy)
  else pure ()

/-- `IX, IY, IZ` -/
def Dir.num : Dir → Nat
  | .x => 0
  | .y => 1
  | .z => 2

/-- `Slopes_x, Slopes_y, Slopes_z` -/
def Dir.slopes : Dir → Arr
  | .x => .Sx
  | .y => .Sy
  | .z => .Sz

/-- `(delta_i, delta_j, delta_k)`, `/repo/src/muscl/MHDRunFunctors3D.h:1110-1112` -/
def Dir.delta : Dir → Int × Int × Int
  | .x => (1, 0, 0)
  | .y => (0, 1, 0)
  | .z => (0, 0, 1)

/-- `dtdx, dtdy, dtdz` -/
def Dir.dtd (d : Dir) (dtdx dtdy dtdz : R) : R :=
  match d with
  | .x => dtdx
  | .y => dtdy
  | .z => dtdz

/-- replace the magnetic component normal to `d` -/
def MS.setMag (d : Dir) (q : MS R) (b : R) : MS R :=
  match d with
  | .x => { q with a := b }
  | .y => { q with b := b }
  | .z => { q with c := b }

/-- the magnetic component normal to `d` -/
def MS.mag (d : Dir) (q : MS R) : R :=
  match d with
  | .x => q.a
  | .y => q.b
  | .z => q.c

/-- the swaps before and after `riemann_mhd`, `/repo/src/muscl/MHDRunFunctors3D.h:1224-1252` -/
def MS.swapDir (d : Dir) (q : MS R) : MS R :=
  match d with
  | .x => q
  | .y => q.swapXY
  | .z => q.swapXZ

/-- `ComputeFluxAndUpdateAlongDirFunctor3D_MHD<dir>::operator()`,
`/repo/src/muscl/MHDRunFunctors3D.h:1096-1314`. -/
def fluxAlongMhd3 (d : Dir) (p : Params R) (Uin Uout Q2 : Arr) (dtdx dtdy dtdz : R) (jk : JunkM R)
    (t : Int × Int × Int) : Prog Arr R Unit :=
  if faceGuardM3 p t then do
    let i := t.1
    let j := t.2.1
    let k := t.2.2
    let dq ← getMS d.slopes i j k
    let q2 ← getMS Q2 i j k
    let b ← rd ⟨Uin, i, j, k, IA + d.num⟩
    let sb ← rd ⟨.sFaceMag, i, j, k, d.num⟩
    let qR := MS.floored p.settings ((q2.subHalf dq).setMag d (b + sb))
    let dqN ← getMS d.slopes (i - d.delta.1) (j - d.delta.2.1) (k - d.delta.2.2)
    let q2N ← getMS Q2 (i - d.delta.1) (j - d.delta.2.1) (k - d.delta.2.2)
    let qL := MS.floored p.settings ((q2N.addHalf dqN).setMag d (qR.mag d))
    let flux := (riemannMhd p.settings p.riemannSolverType (qL.swapDir d) (qR.swapDir d)
      (jk 4 i j k)).swapDir d
    atomicFlux3 d p Uout i j k flux (d.dtd dtdx dtdy dtdz)
  else pure ()

/-- `compute_limited_slope<dir>(udata, i, j, k, component)`, `/repo/src/muscl/MHDBaseFunctor3D.h:130-157`.
`b_minus` is read at `(i - delta_i, j - delta_j, k + delta_k)`: along z the two neighbours coincide. -/
def limitedSlope3 (d : Dir) (p : Params R) (U : Arr) (i j k : Int) (v : Nat) : Prog Arr R R := do
  let b ← rd ⟨U, i, j, k, v⟩
  let b_plus ← rd ⟨U, i + d.delta.1, j + d.delta.2.1, k + d.delta.2.2, v⟩
  let b_minus ← rd ⟨U, i - d.delta.1, j - d.delta.2.1, k + d.delta.2.2, v⟩
  pure (slopeScalarDir p.settings.slope_type b b_plus b_minus)

/-- `MHDEdgeLocation`, `/repo/src/shared/enums.h` -/
inductive EdgeLoc
  | rt
  | rb
  | lt
  | lb
deriving DecidableEq, Repr

/-- `right`: the edge is on the right of the cell along `dir0` -/
def EdgeLoc.right : EdgeLoc → Bool
  | .rt | .rb => true
  | _ => false
/-- `top`: the edge is at the top of the cell along `dir1` -/
def EdgeLoc.top : EdgeLoc → Bool
  | .rt | .lt => true
  | _ => false

/-- `reconstruct_state_at_edge<dir0, dir1>`, `/repo/src/muscl/MHDRunFunctors3D.h:1406-1529`.  For the four
locations `sign_dq0 = 1` and `ijk0[dir0] += 1` exactly on the right, `sign_dq1 = 1` and `ijk1[dir1] += 1`
exactly at the top, `sign_b0 = sign_dq1`, `sign_b1 = sign_dq0` (`:1423-1456`).  The `IB` component is
treated by two consecutive `if`s (`:1500-1516`). -/
def reconstructEdge3 (d0 d1 : Dir) (p : Params R) (Uin : Arr) (q : MS R) (i j k : Int) (e : EdgeLoc) :
    Prog Arr R (MS R) := do
  let h : R := lit (1/2)
  let s0 : R → R := sgnMul e.right
  let s1 : R → R := sgnMul e.top
  let r : Int := if e.right then 1 else 0
  let u : Int := if e.top then 1 else 0
  let i0 := i + r * d0.delta.1
  let j0 := j + r * d0.delta.2.1
  let k0 := k + r * d0.delta.2.2
  let i1 := i + u * d1.delta.1
  let j1 := j + u * d1.delta.2.1
  let k1 := k + u * d1.delta.2.2
  let b0 ← rd ⟨Uin, i0, j0, k0, IA + d0.num⟩
  let f0 ← rd ⟨.sFaceMag, i0, j0, k0, d0.num⟩
  let B0 := b0 + f0
  let dB0d1 ← limitedSlope3 d1 p Uin i0 j0 k0 (IA + d0.num)
  let b1 ← rd ⟨Uin, i1, j1, k1, IA + d1.num⟩
  let f1 ← rd ⟨.sFaceMag, i1, j1, k1, d1.num⟩
  let B1 := b1 + f1
  let dB1d0 ← limitedSlope3 d0 p Uin i1 j1 k1 (IA + d1.num)
  let dq0 ← getMS d0.slopes i j k
  let dq1 ← getMS d1.slopes i j k
  let f := fun x y => h * (s0 x + s1 y)
  let n0 := B0 + h * s1 dB0d1
  let n1 := B1 + h * s0 dB1d0
  let a := if d0 = .x then n0 else q.a + f dq0.a dq1.a
  let b := if d0 = .y then n0 else q.b + f dq0.b dq1.b
  let b := if d1 = .y then n1 else b + f dq0.b dq1.b
  let c := if d1 = .z then n1 else q.c + f dq0.c dq1.c
  pure (MS.floored p.settings ⟨q.d + f dq0.d dq1.d, q.p + f dq0.p dq1.p, q.u + f dq0.u dq1.u,
    q.v + f dq0.v dq1.v, q.w + f dq0.w dq1.w, a, b, c⟩)

/-- the four reconstructed edge states for the emf along `d`,
`/repo/src/muscl/MHDRunFunctors3D.h:1575-1633` (z), `:1655-1700` (y, with the exchange of RB and LT),
`:1719-1749` (x) -/
def getRecEdge3 (d : EmfDir) (p : Params R) (Uin Q2 : Arr) (i j k : Int) : Prog Arr R (Edge4 R) :=
  match d with
  | .z => do
    let qLB ← getMS Q2 i j k
    let qLT ← getMS Q2 i (j - 1) k
    let qRB ← getMS Q2 (i - 1) j k
    let qRT ← getMS Q2 (i - 1) (j - 1) k
    let lb ← reconstructEdge3 .x .y p Uin qLB i j k .lb
    let rt ← reconstructEdge3 .x .y p Uin qRT (i - 1) (j - 1) k .rt
    let rb ← reconstructEdge3 .x .y p Uin qRB (i - 1) j k .rb
    let lt ← reconstructEdge3 .x .y p Uin qLT i (j - 1) k .lt
    pure ⟨rt, rb, lt, lb⟩
  | .y => do
    let qLB ← getMS Q2 i j k
    let qLT ← getMS Q2 i j (k - 1)
    let qRB ← getMS Q2 (i - 1) j k
    let qRT ← getMS Q2 (i - 1) j (k - 1)
    let lb ← reconstructEdge3 .x .z p Uin qLB i j k .lb
    let rt ← reconstructEdge3 .x .z p Uin qRT (i - 1) j (k - 1) .rt
    let rb ← reconstructEdge3 .x .z p Uin qRB (i - 1) j k .rb
    let lt ← reconstructEdge3 .x .z p Uin qLT i j (k - 1) .lt
    pure ⟨rt, lt, rb, lb⟩
  | .x => do
    let qLB ← getMS Q2 i j k
    let qLT ← getMS Q2 i j (k - 1)
    let qRB ← getMS Q2 i (j - 1) k
    let qRT ← getMS Q2 i (j - 1) (k - 1)
    let lb ← reconstructEdge3 .y .z p Uin qLB i j k .lb
    let rt ← reconstructEdge3 .y .z p Uin qRT i (j - 1) (k - 1) .rt
    let rb ← reconstructEdge3 .y .z p Uin qRB i (j - 1) k .rb
    let lt ← reconstructEdge3 .y .z p Uin qLT i j (k - 1) .lt
    pure ⟨rt, rb, lt, lb⟩

/-- `ReconstructEdgeComputeEmfAndUpdateFunctor3D<dir>::operator()`,
`/repo/src/muscl/MHDRunFunctors3D.h:1531-1770`. -/
def reconstructEmfMhd3 (d : EmfDir) (p : Params R) (Uin Uout Q2 : Arr) (dtdx dtdy dtdz : R)
    (t : Int × Int × Int) : Prog Arr R Unit :=
  if faceGuardM3 p t then do
    let e ← getRecEdge3 d p Uin Q2 t.1 t.2.1 t.2.2
    atomicEmf3 d p Uout t.1 t.2.1 t.2.2 (computeEmf p.settings d e) dtdx dtdy dtdz
  else pure ()

/-! ## One time step -/

/-- First part of `SolverMHDMuscl<3>::godunov_unsplit_impl`,
`/repo/src/muscl/SolverMHDMuscl.cpp:462-481`: ghost cells of `data_in`, copy, primitive variables. -/
def preMhd3 (p : Params R) (inA outA : Arr) : List (Launch Arr R) :=
  let S := range3 p.isize p.jsize p.ksize
  [.par (range1 (nbIter3 p)) (makeBoundary3 true p inA .xmin),
   .par (range1 (nbIter3 p)) (makeBoundary3 true p inA .xmax),
   .par (range1 (nbIter3 p)) (makeBoundary3 true p inA .ymin),
   .par (range1 (nbIter3 p)) (makeBoundary3 true p inA .ymax),
   .par (range1 (nbIter3 p)) (makeBoundary3 true p inA .zmin),
   .par (range1 (nbIter3 p)) (makeBoundary3 true p inA .zmax),
   .copy outA inA,
   .par S (convertMhd3 p inA .Q)]

/-- Last part of `SolverMHDMuscl<3>::godunov_unsplit_impl` (after `compute_dt`),
`/repo/src/muscl/SolverMHDMuscl.cpp:488-566`. -/
def postMhd3 (p : Params R) (dt : R) (jk : JunkM R) (inA outA : Arr) : List (Launch Arr R) :=
  let S := range3 p.isize p.jsize p.ksize
  let dtdx := dt / p.dx
  let dtdy := dt / p.dy
  let dtdz := dt / p.dz
  if p.implementationVersion = 0 then
    [.par S (elecFieldMhd3 p inA .Q),
     .par S (magSlopesMhd3 p inA),
     .par S (computeTraceMhd3 p inA .Q dtdx dtdy dtdz),
     .par S (fluxesAndStoreMhd3 p .Fx .Fy .Fz jk),
     .par S (emfAndStoreMhd3 p .Emf),
     .par S (updateMhd3 p outA .Fx .Fy .Fz dtdx dtdy dtdz),
     .par S (updateEmfMhd3 p outA .Emf dtdx dtdy dtdz)]
  else if p.implementationVersion = 1 then
    [.par S (elecFieldMhd3 p inA .Q),
     .par S (magSlopesMhd3 p inA),
     .par S (computeTraceMhd3 p inA .Q dtdx dtdy dtdz),
     .par S (fluxesAndUpdateMhd3 p outA dtdx dtdy dtdz jk),
     .par S (emfAndUpdateMhd3 p outA dtdx dtdy dtdz)]
  else if p.implementationVersion = 2 then
    [.par S (computeSlopesMhd3 p inA .Q jk),
     .par S (updatedPrimVarMhd3 p inA .Q .Q2 dtdx dtdy dtdz),
     .par S (elecFieldMhd3 p inA .Q),
     .par S (sourceFaceMagMhd3 p dtdx dtdy dtdz),
     .par S (fluxAlongMhd3 .x p inA outA .Q2 dtdx dtdy dtdz jk),
     .par S (fluxAlongMhd3 .y p inA outA .Q2 dtdx dtdy dtdz jk),
     .par S (fluxAlongMhd3 .z p inA outA .Q2 dtdx dtdy dtdz jk),
     .par S (reconstructEmfMhd3 .x p inA outA .Q2 dtdx dtdy dtdz),
     .par S (reconstructEmfMhd3 .y p inA outA .Q2 dtdx dtdy dtdz),
     .par S (reconstructEmfMhd3 .z p inA outA .Q2 dtdx dtdy dtdz)]
  else []

/-- `SolverMHDMuscl<3>::godunov_unsplit_impl(data_in, data_out)` with the time step `dt` found by
`compute_dt` in the middle, `/repo/src/muscl/SolverMHDMuscl.cpp:461-569` (serial build). -/
def godunovMhd3 (p : Params R) (dt : R) (jk : JunkM R) (inA outA : Arr) : Kern Arr R :=
  Kern.seq (runLaunches (preMhd3 p inA outA)) (runLaunches (postMhd3 p dt jk inA outA))

/-- `SolverMHDMuscl<3>::compute_dt_local`, `/repo/src/muscl/SolverMHDMuscl.h:718-737`; `ident` is the
identity of `Kokkos::Max`. -/
def computeDtLocalMhd3 (p : Params R) (ident : R) (m : Mem Arr R) (dt : R) : Prop :=
  ∃ invDt, ParReduce (range3 p.isize p.jsize p.ksize) (computeDtMhd3 p .Q) kokkosMaxJoin ident m
    invDt ∧ dt = p.settings.cfl / invDt

/-- consecutive time steps with the given `dt`s, starting at iteration `n`
(`SolverMHDMuscl::godunov_unsplit`, `/repo/src/muscl/SolverMHDMuscl.h:789-800`) -/
def mhdRun3 (p : Params R) (jk : JunkM R) : Nat → List R → Kern Arr R
  | _, [] => Kern.skip
  | n, dt :: dts =>
    Kern.seq (godunovMhd3 p dt jk (pingIn n) (pingOut n)) (mhdRun3 p jk (n + 1) dts)

/-- Which view elements are allocated, 3D MHD: `/repo/src/muscl/SolverMHDMuscl.h:316-377`. -/
def AllocM3 (p : Params R) (l : Loc Arr) : Prop :=
  (0 ≤ l.i ∧ l.i < p.isize) ∧ (0 ≤ l.j ∧ l.j < p.jsize) ∧ (0 ≤ l.k ∧ l.k < p.ksize) ∧
  match l.arr with
  | .U | .U2 | .Q => l.v < p.nbvar
  | .Qm_x | .Qm_y | .Qm_z | .Qp_x | .Qp_y | .Qp_z =>
    (p.implementationVersion = 0 ∨ p.implementationVersion = 1) ∧ l.v < p.nbvar
  | .QEdge n => n < 12 ∧ (p.implementationVersion = 0 ∨ p.implementationVersion = 1) ∧ l.v < p.nbvar
  | .DeltaA | .DeltaB | .DeltaC =>
    (p.implementationVersion = 0 ∨ p.implementationVersion = 1) ∧ l.v < 3
  | .ElecField =>
    (p.implementationVersion = 0 ∨ p.implementationVersion = 1 ∨ p.implementationVersion = 2) ∧
      l.v < 3
  | .Fx | .Fy | .Fz => p.implementationVersion = 0 ∧ l.v < p.nbvar
  | .Emf => p.implementationVersion = 0 ∧ l.v < 3
  | .Q2 | .Sx | .Sy | .Sz => p.implementationVersion = 2 ∧ l.v < p.nbvar
  | .sFaceMag => p.implementationVersion = 2 ∧ l.v < 3
  | _ => False

end EulerKokkos
