import Verif.Model.Params

/-!
# Hydro Riemann solvers

Models `/repo/src/shared/RiemannSolvers.h` and `HydroState2d`/`HydroState3d` of
`/repo/src/shared/HydroState.h`.  The C++ templates are instantiated with the 2D (4 fields) and
3D (5 fields) states; the model uses one structure with five fields and a flag `d3` standing for
`std::is_same<HydroState, HydroState3d>::value`.  A 2D state has `w = lit 0`, never read.
-/

namespace EulerKokkos

/-- `HydroState2d`, `HydroState3d` (`/repo/src/shared/HydroState.h`): density, pressure or energy,
velocity or momentum. -/
@[ext] structure HS (R : Type) where
  d : R
  p : R
  u : R
  v : R
  w : R
deriving DecidableEq, Repr

variable {R : Type} [RealOps R]

/-- `x > y` -/
abbrev gtb (a b : R) : Bool := RealOps.lt b a
/-- `x >= y` -/
abbrev geb (a b : R) : Bool := RealOps.le b a

/-- `cmpflx`, `/repo/src/shared/RiemannSolvers.h:19-48`. -/
def cmpflx (d3 : Bool) (s : Settings R) (q : HS R) : HS R :=
  let fd := q.d * q.u
  let fu := fd * q.u + q.p
  let fv := fd * q.v
  let fw := if d3 then fd * q.w else lit 0
  let entho := lit 1 / (s.gamma0 - lit 1)
  let ekin := lit (1/2) * q.d * (q.u * q.u + q.v * q.v)
  let ekin := if d3 then ekin + lit (1/2) * q.d * (q.w * q.w) else ekin
  let etot := q.p * entho + ekin
  ⟨fd, q.u * (etot + q.p), fu, fv, fw⟩

/-- Newton–Raphson loop of `riemann_approx`, `/repo/src/shared/RiemannSolvers.h:93-106`;
`fuel` counts the remaining iterations (10 at entry). Returns `pold`. -/
def approxNewton (s : Settings R) (ul pl cl ur pr cr : R) : Nat → R → R → R
  | 0, pold, _ => pold
  | fuel + 1, pold, conv =>
    if gtb conv (lit (1/1000000)) then
      let wwl := RealOps.sqrt (cl * (lit 1 + s.gamma6 * (pold - pl) / pl))
      let wwr := RealOps.sqrt (cr * (lit 1 + s.gamma6 * (pold - pr) / pr))
      let ql := lit 2 * wwl * wwl * wwl / (wwl * wwl + cl)
      let qr := lit 2 * wwr * wwr * wwr / (wwr * wwr + cr)
      let usl := ul - (pold - pl) / wwl
      let usr := ur + (pold - pr) / wwr
      let delp := fmax (qr * ql / (qr + ql) * (usl - usr)) (-pold)
      let pold := pold + delp
      let conv := fabs (delp / (pold + s.smallpp))
      approxNewton s ul pl cl ur pr cr fuel pold conv
    else pold

/-- The Godunov state computed by `riemann_approx`,
`/repo/src/shared/RiemannSolvers.h:59-195`. -/
def approxState (d3 : Bool) (s : Settings R) (qleft qright : HS R) : HS R :=
  let rl := fmax qleft.d s.smallr
  let ul := qleft.u
  let pl := fmax qleft.p (rl * s.smallp)
  let rr := fmax qright.d s.smallr
  let ur := qright.u
  let pr := fmax qright.p (rr * s.smallp)
  let cl := s.gamma0 * pl * rl
  let cr := s.gamma0 * pr * rr
  let wl := RealOps.sqrt cl
  let wr := RealOps.sqrt cr
  let pstar := fmax (((wr * pl + wl * pr) + wl * wr * (ul - ur)) / (wl + wr)) (lit 0)
  let pold := approxNewton s ul pl cl ur pr cr 10 pstar (lit 1)
  let pstar := pold
  let wl := RealOps.sqrt (cl * (lit 1 + s.gamma6 * (pstar - pl) / pl))
  let wr := RealOps.sqrt (cr * (lit 1 + s.gamma6 * (pstar - pr) / pr))
  let ustar := lit (1/2) * (ul + (pl - pstar) / wl + ur - (pr - pstar) / wr)
  let sgnm := RealOps.copysign (lit 1) ustar
  let left := gtb sgnm (lit 0)
  let ro := if left then rl else rr
  let uo := if left then ul else ur
  let po := if left then pl else pr
  let wo := if left then wl else wr
  let co := fmax s.smallc (RealOps.sqrt (fabs (s.gamma0 * po / ro)))
  let rstar := fmax (ro / (lit 1 + ro * (po - pstar) / (wo * wo))) s.smallr
  let cstar := fmax s.smallc (RealOps.sqrt (fabs (s.gamma0 * pstar / rstar)))
  let spout := co - sgnm * uo
  let spin := cstar - sgnm * ustar
  let ushock := wo / ro - sgnm * uo
  let shock := geb pstar po
  let spin := if shock then ushock else spin
  let spout := if shock then ushock else spout
  let scr := fmax (spout - spin) (s.smallc + fabs (spout + spin))
  let frac := lit (1/2) * (lit 1 + (spout + spin) / scr)
  let frac :=
    if !(RealOps.beq frac frac) then lit 0
    else if geb frac (lit 1) then lit 1 else if RealOps.le frac (lit 0) then lit 0 else frac
  let gd := frac * rstar + (lit 1 - frac) * ro
  let gu := frac * ustar + (lit 1 - frac) * uo
  let gp := frac * pstar + (lit 1 - frac) * po
  let out := RealOps.lt spout (lit 0)
  let gd := if out then ro else gd
  let gu := if out then uo else gu
  let gp := if out then po else gp
  let inn := gtb spin (lit 0)
  let gd := if inn then rstar else gd
  let gu := if inn then ustar else gu
  let gp := if inn then pstar else gp
  let gv := if left then qleft.v else qright.v
  let gw := if d3 then (if left then qleft.w else qright.w) else lit 0
  ⟨gd, gp, gu, gv, gw⟩

/-- `riemann_approx`, `/repo/src/shared/RiemannSolvers.h:59-199`. -/
def riemannApprox (d3 : Bool) (s : Settings R) (qleft qright : HS R) : HS R :=
  cmpflx d3 s (approxState d3 s qleft qright)

/-- Conservative variables of one side in `riemann_llf`/`riemann_hll`
(`/repo/src/shared/RiemannSolvers.h:257-287` and `:382-404`). -/
def consOf (d3 : Bool) (entho : R) (q : HS R) : HS R :=
  let e := q.p * entho + lit (1/2) * q.d * q.u * q.u
  let e := e + lit (1/2) * q.d * q.v * q.v
  let e := if d3 then e + lit (1/2) * q.d * q.w * q.w else e
  ⟨q.d, e, q.d * q.u, q.d * q.v, if d3 then q.d * q.w else lit 0⟩

/-- `riemann_llf`, `/repo/src/shared/RiemannSolvers.h:217-327`. -/
def riemannLLF (d3 : Bool) (s : Settings R) (qleft qright : HS R) : HS R :=
  let entho := lit 1 / (s.gamma0 - lit 1)
  let rl := fmax qleft.d s.smallr
  let ul := qleft.u
  let pl := fmax qleft.p (rl * s.smallp)
  let rr := fmax qright.d s.smallr
  let ur := qright.u
  let pr := fmax qright.p (rr * s.smallp)
  let cl := RealOps.sqrt (s.gamma0 * pl / rl)
  let cr := RealOps.sqrt (s.gamma0 * pr / rr)
  let cmax := fmax (fabs ul + cl) (fabs ur + cr)
  let uleft := consOf d3 entho qleft
  let uright := consOf d3 entho qright
  let fl : HS R :=
    let fd := uleft.d * qleft.u
    ⟨fd, qleft.u * (uleft.p + qleft.p), qleft.p + uleft.u * qleft.u, fd * qleft.v,
      if d3 then fd * qleft.w else lit 0⟩
  let fr : HS R :=
    let fd := uright.d * qright.u
    ⟨fd, qright.u * (uright.p + qright.p), qright.p + uright.u * qright.u, fd * qright.v,
      if d3 then fd * qright.w else lit 0⟩
  let lf (a b c d : R) : R := lit (1/2) * (a + b - cmax * (c - d))
  ⟨lf fl.d fr.d uright.d uleft.d, lf fl.p fr.p uright.p uleft.p, lf fl.u fr.u uright.u uleft.u,
   lf fl.v fr.v uright.v uleft.v, if d3 then lf fl.w fr.w uright.w uleft.w else lit 0⟩

/-- `riemann_hll`, `/repo/src/shared/RiemannSolvers.h:343-435`. -/
def riemannHLL (d3 : Bool) (s : Settings R) (qleft qright : HS R) : HS R :=
  let entho := lit 1 / (s.gamma0 - lit 1)
  let rl := fmax qleft.d s.smallr
  let ul := qleft.u
  let pl := fmax qleft.p (rl * s.smallp)
  let rr := fmax qright.d s.smallr
  let ur := qright.u
  let pr := fmax qright.p (rr * s.smallp)
  let cl := RealOps.sqrt (s.gamma0 * pl / rl)
  let cr := RealOps.sqrt (s.gamma0 * pr / rr)
  let SL := fmin (fmin ul ur - fmax cl cr) (lit 0)
  let SR := fmax (fmax ul ur + fmax cl cr) (lit 0)
  let uleft := consOf d3 entho qleft
  let uright := consOf d3 entho qright
  let fl : HS R :=
    let fd := uleft.u
    ⟨fd, qleft.u * (uleft.p + qleft.p), qleft.p + uleft.u * qleft.u, fd * qleft.v,
      if d3 then fd * qleft.w else lit 0⟩
  let fr : HS R :=
    let fd := uright.u
    ⟨fd, qright.u * (uright.p + qright.p), qright.p + uright.u * qright.u, fd * qright.v,
      if d3 then fd * qright.w else lit 0⟩
  let hll (a b c d : R) : R := (SR * a - SL * b + SR * SL * (c - d)) / (SR - SL)
  ⟨hll fl.d fr.d uright.d uleft.d, hll fl.p fr.p uright.p uleft.p,
   hll fl.u fr.u uright.u uleft.u, hll fl.v fr.v uright.v uleft.v,
   if d3 then hll fl.w fr.w uright.w uleft.w else lit 0⟩

/-- `riemann_hllc`, `/repo/src/shared/RiemannSolvers.h:445-568`. -/
def riemannHLLC (d3 : Bool) (s : Settings R) (qleft qright : HS R) : HS R :=
  let entho := lit 1 / (s.gamma0 - lit 1)
  let rl := fmax qleft.d s.smallr
  let pl := fmax qleft.p (rl * s.smallp)
  let ul := qleft.u
  let ecinl := lit (1/2) * rl * ul * ul
  let ecinl := ecinl + lit (1/2) * rl * qleft.v * qleft.v
  let ecinl := if d3 then ecinl + lit (1/2) * rl * qleft.w * qleft.w else ecinl
  let etotl := pl * entho + ecinl
  let ptotl := pl
  let rr := fmax qright.d s.smallr
  let pr := fmax qright.p (rr * s.smallp)
  let ur := qright.u
  let ecinr := lit (1/2) * rr * ur * ur
  let ecinr := ecinr + lit (1/2) * rr * qright.v * qright.v
  let ecinr := if d3 then ecinr + lit (1/2) * rr * qright.w * qright.w else ecinr
  let etotr := pr * entho + ecinr
  let ptotr := pr
  let cfastl := RealOps.sqrt (fmax (s.gamma0 * pl / rl) (s.smallc * s.smallc))
  let cfastr := RealOps.sqrt (fmax (s.gamma0 * pr / rr) (s.smallc * s.smallc))
  let SL := fmin ul ur - fmax cfastl cfastr
  let SR := fmax ul ur + fmax cfastl cfastr
  let rcl := rl * (ul - SL)
  let rcr := rr * (SR - ur)
  let ustar := (rcr * ur + rcl * ul + (ptotl - ptotr)) / (rcr + rcl)
  let ptotstar := (rcr * ptotl + rcl * ptotr + rcl * rcr * (ul - ur)) / (rcr + rcl)
  let rstarl := rl * (SL - ul) / (SL - ustar)
  let etotstarl := ((SL - ul) * etotl - ptotl * ul + ptotstar * ustar) / (SL - ustar)
  let rstarr := rr * (SR - ur) / (SR - ustar)
  let etotstarr := ((SR - ur) * etotr - ptotr * ur + ptotstar * ustar) / (SR - ustar)
  let (ro, uo, ptoto, etoto) :=
    if gtb SL (lit 0) then (rl, ul, ptotl, etotl)
    else if gtb ustar (lit 0) then (rstarl, ustar, ptotstar, etotstarl)
    else if gtb SR (lit 0) then (rstarr, ustar, ptotstar, etotstarr)
    else (rr, ur, ptotr, etotr)
  let fd := ro * uo
  let fu := ro * uo * uo + ptoto
  let fp := (etoto + ptoto) * uo
  let fv := if gtb fd (lit 0) then fd * qleft.v else fd * qright.v
  let fw := if d3 then (if gtb fd (lit 0) then fd * qleft.w else fd * qright.w) else lit 0
  ⟨fd, fp, fu, fv, fw⟩

/-- 2D wrapper `riemann_hydro(HydroState2d…)`, `/repo/src/shared/RiemannSolvers.h:573-603`.
`flux0` is the content of the caller's `flux` variable before the call (uninitialised there): no
branch assigns it when `riemannSolverType` is `RIEMANN_HLLD`. -/
def riemannHydro2 (s : Settings R) (rt : RiemannType) (qleft qright flux0 : HS R) : HS R :=
  match rt with
  | .approx => riemannApprox false s qleft qright
  | .hll => riemannHLL false s qleft qright
  | .hllc => riemannHLLC false s qleft qright
  | .llf => riemannLLF false s qleft qright
  | .hlld => flux0

/-- 3D wrapper `riemann_hydro(HydroState3d…)`, `/repo/src/shared/RiemannSolvers.h:608-633`: it has
no HLL branch, so HLL (and HLLD) leave `flux` unassigned. -/
def riemannHydro3 (s : Settings R) (rt : RiemannType) (qleft qright flux0 : HS R) : HS R :=
  match rt with
  | .approx => riemannApprox true s qleft qright
  | .hllc => riemannHLLC true s qleft qright
  | .llf => riemannLLF true s qleft qright
  | .hll => flux0
  | .hlld => flux0

end EulerKokkos
