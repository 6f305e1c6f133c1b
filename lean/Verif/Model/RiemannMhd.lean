import Verif.Model.MhdState

/-!
# MHD Riemann solvers

Models `/repo/src/shared/mhd_utils.h` and `/repo/src/shared/RiemannSolvers_MHD.h`.
-/

set_option linter.constructorNameAsVariable false

namespace EulerKokkos

variable {R : Type} [RealOps R]

/-- `Direction` / `ComponentIndex3D` template arguments (`/repo/src/shared/enums.h`): the component of
the magnetic field along the direction. -/
def MS.normalB (q : MS R) : Nat → R
  | 0 => q.a
  | 1 => q.b
  | _ => q.c

/-- `FMAX4`, `/repo/src/shared/mhd_utils.h:34-46` -/
def fmax4 (a0 a1 a2 a3 : R) : R :=
  let r := a0
  let r := if gtb a1 r then a1 else r
  let r := if gtb a2 r then a2 else r
  if gtb a3 r then a3 else r

/-- `FMIN4`, `/repo/src/shared/mhd_utils.h:48-62` -/
def fmin4 (a0 a1 a2 a3 : R) : R :=
  let r := a0
  let r := if RealOps.lt a1 r then a1 else r
  let r := if RealOps.lt a2 r then a2 else r
  if RealOps.lt a3 r then a3 else r

/-- `FMAX5`, `/repo/src/shared/mhd_utils.h:64-79` -/
def fmax5 (a0 a1 a2 a3 a4 : R) : R :=
  let r := a0
  let r := if gtb a1 r then a1 else r
  let r := if gtb a2 r then a2 else r
  let r := if gtb a3 r then a3 else r
  if gtb a4 r then a4 else r

/-- `find_speed_fast<dir>`, `/repo/src/shared/mhd_utils.h:91-122`; `n` is the direction
(0, 1, 2 for `IX`, `IY`, `IZ`). -/
def findSpeedFast (s : Settings R) (n : Nat) (q : MS R) : R :=
  let b2 := q.a * q.a + q.b * q.b + q.c * q.c
  let c2 := s.gamma0 * q.p / q.d
  let d2 := lit (1/2) * (b2 / q.d + c2)
  RealOps.sqrt (d2 + RealOps.sqrt (d2 * d2 - c2 * q.normalB n * q.normalB n / q.d))

/-- `find_mhd_flux`, `/repo/src/shared/mhd_utils.h:173-233`: conservative variables and flux. -/
def findMhdFlux (s : Settings R) (q : MS R) : MS R × MS R :=
  let p := if gtb s.cIso (lit 0) then q.d * s.cIso * s.cIso else q.p
  let entho := lit 1 / (s.gamma0 - lit 1)
  let d := q.d
  let u := q.u
  let v := q.v
  let w := q.w
  let a := q.a
  let b := q.b
  let c := q.c
  let ecin := lit (1/2) * (u * u + v * v + w * w) * d
  let emag := lit (1/2) * (a * a + b * b + c * c)
  let etot := p * entho + ecin + emag
  let ptot := p + emag
  (⟨d, etot, d * u, d * v, d * w, a, b, c⟩,
   ⟨d * u, (etot + ptot) * u - a * (a * u + b * v + c * w), d * u * u - a * a + ptot,
    d * u * v - a * b, d * u * w - a * c, lit 0, b * u - a * v, c * u - a * w⟩)

/-- `find_speed_info<NDIM>`, `/repo/src/shared/mhd_utils.h:311-373`: fastest speeds along x, y, z
(the 2D instantiation computes the first two). -/
def findSpeedInfo (s : Settings R) (q : MS R) : R × R × R :=
  let b2 := q.a * q.a + q.b * q.b + q.c * q.c
  let c2 := s.gamma0 * q.p / q.d
  let d2 := lit (1/2) * (b2 / q.d + c2)
  let cfx := RealOps.sqrt (d2 + RealOps.sqrt (d2 * d2 - c2 * q.a * q.a / q.d))
  let cfy := RealOps.sqrt (d2 + RealOps.sqrt (d2 * d2 - c2 * q.b * q.b / q.d))
  let cfz := RealOps.sqrt (d2 + RealOps.sqrt (d2 * d2 - c2 * q.c * q.c / q.d))
  (cfx + fabs q.u, cfy + fabs q.v, cfz + fabs q.w)

/-- `find_speed_info(qState, params)`, `/repo/src/shared/mhd_utils.h:375-403` -/
def findSpeedInfo1 (s : Settings R) (q : MS R) : R :=
  let b2 := q.a * q.a + q.b * q.b + q.c * q.c
  let c2 := s.gamma0 * q.p / q.d
  let d2 := lit (1/2) * (b2 / q.d + c2)
  let cf := RealOps.sqrt (d2 + RealOps.sqrt (d2 * d2 - c2 * q.a * q.a / q.d))
  cf + fabs q.u

/-- `riemann_hll` (MHD), `/repo/src/shared/RiemannSolvers_MHD.h:27-66` -/
def riemannMhdHll (s : Settings R) (ql qr : MS R) : MS R :=
  let bx_mean := lit (1/2) * (ql.a + qr.a)
  let ql := { ql with a := bx_mean }
  let qr := { qr with a := bx_mean }
  let L := findMhdFlux s ql
  let Rt := findMhdFlux s qr
  let cfleft := findSpeedFast s 0 ql
  let cfright := findSpeedFast s 0 qr
  let vleft := ql.u
  let vright := qr.u
  let sl := fmin (fmin vleft vright - fmax cfleft cfright) (lit 0)
  let sr := fmax (fmax vleft vright + fmax cfleft cfright) (lit 0)
  let f := fun (fl fr ul ur : R) => (sr * fl - sl * fr + sr * sl * (ur - ul)) / (sr - sl)
  ⟨f L.2.d Rt.2.d L.1.d Rt.1.d, f L.2.p Rt.2.p L.1.p Rt.1.p, f L.2.u Rt.2.u L.1.u Rt.1.u,
   f L.2.v Rt.2.v L.1.v Rt.1.v, f L.2.w Rt.2.w L.1.w Rt.1.w, f L.2.a Rt.2.a L.1.a Rt.1.a,
   f L.2.b Rt.2.b L.1.b Rt.1.b, f L.2.c Rt.2.c L.1.c Rt.1.c⟩

/-- `riemann_llf` (MHD), `/repo/src/shared/RiemannSolvers_MHD.h:78-110` -/
def riemannMhdLlf (s : Settings R) (ql qr : MS R) : MS R :=
  let bx_mean := lit (1/2) * (ql.a + qr.a)
  let ql := { ql with a := bx_mean }
  let qr := { qr with a := bx_mean }
  let L := findMhdFlux s ql
  let Rt := findMhdFlux s qr
  let vel_info := fmax (findSpeedInfo1 s ql) (findSpeedInfo1 s qr)
  let f := fun (fl fr ul ur : R) => (fl + fr) / lit 2 - vel_info * (ur - ul) / lit 2
  ⟨f L.2.d Rt.2.d L.1.d Rt.1.d, f L.2.p Rt.2.p L.1.p Rt.1.p, f L.2.u Rt.2.u L.1.u Rt.1.u,
   f L.2.v Rt.2.v L.1.v Rt.1.v, f L.2.w Rt.2.w L.1.w Rt.1.w, f L.2.a Rt.2.a L.1.a Rt.1.a,
   f L.2.b Rt.2.b L.1.b Rt.1.b, f L.2.c Rt.2.c L.1.c Rt.1.c⟩

/-- the variables sampled at `x/t = 0` by `riemann_hlld` -/
structure HlldOut (R : Type) where
  ro : R
  uo : R
  vo : R
  wo : R
  bo : R
  co : R
  ptoto : R
  etoto : R
  vdotbo : R

/-- star region of one side of `riemann_hlld`, `/repo/src/shared/RiemannSolvers_MHD.h:200-229` (left)
and `:231-260` (right; the text is the same with the other names). -/
structure HlldStar (R : Type) where
  rstar : R
  vstar : R
  wstar : R
  bstar : R
  cstar : R
  vdotbstar : R
  etotstar : R
  sqrrstar : R
  calfven : R

/-- `/repo/src/shared/RiemannSolvers_MHD.h:200-229` and `:231-260` -/
def hlldStar (a r u v w b c etot ptot vdotb sk ustar ptotstar : R) : HlldStar R :=
  let rstar := r * (sk - u) / (sk - ustar)
  let estar := r * (sk - u) * (sk - ustar) - a * a
  let e := r * (sk - u) * (sk - u) - a * a
  let deg : Bool := gtb (a * a) (lit 0) &&
    RealOps.le (fabs (estar / (a * a) - lit 1)) (lit (1/100000000))
  let vstar := if deg then v else v - a * b * (ustar - u) / estar
  let bstar := if deg then b else b * e / estar
  let wstar := if deg then w else w - a * c * (ustar - u) / estar
  let cstar := if deg then c else c * e / estar
  let vdotbstar := ustar * a + vstar * bstar + wstar * cstar
  let etotstar := ((sk - u) * etot - ptot * u + ptotstar * ustar + a * (vdotb - vdotbstar)) /
    (sk - ustar)
  let sqrrstar := RealOps.sqrt rstar
  let calfven := fabs a / sqrrstar
  ⟨rstar, vstar, wstar, bstar, cstar, vdotbstar, etotstar, sqrrstar, calfven⟩

/-- common normal field and isothermal pressure at the beginning of `riemann_hlld`,
`/repo/src/shared/RiemannSolvers_MHD.h:139-153` -/
def hlldIn (s : Settings R) (a : R) (q : MS R) : MS R :=
  let q := { q with a := a }
  if gtb s.cIso (lit 0) then { q with p := q.d * s.cIso * s.cIso } else q

/-- left or right variables, `/repo/src/shared/RiemannSolvers_MHD.h:155-183` (the text for the two sides
is the same up to the names) -/
def hlldSide (entho a : R) (q : MS R) : HlldOut R :=
  let ecin := lit (1/2) * (q.u * q.u + q.v * q.v + q.w * q.w) * q.d
  let emag := lit (1/2) * (a * a + q.b * q.b + q.c * q.c)
  ⟨q.d, q.u, q.v, q.w, q.b, q.c, q.p + emag, q.p * entho + ecin + emag,
    q.u * a + q.v * q.b + q.w * q.c⟩

/-- star state of one side, sampled -/
def hlldStarOut (L : HlldStar R) (ustar ptotstar : R) : HlldOut R :=
  ⟨L.rstar, ustar, L.vstar, L.wstar, L.bstar, L.cstar, ptotstar, L.etotstar, L.vdotbstar⟩

/-- double star region variables, `/repo/src/shared/RiemannSolvers_MHD.h:262-275`; the two results are the
states left and right of the contact. -/
def hlldSS (a sgnm ustar ptotstar : R) (L Rt : HlldStar R) : HlldOut R × HlldOut R :=
  let den := L.sqrrstar + Rt.sqrrstar
  let vstarstar := (L.sqrrstar * L.vstar + Rt.sqrrstar * Rt.vstar + sgnm * (Rt.bstar - L.bstar)) / den
  let wstarstar := (L.sqrrstar * L.wstar + Rt.sqrrstar * Rt.wstar + sgnm * (Rt.cstar - L.cstar)) / den
  let bstarstar := (L.sqrrstar * Rt.bstar + Rt.sqrrstar * L.bstar +
    sgnm * L.sqrrstar * Rt.sqrrstar * (Rt.vstar - L.vstar)) / den
  let cstarstar := (L.sqrrstar * Rt.cstar + Rt.sqrrstar * L.cstar +
    sgnm * L.sqrrstar * Rt.sqrrstar * (Rt.wstar - L.wstar)) / den
  let vdotbstarstar := ustar * a + vstarstar * bstarstar + wstarstar * cstarstar
  let etotstarstarl := L.etotstar - sgnm * L.sqrrstar * (L.vdotbstar - vdotbstarstar)
  let etotstarstarr := Rt.etotstar + sgnm * Rt.sqrrstar * (Rt.vdotbstar - vdotbstarstar)
  (⟨L.rstar, ustar, vstarstar, wstarstar, bstarstar, cstarstar, ptotstar, etotstarstarl,
      vdotbstarstar⟩,
   ⟨Rt.rstar, ustar, vstarstar, wstarstar, bstarstar, cstarstar, ptotstar, etotstarstarr,
      vdotbstarstar⟩)

/-- sample the solution at `x/t = 0`, `/repo/src/shared/RiemannSolvers_MHD.h:277-350` -/
def hlldSample (sl sal ustar sar sr : R) (l ls lss rss rs r : HlldOut R) : HlldOut R :=
  if gtb sl (lit 0) then l
  else if gtb sal (lit 0) then ls
  else if gtb ustar (lit 0) then lss
  else if gtb sar (lit 0) then rss
  else if gtb sr (lit 0) then rs
  else r

/-- Godunov flux of the sampled state, `/repo/src/shared/RiemannSolvers_MHD.h:352-362` -/
def hlldFlux (a : R) (o : HlldOut R) : MS R :=
  ⟨o.ro * o.uo, (o.etoto + o.ptoto) * o.uo - a * o.vdotbo, o.ro * o.uo * o.uo - a * a + o.ptoto,
   o.ro * o.uo * o.vo - a * o.bo, o.ro * o.uo * o.wo - a * o.co, lit 0,
   o.bo * o.uo - a * o.vo, o.co * o.uo - a * o.wo⟩

/-- `riemann_hlld` from the star values on, `/repo/src/shared/RiemannSolvers_MHD.h:201-362` -/
def hlldTail (a sgnm sl sr ustar ptotstar : R) (l r : HlldOut R) : MS R :=
  let L := hlldStar a l.ro l.uo l.vo l.wo l.bo l.co l.etoto l.ptoto l.vdotbo sl ustar ptotstar
  let sal := ustar - L.calfven
  let Rt := hlldStar a r.ro r.uo r.vo r.wo r.bo r.co r.etoto r.ptoto r.vdotbo sr ustar ptotstar
  let sar := ustar + Rt.calfven
  let ss := hlldSS a sgnm ustar ptotstar L Rt
  hlldFlux a (hlldSample sl sal ustar sar sr l (hlldStarOut L ustar ptotstar) ss.1 ss.2
    (hlldStarOut Rt ustar ptotstar) r)

/-- `riemann_hlld` from the wave speeds on, `/repo/src/shared/RiemannSolvers_MHD.h:193-362`: lagrangian
sound speeds, acoustic star state. -/
def hlldBody (a sgnm sl sr : R) (l r : HlldOut R) : MS R :=
  let rcl := l.ro * (l.uo - sl)
  let rcr := r.ro * (sr - r.uo)
  let ustar := (rcr * r.uo + rcl * l.uo + (l.ptoto - r.ptoto)) / (rcr + rcl)
  let ptotstar := (rcr * l.ptoto + rcl * r.ptoto + rcl * rcr * (l.uo - r.uo)) / (rcr + rcl)
  hlldTail a sgnm sl sr ustar ptotstar l r

/-- `riemann_hlld`, `/repo/src/shared/RiemannSolvers_MHD.h:130-363` -/
def riemannMhdHlld (s : Settings R) (ql qr : MS R) : MS R :=
  let entho := lit 1 / (s.gamma0 - lit 1)
  let a := lit (1/2) * (ql.a + qr.a)
  let sgnm : R := if geb a (lit 0) then lit 1 else -lit 1
  let ql := hlldIn s a ql
  let qr := hlldIn s a qr
  let cfastl := findSpeedFast s 0 ql
  let cfastr := findSpeedFast s 0 qr
  let sl := fmin ql.u qr.u - fmax cfastl cfastr
  let sr := fmax ql.u qr.u + fmax cfastl cfastr
  hlldBody a sgnm sl sr (hlldSide entho a ql) (hlldSide entho a qr)

/-- `riemann_mhd`, `/repo/src/shared/RiemannSolvers_MHD.h:362-386`; `junk` is the content of `flux`
before the call, kept when the solver is none of the three. -/
def riemannMhd (s : Settings R) (t : RiemannType) (ql qr junk : MS R) : MS R :=
  match t with
  | .hlld => riemannMhdHlld s ql qr
  | .hll => riemannMhdHll s ql qr
  | .llf => riemannMhdLlf s ql qr
  | _ => junk

/-- Four states around an edge, `/repo/src/shared/enums.h:193-199`. -/
structure Edge4 (R : Type) where
  rt : MS R
  rb : MS R
  lt : MS R
  lb : MS R

/-- `(int)(1 + COPYSIGN(ONE_F, x)) / 2`, `/repo/src/shared/RiemannSolvers_MHD.h:565-569`:
`1 + (±1)` is 2 or 0, so the integer is 1 if the sign bit is clear and 0 otherwise. -/
def posBit (x : R) : Bool := RealOps.lt (lit 0) (RealOps.copysign (lit 1) x)

/-- conversion of the 0/1 integers to `real_t` in `(SB_neg * …) * tmpE` -/
def bitR (b : Bool) : R := lit (if b then 1 else 0)

/-- star values of one of the four corner states, `/repo/src/shared/RiemannSolvers_MHD.h:490-524`; `SX`,
`SY` are the outer speeds towards the corner. -/
structure MagStar (R : Type) where
  rx : R
  B : R
  ry : R
  A : R
  r : R
  Ex : R
  Ey : R
  E : R

/-- `/repo/src/shared/RiemannSolvers_MHD.h:490-524` (the four corners have the same text) -/
def magStar (q : MS R) (SX SY ustar vstar : R) : MagStar R :=
  let rstarx := q.d * (SX - q.u) / (SX - ustar)
  let Bstar := q.b * (SX - q.u) / (SX - ustar)
  let rstary := q.d * (SY - q.v) / (SY - vstar)
  let Astar := q.a * (SY - q.v) / (SY - vstar)
  let rstar := q.d * (SX - q.u) / (SX - ustar) * (SY - q.v) / (SY - vstar)
  let Estarx := ustar * Bstar - q.v * q.a
  let Estary := q.u * q.b - vstar * Astar
  let Estar := ustar * Bstar - vstar * Astar
  ⟨rstarx, Bstar, rstary, Astar, rstar, Estarx, Estary, Estar⟩

/-- the electric field from the star values and the four Alfven speeds,
`/repo/src/shared/RiemannSolvers_MHD.h:552-593` -/
def magSelect (SL SR SB ST SAL SAR SAB SAT : R) (qLL qRL qLR qRR : MS R) (LL RL LR RR : MagStar R)
    (ELL ERL ELR ERR : R) : R :=
  let AstarT := (SAR * RR.A - SAL * LR.A) / (SAR - SAL)
  let AstarB := (SAR * RL.A - SAL * LL.A) / (SAR - SAL)
  let BstarR := (SAT * RR.B - SAB * RL.B) / (SAT - SAB)
  let BstarL := (SAT * LR.B - SAB * LL.B) / (SAT - SAB)
  let SBp := posBit SB
  let STp := posBit ST
  let SLp := posBit SL
  let SRp := posBit SR
  let E : R := lit 0
  let tmpE := (SAL * SAB * RR.E - SAL * SAT * RL.E - SAR * SAB * LR.E + SAR * SAT * LL.E) /
      (SAR - SAL) / (SAT - SAB) -
    SAT * SAB / (SAT - SAB) * (AstarT - AstarB) + SAR * SAL / (SAR - SAL) * (BstarR - BstarL)
  let E := E + bitR (!SBp && STp && !SLp && SRp) * tmpE
  -- SB > 0
  let tmpE := (SAR * LL.Ex - SAL * RL.Ex + SAR * SAL * (qRL.b - qLL.b)) / (SAR - SAL)
  let tmpE := bitR SLp * ELL + bitR (!SLp && !SRp) * ERL + bitR (!SLp && SRp) * tmpE
  let E := E + bitR SBp * tmpE
  -- ST < 0
  let tmpE := (SAR * LR.Ex - SAL * RR.Ex + SAR * SAL * (qRR.b - qLR.b)) / (SAR - SAL)
  let tmpE := bitR SLp * ELR + bitR (!SLp && !SRp) * ERR + bitR (!SLp && SRp) * tmpE
  let E := E + bitR (!SBp && !STp) * tmpE
  -- SL > 0
  let tmpE := (SAT * LL.Ey - SAB * LR.Ey - SAT * SAB * (qLR.a - qLL.a)) / (SAT - SAB)
  let E := E + bitR (!SBp && STp && SLp) * tmpE
  -- SR < 0
  let tmpE := (SAT * RL.Ey - SAB * RR.Ey - SAT * SAB * (qRR.a - qRL.a)) / (SAT - SAB)
  E + bitR (!SBp && STp && !SLp && !SRp) * tmpE

/-- `mag_riemann2d_hlld` from the star velocities on: corner star values and Alfven speeds,
`/repo/src/shared/RiemannSolvers_MHD.h:490-550` -/
def magTail (s : Settings R) (qLL qRL qLR qRR : MS R) (ELL ERL ELR ERR SL SR SB ST ustar vstar : R) : R :=
  let LL := magStar qLL SL SB ustar vstar
  let LR := magStar qLR SL ST ustar vstar
  let RL := magStar qRL SR SB ustar vstar
  let RR := magStar qRR SR ST ustar vstar
  let calfvenL := fmax5 (fabs qLR.a / RealOps.sqrt LR.rx) (fabs LR.A / RealOps.sqrt LR.r)
    (fabs qLL.a / RealOps.sqrt LL.rx) (fabs LL.A / RealOps.sqrt LL.r) s.smallc
  let calfvenR := fmax5 (fabs qRR.a / RealOps.sqrt RR.rx) (fabs RR.A / RealOps.sqrt RR.r)
    (fabs qRL.a / RealOps.sqrt RL.rx) (fabs RL.A / RealOps.sqrt RL.r) s.smallc
  let calfvenB := fmax5 (fabs qLL.b / RealOps.sqrt LL.ry) (fabs LL.B / RealOps.sqrt LL.r)
    (fabs qRL.b / RealOps.sqrt RL.ry) (fabs RL.B / RealOps.sqrt RL.r) s.smallc
  let calfvenT := fmax5 (fabs qLR.b / RealOps.sqrt LR.ry) (fabs LR.B / RealOps.sqrt LR.r)
    (fabs qRR.b / RealOps.sqrt RR.ry) (fabs RR.B / RealOps.sqrt RR.r) s.smallc
  let SAL := fmin (ustar - calfvenL) (lit 0)
  let SAR := fmax (ustar + calfvenR) (lit 0)
  let SAB := fmin (vstar - calfvenB) (lit 0)
  let SAT := fmax (vstar + calfvenT) (lit 0)
  magSelect SL SR SB ST SAL SAR SAB SAT qLL qRL qLR qRR LL RL LR RR ELL ERL ELR ERR

/-- total pressure, `/repo/src/shared/RiemannSolvers_MHD.h:469-472` -/
def magPtot (q : MS R) : R := q.p + lit (1/2) * (q.a * q.a + q.b * q.b + q.c * q.c)

/-- star velocities and what follows, `/repo/src/shared/RiemannSolvers_MHD.h:469-629` -/
def magBody (s : Settings R) (qLL qRL qLR qRR : MS R) (ELL ERL ELR ERR SL SR SB ST : R) : R :=
  let PtotLL := magPtot qLL
  let PtotLR := magPtot qLR
  let PtotRL := magPtot qRL
  let PtotRR := magPtot qRR
  let rcLLx := qLL.d * (qLL.u - SL)
  let rcRLx := qRL.d * (SR - qRL.u)
  let rcLRx := qLR.d * (qLR.u - SL)
  let rcRRx := qRR.d * (SR - qRR.u)
  let rcLLy := qLL.d * (qLL.v - SB)
  let rcLRy := qLR.d * (ST - qLR.v)
  let rcRLy := qRL.d * (qRL.v - SB)
  let rcRRy := qRR.d * (ST - qRR.v)
  let ustar := (rcLLx * qLL.u + rcLRx * qLR.u + rcRLx * qRL.u + rcRRx * qRR.u +
    (PtotLL - PtotRL + PtotLR - PtotRR)) / (rcLLx + rcLRx + rcRLx + rcRRx)
  let vstar := (rcLLy * qLL.v + rcLRy * qLR.v + rcRLy * qRL.v + rcRRy * qRR.v +
    (PtotLL - PtotLR + PtotRL - PtotRR)) / (rcLLy + rcLRy + rcRLy + rcRRy)
  magTail s qLL qRL qLR qRR ELL ERL ELR ERR SL SR SB ST ustar vstar

/-- `mag_riemann2d_hlld`, `/repo/src/shared/RiemannSolvers_MHD.h:391-629` -/
def magRiemann2dHlld (s : Settings R) (qLL qRL qLR qRR : MS R) (ELL ERL ELR ERR : R) : R :=
  let cFastLLx := findSpeedFast s 0 qLL
  let cFastLRx := findSpeedFast s 0 qLR
  let cFastRLx := findSpeedFast s 0 qRL
  let cFastRRx := findSpeedFast s 0 qRR
  let cFastLLy := findSpeedFast s 1 qLL
  let cFastLRy := findSpeedFast s 1 qLR
  let cFastRLy := findSpeedFast s 1 qRL
  let cFastRRy := findSpeedFast s 1 qRR
  let SL := fmin4 qLL.u qLR.u qRL.u qRR.u - fmax4 cFastLLx cFastLRx cFastRLx cFastRRx
  let SR := fmax4 qLL.u qLR.u qRL.u qRR.u + fmax4 cFastLLx cFastLRx cFastRLx cFastRRx
  let SB := fmin4 qLL.v qLR.v qRL.v qRR.v - fmax4 cFastLLy cFastLRy cFastRLy cFastRRy
  let ST := fmax4 qLL.v qLR.v qRL.v qRR.v + fmax4 cFastLLy cFastLRy cFastRLy cFastRRy
  magBody s qLL qRL qLR qRR ELL ERL ELR ERR SL SR SB ST

/-- `EmfDir`, `/repo/src/shared/enums.h:209-215` -/
inductive EmfDir
  | x
  | y
  | z
deriving DecidableEq, Repr

/-- The frame in which `compute_emf` works: first and second parallel component, then the orthogonal
one, `/repo/src/shared/RiemannSolvers_MHD.h:691-815` (`EMFZ`: `(x,y,z)`; `EMFY`: `(z,x,y)`; `EMFX`:
`(y,z,x)`). -/
def EmfDir.frame (e : EmfDir) (q : MS R) : MS R :=
  match e with
  | .z => q
  | .y => { q with u := q.w, v := q.u, w := q.v, a := q.c, b := q.a, c := q.b }
  | .x => { q with u := q.v, v := q.w, w := q.u, a := q.b, b := q.c, c := q.a }

/-- `compute_emf<emfDir>`, `/repo/src/shared/RiemannSolvers_MHD.h:631-870` -/
def computeEmf (s : Settings R) (dir : EmfDir) (e : Edge4 R) : R :=
  let h : R := lit (1/2)
  let rt := dir.frame e.rt
  let rb := dir.frame e.rb
  let lt := dir.frame e.lt
  let lb := dir.frame e.lb
  let iso : MS R → R := fun q => if gtb s.cIso (lit 0) then q.d * s.cIso * s.cIso else q.p
  let qLL : MS R := ⟨rt.d, iso rt, rt.u, rt.v, rt.w, h * (rt.a + lt.a), h * (rt.b + rb.b), rt.c⟩
  let qRL : MS R := ⟨lt.d, iso lt, lt.u, lt.v, lt.w, h * (rt.a + lt.a), h * (lt.b + lb.b), lt.c⟩
  let qLR : MS R := ⟨rb.d, iso rb, rb.u, rb.v, rb.w, h * (rb.a + lb.a), h * (rt.b + rb.b), rb.c⟩
  let qRR : MS R := ⟨lb.d, iso lb, lb.u, lb.v, lb.w, h * (rb.a + lb.a), h * (lt.b + lb.b), lb.c⟩
  let ELL := qLL.u * qLL.b - qLL.v * qLL.a
  let ERL := qRL.u * qRL.b - qRL.v * qRL.a
  let ELR := qLR.u * qLR.b - qLR.v * qLR.a
  let ERR := qRR.u * qRR.b - qRR.v * qRR.a
  magRiemann2dHlld s qLL qRL qLR qRR ELL ERL ELR ERR

end EulerKokkos
