import Verif.Core.Checked
import Verif.Props.C21
import Verif.Spec.Scheme3D

/-!
# Checked arithmetic: the hydro functions
-/

set_option linter.unusedSimpArgs false
set_option linter.constructorNameAsVariable false

namespace EulerKokkos

open Chk Spec

/-- component-wise map -/
def HS.map {R S : Type} (f : R → S) (q : HS R) : HS S := ⟨f q.d, f q.p, f q.u, f q.v, f q.w⟩

/-- map of the numbers in the settings -/
def Settings.map {R S : Type} (f : R → S) (s : Settings R) : Settings S :=
  ⟨f s.gamma0, f s.gamma6, f s.cfl, f s.slope_type, f s.smallr, f s.smallc, f s.smallp, f s.smallpp,
    f s.cIso⟩

/-- map of the numbers in the parameters -/
def Params.map {R S : Type} (f : R → S) (p : Params R) : Params S :=
  { nStepmax := p.nStepmax, tEnd := f p.tEnd, nOutput := p.nOutput, enableOutput := p.enableOutput,
    mhdEnabled := p.mhdEnabled, nlog := p.nlog, nx := p.nx, ny := p.ny, nz := p.nz,
    ghostWidth := p.ghostWidth, nbvar := p.nbvar, dimType := p.dimType, imin := p.imin, imax := p.imax,
    jmin := p.jmin, jmax := p.jmax, kmin := p.kmin, kmax := p.kmax, isize := p.isize, jsize := p.jsize,
    ksize := p.ksize, xmin := f p.xmin, xmax := f p.xmax, ymin := f p.ymin, ymax := f p.ymax,
    zmin := f p.zmin, zmax := f p.zmax, dx := f p.dx, dy := f p.dy, dz := f p.dz,
    boundary_type_xmin := p.boundary_type_xmin, boundary_type_xmax := p.boundary_type_xmax,
    boundary_type_ymin := p.boundary_type_ymin, boundary_type_ymax := p.boundary_type_ymax,
    boundary_type_zmin := p.boundary_type_zmin, boundary_type_zmax := p.boundary_type_zmax,
    settings := p.settings.map f, riemannSolverType := p.riemannSolverType,
    implementationVersion := p.implementationVersion }

/-- push `ok` outwards -/
macro "push_ok" "[" ls:Lean.Parser.Tactic.simpLemma,* "]" : tactic =>
  `(tactic| simp (disch := assumption) only [HS.map, Settings.map, ok_add, ok_mul, ok_sub, ok_neg,
    ok_lit, ite_ok, ok_fmax, ok_fmin, ok_fabs, ok_lt, ok_le, ok_beq, ok_copysign, ok_div, ok_sqrt, $ls,*])

theorem cmpflx_ok (d3 : Bool) {s : Settings ℝ} (hs : GoodSettings s) (q : HS ℝ) :
    cmpflx d3 (s.map ok) (q.map ok) = (cmpflx d3 s q).map ok := by
  have h1 : s.gamma0 - (lit 1 : ℝ) ≠ 0 := by
    have := hs.gamma
    simp only [RealOps.lit_real, Rat.cast_one]
    linarith
  push_ok [cmpflx]

/-- last part of `riemannHLLC`: from the wave speeds and the two states to the flux -/
def hllcCore {R : Type} [RealOps R] (d3 : Bool) (SL SR rl ul ptotl etotl rr ur ptotr etotr vl wl vr wr : R) :
    HS R :=
  let rcl := rl * (ul - SL)
  let rcr := rr * (SR - ur)
  let ustar := (rcr * ur + rcl * ul + (ptotl - ptotr)) / (rcr + rcl)
  let ptotstar := (rcr * ptotl + rcl * ptotr + rcl * rcr * (ul - ur)) / (rcr + rcl)
  let rstarl := rl * (SL - ul) / (SL - ustar)
  let etotstarl := ((SL - ul) * etotl - ptotl * ul + ptotstar * ustar) / (SL - ustar)
  let rstarr := rr * (SR - ur) / (SR - ustar)
  let etotstarr := ((SR - ur) * etotr - ptotr * ur + ptotstar * ustar) / (SR - ustar)
  let (ro, uo, ptoto, etoto) :=
    if gtb SL (lit 0) then (rl, ul, ptotl, etotl)
    else if gtb ustar (lit 0) then (rstarl, ustar, ptotstar, etotstarl)
    else if gtb SR (lit 0) then (rstarr, ustar, ptotstar, etotstarr)
    else (rr, ur, ptotr, etotr)
  let fd := ro * uo
  let fu := ro * uo * uo + ptoto
  let fp := (etoto + ptoto) * uo
  let fv := if gtb fd (lit 0) then fd * vl else fd * vr
  let fw := if d3 then (if gtb fd (lit 0) then fd * wl else fd * wr) else lit 0
  ⟨fd, fp, fu, fv, fw⟩

/-- kinetic energy in `riemannHLLC` -/
def hllcKin {R : Type} [RealOps R] (d3 : Bool) (r : R) (q : HS R) : R :=
  let e := lit (1/2) * r * q.u * q.u
  let e := e + lit (1/2) * r * q.v * q.v
  if d3 then e + lit (1/2) * r * q.w * q.w else e

theorem hllc_core {R : Type} [RealOps R] (d3 : Bool) (s : Settings R) (a b : HS R) :
    riemannHLLC d3 s a b =
      let rl := fmax a.d s.smallr
      let pl := fmax a.p (rl * s.smallp)
      let rr := fmax b.d s.smallr
      let pr := fmax b.p (rr * s.smallp)
      let e := lit 1 / (s.gamma0 - lit 1)
      let cl := RealOps.sqrt (fmax (s.gamma0 * pl / rl) (s.smallc * s.smallc))
      let cr := RealOps.sqrt (fmax (s.gamma0 * pr / rr) (s.smallc * s.smallc))
      hllcCore d3 (fmin a.u b.u - fmax cl cr) (fmax a.u b.u + fmax cl cr) rl a.u pl
        (pl * e + hllcKin d3 rl a) rr b.u pr (pr * e + hllcKin d3 rr b) a.v a.w b.v b.w := rfl

theorem hllcCore_ok (d3 : Bool) {SL SR rl ul ptotl etotl rr ur ptotr etotr vl wl vr wr : ℝ}
    (k1 : rr * (SR - ur) + rl * (ul - SL) ≠ 0)
    (k2 : SL - (rr * (SR - ur) * ur + rl * (ul - SL) * ul + (ptotl - ptotr)) /
      (rr * (SR - ur) + rl * (ul - SL)) ≠ 0)
    (k3 : SR - (rr * (SR - ur) * ur + rl * (ul - SL) * ul + (ptotl - ptotr)) /
      (rr * (SR - ur) + rl * (ul - SL)) ≠ 0) :
    hllcCore d3 (ok SL) (ok SR) (ok rl) (ok ul) (ok ptotl) (ok etotl) (ok rr) (ok ur) (ok ptotr) (ok etotr)
      (ok vl) (ok wl) (ok vr) (ok wr) =
    (hllcCore d3 SL SR rl ul ptotl etotl rr ur ptotr etotr vl wl vr wr).map ok := by
  unfold hllcCore
  simp (disch := assumption) only [ok_div, ok_sub, ok_add, ok_mul, ok_lit, ok_lt]
  generalize (rr * (SR - ur) * ur + rl * (ul - SL) * ul + (ptotl - ptotr)) /
    (rr * (SR - ur) + rl * (ul - SL)) = us at *
  by_cases c1 : RealOps.lt (lit 0) SL = true
  · simp only [c1, if_true, ok_add, ok_mul, ok_lt, ite_ok, HS.map]
  by_cases c2 : RealOps.lt (lit 0) us = true
  · simp only [c1, c2, Bool.false_eq_true, if_false, if_true, ok_add, ok_mul, ok_lt, ite_ok, HS.map]
  by_cases c3 : RealOps.lt (lit 0) SR = true
  · simp only [c1, c2, c3, Bool.false_eq_true, if_false, if_true, ok_add, ok_mul, ok_lt, ite_ok, HS.map]
  · simp only [c1, c2, c3, Bool.false_eq_true, if_false, if_true, ok_add, ok_mul, ok_lt, ite_ok, HS.map]

section
variable {s : Settings ℝ} (hs : GoodSettings s) (l r : HS ℝ)
include hs

theorem floors_pos (q : HS ℝ) : 0 < max q.d s.smallr ∧ 0 < max q.p (max q.d s.smallr * s.smallp) := by
  have h2 : 0 < max q.d s.smallr := lt_max_of_lt_right hs.smallr
  have hp := hs.smallp_pos
  exact ⟨h2, lt_max_of_lt_right (by positivity)⟩

theorem llf_ok (d3 : Bool) :
    riemannLLF d3 (s.map ok) (l.map ok) (r.map ok) = (riemannLLF d3 s l r).map ok := by
  have hg := hs.gamma
  obtain ⟨h2, h4⟩ := floors_pos hs l
  obtain ⟨h3, h5⟩ := floors_pos hs r
  have h1' : s.gamma0 - (lit 1 : ℝ) ≠ 0 := by
    simp only [RealOps.lit_real, Rat.cast_one]
    linarith
  have h2' : fmax l.d s.smallr ≠ 0 := h2.ne'
  have h3' : fmax r.d s.smallr ≠ 0 := h3.ne'
  have h6 : 0 ≤ s.gamma0 * fmax l.p (fmax l.d s.smallr * s.smallp) / fmax l.d s.smallr := by
    simp only [RealOps.fmax_real]; positivity
  have h7 : 0 ≤ s.gamma0 * fmax r.p (fmax r.d s.smallr * s.smallp) / fmax r.d s.smallr := by
    simp only [RealOps.fmax_real]; positivity
  push_ok [riemannLLF, consOf]

theorem hll_ok (d3 : Bool) :
    riemannHLL d3 (s.map ok) (l.map ok) (r.map ok) = (riemannHLL d3 s l r).map ok := by
  have hg := hs.gamma
  obtain ⟨h2, h4⟩ := floors_pos hs l
  obtain ⟨h3, h5⟩ := floors_pos hs r
  have h1' : s.gamma0 - (lit 1 : ℝ) ≠ 0 := by
    simp only [RealOps.lit_real, Rat.cast_one]
    linarith
  have h2' : fmax l.d s.smallr ≠ 0 := h2.ne'
  have h3' : fmax r.d s.smallr ≠ 0 := h3.ne'
  have h6 : 0 < s.gamma0 * fmax l.p (fmax l.d s.smallr * s.smallp) / fmax l.d s.smallr := by
    simp only [RealOps.fmax_real]; positivity
  have h7 : 0 < s.gamma0 * fmax r.p (fmax r.d s.smallr * s.smallp) / fmax r.d s.smallr := by
    simp only [RealOps.fmax_real]; positivity
  have h8 : 0 < RealOps.sqrt (s.gamma0 * fmax l.p (fmax l.d s.smallr * s.smallp) / fmax l.d s.smallr) :=
    Real.sqrt_pos.2 h6
  have h6' := h6.le
  have h7' := h7.le
  have h9 : ∀ c x y d : ℝ, 0 < c → fmax (fmax x y + fmax c d) (lit 0) -
      fmin (fmin x y - fmax c d) (lit 0) ≠ 0 := fun c x y d hc => by
    simp only [RealOps.fmax_real, RealOps.fmin_real, RealOps.lit_real, Rat.cast_zero]
    have a1 : c ≤ max c d := le_max_left _ _
    have a2 := le_max_left (max x y + max c d) 0
    have a3 := min_le_left (min x y - max c d) 0
    have a4 : min x y ≤ max x y := le_trans (min_le_left _ _) (le_max_left _ _)
    intro h
    linarith
  have h10 := h9 _ l.u r.u
    (RealOps.sqrt (s.gamma0 * fmax r.p (fmax r.d s.smallr * s.smallp) / fmax r.d s.smallr)) h8
  push_ok [riemannHLL, consOf]

theorem hllc_ok (d3 : Bool) :
    riemannHLLC d3 (s.map ok) (l.map ok) (r.map ok) = (riemannHLLC d3 s l r).map ok := by
  have hg := hs.gamma
  obtain ⟨h2, h4⟩ := floors_pos hs l
  obtain ⟨h3, h5⟩ := floors_pos hs r
  have h1' : s.gamma0 - (lit 1 : ℝ) ≠ 0 := by
    simp only [RealOps.lit_real, Rat.cast_one]
    linarith
  have h2' : fmax l.d s.smallr ≠ 0 := h2.ne'
  have h3' : fmax r.d s.smallr ≠ 0 := h3.ne'
  have hcl : 0 ≤ fmax (s.gamma0 * fmax l.p (fmax l.d s.smallr * s.smallp) / fmax l.d s.smallr)
      (s.smallc * s.smallc) := le_max_of_le_right (mul_self_nonneg _)
  have hcr : 0 ≤ fmax (s.gamma0 * fmax r.p (fmax r.d s.smallr * s.smallp) / fmax r.d s.smallr)
      (s.smallc * s.smallc) := le_max_of_le_right (mul_self_nonneg _)
  have hsp := hllc_speeds hs l r
  dsimp only [hllcC] at hsp
  obtain ⟨g1, g2, g3, g4, g5, g6⟩ := hsp
  have k1 := (add_pos (mul_pos g2 (sub_pos.2 g4)) (mul_pos g1 (sub_pos.2 g3))).ne'
  have k2 := (sub_neg.2 g5).ne
  have k3 := (sub_pos.2 g6).ne'
  simp only [← RealOps.fmax_real, ← RealOps.fmin_real, ← RealOps.sqrt_real] at k1 k2 k3
  rw [hllc_core, hllc_core]
  simp (disch := assumption) only [HS.map, Settings.map, ok_lit, ok_fmax, ok_mul, ok_sub, ok_add, ok_fmin,
    hllcKin, ite_ok, ok_div, ok_sqrt]
  rw [hllcCore_ok d3 k1 k2 k3]
  rfl

/-- the argument of the square roots of the approximate solver is positive -/
theorem approx_arg_pos {p c x : ℝ} (hp : 0 < p) (hc : 0 < c) (hx : 0 ≤ x) :
    0 < c * (1 + s.gamma6 * (x - p) / p) := by
  have hg := hs.gamma
  have h6 : s.gamma6 < 1 := by
    rw [hs.gamma6, div_lt_one (by linarith)]
    linarith
  have h6' : 0 < s.gamma6 := by
    rw [hs.gamma6]
    positivity
  apply mul_pos hc
  have e : 1 + s.gamma6 * (x - p) / p = (1 - s.gamma6) + s.gamma6 * (x / p) := by
    field_simp
    ring
  rw [e]
  have : 0 ≤ s.gamma6 * (x / p) := by positivity
  linarith

/-- the Newton iteration is defined, with a non-negative result -/
theorem approxNewton_ok {ul pl cl ur pr cr : ℝ} (hpl : 0 < pl) (hpr : 0 < pr) (hcl : 0 < cl)
    (hcr : 0 < cr) (n : Nat) : ∀ (pold conv : ℝ), 0 ≤ pold →
    approxNewton (s.map ok) (ok ul) (ok pl) (ok cl) (ok ur) (ok pr) (ok cr) n (ok pold) (ok conv) =
      ok (approxNewton s ul pl cl ur pr cr n pold conv) ∧
    0 ≤ approxNewton s ul pl cl ur pr cr n pold conv := by
  induction n with
  | zero => exact fun pold conv h => ⟨rfl, h⟩
  | succ n ih =>
    intro pold conv h
    by_cases hc : RealOps.lt (lit (1/1000000)) conv = true
    · unfold approxNewton
      simp only [ok_lit, ok_lt, hc, if_true]
      have a1 := approx_arg_pos hs hpl hcl h
      have a2 := approx_arg_pos hs hpr hcr h
      have w1 := Real.sqrt_pos.2 a1
      have w2 := Real.sqrt_pos.2 a2
      have b1 : 0 ≤ cl * (lit 1 + s.gamma6 * (pold - pl) / pl) := by simpa using a1.le
      have b2 : 0 ≤ cr * (lit 1 + s.gamma6 * (pold - pr) / pr) := by simpa using a2.le
      have n1 := hpl.ne'
      have n2 := hpr.ne'
      have hsp : 0 < s.smallpp := by
        rw [hs.smallpp]
        exact mul_pos hs.smallr hs.smallp_pos
      obtain ⟨v1, hv1⟩ : ∃ v, v = RealOps.sqrt (cl * (lit 1 + s.gamma6 * (pold - pl) / pl)) := ⟨_, rfl⟩
      obtain ⟨v2, hv2⟩ : ∃ v, v = RealOps.sqrt (cr * (lit 1 + s.gamma6 * (pold - pr) / pr)) := ⟨_, rfl⟩
      have p1 : 0 < v1 := by
        rw [hv1]
        simpa using w1
      have p2 : 0 < v2 := by
        rw [hv2]
        simpa using w2
      have c1 : v1 * v1 + cl ≠ 0 := by positivity
      have c2 : v2 * v2 + cr ≠ 0 := by positivity
      have d1 := p1.ne'
      have d2 := p2.ne'
      have e1 : lit 2 * v2 * v2 * v2 / (v2 * v2 + cr) + lit 2 * v1 * v1 * v1 / (v1 * v1 + cl) ≠ 0 := by
        simp only [RealOps.lit_real]
        push_cast
        positivity
      have f0 : ∀ x : ℝ, 0 ≤ pold + fmax x (-pold) := fun x => by
        have := le_max_right x (-pold)
        simp only [RealOps.fmax_real]
        linarith
      have f1 : ∀ x : ℝ, pold + fmax x (-pold) + s.smallpp ≠ 0 := fun x => by
        have := f0 x
        positivity
      simp (disch := first | assumption | exact f1 _) only [ok_add, ok_mul, ok_sub,
        ok_neg, ok_lit, ok_fmax, ok_fabs, ok_div, ok_sqrt, ← hv1, ← hv2,
        show (s.map ok).gamma6 = ok s.gamma6 from rfl, show (s.map ok).smallpp = ok s.smallpp from rfl]
      exact ih _ _ (f0 _)
    · unfold approxNewton
      simp only [ok_lit, ok_lt, hc]
      exact ⟨rfl, h⟩

/-- end of `approxState`: sampling of the solution -/
def approxEnd {R : Type} [RealOps R] (s : Settings R) (ro uo po wo pstar ustar sgnm : R) : R × R × R :=
  let co := fmax s.smallc (RealOps.sqrt (fabs (s.gamma0 * po / ro)))
  let rstar := fmax (ro / (lit 1 + ro * (po - pstar) / (wo * wo))) s.smallr
  let cstar := fmax s.smallc (RealOps.sqrt (fabs (s.gamma0 * pstar / rstar)))
  let spout := co - sgnm * uo
  let spin := cstar - sgnm * ustar
  let ushock := wo / ro - sgnm * uo
  let shock := geb pstar po
  let spin := if shock then ushock else spin
  let spout := if shock then ushock else spout
  let scr := fmax (spout - spin) (s.smallc + fabs (spout + spin))
  let frac := lit (1/2) * (lit 1 + (spout + spin) / scr)
  let frac :=
    if !(RealOps.beq frac frac) then lit 0
    else if geb frac (lit 1) then lit 1 else if RealOps.le frac (lit 0) then lit 0 else frac
  let gd := frac * rstar + (lit 1 - frac) * ro
  let gu := frac * ustar + (lit 1 - frac) * uo
  let gp := frac * pstar + (lit 1 - frac) * po
  let out := RealOps.lt spout (lit 0)
  let gd := if out then ro else gd
  let gu := if out then uo else gu
  let gp := if out then po else gp
  let inn := gtb spin (lit 0)
  let gd := if inn then rstar else gd
  let gu := if inn then ustar else gu
  let gp := if inn then pstar else gp
  (gd, gp, gu)

/-- middle of `approxState`: the star velocity and the upwind side -/
def approxMid {R : Type} [RealOps R] (d3 : Bool) (s : Settings R) (rl pl wl rr pr wr pstar : R)
    (qleft qright : HS R) : HS R :=
  let ustar := lit (1/2) * (qleft.u + (pl - pstar) / wl + qright.u - (pr - pstar) / wr)
  let sgnm := RealOps.copysign (lit 1) ustar
  let left := gtb sgnm (lit 0)
  let e := approxEnd s (if left then rl else rr) (if left then qleft.u else qright.u)
    (if left then pl else pr) (if left then wl else wr) pstar ustar sgnm
  ⟨e.1, e.2.1, e.2.2, if left then qleft.v else qright.v,
    if d3 then (if left then qleft.w else qright.w) else lit 0⟩

/-- `approxState` from the floored states -/
def approxStart {R : Type} [RealOps R] (d3 : Bool) (s : Settings R) (rl pl rr pr : R) (qleft qright : HS R) :
    HS R :=
  let cl := s.gamma0 * pl * rl
  let cr := s.gamma0 * pr * rr
  let wl := RealOps.sqrt cl
  let wr := RealOps.sqrt cr
  let p0 := fmax (((wr * pl + wl * pr) + wl * wr * (qleft.u - qright.u)) / (wl + wr)) (lit 0)
  let ps := approxNewton s qleft.u pl cl qright.u pr cr 10 p0 (lit 1)
  approxMid d3 s rl pl (RealOps.sqrt (cl * (lit 1 + s.gamma6 * (ps - pl) / pl))) rr pr
    (RealOps.sqrt (cr * (lit 1 + s.gamma6 * (ps - pr) / pr))) ps qleft qright

omit hs in
theorem approxState_start {R : Type} [RealOps R] (d3 : Bool) (s : Settings R) (ql qr : HS R) :
    approxState d3 s ql qr = approxStart d3 s (fmax ql.d s.smallr) (fmax ql.p (fmax ql.d s.smallr * s.smallp))
      (fmax qr.d s.smallr) (fmax qr.p (fmax qr.d s.smallr * s.smallp)) ql qr := rfl

theorem approxEnd_ok {ro po wo ps : ℝ} (uo us sg : ℝ) (hro : 0 < ro) (hpo : 0 < po) (hwo : 0 < wo)
    (hps : 0 ≤ ps) (hw : wo * wo = s.gamma0 * po * ro * (1 + s.gamma6 * (ps - po) / po)) :
    approxEnd (s.map ok) (ok ro) (ok uo) (ok po) (ok wo) (ok ps) (ok us) (ok sg) =
      ((ok (approxEnd s ro uo po wo ps us sg).1, ok (approxEnd s ro uo po wo ps us sg).2.1,
        ok (approxEnd s ro uo po wo ps us sg).2.2) : Chk × Chk × Chk) := by
  have hg := hs.gamma
  have hd : 0 < lit 1 + ro * (po - ps) / (wo * wo) := by
    simp only [RealOps.lit_real, Rat.cast_one]
    have hq : 0 < wo * wo := by positivity
    rw [show 1 + ro * (po - ps) / (wo * wo) = (wo * wo + ro * (po - ps)) / (wo * wo) by field_simp]
    apply div_pos _ hq
    rw [hw, hs.gamma6]
    have e : s.gamma0 * po * ro * (1 + (s.gamma0 + 1) / (2 * s.gamma0) * (ps - po) / po) + ro * (po - ps) =
        ro * ((s.gamma0 + 1) / 2 * po + (s.gamma0 - 1) / 2 * ps) := by
      field_simp
      ring
    rw [e]
    have : 0 < s.gamma0 - 1 := by linarith
    positivity
  have g1 := hro.ne'
  have g2 : wo * wo ≠ 0 := by positivity
  have g3 := hd.ne'
  unfold approxEnd
  simp (disch := assumption) only [ok_mul, ok_add, ok_sub, ok_div, ok_fmax, ok_fabs, ok_lit, Settings.map,
    ok_le]
  have hrs : 0 < fmax (ro / (lit 1 + ro * (po - ps) / (wo * wo))) s.smallr := lt_max_of_lt_right hs.smallr
  generalize fmax (ro / (lit 1 + ro * (po - ps) / (wo * wo))) s.smallr = rs at *
  have g4 := hrs.ne'
  have g5 : 0 ≤ fabs (s.gamma0 * po / ro) := abs_nonneg _
  have g6 : 0 ≤ fabs (s.gamma0 * ps / rs) := abs_nonneg _
  simp (disch := assumption) only [ok_mul, ok_add, ok_sub, ok_div, ok_fmax, ok_fabs, ok_sqrt, ite_ok]
  generalize (if geb ps po = true then wo / ro - sg * uo else
    fmax s.smallc (RealOps.sqrt (fabs (s.gamma0 * po / ro))) - sg * uo) = spout
  generalize (if geb ps po = true then wo / ro - sg * uo else
    fmax s.smallc (RealOps.sqrt (fabs (s.gamma0 * ps / rs))) - sg * us) = spin
  have hscr : fmax (spout - spin) (s.smallc + fabs (spout + spin)) ≠ 0 := by
    have h1 := le_max_right (spout - spin) (s.smallc + |spout + spin|)
    have h2 := abs_nonneg (spout + spin)
    have := hs.smallc
    simp only [RealOps.fmax_real, RealOps.fabs_real]
    intro h
    linarith
  simp (disch := assumption) only [ok_mul, ok_add, ok_sub, ok_div, ok_fmax, ok_fabs, ok_le, ok_lt,
    ok_beq, ite_ok]

theorem approxMid_ok (d3 : Bool) {rl pl wl rr pr wr ps : ℝ} (h2 : 0 < rl) (h4 : 0 < pl) (v1 : 0 < wl)
    (h3 : 0 < rr) (h5 : 0 < pr) (v2 : 0 < wr) (k2 : 0 ≤ ps)
    (q1 : wl * wl = s.gamma0 * pl * rl * (1 + s.gamma6 * (ps - pl) / pl))
    (q2 : wr * wr = s.gamma0 * pr * rr * (1 + s.gamma6 * (ps - pr) / pr)) :
    approxMid d3 (s.map ok) (ok rl) (ok pl) (ok wl) (ok rr) (ok pr) (ok wr) (ok ps) (l.map ok) (r.map ok) =
      (approxMid d3 s rl pl wl rr pr wr ps l r).map ok := by
  have m1 := v1.ne'
  have m2 := v2.ne'
  unfold approxMid
  simp (disch := assumption) only [ok_mul, ok_add, ok_sub, ok_div, ok_lit, ok_copysign, ok_lt, HS.map]
  cases hl : RealOps.lt (lit 0) (RealOps.copysign (lit 1)
    (lit (1 / 2) * (l.u + (pl - ps) / wl + r.u - (pr - ps) / wr))) with
  | false =>
    simp only [gtb, hl, Bool.false_eq_true, if_false, approxEnd_ok hs _ _ _ h3 h5 v2 k2 q2, ite_ok]
  | true =>
    simp only [gtb, hl, if_true, approxEnd_ok hs _ _ _ h2 h4 v1 k2 q1, ite_ok]

theorem approxStart_ok (d3 : Bool) {rl pl rr pr : ℝ} (h2 : 0 < rl) (h4 : 0 < pl) (h3 : 0 < rr)
    (h5 : 0 < pr) :
    approxStart d3 (s.map ok) (ok rl) (ok pl) (ok rr) (ok pr) (l.map ok) (r.map ok) =
      (approxStart d3 s rl pl rr pr l r).map ok := by
  have hg := hs.gamma
  have hcl : 0 < s.gamma0 * pl * rl := by positivity
  have hcr : 0 < s.gamma0 * pr * rr := by positivity
  have hcl0 := hcl.le
  have hcr0 := hcr.le
  have w1 : 0 < RealOps.sqrt (s.gamma0 * pl * rl) := Real.sqrt_pos.2 hcl
  have w2 : 0 < RealOps.sqrt (s.gamma0 * pr * rr) := Real.sqrt_pos.2 hcr
  have w3 : RealOps.sqrt (s.gamma0 * pl * rl) + RealOps.sqrt (s.gamma0 * pr * rr) ≠ 0 := by positivity
  unfold approxStart
  simp (disch := assumption) only [ok_sqrt, ok_mul, ok_add, ok_sub, ok_div, ok_fmax, ok_lit,
    show (s.map ok).gamma0 = ok s.gamma0 from rfl, show (s.map ok).gamma6 = ok s.gamma6 from rfl,
    show (l.map ok).u = ok l.u from rfl, show (r.map ok).u = ok r.u from rfl]
  have hp0 : 0 ≤ fmax ((RealOps.sqrt (s.gamma0 * pr * rr) * pl + RealOps.sqrt (s.gamma0 * pl * rl) * pr +
      RealOps.sqrt (s.gamma0 * pl * rl) * RealOps.sqrt (s.gamma0 * pr * rr) * (l.u - r.u)) /
      (RealOps.sqrt (s.gamma0 * pl * rl) + RealOps.sqrt (s.gamma0 * pr * rr))) (lit 0) := by
    simp only [RealOps.fmax_real, RealOps.lit_real, Rat.cast_zero]
    exact le_max_right _ _
  generalize fmax ((RealOps.sqrt (s.gamma0 * pr * rr) * pl + RealOps.sqrt (s.gamma0 * pl * rl) * pr +
      RealOps.sqrt (s.gamma0 * pl * rl) * RealOps.sqrt (s.gamma0 * pr * rr) * (l.u - r.u)) /
      (RealOps.sqrt (s.gamma0 * pl * rl) + RealOps.sqrt (s.gamma0 * pr * rr))) (lit 0) = p0 at *
  obtain ⟨k1, k2⟩ := approxNewton_ok hs (ul := l.u) (ur := r.u) h4 h5 hcl hcr 10 p0 (lit 1) hp0
  rw [k1]
  generalize approxNewton s l.u pl (s.gamma0 * pl * rl) r.u pr (s.gamma0 * pr * rr) 10 p0 (lit 1) = ps at *
  have a1 := approx_arg_pos hs h4 hcl k2
  have a2 := approx_arg_pos hs h5 hcr k2
  have a1' : 0 < s.gamma0 * pl * rl * (lit 1 + s.gamma6 * (ps - pl) / pl) := by simpa using a1
  have a2' : 0 < s.gamma0 * pr * rr * (lit 1 + s.gamma6 * (ps - pr) / pr) := by simpa using a2
  have a1n := a1'.le
  have a2n := a2'.le
  have n1 := h4.ne'
  have n2 := h5.ne'
  simp (disch := assumption) only [ok_sqrt, ok_mul, ok_add, ok_sub, ok_div]
  have q1 : RealOps.sqrt (s.gamma0 * pl * rl * (lit 1 + s.gamma6 * (ps - pl) / pl)) *
      RealOps.sqrt (s.gamma0 * pl * rl * (lit 1 + s.gamma6 * (ps - pl) / pl)) =
      s.gamma0 * pl * rl * (1 + s.gamma6 * (ps - pl) / pl) := by
    simpa using Real.mul_self_sqrt a1.le
  have q2 : RealOps.sqrt (s.gamma0 * pr * rr * (lit 1 + s.gamma6 * (ps - pr) / pr)) *
      RealOps.sqrt (s.gamma0 * pr * rr * (lit 1 + s.gamma6 * (ps - pr) / pr)) =
      s.gamma0 * pr * rr * (1 + s.gamma6 * (ps - pr) / pr) := by
    simpa using Real.mul_self_sqrt a2.le
  exact approxMid_ok hs l r d3 h2 h4 (Real.sqrt_pos.2 a1') h3 h5 (Real.sqrt_pos.2 a2') k2 q1 q2

/-- the Godunov state of the approximate solver is defined -/
theorem approxState_ok (d3 : Bool) :
    approxState d3 (s.map ok) (l.map ok) (r.map ok) = (approxState d3 s l r).map ok := by
  obtain ⟨h2, h4⟩ := floors_pos hs l
  obtain ⟨h3, h5⟩ := floors_pos hs r
  rw [approxState_start, approxState_start]
  exact approxStart_ok hs l r d3 h2 h4 h3 h5

theorem approx_ok (d3 : Bool) :
    riemannApprox d3 (s.map ok) (l.map ok) (r.map ok) = (riemannApprox d3 s l r).map ok := by
  unfold riemannApprox
  rw [approxState_ok hs l r d3, cmpflx_ok d3 hs]

end

end EulerKokkos
