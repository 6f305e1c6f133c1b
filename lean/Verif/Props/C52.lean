import Verif.Lemmas.CheckedMhdV2
import Verif.Lemmas.CheckedMhdRun
import Verif.Props.C47
import Verif.Props.C53
import Mathlib.Tactic.LinearCombination

/-!
# C52 — undefined operations in MHD runs

The programs are the generic models run with the checked arithmetic `Chk` (`Core/Checked.lean`).  With the
LLF and HLL solvers nothing undefined ever happens; with HLLD it happens exactly at degenerate Riemann
problems, which the guard of the code does not recognise.
-/

set_option linter.unusedSimpArgs false
set_option linter.constructorNameAsVariable false
set_option linter.unusedSectionVars false

namespace EulerKokkos

open Chk Spec

/-! ## Riemann solvers -/

/-- **C52 (Riemann solvers).** For states with positive density and pressure the LLF and HLL solvers return
numbers, those of exact arithmetic; so does HLLD when neither outer wave is degenerate. -/
theorem C52_mhd_riemann_defined {s : Settings ℝ} (hs : GoodSettings s) {l r : MS ℝ} (hl : PhysM l)
    (hr : PhysM r) :
    riemannMhdLlf (s.map ok) (l.map ok) (r.map ok) = (riemannMhdLlf s l r).map ok ∧
    riemannMhdHll (s.map ok) (l.map ok) (r.map ok) = (riemannMhdHll s l r).map ok ∧
    (HlldRegular s.gamma0 (isoState s (meanNormal l r l)) (isoState s (meanNormal l r r)) →
      riemannMhdHlld (s.map ok) (l.map ok) (r.map ok) = (riemannMhdHlld s l r).map ok) :=
  ⟨mhdLlf_ok hs hl hr, mhdHll_ok hs hl hr, hlld_ok hs hl hr⟩

/-- the field is along the normal and dominates the gas pressure -/
def Spec.Switchlike (γ : ℝ) (q : MS ℝ) : Prop := q.b = 0 ∧ q.c = 0 ∧ γ * q.p ≤ q.a ^ 2

/-- `ρ c_f² = B_n²` exactly when the field is normal and dominates the pressure -/
theorem fast_eq_alfven {γ : ℝ} (hg : 1 < γ) {q : MS ℝ} (hq : PhysM q) :
    q.d * fastSpeed γ q.a q ^ 2 = q.a ^ 2 ↔ Switchlike γ q := by
  let s : Settings ℝ := ⟨γ, 0, 0, 0, 0, 0, 0, 0, 0⟩
  have hsp := findSpeedFast_spec (s := s) hg hq 0
  change findSpeedFast s 0 q = fastSpeed γ q.a q at hsp
  have hd := hq.d
  have hp := hq.p
  have hgp : 0 < γ * q.p := by positivity
  constructor
  · intro h
    have fl := (fast_lower (s := s) hg hq 0).1
    rw [hsp] at fl
    change γ * q.p + (q.bsq - q.a * q.a) ≤ q.d * (fastSpeed γ q.a q * fastSpeed γ q.a q) at fl
    have e : q.bsq - q.a * q.a = q.b * q.b + q.c * q.c := by unfold MS.bsq; ring
    rw [e] at fl
    have h' : γ * q.p + (q.b * q.b + q.c * q.c) ≤ q.a ^ 2 := by rw [← h]; linarith
    -- the fast speed is a root of `y² - (γp + B²) y + γp Bn² = 0`
    have ha := fast_arg_pos (s := s) hg hq 0
    have hdisc := fast_disc_nonneg (s := s) hg hq 0
    have hf := findSpeedFast_real (s := s) hg hq 0
    rw [hsp] at hf
    have hsq := congrArg (fun x => x ^ 2) hf
    beta_reduce at hsq
    rw [Real.sq_sqrt ha.le] at hsq
    have hs2 := Real.sq_sqrt hdisc
    have e1 : s.gamma0 = γ := rfl
    have e2 : q.normalB 0 = q.a := rfl
    rw [e1, e2] at hs2 hsq
    have hroot : (q.d * fastSpeed γ q.a q ^ 2) ^ 2 - (γ * q.p + q.bsq) * (q.d * fastSpeed γ q.a q ^ 2) +
        γ * q.p * q.a ^ 2 = 0 := by
      generalize fastSpeed γ q.a q ^ 2 = y at *
      have hw := sub_eq_of_eq_add' hsq
      rw [← hw] at hs2
      clear hsq hf ha hdisc hsp fl h h' hw
      field_simp at hs2
      linear_combination (1 / 4) * hs2
    rw [h] at hroot
    have hz : q.a ^ 2 * (q.b * q.b + q.c * q.c) = 0 := by
      unfold MS.bsq at hroot; linear_combination -hroot
    have hapos : 0 < q.a ^ 2 := lt_of_lt_of_le (add_pos_of_pos_of_nonneg hgp (add_nonneg (mul_self_nonneg q.b) (mul_self_nonneg q.c))) h'
    have hbc : q.b * q.b + q.c * q.c = 0 := (mul_eq_zero.1 hz).resolve_left hapos.ne'
    have hb : q.b * q.b = 0 := by linarith [mul_self_nonneg q.b, mul_self_nonneg q.c]
    have hc : q.c * q.c = 0 := by linarith [mul_self_nonneg q.b, mul_self_nonneg q.c]
    exact ⟨mul_self_eq_zero.1 hb, mul_self_eq_zero.1 hc, by rw [hbc, add_zero] at h'; exact h'⟩
  · rintro ⟨hb, hc, h⟩
    have k := fast_normal (s := s) hg hq (n := 0)
      (by change q.a * q.a + q.b * q.b + q.c * q.c = q.a * q.a; rw [hb, hc]; ring)
      (by change γ * q.p ≤ q.a * q.a; linarith [sq q.a])
    rw [hsp] at k
    change q.d * (fastSpeed γ q.a q * fastSpeed γ q.a q) = q.a * q.a at k
    rw [sq, sq]; exact k

/-- a Riemann problem without jump is regular unless the field is normal and dominates the pressure -/
theorem hlldRegular_self {γ : ℝ} (hg : 1 < γ) {q : MS ℝ} (hq : PhysM q) (h : ¬ Switchlike γ q) :
    HlldRegular γ q q := by
  have hne := fun e => h ((fast_eq_alfven hg hq).1 e)
  let s : Settings ℝ := ⟨γ, 0, 0, 0, 0, 0, 0, 0, 0⟩
  have hc : 0 < fastSpeed γ q.a q := fastSpeed_pos hg hq q.a
  have hd := hq.d
  have e1 : speedL γ q q = q.u - fastSpeed γ q.a q := by unfold speedL maxFast; simp
  have e2 : speedR γ q q = q.u + fastSpeed γ q.a q := by unfold speedR maxFast; simp
  have e3 : speedM (q.u - fastSpeed γ q.a q) (q.u + fastSpeed γ q.a q) q q = q.u := by
    unfold speedM
    rw [div_eq_iff (by nlinarith [mul_pos hc hd])]
    ring
  unfold HlldRegular
  rw [e1, e2]
  dsimp only
  rw [e3]
  constructor
  · intro h; apply hne; rw [← h]; ring
  · intro h; apply hne; rw [← h]; ring

theorem hlldStar_degenerate {a r u v w b c et pt vb sk us ps : ℝ} (ha : a ≠ 0)
    (h : r * (sk - u) * (sk - us) = a * a) :
    (hlldStar (ok a) (ok r) (ok u) (ok v) (ok w) (ok b) (ok c) (ok et) (ok pt) (ok vb) (ok sk) (ok us)
      (ok ps)).vstar = bad := by
  have haa : a * a ≠ 0 := mul_self_ne_zero.2 ha
  unfold hlldStar
  have e0 : ok r * (ok sk - ok u) * (ok sk - ok us) - ok a * ok a = ok 0 := by
    rw [ok_sub, ok_sub, ok_mul, ok_mul, ok_mul, ok_sub, h, sub_self]
  have hdeg : (gtb (ok a * ok a) (lit 0) &&
      RealOps.le (fabs (ok 0 / (ok a * ok a) - lit 1)) (lit (1/100000000))) = false := by
    rw [ok_mul, ok_div haa, _root_.zero_div, show (lit 1 : Chk) = ok (lit 1) from rfl, ok_sub, ok_fabs,
      show (lit (1/100000000) : Chk) = ok (lit (1/100000000)) from rfl, ok_le]
    rw [Bool.and_eq_false_iff]
    right
    simp only [RealOps.lit_real, RealOps.fabs_real]
    change decide _ = false
    rw [decide_eq_false_iff_not]
    norm_num
  dsimp only
  rw [e0, hdeg]
  simp only [Bool.false_eq_true, if_false]
  rw [ok_mul, ok_sub, ok_mul, Chk.div_zero, Chk.sub_bad]

theorem hlldTail_degenerate {a sg sl sr us ps : ℝ} {l r : HlldOut ℝ} (ha : a ≠ 0)
    (hl : l.ro * (sl - l.uo) * (sl - us) = a * a) (hr : r.ro * (sr - r.uo) * (sr - us) = a * a)
    (h1 : sl ≤ 0) (h2 : 0 < sr) :
    (hlldTail (ok a) (ok sg) (ok sl) (ok sr) (ok us) (ok ps) (l.map ok) (r.map ok)).v = bad ∧
    (hlldTail (ok a) (ok sg) (ok sl) (ok sr) (ok us) (ok ps) (l.map ok) (r.map ok)).p = bad ∧
    (hlldTail (ok a) (ok sg) (ok sl) (ok sr) (ok us) (ok ps) (l.map ok) (r.map ok)).b = bad := by
  have dot : ∀ {a r u v w b c et pt vb sk us ps : Chk},
      (hlldStar a r u v w b c et pt vb sk us ps).vstar = bad →
      (hlldStar a r u v w b c et pt vb sk us ps).vdotbstar = bad := by
    intro a r u v w b c et pt vb sk us ps h
    unfold hlldStar at h ⊢
    dsimp only at h ⊢
    rw [h, Chk.bad_mul, Chk.add_bad, Chk.bad_add]
  unfold hlldTail
  simp only [show ∀ o : HlldOut ℝ, (o.map ok) = ⟨ok o.ro, ok o.uo, ok o.vo, ok o.wo, ok o.bo, ok o.co,
    ok o.ptoto, ok o.etoto, ok o.vdotbo⟩ from fun _ => rfl]
  have hL := hlldStar_degenerate (v := l.vo) (w := l.wo) (b := l.bo) (c := l.co) (et := l.etoto)
    (pt := l.ptoto) (vb := l.vdotbo) (ps := ps) ha hl
  have hR := hlldStar_degenerate (v := r.vo) (w := r.wo) (b := r.bo) (c := r.co) (et := r.etoto)
    (pt := r.ptoto) (vb := r.vdotbo) (ps := ps) ha hr
  have hL2 := dot hL
  have hR2 := dot hR
  generalize hlldStar (ok a) (ok l.ro) (ok l.uo) (ok l.vo) (ok l.wo) (ok l.bo) (ok l.co) (ok l.etoto)
    (ok l.ptoto) (ok l.vdotbo) (ok sl) (ok us) (ok ps) = L at *
  generalize hlldStar (ok a) (ok r.ro) (ok r.uo) (ok r.vo) (ok r.wo) (ok r.bo) (ok r.co) (ok r.etoto)
    (ok r.ptoto) (ok r.vdotbo) (ok sr) (ok us) (ok ps) = Rt at *
  have n1 : ¬ gtb (ok sl) (lit 0) = true := by
    rw [ok_lit]
    change ¬ decide _ = true
    rw [decide_eq_true_iff]
    simp only [RealOps.lit_real, Rat.cast_zero]
    linarith
  have n2 : gtb (ok sr) (lit 0) = true := by
    rw [ok_lit]
    change decide _ = true
    rw [decide_eq_true_iff]
    simp only [RealOps.lit_real, Rat.cast_zero]
    linarith
  have key : ∀ o : HlldOut Chk, o.vo = bad → o.vdotbo = bad →
      (hlldFlux (ok a) o).v = bad ∧ (hlldFlux (ok a) o).p = bad ∧ (hlldFlux (ok a) o).b = bad := by
    intro o h1 h2
    unfold hlldFlux
    simp only [h1, h2, Chk.mul_bad, Chk.sub_bad, Chk.bad_sub, and_self]
  have ss : (hlldSS (ok a) (ok sg) (ok us) (ok ps) L Rt).1.vo = bad ∧
      (hlldSS (ok a) (ok sg) (ok us) (ok ps) L Rt).1.vdotbo = bad ∧
      (hlldSS (ok a) (ok sg) (ok us) (ok ps) L Rt).2.vo = bad ∧
      (hlldSS (ok a) (ok sg) (ok us) (ok ps) L Rt).2.vdotbo = bad := by
    unfold hlldSS
    simp only [hL, hR, Chk.mul_bad, Chk.bad_add, Chk.add_bad, Chk.bad_div, Chk.bad_mul, and_self]
  unfold hlldSample
  rw [if_neg n1]
  split_ifs
  · exact key _ hL hL2
  · exact key _ ss.1 ss.2.1
  · exact key _ ss.2.2.1 ss.2.2.2
  · exact key _ hR hR2

/-- **C52 (finding: HLLD, no jump at all).** Take the same state on both sides, with the magnetic field along
the normal and dominating the pressure (`B_n² ≥ γ p`), moving slower than the fast wave — a uniform
medium.  `riemann_hlld` evaluates `0/0`: its momentum flux along the second axis, its energy flux and its flux
of the second field component are undefined.  The guard meant to catch this case tests whether
`estar/B_n²` is 1 instead of 0. -/
theorem C52_hlld_degenerate_undefined {s : Settings ℝ} (hs : GoodSettings s) (hiso : s.cIso ≤ 0) {q : MS ℝ}
    (hq : PhysM q) (hdeg : Switchlike s.gamma0 q) (hu : |q.u| < fastSpeed s.gamma0 q.a q) :
    (riemannMhdHlld (s.map ok) (q.map ok) (q.map ok)).v = bad ∧
    (riemannMhdHlld (s.map ok) (q.map ok) (q.map ok)).p = bad ∧
    (riemannMhdHlld (s.map ok) (q.map ok) (q.map ok)).b = bad := by
  have hg := hs.gamma
  have hd := hq.d
  have hfa := (fast_eq_alfven hg hq).2 hdeg
  have hc : 0 < fastSpeed s.gamma0 q.a q := fastSpeed_pos hg hq q.a
  have ha : q.a ≠ 0 := by
    intro h0
    rw [h0] at hfa
    have : 0 < q.d * fastSpeed s.gamma0 0 q ^ 2 := by rw [h0] at hc; positivity
    rw [hfa] at this
    norm_num at this
  obtain ⟨hu1, hu2⟩ := abs_lt.1 hu
  have hm : meanNormal q q q = q := by
    unfold meanNormal
    have : (q.a + q.a) / 2 = q.a := by ring
    rw [this]
  have hiq : isoState s q = q := by unfold isoState; rw [if_neg (not_lt.2 hiso)]
  unfold riemannMhdHlld
  have ea : lit (1/2) * ((q.map ok).a + (q.map ok).a) = ok q.a := by
    change ok _ = _
    congr 1
    simp only [RealOps.lit_real]; push_cast; ring
  have h1 := gamma_sub_ne hs
  have ee : lit 1 / ((s.map ok).gamma0 - lit 1) = ok (lit 1 / (s.gamma0 - lit 1)) := by push_okm []
  have eq1 : hlldIn (s.map ok) (ok q.a) (q.map ok) = q.map ok := by
    rw [hlldIn_ok]
    have := hlldIn_iso s q q q
    rw [hm, hiq] at this
    rw [show lit (1/2) * (q.a + q.a) = q.a by simp only [RealOps.lit_real]; push_cast; ring] at this
    rw [this]
  simp only [ea, ee, eq1, hlldSide_ok]
  rw [findSpeedFast_ok hs hq, findSpeedFast_spec hg hq]
  change _ ∧ _
  generalize lit 1 / (s.gamma0 - lit 1) = e at *
  rw [show q.normalB 0 = q.a from rfl]
  generalize fastSpeed s.gamma0 q.a q = c at *
  have es : (if geb (ok q.a) (lit 0) = true then lit 1 else -lit 1 : Chk) =
      ok (if geb q.a (lit 0) = true then lit 1 else -lit 1) := ite_ok _ _ _
  rw [es]
  generalize (if geb q.a (lit 0) = true then lit 1 else -lit 1 : ℝ) = sg
  have el : fmin (q.map ok).u (q.map ok).u - fmax (ok c) (ok c) = ok (q.u - c) := by
    change ok _ = ok _
    simp
  have er : fmax (q.map ok).u (q.map ok).u + fmax (ok c) (ok c) = ok (q.u + c) := by
    change ok _ = ok _
    simp
  rw [el, er]
  unfold hlldBody
  have hro : ((hlldSide e q.a q).map ok).ro = ok q.d := rfl
  have huo : ((hlldSide e q.a q).map ok).uo = ok q.u := rfl
  have hpo : ((hlldSide e q.a q).map ok).ptoto = ok (hlldSide e q.a q).ptoto := rfl
  have hrc : q.d * (q.u + c - q.u) + q.d * (q.u - (q.u - c)) ≠ 0 := by
    have := mul_pos hd hc
    apply ne_of_gt; nlinarith
  have hus : (ok q.d * (ok (q.u + c) - ok q.u) * ok q.u + ok q.d * (ok q.u - ok (q.u - c)) * ok q.u +
      (ok (hlldSide e q.a q).ptoto - ok (hlldSide e q.a q).ptoto)) /
      (ok q.d * (ok (q.u + c) - ok q.u) + ok q.d * (ok q.u - ok (q.u - c))) = ok q.u := by
    simp (disch := assumption) only [ok_sub, ok_mul, ok_add, ok_div]
    congr 1
    rw [div_eq_iff hrc]; ring
  simp only [hro, huo, hpo]
  rw [hus]
  simp (disch := assumption) only [ok_sub, ok_mul, ok_add, ok_div]
  refine hlldTail_degenerate (l := hlldSide e q.a q) (r := hlldSide e q.a q) ha ?_ ?_ (by linarith) (by linarith)
  · rw [← sq q.a, ← hfa]
    change q.d * (q.u - c - q.u) * (q.u - c - q.u) = _
    ring
  · rw [← sq q.a, ← hfa]
    change q.d * (q.u + c - q.u) * (q.u + c - q.u) = _
    ring

/-- Non-vacuity: `γ = 2`, `ρ = 1`, `p = 1/2`, at rest, `B = (2,0,0)`. -/
example : PhysM ⟨1, 1/2, 0, 0, 0, 2, 0, 0⟩ ∧ Switchlike 2 ⟨1, 1/2, 0, 0, 0, 2, 0, 0⟩ ∧
    |(⟨1, 1/2, 0, 0, 0, 2, 0, 0⟩ : MS ℝ).u| < fastSpeed 2 2 ⟨1, 1/2, 0, 0, 0, 2, 0, 0⟩ := by
  have h : PhysM (⟨1, 1/2, 0, 0, 0, 2, 0, 0⟩ : MS ℝ) := ⟨by norm_num, by norm_num⟩
  refine ⟨h, ⟨rfl, rfl, by norm_num⟩, ?_⟩
  have := fastSpeed_pos (γ := 2) (by norm_num) h 2
  simpa using this

/-! ## One step -/

/-- **C52 (one step, 2D).** Whatever numbers the interior cells hold (vacuum, negative pressure, any velocity,
field, `dt`), every schedule of the 2D MHD step (every implementation version) with LLF or HLL writes numbers in every interior
cell, those of exact arithmetic; the same with HLLD if no face of an interior cell is degenerate. -/
theorem C52_mhd_step_defined_2d {p : Params ℝ} (hp : Mhd2 p) (hg : GoodGrid p)
    (hi : p.implementationVersion = 0 ∨ p.implementationVersion = 1 ∨ p.implementationVersion = 2)
    (dt : ℝ) (jk : JunkM Chk) {inA outA : Arr} (hpp : PingPong inA outA)
    {m m' : Mem Arr Chk} (hm : godunovMhd2 (p.map ok) (ok dt) jk inA outA m m')
    (hU : ∀ i j, interior2 p i j → (ms2 m inA i j).IsNum)
    (hreg : p.riemannSolverType = .hlld → RegularStepM2 p dt (ms2 (reals m) inA))
    (i j : Int) (hij : interior2 p i j) :
    ms2 m' outA i j = (fullStepM2 p dt (ms2 (reals m) inA) i j).map ok := by
  have zx : ZeroMul (ok dt / (p.map ok).dx : Chk) := by
    rw [show (ok dt / (p.map ok).dx : Chk) = ok (dt / p.dx) from ok_div hg.dx.ne']; exact zeroMul_ok _
  have zy : ZeroMul (ok dt / (p.map ok).dy : Chk) := by
    rw [show (ok dt / (p.map ok).dy : Chk) = ok (dt / p.dy) from ok_div hg.dy.ne']; exact zeroMul_ok _
  rw [(godunovMhd2_resultAt hp.mapOk signLaws_chk (mhdOK2_exact hp.mapOk hi zx zy) hpp hm).2 i j hij]
  refine fullStepM2_ok hp.wf hp.faces hp.gw hg.settings hg.dx.ne' hg.dy.ne' dt ?_
    (fun i j h => ms2_reals (hU i j h)) i j hij
  by_cases h : p.riemannSolverType = .hlld
  · exact hreg h
  · exact ⟨fun _ _ _ h' => absurd h' h, fun _ _ _ h' => absurd h' h⟩

/-- **C52 (one step, 3D).** -/
theorem C52_mhd_step_defined_3d {p : Params ℝ} (hp : Mhd3 p) (hg : GoodGrid p)
    (hi : p.implementationVersion = 0 ∨ p.implementationVersion = 1 ∨ p.implementationVersion = 2)
    (dt : ℝ) (jk : JunkM Chk) {inA outA : Arr} (hpp : PingPong inA outA)
    {m m' : Mem Arr Chk} (hm : godunovMhd3 (p.map ok) (ok dt) jk inA outA m m')
    (hU : ∀ i j k, interior3 p i j k → (ms m inA i j k).IsNum)
    (hreg : p.riemannSolverType = .hlld → RegularStep3 p dt (ms (reals m) inA))
    (i j k : Int) (hij : interior3 p i j k) :
    ms m' outA i j k = (fullStepM3 p dt (ms (reals m) inA) i j k).map ok := by
  rw [(godunovMhd3_result hp.mapOk signLaws_chk (mhdOK3_exact hp.mapOk hi) hpp hm).2 i j k hij]
  have hU' : ∀ i j k, interior3 p i j k → ms m inA i j k = (ms (reals m) inA i j k).map ok :=
    fun i j k h => ms_reals (hU i j k h)
  have hreg' : RegularStep3 p dt (ms (reals m) inA) := by
    by_cases h : p.riemannSolverType = .hlld
    · exact hreg h
    · unfold RegularStep3
      split_ifs
      · exact fun _ _ _ _ _ h' => absurd h' h
      · exact ⟨fun _ _ _ _ h' => absurd h' h, fun _ _ _ _ h' => absurd h' h, fun _ _ _ _ h' => absurd h' h⟩
  unfold RegularStep3 at hreg'
  by_cases h2 : p.implementationVersion = 2
  · rw [if_pos h2] at hreg'
    exact fullStepV2M3_ok hp hp.mapOk h2 hg.settings hg.dx.ne' hg.dy.ne' hg.dz.ne' dt hreg' hU' i j k hij
  · rw [if_neg h2] at hreg'
    have h2' : (p.map ok).implementationVersion ≠ 2 := h2
    have e1 : schemeM3 (p.map ok) (ok dt) = fluxesM3 (p.map ok) (ok dt) := by
      funext u; unfold schemeM3; rw [if_neg h2']
    have e2 : schemeM3 p dt = fluxesM3 p dt := by
      funext u; unfold schemeM3; rw [if_neg h2]
    unfold fullStepM3 stepM3
    rw [e1, e2]
    exact fullStepM3_ok hp.wf hp.faces hp.gw hg.settings hg.dx.ne' hg.dy.ne' hg.dz.ne' dt hreg' hU' i j k hij

/-! ## Time step -/

/-- **C52 (time step).** The MHD CFL step of every schedule is a positive number: the exact one (2D). -/
theorem C52_mhd_dt_defined_2d {p : Params ℝ} (hp : Mhd2 p) (hg : GoodGrid p) {ident : ℝ} (hid : ident ≤ 0)
    {n : Nat} {m m₁ : Mem Arr Chk} (hm : ∀ i j, interior2 p i j → (ms2 m (pingIn n) i j).IsNum)
    (hpre : runLaunches (preMhd2 (p.map ok) (pingIn n) (pingOut n)) m m₁) {d : Chk}
    (h : computeDtLocalMhd2 (p.map ok) (ok ident) m₁ d) :
    ∃ x : ℝ, d = ok x ∧ x = cflDtM2 p (ms2 (reals m) (pingIn n)) ∧ 0 < x := by
  have hQ := preMhd2_prim hp.mapOk signLaws_chk (pingPong n) hpre (x := ms2 m (pingIn n)) (fun _ _ _ => rfl)
  have hF := fillM2_ok hp.wf hp.faces (U := ms2 m (pingIn n)) (u := ms2 (reals m) (pingIn n))
    (fun i j hij => ms2_reals (hm i j hij))
  have e1 := hp.wf.isize_eq
  have e2 := hp.wf.jsize_eq
  have e3 := hp.gw
  refine dtLocalM2_ok hp.wf hg hid (fun i j hij => ⟨?_, primM2_phys hg.settings _ i j⟩) h
  obtain ⟨a, b, c, d⟩ := hij
  rw [hQ i j ⟨a, b, c, d⟩]
  refine primM2_ok hg.settings (hF _ _ ?_) (hF _ _ ?_) (hF _ _ ?_) <;>
    exact ⟨by omega, by omega, by omega, by omega⟩

/-- **C52 (time step, 3D).** -/
theorem C52_mhd_dt_defined_3d {p : Params ℝ} (hp : Mhd3 p) (hg : GoodGrid p) {ident : ℝ} (hid : ident ≤ 0)
    {n : Nat} {m m₁ : Mem Arr Chk} (hm : ∀ i j k, interior3 p i j k → (ms m (pingIn n) i j k).IsNum)
    (hpre : runLaunches (preMhd3 (p.map ok) (pingIn n) (pingOut n)) m m₁) {d : Chk}
    (h : computeDtLocalMhd3 (p.map ok) (ok ident) m₁ d) :
    ∃ x : ℝ, d = ok x ∧ x = cflDtM3 p (ms (reals m) (pingIn n)) ∧ 0 < x := by
  have hQ := preMhd3_prim hp.mapOk signLaws_chk (pingPong n) hpre (x := ms m (pingIn n)) (fun _ _ _ _ => rfl)
  have hF := fillM3_ok hp.wf hp.faces (U := ms m (pingIn n)) (u := ms (reals m) (pingIn n))
    (fun i j k hij => ms_reals (hm i j k hij))
  have e1 := hp.wf.isize_eq
  have e2 := hp.wf.jsize_eq
  have e2' := hp.wf.ksize_eq
  have e3 := hp.gw
  refine dtLocalM3_ok hp.wf hg hid (fun i j k hij => ⟨?_, primM3_phys hg.settings _ i j k⟩) h
  obtain ⟨⟨a, b⟩, ⟨c, d⟩, e, f⟩ := hij
  rw [hQ i j k ⟨⟨a, b⟩, ⟨c, d⟩, e, f⟩]
  have := primM3_ok hg.settings (U := fillM3 (p.map ok) (ms m (pingIn n)))
    (u := fillM3 p (ms (reals m) (pingIn n))) (i := i) (j := j) (k := k) (n := 0) (m := 1)
    (fun x y z hx hy hz => hF _ _ _ ⟨⟨by omega, by omega⟩, ⟨by omega, by omega⟩, by omega, by omega⟩)
    0 0 0 (by omega) (by omega) (by omega)
  simpa only [add_zero] using this

/-! ## Runs -/

/-- the interior cells hold numbers (2D) -/
def NumInvM2 (p : Params ℝ) (n : Nat) (m : Mem Arr Chk) : Prop :=
  ∀ i j, interior2 p i j → (ms2 m (pingIn n) i j).IsNum

/-- the interior cells of a saved view are numbers (2D) -/
def NumViewM2 (p : Params ℝ) (d : Loc Unit → Chk) : Prop :=
  ∀ i j v, interior2 p i j → v < 8 → (d ⟨(), i, j, 0, v⟩).IsNum

/-- the interior cells hold numbers (3D) -/
def NumInvM3 (p : Params ℝ) (n : Nat) (m : Mem Arr Chk) : Prop :=
  ∀ i j k, interior3 p i j k → (ms m (pingIn n) i j k).IsNum

/-- the interior cells of a saved view are numbers (3D) -/
def NumViewM3 (p : Params ℝ) (d : Loc Unit → Chk) : Prop :=
  ∀ i j k v, interior3 p i j k → v < 8 → (d ⟨(), i, j, k, v⟩).IsNum

theorem MS.IsNum.get {m : Mem Arr Chk} {a : Arr} {i j k : Int} (h : (ms m a i j k).IsNum) {v : Nat}
    (hv : v < 8) : (m ⟨a, i, j, k, v⟩).IsNum := by
  obtain ⟨h1, h2, h3, h4, h5, h6, h7, h8⟩ := h
  match v with
  | 0 => exact h1
  | 1 => exact h2
  | 2 => exact h3
  | 3 => exact h4
  | 4 => exact h5
  | 5 => exact h6
  | 6 => exact h7
  | 7 => exact h8
  | n + 8 => omega

theorem keepsNumM2 {p : Params ℝ} (hp : Mhd2 p) (hg : GoodGrid p) (hi : p.implementationVersion = 0 ∨ p.implementationVersion = 1 ∨ p.implementationVersion = 2)
    (hr : p.riemannSolverType ≠ .hlld) {ident : ℝ} (hid : ident ≤ 0) (jk : JunkM Chk) :
    KeepsNum (mhdOps2 (p.map ok) (ok ident) jk) (NumInvM2 p) (NumViewM2 p) where
  view n m h i j v hij hv := (h i j hij).get hv
  dt n m m₁ d h hpre hd := by
    obtain ⟨x, e, _⟩ := C52_mhd_dt_defined_2d hp hg hid h hpre hd
    exact ⟨x, e⟩
  post n m m₁ d m₃ h hpre hpost := by
    intro i j hij
    rw [← pingOut_succ, C52_mhd_step_defined_2d hp hg hi d jk (pingPong n) ⟨m₁, hpre, hpost⟩ h
      (fun h' => absurd h' hr) i j hij]
    exact MS.isNum_map _

theorem keepsNumM3 {p : Params ℝ} (hp : Mhd3 p) (hg : GoodGrid p) (hi : p.implementationVersion = 0 ∨ p.implementationVersion = 1 ∨ p.implementationVersion = 2)
    (hr : p.riemannSolverType ≠ .hlld) {ident : ℝ} (hid : ident ≤ 0) (jk : JunkM Chk) :
    KeepsNum (mhdOps3 (p.map ok) (ok ident) jk) (NumInvM3 p) (NumViewM3 p) where
  view n m h i j k v hij hv := (h i j k hij).get hv
  dt n m m₁ d h hpre hd := by
    obtain ⟨x, e, _⟩ := C52_mhd_dt_defined_3d hp hg hid h hpre hd
    exact ⟨x, e⟩
  post n m m₁ d m₃ h hpre hpost := by
    intro i j k hij
    rw [← pingOut_succ, C52_mhd_step_defined_3d hp hg hi d jk (pingPong n) ⟨m₁, hpre, hpost⟩ h
      (fun h' => absurd h' hr) i j k hij]
    exact MS.isNum_map _

/-- **C52 (complete runs, 2D).** A run of the 2D MHD program with LLF or HLL, in every implementation version, from any initial
state made of numbers: the final time, the time step, every interior number of every output file and of the
final state are numbers. -/
theorem C52_mhd_run_defined_2d {p : Params ℝ} (hp : Mhd2 p) (hg : GoodGrid p)
    (hi : p.implementationVersion = 0 ∨ p.implementationVersion = 1 ∨ p.implementationVersion = 2)
    (hr : p.riemannSolverType ≠ .hlld)
    {ident : ℝ} (hid : ident ≤ 0) (jk : JunkM Chk) {m : Mem Arr Chk} {t : ℝ} {sv : Int}
    {s' : RunState Chk} (h : runMain (p.map ok) (mhdOps2 (p.map ok) (ok ident) jk) m (ok t) sv s')
    (hU : ∀ i j, interior2 p i j → (ms2 m .U i j).IsNum) :
    s'.t.IsNum ∧ s'.dt.IsNum ∧ (∀ o ∈ s'.outputs, o.time.IsNum ∧ NumViewM2 p o.data) ∧
    ∀ i j, interior2 p i j → (ms2 s'.mem (pingIn s'.iteration) i j).IsNum := by
  have hK := keepsNumM2 hp hg hi hr hid jk
  have key := runNum_main (p := p) hK (t := t) ?_ ?_ h
  · exact ⟨key.t, key.dt, key.files, key.inv⟩
  · intro m₁ hm i j hij
    change (ms2 m₁ .U i j).IsNum
    rw [setup_mhd2 hp.mapOk signLaws_chk hm i j hij]
    exact hU i j hij
  · intro m₁ d hs _ hd
    obtain ⟨x, e, _⟩ := C52_mhd_dt_defined_2d (n := 0) hp hg hid hU hs hd
    exact ⟨x, e⟩

/-- **C52 (complete runs, 3D).** -/
theorem C52_mhd_run_defined_3d {p : Params ℝ} (hp : Mhd3 p) (hg : GoodGrid p)
    (hi : p.implementationVersion = 0 ∨ p.implementationVersion = 1 ∨ p.implementationVersion = 2)
    (hr : p.riemannSolverType ≠ .hlld)
    {ident : ℝ} (hid : ident ≤ 0) (jk : JunkM Chk) {m : Mem Arr Chk} {t : ℝ} {sv : Int}
    {s' : RunState Chk} (h : runMain (p.map ok) (mhdOps3 (p.map ok) (ok ident) jk) m (ok t) sv s')
    (hU : ∀ i j k, interior3 p i j k → (ms m .U i j k).IsNum) :
    s'.t.IsNum ∧ s'.dt.IsNum ∧ (∀ o ∈ s'.outputs, o.time.IsNum ∧ NumViewM3 p o.data) ∧
    ∀ i j k, interior3 p i j k → (ms s'.mem (pingIn s'.iteration) i j k).IsNum := by
  have hK := keepsNumM3 hp hg hi hr hid jk
  have key := runNum_main (p := p) hK (t := t) ?_ ?_ h
  · exact ⟨key.t, key.dt, key.files, key.inv⟩
  · intro m₁ hm i j k hij
    change (ms m₁ .U i j k).IsNum
    rw [setup_mhd3 hp.mapOk signLaws_chk hm i j k hij]
    exact hU i j k hij
  · intro m₁ d hs _ hd
    obtain ⟨x, e, _⟩ := C52_mhd_dt_defined_3d (n := 0) hp hg hid hU hs hd
    exact ⟨x, e⟩

/-! ## Uniform states (the defined part of C43 and C48) -/

/-- the face states of a uniform medium (2D) -/
noncomputable def Spec.uniformFace2 (p : Params ℝ) (S : MS ℝ) : MS ℝ :=
  MS.floored p.settings (primM2 p (fun _ _ => S) 0 0)

/-- the face states of a uniform medium (3D); version 2 has another pressure floor -/
noncomputable def Spec.uniformFace3 (p : Params ℝ) (S : MS ℝ) : MS ℝ :=
  if p.implementationVersion = 2 then MS.floored p.settings (primM3 p (fun _ _ _ => S) 0 0 0)
  else MS.flooredP p.settings (primM3 p (fun _ _ _ => S) 0 0 0)

theorem slopeM_const {p : Params ℝ} (hv : ValidM p) (q j : MS ℝ) : slopeM p.settings q q q j = MS.zero := by
  rw [slopeM_valid hv q q q j MS.zero]
  unfold slopeM
  simp only [slopeScalarDir_const]
  split_ifs <;> simp [MS.zero]

theorem slopeM7_const (s : Settings ℝ) (q : MS ℝ) : slopeM7 s q q q q = MS.zero := by
  unfold slopeM7
  simp only [slopeScalarDir_const]
  split_ifs <;> simp [MS.zero]

theorem traces_uniform2 {p : Params ℝ} (hv : ValidM p) (dt : ℝ) (S : MS ℝ) (i j : Int) :
    let T := tracesM2 p dt (fun _ _ => S) i j
    T.qmx = uniformFace2 p S ∧ T.qpx = uniformFace2 p S ∧ T.qmy = uniformFace2 p S ∧
      T.qpy = uniformFace2 p S := by
  have e : ∀ i j, primM2 p (fun _ _ => S) i j = primM2 p (fun _ _ => S) 0 0 := fun _ _ => rfl
  have ea : (primM2 p (fun _ _ => S) 0 0).a = S.a := by
    unfold primM2 constoprimMhd
    dsimp only
    split_ifs <;> · simp only [RealOps.lit_real]; push_cast; ring
  have eb : (primM2 p (fun _ _ => S) 0 0).b = S.b := by
    unfold primM2 constoprimMhd
    dsimp only
    split_ifs <;> · simp only [RealOps.lit_real]; push_cast; ring
  unfold tracesM2 traceM2 uniformFace2
  simp only [e]
  generalize primM2 p (fun _ _ => S) 0 0 = q at *
  unfold traceMhd2
  simp only [slopeM_const hv, slopeScalarDir_const]
  simp [MS.zero, MS.half, sourceM2, elecZ2, MS.floored, ea, eb]

theorem traces_uniform3 {p : Params ℝ} (h2 : p.implementationVersion ≠ 2) (dt : ℝ) (S : MS ℝ) (i j k : Int) :
    let u : FldM3 ℝ := fun _ _ _ => S
    let T := traceM3 p dt (primM3 p u) u i j k
    T.qmx = uniformFace3 p S ∧ T.qpx = uniformFace3 p S ∧ T.qmy = uniformFace3 p S ∧
      T.qpy = uniformFace3 p S ∧ T.qmz = uniformFace3 p S ∧ T.qpz = uniformFace3 p S := by
  have e : ∀ i j k, primM3 p (fun _ _ _ => S) i j k = primM3 p (fun _ _ _ => S) 0 0 0 := fun _ _ _ => rfl
  have ea : (primM3 p (fun _ _ _ => S) 0 0 0).a = S.a := by
    unfold primM3 constoprimMhd
    dsimp only
    split_ifs <;> · simp only [RealOps.lit_real]; push_cast; ring
  have eb : (primM3 p (fun _ _ _ => S) 0 0 0).b = S.b := by
    unfold primM3 constoprimMhd
    dsimp only
    split_ifs <;> · simp only [RealOps.lit_real]; push_cast; ring
  have ec : (primM3 p (fun _ _ _ => S) 0 0 0).c = S.c := by
    unfold primM3 constoprimMhd
    dsimp only
    split_ifs <;> · simp only [RealOps.lit_real]; push_cast; ring
  dsimp only
  unfold traceM3 uniformFace3 traceInM3
  rw [if_neg h2]
  simp only [e]
  generalize primM3 p (fun _ _ _ => S) 0 0 0 = q at *
  unfold traceMhd3
  simp only [slopeM7_const, faceSlopeM3, slopeScalarDir_const]
  simp [MS.zero, MS.half, sourceM3, elecM3, MS.flooredP, ea, eb, ec, e]

theorem regularFace_self {p : Params ℝ} (hs : GoodSettings p.settings) {q : MS ℝ} (hq : PhysM q)
    (h : p.riemannSolverType = .hlld → ¬ Switchlike p.settings.gamma0 (isoState p.settings q)) :
    RegularFace p q q := by
  intro hr
  have hm : meanNormal q q q = q := by
    unfold meanNormal
    have : (q.a + q.a) / 2 = q.a := by ring
    rw [this]
  rw [hm]
  exact hlldRegular_self hs.gamma (isoState_phys hq) (h hr)

/-- no degenerate direction in a uniform medium (2D) -/
def Spec.RegularUniform2 (p : Params ℝ) (S : MS ℝ) : Prop :=
  p.riemannSolverType = .hlld →
    ¬ Switchlike p.settings.gamma0 (isoState p.settings (uniformFace2 p S)) ∧
    ¬ Switchlike p.settings.gamma0 (isoState p.settings (uniformFace2 p S).swapXY)

/-- no degenerate direction in a uniform medium (3D) -/
def Spec.RegularUniform3 (p : Params ℝ) (S : MS ℝ) : Prop :=
  p.riemannSolverType = .hlld →
    ¬ Switchlike p.settings.gamma0 (isoState p.settings (uniformFace3 p S)) ∧
    ¬ Switchlike p.settings.gamma0 (isoState p.settings (uniformFace3 p S).swapXY) ∧
    ¬ Switchlike p.settings.gamma0 (isoState p.settings (uniformFace3 p S).swapXZ)

theorem regularStep_uniform2 {p : Params ℝ} (hp : Mhd2 p) (hg : GoodGrid p) (hN : NoWall2 p) (dt : ℝ)
    {S : MS ℝ} (hS : RegularUniform2 p S) {u : FldM2 ℝ} (hu : ∀ i j, interior2 p i j → u i j = S) :
    RegularStepM2 p dt u := by
  have hF := fillM2_uniform hp hN hu
  have e1 := hp.wf.isize_eq
  have e2 := hp.wf.jsize_eq
  have e3 := hp.gw
  have T : ∀ i j, p.ghostWidth - 1 ≤ i → i ≤ p.ghostWidth + p.nx → p.ghostWidth - 1 ≤ j →
      j ≤ p.ghostWidth + p.ny → tracesM2 p dt (fillM2 p u) i j = tracesM2 p dt (fun _ _ => S) i j := by
    intro i j h1 h2 h3 h4
    refine tracesM2_congr hp.valid (fun a b _ _ _ _ => hF a b ⟨?_, ?_, ?_, ?_⟩) <;> omega
  have hq : PhysM (uniformFace2 p S) := floored_phys hg.settings _
  refine ⟨fun i j h => ?_, fun i j h => ?_⟩
  · have hb : (p.ghostWidth ≤ i ∧ i ≤ p.ghostWidth + p.nx) ∧ p.ghostWidth ≤ j ∧ j < p.ghostWidth + p.ny := by
      rcases h with ⟨a, b, c, d⟩ | ⟨a, b, c, d⟩ <;> omega
    rw [T _ _ (by omega) (by omega) (by omega) (by omega), T _ _ (by omega) (by omega) (by omega) (by omega),
      (traces_uniform2 hp.valid dt S _ _).1, (traces_uniform2 hp.valid dt S _ _).2.1]
    exact regularFace_self hg.settings hq (fun h => (hS h).1)
  · have hb : (p.ghostWidth ≤ i ∧ i < p.ghostWidth + p.nx) ∧ p.ghostWidth ≤ j ∧ j ≤ p.ghostWidth + p.ny := by
      rcases h with ⟨a, b, c, d⟩ | ⟨a, b, c, d⟩ <;> omega
    rw [T _ _ (by omega) (by omega) (by omega) (by omega), T _ _ (by omega) (by omega) (by omega) (by omega),
      (traces_uniform2 hp.valid dt S _ _).2.2.1, (traces_uniform2 hp.valid dt S _ _).2.2.2]
    exact regularFace_self hg.settings (phys_swapXY hq) (fun h => (hS h).2)

theorem regularStep_uniform3a {p : Params ℝ} (hp : Mhd3 p) (hg : GoodGrid p) (hN : NoWall3 p) (dt : ℝ)
    {S : MS ℝ} (hS : RegularUniform3 p S) {u : FldM3 ℝ} (hu : ∀ i j k, interior3 p i j k → u i j k = S)
    (h2 : p.implementationVersion ≠ 2) : RegularStepM3 p dt u := by
  have hF := fillM3_uniform hp hN.1 hN.2 hu
  have e1 := hp.wf.isize_eq
  have e2 := hp.wf.jsize_eq
  have e2' := hp.wf.ksize_eq
  have e3 := hp.gw
  have T : ∀ i j k, p.ghostWidth - 1 ≤ i → i ≤ p.ghostWidth + p.nx → p.ghostWidth - 1 ≤ j →
      j ≤ p.ghostWidth + p.ny → p.ghostWidth - 1 ≤ k → k ≤ p.ghostWidth + p.nz →
      traceM3 p dt (primM3 p (fillM3 p u)) (fillM3 p u) i j k =
        traceM3 p dt (primM3 p (fun _ _ _ => S)) (fun _ _ _ => S) i j k := by
    intro i j k h1 h2 h3 h4 h5 h6
    have key : ∀ a b c, i - 1 ≤ a → a ≤ i + 2 → j - 1 ≤ b → b ≤ j + 2 → k - 1 ≤ c → c ≤ k + 2 →
        fillM3 p u a b c = S := fun a b c _ _ _ _ _ _ => hF a b c
          ⟨⟨by omega, by omega⟩, ⟨by omega, by omega⟩, by omega, by omega⟩
    refine traceM3_congr (fun a b c _ _ _ _ _ _ => ?_) key
    unfold primM3
    rw [key a b c (by omega) (by omega) (by omega) (by omega) (by omega) (by omega),
      key (a + 1) b c (by omega) (by omega) (by omega) (by omega) (by omega) (by omega),
      key a (b + 1) c (by omega) (by omega) (by omega) (by omega) (by omega) (by omega),
      key a b (c + 1) (by omega) (by omega) (by omega) (by omega) (by omega) (by omega)]
  have hq : PhysM (uniformFace3 p S) := by
    unfold uniformFace3; rw [if_neg h2]; exact flooredP_phys hg.settings _
  obtain ⟨c1, c2, c3⟩ := (⟨fun h => (hS h).1, fun h => (hS h).2.1, fun h => (hS h).2.2⟩ : (_ → _) ∧ (_ → _) ∧ (_ → _))
  refine ⟨fun i j k h => ?_, fun i j k h => ?_, fun i j k h => ?_⟩
  · have hb : (p.ghostWidth ≤ i ∧ i ≤ p.ghostWidth + p.nx) ∧ (p.ghostWidth ≤ j ∧ j < p.ghostWidth + p.ny) ∧
        p.ghostWidth ≤ k ∧ k < p.ghostWidth + p.nz := by
      rcases h with ⟨⟨a, b⟩, ⟨c, d⟩, e, f⟩ | ⟨⟨a, b⟩, ⟨c, d⟩, e, f⟩ <;> omega
    rw [T _ _ _ (by omega) (by omega) (by omega) (by omega) (by omega) (by omega),
      T _ _ _ (by omega) (by omega) (by omega) (by omega) (by omega) (by omega),
      (traces_uniform3 h2 dt S _ _ _).1, (traces_uniform3 h2 dt S _ _ _).2.1]
    exact regularFace_self hg.settings hq c1
  · have hb : (p.ghostWidth ≤ i ∧ i < p.ghostWidth + p.nx) ∧ (p.ghostWidth ≤ j ∧ j ≤ p.ghostWidth + p.ny) ∧
        p.ghostWidth ≤ k ∧ k < p.ghostWidth + p.nz := by
      rcases h with ⟨⟨a, b⟩, ⟨c, d⟩, e, f⟩ | ⟨⟨a, b⟩, ⟨c, d⟩, e, f⟩ <;> omega
    rw [T _ _ _ (by omega) (by omega) (by omega) (by omega) (by omega) (by omega),
      T _ _ _ (by omega) (by omega) (by omega) (by omega) (by omega) (by omega),
      (traces_uniform3 h2 dt S _ _ _).2.2.1, (traces_uniform3 h2 dt S _ _ _).2.2.2.1]
    exact regularFace_self hg.settings (phys_swapXY hq) c2
  · have hb : (p.ghostWidth ≤ i ∧ i < p.ghostWidth + p.nx) ∧ (p.ghostWidth ≤ j ∧ j < p.ghostWidth + p.ny) ∧
        p.ghostWidth ≤ k ∧ k ≤ p.ghostWidth + p.nz := by
      rcases h with ⟨⟨a, b⟩, ⟨c, d⟩, e, f⟩ | ⟨⟨a, b⟩, ⟨c, d⟩, e, f⟩ <;> omega
    rw [T _ _ _ (by omega) (by omega) (by omega) (by omega) (by omega) (by omega),
      T _ _ _ (by omega) (by omega) (by omega) (by omega) (by omega) (by omega),
      (traces_uniform3 h2 dt S _ _ _).2.2.2.2.1, (traces_uniform3 h2 dt S _ _ _).2.2.2.2.2]
    exact regularFace_self hg.settings (phys_swapXZ hq) c3

theorem primM3_uniform_mag (p : Params ℝ) (S : MS ℝ) (d : Dir) (i j k : Int) :
    (primM3 p (fun _ _ _ => S) i j k).mag d = S.mag d := by
  cases d <;>
  · unfold primM3 constoprimMhd MS.mag
    dsimp only
    split_ifs <;> · simp only [RealOps.lit_real]; push_cast; ring

theorem faces_uniformV2 {p : Params ℝ} (hv : ValidM p) (h2 : p.implementationVersion = 2) (dt : ℝ) (S : MS ℝ)
    (d : Dir) (i j k : Int) :
    let u : FldM3 ℝ := fun _ _ _ => S
    faceRV2 p dt (primM3 p u) u d i j k = uniformFace3 p S ∧
    faceLV2 p dt (primM3 p u) u d i j k = uniformFace3 p S := by
  have e : ∀ i j k, primM3 p (fun _ _ _ => S) i j k = primM3 p (fun _ _ _ => S) 0 0 0 := fun _ _ _ => rfl
  have em := fun d => primM3_uniform_mag p S d 0 0 0
  have hR : faceRV2 p dt (primM3 p fun _ _ _ => S) (fun _ _ _ => S) d i j k = uniformFace3 p S := by
    unfold uniformFace3 faceRV2 q2V2 slopeV2 sFaceV2 elecM3
    rw [if_pos h2]
    simp only [e]
    have m1 := em .x
    have m2 := em .y
    have m3 := em .z
    generalize primM3 p (fun _ _ _ => S) 0 0 0 = q at *
    obtain ⟨q1, q2, q3, q4, q5, q6, q7, q8⟩ := q
    simp only [MS.mag] at m1 m2 m3
    subst m1 m2 m3
    cases d <;>
      simp [slopeM_const hv, MS.zero, MS.setMag, MS.mag, MS.addHalf, MS.subHalf, sourceM3, MS.floored]
  refine ⟨hR, ?_⟩
  unfold faceLV2
  simp only
  rw [hR]
  have hm : (uniformFace3 p S).mag d = S.mag d := by
    rw [← em d]
    unfold uniformFace3
    rw [if_pos h2]
    cases d <;> rfl
  rw [hm]
  unfold uniformFace3 q2V2 slopeV2
  rw [if_pos h2]
  simp only [e]
  have m1 := em .x
  have m2 := em .y
  have m3 := em .z
  generalize primM3 p (fun _ _ _ => S) 0 0 0 = q at *
  obtain ⟨q1, q2, q3, q4, q5, q6, q7, q8⟩ := q
  simp only [MS.mag] at m1 m2 m3
  subst m1 m2 m3
  cases d <;>
    simp [slopeM_const hv, MS.zero, MS.setMag, MS.mag, MS.addHalf, MS.subHalf, sourceM3, MS.floored]

theorem faceV2_congr {R : Type} [RealOps R] {p : Params R} {dt : R} {q q' u u' : FldM3 R} {d : Dir} {i j k : Int}
    (hq : BoxEq q q' 2 1 i j k) (hu : BoxEq u u' 1 1 i j k) :
    faceRV2 p dt q u d i j k = faceRV2 p dt q' u' d i j k ∧
    faceLV2 p dt q u d i j k = faceLV2 p dt q' u' d i j k := by
  have h0 : u i j k = u' i j k := hu.at (by omega)
  have a1 := q2V2_congr (p := p) (dt := dt) (hq.sub (lo' := 1) (hi' := 1) (x := i) (y := j) (z := k) (by omega))
    (hu.sub (lo' := 0) (hi' := 1) (by omega))
  have a2 := slopeV2_congr (p := p) (d := d)
    (hq.sub (lo' := 1) (hi' := 1) (x := i) (y := j) (z := k) (by omega))
    (hu.sub (lo' := 0) (hi' := 1) (by omega))
  have a3 := sFaceV2_congr (p := p) (dt := dt) (d := d)
    (hq.sub (lo' := 1) (hi' := 1) (x := i) (y := j) (z := k) (by omega)) hu
  have b : q2V2 p dt q u (i - d.delta.1) (j - d.delta.2.1) (k - d.delta.2.2)
        = q2V2 p dt q' u' (i - d.delta.1) (j - d.delta.2.1) (k - d.delta.2.2) ∧
      slopeV2 p q u d (i - d.delta.1) (j - d.delta.2.1) (k - d.delta.2.2)
        = slopeV2 p q' u' d (i - d.delta.1) (j - d.delta.2.1) (k - d.delta.2.2) := by
    have hb : i - 1 ≤ i - d.delta.1 ∧ i - d.delta.1 ≤ i ∧ j - 1 ≤ j - d.delta.2.1 ∧ j - d.delta.2.1 ≤ j ∧
        k - 1 ≤ k - d.delta.2.2 ∧ k - d.delta.2.2 ≤ k := by
      cases d <;> simp only [Dir.delta] <;> omega
    exact ⟨q2V2_congr (hq.sub (by omega)) (hu.sub (by omega)),
      slopeV2_congr (hq.sub (by omega)) (hu.sub (by omega))⟩
  have hR : faceRV2 p dt q u d i j k = faceRV2 p dt q' u' d i j k := by
    unfold faceRV2
    rw [h0, a1, a2, a3]
  refine ⟨hR, ?_⟩
  unfold faceLV2
  simp only
  rw [hR, b.1, b.2]

theorem regularStep_uniform3 {p : Params ℝ} (hp : Mhd3 p) (hg : GoodGrid p) (hN : NoWall3 p) (dt : ℝ)
    {S : MS ℝ} (hS : RegularUniform3 p S) {u : FldM3 ℝ} (hu : ∀ i j k, interior3 p i j k → u i j k = S) :
    RegularStep3 p dt u := by
  unfold RegularStep3
  by_cases h2 : p.implementationVersion = 2
  · rw [if_pos h2]
    have hF := fillM3_uniform hp hN.1 hN.2 hu
    have e1 := hp.wf.isize_eq
    have e2 := hp.wf.jsize_eq
    have e2' := hp.wf.ksize_eq
    have e3 := hp.gw
    have hq : PhysM (uniformFace3 p S) := by
      unfold uniformFace3; rw [if_pos h2]; exact floored_phys hg.settings _
    intro d i j k h
    have hb : (p.ghostWidth ≤ i ∧ i ≤ p.ghostWidth + p.nx) ∧ (p.ghostWidth ≤ j ∧ j ≤ p.ghostWidth + p.ny) ∧
        p.ghostWidth ≤ k ∧ k ≤ p.ghostWidth + p.nz := by
      rcases h with ⟨⟨a, b⟩, ⟨c, c'⟩, e, f⟩ | ⟨⟨a, b⟩, ⟨c, c'⟩, e, f⟩
      · omega
      · cases d <;> simp only [Dir.delta] at * <;> omega
    have hbox : BoxEq (fillM3 p u) (fun _ _ _ => S) 2 2 i j k := fun a b c _ _ _ _ _ _ => hF a b c
      ⟨⟨by omega, by omega⟩, ⟨by omega, by omega⟩, by omega, by omega⟩
    have hc := faceV2_congr (p := p) (dt := dt) (d := d) (primM3_box (p := p) hbox) (hbox.sub (by omega))
    have hu := faces_uniformV2 hp.valid h2 dt S d i j k
    rw [hc.1, hc.2, hu.1, hu.2]
    cases d
    · exact regularFace_self hg.settings hq (fun h => (hS h).1)
    · exact regularFace_self hg.settings (phys_swapXY hq) (fun h => (hS h).2.1)
    · exact regularFace_self hg.settings (phys_swapXZ hq) (fun h => (hS h).2.2)
  · rw [if_neg h2]
    exact regularStep_uniform3a hp hg hN dt hS hu h2

/-- the exact step leaves a uniform field unchanged (2D) -/
theorem fullStepM2_uniform {p : Params ℝ} (hp : Mhd2 p) (hN : NoWall2 p) (hi : p.implementationVersion = 0 ∨ p.implementationVersion = 1 ∨ p.implementationVersion = 2)
    (dt : ℝ) {S : MS ℝ} {u : FldM2 ℝ} (hu : ∀ i j, interior2 p i j → u i j = S) (i j : Int)
    (hij : interior2 p i j) : fullStepM2 p dt u i j = S := by
  have he : ms2 (memOfM (fun i j _ => u i j)) .U = u := rfl
  obtain ⟨m', hm⟩ := (C39_mhd_atomic_step_deterministic_2d hp.wf hp.faces dt (fun _ _ _ _ => MS.zero)
    (inA := .U) (outA := .U2) (.inl ⟨rfl, rfl⟩) (memOfM (fun i j _ => u i j))).exists
  have h1 := C43_mhd_uniform_step_2d hp hN hi dt _ (.inl ⟨rfl, rfl⟩) hm S.get
    (fun i j v hij _ => by change (u i j).get v = _; rw [hu i j hij]) i j hij
  have h2 := (godunovMhd2_result hp signLaws_real (mhdOK2_real hp hi) (.inl ⟨rfl, rfl⟩) hm).2 i j hij
  rw [he] at h2
  rw [← h2]
  apply MS.ext <;> exact h1 _ (by decide)

/-- the exact step leaves a uniform field unchanged (3D) -/
theorem fullStepM3_uniform {p : Params ℝ} (hp : Mhd3 p) (hN : NoWall3 p) (hi : p.implementationVersion = 0 ∨ p.implementationVersion = 1 ∨ p.implementationVersion = 2)
    (dt : ℝ) {S : MS ℝ} {u : FldM3 ℝ} (hu : ∀ i j k, interior3 p i j k → u i j k = S) (i j k : Int)
    (hij : interior3 p i j k) : fullStepM3 p dt u i j k = S := by
  have he : ms (memOfM u) .U = u := rfl
  obtain ⟨m', hm⟩ := (C44_mhd_atomic_step_deterministic_3d hp.wf hp.faces dt (fun _ _ _ _ => MS.zero)
    (inA := .U) (outA := .U2) (.inl ⟨rfl, rfl⟩) (memOfM u)).exists
  have h1 := C48_mhd_uniform_step_3d hp hN hi dt _ (.inl ⟨rfl, rfl⟩) hm S.get
    (fun i j k v hij _ => by change (u i j k).get v = _; rw [hu i j k hij]) i j k hij
  have h2 := (godunovMhd3_result hp signLaws_real (mhdOK3_real hp hi) (.inl ⟨rfl, rfl⟩) hm).2 i j k hij
  rw [he] at h2
  rw [← h2]
  apply MS.ext <;> exact h1 _ (by decide)

/-- **C43 (uniform states, checked arithmetic).** A uniform state of numbers is left unchanged by any number of
2D MHD steps (every implementation version) without any undefined operation: always with LLF and HLL, and with HLLD when along
neither axis the field is normal and dominates the pressure (otherwise the flux is undefined,
`C52_hlld_degenerate_undefined`). -/
theorem C43_mhd_uniform_defined_2d {p : Params ℝ} (hp : Mhd2 p) (hg : GoodGrid p) (hN : NoWall2 p)
    (hi : p.implementationVersion = 0 ∨ p.implementationVersion = 1 ∨ p.implementationVersion = 2)
    (jk : JunkM Chk) {S : MS ℝ} (hS : RegularUniform2 p S) (dts : List ℝ)
    (n : Nat) {m m' : Mem Arr Chk} (hm : mhdRun2 (p.map ok) jk n (dts.map ok) m m')
    (h0 : ∀ i j, interior2 p i j → ms2 m (pingIn n) i j = S.map ok) (i j : Int) (hij : interior2 p i j) :
    ms2 m' (pingIn (n + dts.length)) i j = S.map ok := by
  induction dts generalizing n m with
  | nil => cases hm; exact h0 i j hij
  | cons dt dts ih =>
    obtain ⟨mid, h1, h2⟩ := hm
    rw [show n + (dt :: dts).length = n + 1 + dts.length by simp; omega]
    have hr : ∀ i j, interior2 p i j → ms2 (reals m) (pingIn n) i j = S := by
      intro i j hij
      have := h0 i j hij
      apply MS.ext
      · exact congrArg (fun q => q.d.val) this
      · exact congrArg (fun q => q.p.val) this
      · exact congrArg (fun q => q.u.val) this
      · exact congrArg (fun q => q.v.val) this
      · exact congrArg (fun q => q.w.val) this
      · exact congrArg (fun q => q.a.val) this
      · exact congrArg (fun q => q.b.val) this
      · exact congrArg (fun q => q.c.val) this
    refine ih (n + 1) h2 (fun i j hij => ?_)
    rw [← pingOut_succ, C52_mhd_step_defined_2d hp hg hi dt jk (pingPong n) h1
      (fun i j hij => by rw [h0 i j hij]; exact MS.isNum_map _)
      (fun _ => regularStep_uniform2 hp hg hN dt hS hr) i j hij]
    rw [fullStepM2_uniform hp hN hi dt hr i j hij]

/-- **C48 (uniform states, checked arithmetic).** -/
theorem C48_mhd_uniform_defined_3d {p : Params ℝ} (hp : Mhd3 p) (hg : GoodGrid p) (hN : NoWall3 p)
    (hi : p.implementationVersion = 0 ∨ p.implementationVersion = 1 ∨ p.implementationVersion = 2)
    (jk : JunkM Chk) {S : MS ℝ} (hS : RegularUniform3 p S) (dts : List ℝ)
    (n : Nat) {m m' : Mem Arr Chk} (hm : mhdRun3 (p.map ok) jk n (dts.map ok) m m')
    (h0 : ∀ i j k, interior3 p i j k → ms m (pingIn n) i j k = S.map ok) (i j k : Int)
    (hij : interior3 p i j k) :
    ms m' (pingIn (n + dts.length)) i j k = S.map ok := by
  induction dts generalizing n m with
  | nil => cases hm; exact h0 i j k hij
  | cons dt dts ih =>
    obtain ⟨mid, h1, h2⟩ := hm
    rw [show n + (dt :: dts).length = n + 1 + dts.length by simp; omega]
    have hr : ∀ i j k, interior3 p i j k → ms (reals m) (pingIn n) i j k = S := by
      intro i j k hij
      have := h0 i j k hij
      apply MS.ext
      · exact congrArg (fun q => q.d.val) this
      · exact congrArg (fun q => q.p.val) this
      · exact congrArg (fun q => q.u.val) this
      · exact congrArg (fun q => q.v.val) this
      · exact congrArg (fun q => q.w.val) this
      · exact congrArg (fun q => q.a.val) this
      · exact congrArg (fun q => q.b.val) this
      · exact congrArg (fun q => q.c.val) this
    refine ih (n + 1) h2 (fun i j k hij => ?_)
    rw [← pingOut_succ, C52_mhd_step_defined_3d hp hg hi dt jk (pingPong n) h1
      (fun i j k hij => by rw [h0 i j k hij]; exact MS.isNum_map _)
      (fun _ => regularStep_uniform3 hp hg hN dt hS hr) i j k hij]
    rw [fullStepM3_uniform hp hN hi dt hr i j k hij]

/-- Non-vacuity: the sample MHD parameters, and a state with a vacuum cell and negative energy. -/
example : Mhd2 (sampleM .periodic .neumann 0) ∧ Mhd3 (sampleM .periodic .neumann 0) ∧
    GoodGrid (sampleM .periodic .neumann 0) ∧ (sampleM .periodic .neumann 0).implementationVersion = 0 ∧
    NoWall3 (sampleM .periodic .neumann 0) ∧
    ∃ m : Mem Arr Chk, (∀ i j k, (ms m .U i j k).IsNum) ∧ (ms m .U 3 3 3).d = ok 0 ∧
      (ms m .U 3 3 3).p = ok (-5) :=
  ⟨sampleM_mhd2 _ _ _, sampleM_mhd3 _ _ _, sampleM_goodGrid _ _ _, rfl,
    ⟨⟨by decide, by decide, by decide, by decide⟩, by decide, by decide⟩,
    fun l => if l.v = 0 then ok 0 else if l.v = 1 then ok (-5) else ok 1000,
    fun _ _ _ => ⟨⟨_, rfl⟩, ⟨_, rfl⟩, ⟨_, rfl⟩, ⟨_, rfl⟩, ⟨_, rfl⟩, ⟨_, rfl⟩, ⟨_, rfl⟩, ⟨_, rfl⟩⟩, rfl, rfl⟩

/-- Non-vacuity: LLF or HLL parameters for the run theorems. -/
example (t : RiemannType) (ht : t = .hll ∨ t = .llf) :
    Mhd2 { sampleM .periodic .neumann 0 with riemannSolverType := t } ∧
    Mhd3 { sampleM .periodic .neumann 0 with riemannSolverType := t } ∧
    GoodGrid { sampleM .periodic .neumann 0 with riemannSolverType := t } ∧
    ({ sampleM .periodic .neumann 0 with riemannSolverType := t } : Params ℝ).riemannSolverType ≠ .hlld := by
  obtain ⟨⟨w1, w2, w3, w4, w5, w6, w7, w8, w9, w10, w11, w12, w13⟩, g, nb, ⟨v1, v2⟩, f⟩ :=
    sampleM_mhd2 .periodic .neumann 0
  obtain ⟨_, _, _, _, f'⟩ := sampleM_mhd3 .periodic .neumann 0
  obtain ⟨g1, g2, g3, g4, g5⟩ := sampleM_goodGrid .periodic .neumann 0
  have hv : t = .hll ∨ t = .llf ∨ t = .hlld := by tauto
  exact ⟨⟨⟨w1, w2, w3, w4, w5, w6, w7, w8, w9, w10, w11, w12, w13⟩, g, nb, ⟨v1, hv⟩, f⟩,
    ⟨⟨w1, w2, w3, w4, w5, w6, w7, w8, w9, w10, w11, w12, w13⟩, g, nb, ⟨v1, hv⟩, f'⟩,
    ⟨g1, g2, g3, g4, g5⟩, by rcases ht with rfl | rfl <;> decide⟩

/-- Non-vacuity: an oblique field is regular for HLLD along both axes. -/
example : RegularUniform2 (sampleM .periodic .neumann 0) ⟨1, 5, 1, 2, 3, 1, 1, 0⟩ := by
  intro _
  have h : ∀ S : MS ℝ, (primM2 (sampleM .periodic .neumann 0) (fun _ _ => S) 0 0).a = S.a ∧
      (primM2 (sampleM .periodic .neumann 0) (fun _ _ => S) 0 0).b = S.b := by
    intro S
    unfold primM2 constoprimMhd
    dsimp only
    split_ifs <;> constructor <;> · simp only [RealOps.lit_real]; push_cast; ring
  constructor
  · intro hs
    have := hs.1
    change (primM2 (sampleM .periodic .neumann 0) (fun _ _ => _) 0 0).b = 0 at this
    rw [(h _).2] at this
    norm_num at this
  · intro hs
    have := hs.1
    change (primM2 (sampleM .periodic .neumann 0) (fun _ _ => _) 0 0).a = 0 at this
    rw [(h _).1] at this
    norm_num at this

end EulerKokkos
