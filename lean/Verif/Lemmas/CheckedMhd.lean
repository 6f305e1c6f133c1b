import Verif.Lemmas.CheckedHydro
import Verif.Lemmas.MhdFast

/-!
# Checked arithmetic: the MHD Riemann solvers
-/

set_option linter.unusedSimpArgs false
set_option linter.constructorNameAsVariable false
set_option linter.unusedSectionVars false

namespace EulerKokkos

open Chk Spec

/-- component-wise map -/
def MS.map {R S : Type} (f : R → S) (q : MS R) : MS S :=
  ⟨f q.d, f q.p, f q.u, f q.v, f q.w, f q.a, f q.b, f q.c⟩

theorem MS.normalB_map {R S : Type} (f : R → S) (q : MS R) (n : Nat) :
    (q.map f).normalB n = f (q.normalB n) := by
  unfold MS.normalB MS.map
  split <;> rfl

/-- push `ok` outwards (MHD states) -/
macro "push_okm" "[" ls:Lean.Parser.Tactic.simpLemma,* "]" : tactic =>
  `(tactic| simp (disch := assumption) only [MS.map, Settings.map, ok_add, ok_mul, ok_sub, ok_neg,
    ok_lit, ite_ok, ok_fmax, ok_fmin, ok_fabs, ok_lt, ok_le, ok_beq, ok_copysign, ok_div, ok_sqrt, $ls,*])

section
variable {s : Settings ℝ} (hs : GoodSettings s)
include hs

theorem findSpeedFast_ok {q : MS ℝ} (hq : PhysM q) (n : Nat) :
    findSpeedFast (s.map ok) n (q.map ok) = ok (findSpeedFast s n q) := by
  have hg := hs.gamma
  have h1 : q.d ≠ 0 := hq.d.ne'
  have h2 := fast_disc_nonneg hg hq n
  have h3 := (fast_arg_pos hg hq n).le
  rw [show (1/2 : ℝ) = lit (1/2) by simp] at h2 h3
  unfold MS.bsq at h2 h3
  rw [← RealOps.sqrt_real] at h3
  unfold findSpeedFast
  rw [MS.normalB_map]
  push_okm []

theorem findSpeedInfo_ok {q : MS ℝ} (hq : PhysM q) :
    findSpeedInfo (s.map ok) (q.map ok) =
      (ok (findSpeedInfo s q).1, ok (findSpeedInfo s q).2.1, ok (findSpeedInfo s q).2.2) := by
  have h : ∀ {R : Type} [RealOps R] (s : Settings R) (q : MS R), findSpeedInfo s q =
      (findSpeedFast s 0 q + fabs q.u, findSpeedFast s 1 q + fabs q.v, findSpeedFast s 2 q + fabs q.w) :=
    fun _ _ => rfl
  rw [h, h, findSpeedFast_ok hs hq, findSpeedFast_ok hs hq, findSpeedFast_ok hs hq]
  push_okm []

theorem findSpeedInfo1_ok {q : MS ℝ} (hq : PhysM q) :
    findSpeedInfo1 (s.map ok) (q.map ok) = ok (findSpeedInfo1 s q) := by
  have h : ∀ {R : Type} [RealOps R] (s : Settings R) (q : MS R), findSpeedInfo1 s q =
      findSpeedFast s 0 q + fabs q.u := fun _ _ => rfl
  rw [h, h, findSpeedFast_ok hs hq]
  push_okm []

theorem gamma_sub_ne : s.gamma0 - (lit 1 : ℝ) ≠ 0 := by
  have := hs.gamma
  simp only [RealOps.lit_real, Rat.cast_one]
  linarith

theorem findMhdFlux_ok (q : MS ℝ) : findMhdFlux (s.map ok) (q.map ok) =
    ((findMhdFlux s q).1.map ok, (findMhdFlux s q).2.map ok) := by
  have h1 := gamma_sub_ne hs
  unfold findMhdFlux
  have e : (if gtb (s.map ok).cIso (lit 0) = true then (q.map ok).d * (s.map ok).cIso * (s.map ok).cIso
      else (q.map ok).p) = ok (if gtb s.cIso (lit 0) = true then q.d * s.cIso * s.cIso else q.p) := ite_ok _ _ _
  simp only [e]
  generalize (if gtb s.cIso (lit 0) = true then q.d * s.cIso * s.cIso else q.p) = p
  push_okm []

theorem Phys_setA {q : MS ℝ} (h : PhysM q) (a : ℝ) : PhysM ({ q with a := a } : MS ℝ) := ⟨h.d, h.p⟩

theorem mhdLlf_ok {l r : MS ℝ} (hl : PhysM l) (hr : PhysM r) :
    riemannMhdLlf (s.map ok) (l.map ok) (r.map ok) = (riemannMhdLlf s l r).map ok := by
  have h2 : (lit 2 : ℝ) ≠ 0 := by simp
  unfold riemannMhdLlf
  have e : ∀ q : MS ℝ, ({ (q.map ok) with a := lit (1/2) * ((l.map ok).a + (r.map ok).a) } : MS Chk) =
      ({ q with a := lit (1/2) * (l.a + r.a) } : MS ℝ).map ok := fun _ => rfl
  simp only [e, findMhdFlux_ok hs, findSpeedInfo1_ok hs (Phys_setA hs hl _),
    findSpeedInfo1_ok hs (Phys_setA hs hr _)]
  generalize findMhdFlux s _ = A
  generalize findMhdFlux s _ = B
  push_okm []

theorem mhdHll_ok {l r : MS ℝ} (hl : PhysM l) (hr : PhysM r) :
    riemannMhdHll (s.map ok) (l.map ok) (r.map ok) = (riemannMhdHll s l r).map ok := by
  unfold riemannMhdHll
  have e : ∀ q : MS ℝ, ({ (q.map ok) with a := lit (1/2) * ((l.map ok).a + (r.map ok).a) } : MS Chk) =
      ({ q with a := lit (1/2) * (l.a + r.a) } : MS ℝ).map ok := fun _ => rfl
  simp only [e, findMhdFlux_ok hs, findSpeedFast_ok hs (Phys_setA hs hl _),
    findSpeedFast_ok hs (Phys_setA hs hr _)]
  have p1 := fast_pos hs.gamma (Phys_setA hs hl (lit (1/2) * (l.a + r.a))) 0
  have p2 := fast_pos hs.gamma (Phys_setA hs hr (lit (1/2) * (l.a + r.a))) 0
  generalize findSpeedFast s 0 _ = cl at *
  generalize findSpeedFast s 0 _ = cr at *
  have h1 : fmax (fmax l.u r.u + fmax cl cr) (lit 0) - fmin (fmin l.u r.u - fmax cl cr) (lit 0) ≠ 0 := by
    simp only [RealOps.fmax_real, RealOps.fmin_real, RealOps.lit_real]
    have := le_max_left cl cr
    have := le_max_left (max l.u r.u + max cl cr) ((0 : ℚ) : ℝ)
    have := min_le_left (min l.u r.u - max cl cr) ((0 : ℚ) : ℝ)
    have := le_max_left l.u r.u
    have := min_le_left l.u r.u
    apply ne_of_gt
    linarith
  generalize findMhdFlux s _ = A
  generalize findMhdFlux s _ = B
  push_okm []

end

/-! ## HLLD -/

/-- component-wise map -/
def HlldStar.map {R S : Type} (f : R → S) (q : HlldStar R) : HlldStar S :=
  ⟨f q.rstar, f q.vstar, f q.wstar, f q.bstar, f q.cstar, f q.vdotbstar, f q.etotstar, f q.sqrrstar,
    f q.calfven⟩

theorem hlldStar_ok {a r u v w b c etot ptot vdotb sk ustar ptotstar : ℝ}
    (h1 : sk - ustar ≠ 0) (h2 : 0 < r * (sk - u) / (sk - ustar))
    (h3 : r * (sk - u) * (sk - ustar) - a * a ≠ 0) :
    hlldStar (ok a) (ok r) (ok u) (ok v) (ok w) (ok b) (ok c) (ok etot) (ok ptot) (ok vdotb) (ok sk)
      (ok ustar) (ok ptotstar) =
    (hlldStar a r u v w b c etot ptot vdotb sk ustar ptotstar).map ok := by
  have h4 : RealOps.sqrt (r * (sk - u) / (sk - ustar)) ≠ 0 := (Real.sqrt_pos.2 h2).ne'
  have h5 := h2.le
  have hdeg : (gtb (ok a * ok a) (lit 0) && RealOps.le
      (fabs ((ok r * (ok sk - ok u) * (ok sk - ok ustar) - ok a * ok a) / (ok a * ok a) - lit 1))
      (lit (1/100000000))) = (gtb (a * a) (lit 0) && RealOps.le
      (fabs ((r * (sk - u) * (sk - ustar) - a * a) / (a * a) - lit 1))
      (lit (1/100000000))) := by
    by_cases ha : a * a = 0
    · have : gtb (a * a) (lit 0) = false := by simp [gtb, RealOps.lt, ha]
      rw [this, show gtb (ok a * ok a) (lit 0) = gtb (a * a) (lit 0) from rfl, this]
      rfl
    · push_okm [gtb]
  unfold hlldStar
  simp only [hdeg]
  generalize (gtb (a * a) (lit 0) && RealOps.le
      (fabs ((r * (sk - u) * (sk - ustar) - a * a) / (a * a) - lit 1))
      (lit (1/100000000))) = deg
  cases deg <;> push_okm [HlldStar.map, Bool.false_eq_true, if_false, if_true]

/-- component-wise map -/
def HlldOut.map {R S : Type} (f : R → S) (q : HlldOut R) : HlldOut S :=
  ⟨f q.ro, f q.uo, f q.vo, f q.wo, f q.bo, f q.co, f q.ptoto, f q.etoto, f q.vdotbo⟩

theorem hlldSS_ok {a sgnm us ps : ℝ} {L Rt : HlldStar ℝ} (h : L.sqrrstar + Rt.sqrrstar ≠ 0) :
    hlldSS (ok a) (ok sgnm) (ok us) (ok ps) (L.map ok) (Rt.map ok) =
      ((hlldSS a sgnm us ps L Rt).1.map ok, (hlldSS a sgnm us ps L Rt).2.map ok) := by
  unfold hlldSS
  push_okm [HlldStar.map, HlldOut.map]

theorem hlldSample_ok {sl sal us sar sr : ℝ} {l ls lss rss rs r : HlldOut ℝ} :
    hlldSample (ok sl) (ok sal) (ok us) (ok sar) (ok sr) (l.map ok) (ls.map ok) (lss.map ok) (rss.map ok)
      (rs.map ok) (r.map ok) = (hlldSample sl sal us sar sr l ls lss rss rs r).map ok := by
  unfold hlldSample
  have g : ∀ x : ℝ, gtb (ok x) (lit 0) = gtb x (lit 0) := fun _ => rfl
  cases c1 : gtb sl (lit 0)
  · cases c2 : gtb sal (lit 0)
    · cases c3 : gtb us (lit 0)
      · cases c4 : gtb sar (lit 0)
        · cases c5 : gtb sr (lit 0) <;>
            simp only [g, c1, c2, c3, c4, c5, Bool.false_eq_true, if_false, if_true]
        · simp only [g, c1, c2, c3, c4, Bool.false_eq_true, if_false, if_true]
      · simp only [g, c1, c2, c3, Bool.false_eq_true, if_false, if_true]
    · simp only [g, c1, c2, Bool.false_eq_true, if_false, if_true]
  · simp only [g, c1, Bool.false_eq_true, if_false, if_true]

theorem hlldFlux_ok (a : ℝ) (o : HlldOut ℝ) : hlldFlux (ok a) (o.map ok) = (hlldFlux a o).map ok := rfl

theorem hlldStarOut_ok (L : HlldStar ℝ) (us ps : ℝ) :
    hlldStarOut (L.map ok) (ok us) (ok ps) = (hlldStarOut L us ps).map ok := rfl

theorem hlldSide_ok (e a : ℝ) (q : MS ℝ) :
    hlldSide (ok e) (ok a) (q.map ok) = (hlldSide e a q).map ok := rfl

theorem hlldIn_ok (s : Settings ℝ) (a : ℝ) (q : MS ℝ) :
    hlldIn (s.map ok) (ok a) (q.map ok) = (hlldIn s a q).map ok := by
  unfold hlldIn
  have : gtb (s.map ok).cIso (lit 0) = gtb s.cIso (lit 0) := rfl
  simp only [this]
  cases gtb s.cIso (lit 0) <;> rfl

theorem hlldTail_ok {a sgnm sl sr us ps : ℝ} {l r : HlldOut ℝ}
    (hl : 0 < l.ro) (hr : 0 < r.ro) (hl1 : sl < l.uo) (hr1 : r.uo < sr) (hl2 : sl < us) (hr2 : us < sr)
    (hl3 : l.ro * (sl - l.uo) * (sl - us) - a * a ≠ 0)
    (hr3 : r.ro * (sr - r.uo) * (sr - us) - a * a ≠ 0) :
    hlldTail (ok a) (ok sgnm) (ok sl) (ok sr) (ok us) (ok ps) (l.map ok) (r.map ok) =
      (hlldTail a sgnm sl sr us ps l r).map ok := by
  have pl : 0 < l.ro * (sl - l.uo) / (sl - us) :=
    div_pos_of_neg_of_neg (mul_neg_of_pos_of_neg hl (by linarith)) (by linarith)
  have pr : 0 < r.ro * (sr - r.uo) / (sr - us) := div_pos (mul_pos hr (by linarith)) (by linarith)
  have eL := hlldStar_ok (v := l.vo) (w := l.wo) (b := l.bo) (c := l.co) (etot := l.etoto)
    (ptot := l.ptoto) (vdotb := l.vdotbo) (ptotstar := ps) (ne_of_lt (by linarith)) pl hl3
  have eR := hlldStar_ok (v := r.vo) (w := r.wo) (b := r.bo) (c := r.co) (etot := r.etoto)
    (ptot := r.ptoto) (vdotb := r.vdotbo) (ptotstar := ps) (ne_of_gt (by linarith)) pr hr3
  have hden : (hlldStar a l.ro l.uo l.vo l.wo l.bo l.co l.etoto l.ptoto l.vdotbo sl us ps).sqrrstar +
      (hlldStar a r.ro r.uo r.vo r.wo r.bo r.co r.etoto r.ptoto r.vdotbo sr us ps).sqrrstar ≠ 0 := by
    have h1 := Real.sqrt_pos.2 pl
    have h2 := Real.sqrt_pos.2 pr
    exact ne_of_gt (add_pos h1 h2)
  unfold hlldTail
  have eL' : hlldStar (ok a) (l.map ok).ro (l.map ok).uo (l.map ok).vo (l.map ok).wo (l.map ok).bo
      (l.map ok).co (l.map ok).etoto (l.map ok).ptoto (l.map ok).vdotbo (ok sl) (ok us) (ok ps) = _ := eL
  have eR' : hlldStar (ok a) (r.map ok).ro (r.map ok).uo (r.map ok).vo (r.map ok).wo (r.map ok).bo
      (r.map ok).co (r.map ok).etoto (r.map ok).ptoto (r.map ok).vdotbo (ok sr) (ok us) (ok ps) = _ := eR
  rw [eL', eR']
  generalize hlldStar a l.ro l.uo l.vo l.wo l.bo l.co l.etoto l.ptoto l.vdotbo sl us ps = L at *
  generalize hlldStar a r.ro r.uo r.vo r.wo r.bo r.co r.etoto r.ptoto r.vdotbo sr us ps = Rt at *
  simp only [hlldSS_ok hden, hlldStarOut_ok]
  have h1 : ok us - (L.map ok).calfven = ok (us - L.calfven) := rfl
  have h2 : ok us + (Rt.map ok).calfven = ok (us + Rt.calfven) := rfl
  rw [h1, h2, hlldSample_ok, hlldFlux_ok]

theorem hlldIn_iso (s : Settings ℝ) (l r q : MS ℝ) :
    hlldIn s (lit (1/2) * (l.a + r.a)) q = isoState s (meanNormal l r q) := by
  have e : (lit (1/2) : ℝ) * (l.a + r.a) = (l.a + r.a) / 2 := by
    rw [RealOps.lit_real]; push_cast; ring
  unfold hlldIn isoState meanNormal
  rw [e]
  by_cases h : 0 < s.cIso
  · have : gtb s.cIso (lit 0) = true := by simpa [gtb] using h
    rw [if_pos this, if_pos h]
    simp only [sq, mul_assoc]
  · have : ¬ gtb s.cIso (lit 0) = true := by simpa [gtb] using h
    rw [if_neg this, if_neg h]

theorem isoState_phys {s : Settings ℝ} {q : MS ℝ} (hq : PhysM q) : PhysM (isoState s q) := by
  refine ⟨hq.d, ?_⟩
  have := hq.d
  have := hq.p
  unfold isoState
  dsimp only
  split_ifs with h
  · positivity
  · exact hq.p

/-- everything `riemann_hlld` needs: the waves are ordered -/
theorem hlld_waves {γ : ℝ} (hg : 1 < γ) {l r : MS ℝ} (hl : PhysM l) (hr : PhysM r) (hn : l.a = r.a) :
    speedL γ l r < l.u ∧ r.u < speedR γ l r ∧
      speedL γ l r < speedM (speedL γ l r) (speedR γ l r) l r ∧
      speedM (speedL γ l r) (speedR γ l r) l r < speedR γ l r := by
  let s : Settings ℝ := ⟨γ, 0, 0, 0, 0, 0, 0, 0, 0⟩
  have fl := fast_lower (s := s) hg hl 0
  have fr := fast_lower (s := s) hg hr 0
  have pl := fast_pos (s := s) hg hl 0
  have pr := fast_pos (s := s) hg hr 0
  rw [findSpeedFast_spec (s := s) hg hl] at fl pl
  rw [findSpeedFast_spec (s := s) hg hr] at fr pr
  change γ * l.p + (l.bsq - l.a * l.a) ≤ l.d * (fastSpeed γ l.a l * fastSpeed γ l.a l) ∧ _ at fl
  change γ * r.p + (r.bsq - r.a * r.a) ≤ r.d * (fastSpeed γ r.a r * fastSpeed γ r.a r) ∧ _ at fr
  change 0 < fastSpeed γ l.a l at pl
  change 0 < fastSpeed γ r.a r at pr
  have hc : 0 < maxFast γ l r := lt_max_of_lt_left pl
  have m1 : fastSpeed γ l.a l * fastSpeed γ l.a l ≤ maxFast γ l r * maxFast γ l r :=
    mul_self_le_mul_self pl.le (le_max_left _ _)
  have m2 : fastSpeed γ r.a r * fastSpeed γ r.a r ≤ maxFast γ l r * maxFast γ l r :=
    mul_self_le_mul_self pr.le (le_max_right _ _)
  have k := hlld_contact (a := l.a) (ul := l.u) (ur := r.u) hg hl.p hr.p (tl := l.bsq - l.a * l.a)
    (tr := r.bsq - r.a * r.a) (sub_nonneg.2 (l.normalB_sq_le 0)) (sub_nonneg.2 (r.normalB_sq_le 0)) hl.d hr.d hc
    (fl.1.trans (mul_le_mul_of_nonneg_left m1 hl.d.le))
    (fr.1.trans (mul_le_mul_of_nonneg_left m2 hr.d.le))
  dsimp only at k
  obtain ⟨-, -, k1, k2⟩ := k
  have e : speedM (speedL γ l r) (speedR γ l r) l r =
      (r.d * (max l.u r.u + maxFast γ l r - r.u) * r.u + l.d * (l.u - (min l.u r.u - maxFast γ l r)) * l.u +
      (l.p + 1/2 * (l.a * l.a + (l.bsq - l.a * l.a)) - (r.p + 1/2 * (l.a * l.a + (r.bsq - r.a * r.a))))) /
      (r.d * (max l.u r.u + maxFast γ l r - r.u) + l.d * (l.u - (min l.u r.u - maxFast γ l r))) := by
    unfold speedM speedL speedR totalPressure magPressure MS.bsq
    rw [hn]
    congr 1 <;> ring
  rw [e]
  refine ⟨?_, ?_, k1, k2⟩
  · have := min_le_left l.u r.u
    unfold speedL; linarith
  · have := le_max_right l.u r.u
    unfold speedR; linarith

theorem hlldBody_ok {e sg SL SR : ℝ} {l r : MS ℝ} (hn : l.a = r.a) (hl : 0 < l.d) (hr : 0 < r.d)
    (hl1 : SL < l.u) (hr1 : r.u < SR) (hl2 : SL < speedM SL SR l r) (hr2 : speedM SL SR l r < SR)
    (hl3 : l.d * (SL - l.u) * (SL - speedM SL SR l r) ≠ l.a ^ 2)
    (hr3 : r.d * (SR - r.u) * (SR - speedM SL SR l r) ≠ r.a ^ 2) :
    hlldBody (ok l.a) (ok sg) (ok SL) (ok SR) ((hlldSide e l.a l).map ok) ((hlldSide e l.a r).map ok) =
      (hlldBody l.a sg SL SR (hlldSide e l.a l) (hlldSide e l.a r)).map ok := by
  unfold hlldBody
  have h1 : r.d * (SR - r.u) + l.d * (l.u - SL) ≠ 0 := by
    have := mul_pos hl (sub_pos.2 hl1)
    have := mul_pos hr (sub_pos.2 hr1)
    apply ne_of_gt; linarith
  have h2 : (hlldSide e l.a r).ro * (SR - (hlldSide e l.a r).uo) +
      (hlldSide e l.a l).ro * ((hlldSide e l.a l).uo - SL) ≠ 0 := h1
  have hu : ((hlldSide e l.a r).ro * (SR - (hlldSide e l.a r).uo) * (hlldSide e l.a r).uo +
      (hlldSide e l.a l).ro * ((hlldSide e l.a l).uo - SL) * (hlldSide e l.a l).uo +
      ((hlldSide e l.a l).ptoto - (hlldSide e l.a r).ptoto)) /
      ((hlldSide e l.a r).ro * (SR - (hlldSide e l.a r).uo) +
      (hlldSide e l.a l).ro * ((hlldSide e l.a l).uo - SL)) = speedM SL SR l r := by
    unfold hlldSide speedM totalPressure magPressure
    rw [hn]
    simp only [RealOps.lit_real]
    push_cast
    congr 1 <;> ring
  simp (disch := assumption) only [show ∀ o : HlldOut ℝ, (o.map ok).ro = ok o.ro from fun _ => rfl,
    show ∀ o : HlldOut ℝ, (o.map ok).uo = ok o.uo from fun _ => rfl,
    show ∀ o : HlldOut ℝ, (o.map ok).ptoto = ok o.ptoto from fun _ => rfl,
    ok_sub, ok_mul, ok_add, ok_div, hu]
  exact hlldTail_ok hl hr hl1 hr1 hl2 hr2 (by rw [← sq]; exact sub_ne_zero.2 hl3)
    (by rw [← sq, hn]; exact sub_ne_zero.2 hr3)

theorem hlld_ok {s : Settings ℝ} (hs : GoodSettings s) {l r : MS ℝ} (hl : PhysM l) (hr : PhysM r)
    (hreg : HlldRegular s.gamma0 (isoState s (meanNormal l r l)) (isoState s (meanNormal l r r))) :
    riemannMhdHlld (s.map ok) (l.map ok) (r.map ok) = (riemannMhdHlld s l r).map ok := by
  have hg := hs.gamma
  have hl' : PhysM (isoState s (meanNormal l r l)) := isoState_phys ⟨hl.d, hl.p⟩
  have hr' : PhysM (isoState s (meanNormal l r r)) := isoState_phys ⟨hr.d, hr.p⟩
  have h1 := gamma_sub_ne hs
  have hw := hlld_waves hg hl' hr' rfl
  unfold riemannMhdHlld
  have ea : lit (1/2) * ((l.map ok).a + (r.map ok).a) = ok (lit (1/2) * (l.a + r.a)) := rfl
  have ee : lit 1 / ((s.map ok).gamma0 - lit 1) = ok (lit 1 / (s.gamma0 - lit 1)) := by push_okm []
  simp only [ea, ee, hlldIn_ok, hlldSide_ok]
  rw [hlldIn_iso, hlldIn_iso, findSpeedFast_ok hs hl', findSpeedFast_ok hs hr',
    findSpeedFast_spec hg hl', findSpeedFast_spec hg hr']
  have es : (if geb (ok (lit (1/2) * (l.a + r.a))) (lit 0) = true then lit 1 else -lit 1 : Chk) =
      ok (if geb (lit (1/2) * (l.a + r.a)) (lit 0) = true then lit 1 else -lit 1) := ite_ok _ _ _
  rw [es]
  generalize (if geb (lit (1/2) * (l.a + r.a)) (lit 0) = true then lit 1 else -lit 1 : ℝ) = sg
  have ha : (lit (1/2) : ℝ) * (l.a + r.a) = (isoState s (meanNormal l r l)).a := by
    rw [RealOps.lit_real]; unfold isoState meanNormal; push_cast; ring
  have ha' : (isoState s (meanNormal l r l)).a = (isoState s (meanNormal l r r)).a := rfl
  rw [ha]
  generalize isoState s (meanNormal l r l) = L at *
  generalize isoState s (meanNormal l r r) = Rt at *
  generalize lit 1 / (s.gamma0 - lit 1) = e at *
  have e1 : fmin (L.map ok).u (Rt.map ok).u - fmax (ok (fastSpeed s.gamma0 (L.normalB 0) L))
      (ok (fastSpeed s.gamma0 (Rt.normalB 0) Rt)) = ok (speedL s.gamma0 L Rt) := rfl
  have e2 : fmax (L.map ok).u (Rt.map ok).u + fmax (ok (fastSpeed s.gamma0 (L.normalB 0) L))
      (ok (fastSpeed s.gamma0 (Rt.normalB 0) Rt)) = ok (speedR s.gamma0 L Rt) := rfl
  have e3 : fmin L.u Rt.u - fmax (fastSpeed s.gamma0 (L.normalB 0) L)
      (fastSpeed s.gamma0 (Rt.normalB 0) Rt) = speedL s.gamma0 L Rt := rfl
  have e4 : fmax L.u Rt.u + fmax (fastSpeed s.gamma0 (L.normalB 0) L)
      (fastSpeed s.gamma0 (Rt.normalB 0) Rt) = speedR s.gamma0 L Rt := rfl
  rw [e1, e2, e3, e4]
  unfold HlldRegular at hreg
  dsimp only at hreg
  generalize speedL s.gamma0 L Rt = SL at *
  generalize speedR s.gamma0 L Rt = SR at *
  exact hlldBody_ok ha' hl'.d hr'.d hw.1 hw.2.1 hw.2.2.1 hw.2.2.2 hreg.1 hreg.2

end EulerKokkos
