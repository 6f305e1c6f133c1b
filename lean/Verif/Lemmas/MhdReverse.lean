import Verif.Spec.FieldReversal
import Verif.Lemmas.MhdUnits

/-!
# Reversal of the magnetic field: MHD Riemann solvers
-/

set_option linter.constructorNameAsVariable false
set_option linter.unusedSectionVars false
set_option linter.unusedSimpArgs false

namespace EulerKokkos
open Spec

theorem normalB_rev (n : Nat) (q : MS ℝ) : (reverseB q).normalB n = -q.normalB n := by
  unfold MS.normalB
  split <;> rfl

theorem ops_neg_mul_neg (x y : ℝ) : -x * -y = x * y := neg_mul_neg x y

theorem abs_rev (x : ℝ) : fabs (-x) = fabs x := by
  simp [RealOps.fabs_real]

theorem findSpeedFast_rev (s : Settings ℝ) (n : Nat) (q : MS ℝ) :
    findSpeedFast s n (reverseB q) = findSpeedFast s n q := by
  unfold findSpeedFast
  rw [normalB_rev]
  simp only [reverseB, mul_neg, neg_mul, neg_neg]

theorem findSpeedInfo_rev (s : Settings ℝ) (q : MS ℝ) : findSpeedInfo s (reverseB q) = findSpeedInfo s q := by
  unfold findSpeedInfo
  simp only [reverseB, mul_neg, neg_mul, neg_neg]

theorem findSpeedInfo1_rev (s : Settings ℝ) (q : MS ℝ) : findSpeedInfo1 s (reverseB q) = findSpeedInfo1 s q :=
  congrArg Prod.fst (findSpeedInfo_rev s q)

theorem findMhdFlux_rev (s : Settings ℝ) (q : MS ℝ) :
    findMhdFlux s (reverseB q) = (reverseB (findMhdFlux s q).1, reverseB (findMhdFlux s q).2) := by
  unfold findMhdFlux
  simp only [reverseB, RealOps.lit_real]
  refine Prod.ext (MS.ext ?_ ?_ ?_ ?_ ?_ ?_ ?_ ?_) (MS.ext ?_ ?_ ?_ ?_ ?_ ?_ ?_ ?_) <;> dsimp only <;> push_cast <;> ring

theorem mean_rev (l r : MS ℝ) : lit (1/2) * ((reverseB l).a + (reverseB r).a) = -(lit (1/2) * (l.a + r.a)) := by
  simp only [reverseB]; ring

theorem setA_rev (q : MS ℝ) (a : ℝ) : { reverseB q with a := -a } = reverseB { q with a := a } := rfl

theorem riemannMhdHll_rev (s : Settings ℝ) (l r : MS ℝ) :
    riemannMhdHll s (reverseB l) (reverseB r) = reverseB (riemannMhdHll s l r) := by
  unfold riemannMhdHll
  rw [mean_rev]
  generalize lit (1/2) * (l.a + r.a) = a
  dsimp only
  rw [setA_rev, setA_rev]
  simp only [findMhdFlux_rev, findSpeedFast_rev]
  generalize findMhdFlux s { l with a := a } = L
  generalize findMhdFlux s { r with a := a } = Rt
  simp only [reverseB]
  refine MS.ext ?_ ?_ ?_ ?_ ?_ ?_ ?_ ?_ <;> dsimp only <;> ring

theorem riemannMhdLlf_rev (s : Settings ℝ) (l r : MS ℝ) :
    riemannMhdLlf s (reverseB l) (reverseB r) = reverseB (riemannMhdLlf s l r) := by
  unfold riemannMhdLlf
  rw [mean_rev]
  generalize lit (1/2) * (l.a + r.a) = a
  dsimp only
  rw [setA_rev, setA_rev]
  simp only [findMhdFlux_rev, findSpeedInfo1_rev]
  generalize findMhdFlux s { l with a := a } = L
  generalize findMhdFlux s { r with a := a } = Rt
  simp only [reverseB]
  refine MS.ext ?_ ?_ ?_ ?_ ?_ ?_ ?_ ?_ <;> dsimp only <;> ring

/-! ## HLLD -/

/-- sampled variables with the opposite field -/
def revOut (o : HlldOut ℝ) : HlldOut ℝ :=
  ⟨o.ro, o.uo, o.vo, o.wo, -o.bo, -o.co, o.ptoto, o.etoto, -o.vdotbo⟩

/-- star variables with the opposite field -/
def revStar (o : HlldStar ℝ) : HlldStar ℝ :=
  ⟨o.rstar, o.vstar, o.wstar, -o.bstar, -o.cstar, -o.vdotbstar, o.etotstar, o.sqrrstar, o.calfven⟩

theorem hlldStar_rev (a r u v w b c etot ptot vdotb sk ustar ptotstar : ℝ) :
    hlldStar (-a) r u v w (-b) (-c) etot ptot (-vdotb) sk ustar ptotstar =
      revStar (hlldStar a r u v w b c etot ptot vdotb sk ustar ptotstar) := by
  unfold hlldStar
  extract_lets rs es e deg vs bs ws cs vb et sq ca es' e' deg' vs' bs' ws' cs' vb' et' ca'
  have haa : -a * -a = a * a := neg_mul_neg a a
  have h_es : es = es' := by simp only [es, es', haa]
  have h_e : e = e' := by simp only [e, e', haa]
  have h_deg : deg = deg' := by simp only [deg, deg', haa, h_es]
  have h_vs : vs = vs' := by simp only [vs, vs', h_deg, h_es, neg_mul_neg]
  have h_ws : ws = ws' := by simp only [ws, ws', h_deg, h_es, neg_mul_neg]
  have h_bs : bs = -bs' := by
    simp only [bs, bs', h_deg, h_es, h_e]; split <;> ring
  have h_cs : cs = -cs' := by
    simp only [cs, cs', h_deg, h_es, h_e]; split <;> ring
  have h_vb : vb = -vb' := by simp only [vb, vb', h_vs, h_bs, h_ws, h_cs]; ring
  have h_et : et = et' := by
    simp only [et, et', h_vb]
    congr 1; ring
  have h_ca : ca = ca' := by simp only [ca, ca', abs_rev]
  rw [h_vs, h_ws, h_bs, h_cs, h_vb, h_et, h_ca]
  rfl

theorem hlldIn_rev (s : Settings ℝ) (a : ℝ) (q : MS ℝ) : hlldIn s (-a) (reverseB q) = reverseB (hlldIn s a q) := by
  unfold hlldIn
  dsimp only
  split <;> rfl

theorem hlldSide_rev (e a : ℝ) (q : MS ℝ) : hlldSide e (-a) (reverseB q) = revOut (hlldSide e a q) := by
  unfold hlldSide revOut
  simp only [reverseB, RealOps.lit_real, HlldOut.mk.injEq]
  refine ⟨trivial, trivial, trivial, trivial, trivial, trivial, ?_, ?_, ?_⟩ <;> push_cast <;> ring

theorem hlldSS_rev (a sg u p : ℝ) (l r : HlldStar ℝ) :
    hlldSS (-a) (-sg) u p (revStar l) (revStar r) =
      (revOut (hlldSS a sg u p l r).1, revOut (hlldSS a sg u p l r).2) := by
  unfold hlldSS
  extract_lets den v w b c vb el er den' v' w' b' c' vb' el' er'
  have h_v : v = v' := by simp only [v, v', den, den', revStar]; ring
  have h_w : w = w' := by simp only [w, w', den, den', revStar]; ring
  have h_b : b = -b' := by simp only [b, b', den, den', revStar]; ring
  have h_c : c = -c' := by simp only [c, c', den, den', revStar]; ring
  have h_vb : vb = -vb' := by simp only [vb, vb', h_v, h_w, h_b, h_c]; ring
  have h_el : el = el' := by simp only [el, el', h_vb, revStar]; ring
  have h_er : er = er' := by simp only [er, er', h_vb, revStar]; ring
  rw [h_v, h_w, h_b, h_c, h_vb, h_el, h_er]
  rfl

theorem hlldSample_rev (sl sal u sar sr : ℝ) (l ls lss rss rs r : HlldOut ℝ) :
    hlldSample sl sal u sar sr (revOut l) (revOut ls) (revOut lss) (revOut rss) (revOut rs) (revOut r) =
      revOut (hlldSample sl sal u sar sr l ls lss rss rs r) := by
  unfold hlldSample
  refine ite_eq_sc revOut rfl rfl (ite_eq_sc revOut rfl rfl (ite_eq_sc revOut rfl rfl (ite_eq_sc revOut rfl rfl
    (ite_eq_sc revOut rfl rfl rfl))))

theorem hlldFlux_rev (a : ℝ) (o : HlldOut ℝ) : hlldFlux (-a) (revOut o) = reverseB (hlldFlux a o) := by
  unfold hlldFlux
  simp only [reverseB, revOut, RealOps.lit_real]
  refine MS.ext ?_ ?_ ?_ ?_ ?_ ?_ ?_ ?_ <;> dsimp only <;> push_cast <;> ring

theorem hlldTail_rev (a sg sl sr u p : ℝ) (l r : HlldOut ℝ) :
    hlldTail (-a) (-sg) sl sr u p (revOut l) (revOut r) = reverseB (hlldTail a sg sl sr u p l r) := by
  unfold hlldTail
  have h1 := hlldStar_rev a l.ro l.uo l.vo l.wo l.bo l.co l.etoto l.ptoto l.vdotbo sl u p
  have h2 := hlldStar_rev a r.ro r.uo r.vo r.wo r.bo r.co r.etoto r.ptoto r.vdotbo sr u p
  dsimp only [revOut] at h1 h2 ⊢
  rw [h1, h2]
  generalize hlldStar a l.ro l.uo l.vo l.wo l.bo l.co l.etoto l.ptoto l.vdotbo sl u p = L
  generalize hlldStar a r.ro r.uo r.vo r.wo r.bo r.co r.etoto r.ptoto r.vdotbo sr u p = Rt
  rw [hlldSS_rev]
  exact (congrArg _ (hlldSample_rev sl (u - L.calfven) u (u + Rt.calfven) sr l (hlldStarOut L u p)
    (hlldSS a sg u p L Rt).1 (hlldSS a sg u p L Rt).2 (hlldStarOut Rt u p) r)).trans (hlldFlux_rev _ _)

/-- without a normal field the Alfven waves coincide with the contact: the states that depend on the sign
of the normal field are never sampled -/
theorem hlldTail_zero (sg sg' sl sr u p : ℝ) (l r : HlldOut ℝ) :
    hlldTail 0 sg sl sr u p l r = hlldTail 0 sg' sl sr u p l r := by
  unfold hlldTail
  have h : ∀ r u v w b c et pt vb sk : ℝ, (hlldStar 0 r u v w b c et pt vb sk u p).calfven = 0 := by
    intros; simp [hlldStar, RealOps.fabs_real]
  have h' : ∀ r u' v w b c et pt vb sk : ℝ, (hlldStar 0 r u' v w b c et pt vb sk u p).calfven = 0 := by
    intros; simp [hlldStar, RealOps.fabs_real]
  dsimp only
  rw [h', h', sub_zero, add_zero]
  unfold hlldSample
  by_cases hu : gtb u (lit 0 : ℝ) = true
  · simp only [hu, if_true]
  · simp only [hu, if_false, Bool.false_eq_true]

theorem hlldBody_rev (a sg sl sr : ℝ) (l r : HlldOut ℝ) :
    hlldBody (-a) (-sg) sl sr (revOut l) (revOut r) = reverseB (hlldBody a sg sl sr l r) := by
  unfold hlldBody
  exact hlldTail_rev ..

theorem hlldBody_zero (sg sg' sl sr : ℝ) (l r : HlldOut ℝ) :
    hlldBody 0 sg sl sr l r = hlldBody 0 sg' sl sr l r := by
  unfold hlldBody
  exact hlldTail_zero ..

theorem riemannMhdHlld_rev (s : Settings ℝ) (l r : MS ℝ) :
    riemannMhdHlld s (reverseB l) (reverseB r) = reverseB (riemannMhdHlld s l r) := by
  unfold riemannMhdHlld
  rw [mean_rev]
  generalize lit (1/2) * (l.a + r.a) = a
  dsimp only
  rw [hlldIn_rev, hlldIn_rev]
  generalize hlldIn s a l = l
  generalize hlldIn s a r = r
  rw [findSpeedFast_rev, findSpeedFast_rev, hlldSide_rev, hlldSide_rev, ← hlldBody_rev]
  show hlldBody (-a) _ _ _ _ _ = hlldBody (-a) _ (fmin l.u r.u - _) _ _ _
  rcases lt_trichotomy a 0 with h | h | h
  · congr 1
    simp [geb, RealOps.lit_real, RealOps.le_real, h, not_le.mpr h, h.le]
  · subst h
    rw [neg_zero]
    exact hlldBody_zero ..
  · congr 1
    simp [geb, RealOps.lit_real, RealOps.le_real, h, not_le.mpr h, h.le]

theorem revB_zero : reverseB MS.zero = MS.zero := by
  simp [reverseB, MS.zero, RealOps.lit_real]

theorem riemannMhd_rev (s : Settings ℝ) (t : RiemannType) (l r : MS ℝ) :
    riemannMhd s t (reverseB l) (reverseB r) MS.zero = reverseB (riemannMhd s t l r MS.zero) := by
  cases t <;> simp only [riemannMhd, riemannMhdHll_rev, riemannMhdLlf_rev, riemannMhdHlld_rev, revB_zero]

/-! ## Electromotive force -/

/-- corner star values with the opposite field -/
def revMag (o : MagStar ℝ) : MagStar ℝ := ⟨o.rx, -o.B, o.ry, -o.A, o.r, -o.Ex, -o.Ey, -o.E⟩

theorem magStar_rev (q : MS ℝ) (SX SY u v : ℝ) : magStar (reverseB q) SX SY u v = revMag (magStar q SX SY u v) := by
  unfold magStar revMag
  simp only [reverseB, MagStar.mk.injEq]
  refine ⟨trivial, ?_, trivial, ?_, trivial, ?_, ?_, ?_⟩ <;> ring

theorem magSelect_rev (SL SR SB ST AL AR AB AT : ℝ) (qLL qRL qLR qRR : MS ℝ) (LL RL LR RR : MagStar ℝ)
    (ELL ERL ELR ERR : ℝ) :
    magSelect SL SR SB ST AL AR AB AT (reverseB qLL) (reverseB qRL) (reverseB qLR) (reverseB qRR) (revMag LL)
      (revMag RL) (revMag LR) (revMag RR) (-ELL) (-ERL) (-ELR) (-ERR) =
    -magSelect SL SR SB ST AL AR AB AT qLL qRL qLR qRR LL RL LR RR ELL ERL ELR ERR := by
  unfold magSelect
  simp only [reverseB, revMag, RealOps.lit_real]
  push_cast
  ring

theorem magTail_rev (s : Settings ℝ) (qLL qRL qLR qRR : MS ℝ) (ELL ERL ELR ERR SL SR SB ST u v : ℝ) :
    magTail s (reverseB qLL) (reverseB qRL) (reverseB qLR) (reverseB qRR) (-ELL) (-ERL) (-ELR) (-ERR)
      SL SR SB ST u v = -magTail s qLL qRL qLR qRR ELL ERL ELR ERR SL SR SB ST u v := by
  unfold magTail
  simp only [magStar_rev]
  rw [← magSelect_rev]
  simp only [reverseB, revMag, abs_rev]

theorem magPtot_rev (q : MS ℝ) : magPtot (reverseB q) = magPtot q := by
  simp only [magPtot, reverseB]; ring

theorem magRiemann2dHlld_rev (s : Settings ℝ) (qLL qRL qLR qRR : MS ℝ) (ELL ERL ELR ERR : ℝ) :
    magRiemann2dHlld s (reverseB qLL) (reverseB qRL) (reverseB qLR) (reverseB qRR) (-ELL) (-ERL) (-ELR) (-ERR) =
    -magRiemann2dHlld s qLL qRL qLR qRR ELL ERL ELR ERR := by
  unfold magRiemann2dHlld magBody
  simp only [findSpeedFast_rev, magPtot_rev, magTail_rev]
  rfl

theorem frame_rev (dir : EmfDir) (q : MS ℝ) : dir.frame (reverseB q) = reverseB (dir.frame q) := by
  cases dir <;> rfl

/-- edge states with the opposite field -/
def revEdge (e : Edge4 ℝ) : Edge4 ℝ := ⟨reverseB e.rt, reverseB e.rb, reverseB e.lt, reverseB e.lb⟩

theorem computeEmf_rev (s : Settings ℝ) (dir : EmfDir) (e : Edge4 ℝ) :
    computeEmf s dir (revEdge e) = -computeEmf s dir e := by
  unfold computeEmf
  dsimp only [revEdge]
  simp only [frame_rev]
  generalize dir.frame e.rt = rt
  generalize dir.frame e.rb = rb
  generalize dir.frame e.lt = lt
  generalize dir.frame e.lb = lb
  rw [← magRiemann2dHlld_rev]
  simp only [reverseB]
  have hm : ∀ x y : ℝ, lit (1/2) * (-x + -y) = -(lit (1/2) * (x + y)) := by intro x y; ring
  have hE : ∀ u b v a : ℝ, u * -b - v * -a = -(u * b - v * a) := by intro u b v a; ring
  simp only [hm, hE]

end EulerKokkos
