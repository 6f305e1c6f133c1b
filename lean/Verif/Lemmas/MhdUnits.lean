import Verif.Spec.MhdUnits
import Verif.Lemmas.UnitsRun

/-!
# Change of units: MHD Riemann solvers
-/

set_option linter.constructorNameAsVariable false
set_option linter.unusedSectionVars false
set_option linter.unusedSimpArgs false

namespace EulerKokkos
open Spec

variable (U : MhdUnits)

/-- settings in the new units -/
noncomputable abbrev Spec.MhdUnits.settings (s : Settings ℝ) : Settings ℝ := U.units.settings s

theorem Spec.MhdUnits.B_pos : 0 < U.B := mul_pos U.hr U.hV

theorem ite_eq_sc {α : Type} {b b' : Bool} (f : α → α) {x y x' y' : α} (hb : b = b') (hx : x = f x')
    (hy : y = f y') : (if b = true then x else y) = f (if b' = true then x' else y') := by
  subst hb; cases b <;> simp [hx, hy]

theorem normalB_units (n : Nat) (q : MS ℝ) : (U.prim q).normalB n = U.B * q.normalB n := by
  unfold MS.normalB
  split <;> rfl

/-- square root of the fast-speed formula -/
theorem fast_units {d2 c2 a d d2' c2' a' d' : ℝ} (h2 : d2 = U.V ^ 2 * d2') (hc : c2 = U.V ^ 2 * c2')
    (ha : a = U.B * a') (hd : d = U.r ^ 2 * d') :
    RealOps.sqrt (d2 + RealOps.sqrt (d2 * d2 - c2 * a * a / d)) =
      U.V * RealOps.sqrt (d2' + RealOps.sqrt (d2' * d2' - c2' * a' * a' / d')) := by
  have hr := U.hr
  have hV := U.hV
  refine sqrt_sc hV ?_
  rw [sqrt_sc (c := U.V ^ 2) (a := d2' * d2' - c2' * a' * a' / d') (by positivity), h2]
  · ring
  · rw [div_sc (a := U.r ^ 2 * U.V ^ 4) (b := U.r ^ 2) (by positivity) (by positivity)
      (x' := c2' * a' * a') (y' := d') (c := U.V ^ 4) (by rw [hc, ha, MhdUnits.B]; ring) hd (by ring), h2]
    ring

theorem c2_units (γ : ℝ) (q : MS ℝ) : γ * (U.prim q).p / (U.prim q).d = U.V ^ 2 * (γ * q.p / q.d) := by
  have hr := U.hr
  have hV := U.hV
  exact div_sc (a := U.r ^ 2 * U.V ^ 2) (b := U.r ^ 2) (by positivity) (by positivity)
    (by simp only [MhdUnits.prim]; ring) rfl (by ring)

theorem b2_units (q : MS ℝ) : ((U.prim q).a * (U.prim q).a + (U.prim q).b * (U.prim q).b +
    (U.prim q).c * (U.prim q).c) / (U.prim q).d = U.V ^ 2 * ((q.a * q.a + q.b * q.b + q.c * q.c) / q.d) := by
  have hr := U.hr
  have hV := U.hV
  exact div_sc (a := U.r ^ 2 * U.V ^ 2) (b := U.r ^ 2) (by positivity) (by positivity)
    (by simp only [MhdUnits.prim, MhdUnits.B]; ring) rfl (by ring)

theorem d2_units (s : Settings ℝ) (q : MS ℝ) :
    lit (1/2) * (((U.prim q).a * (U.prim q).a + (U.prim q).b * (U.prim q).b +
      (U.prim q).c * (U.prim q).c) / (U.prim q).d + (U.settings s).gamma0 * (U.prim q).p / (U.prim q).d) =
      U.V ^ 2 * (lit (1/2) * ((q.a * q.a + q.b * q.b + q.c * q.c) / q.d + s.gamma0 * q.p / q.d)) := by
  rw [b2_units, c2_units]
  show _ * (_ + U.V ^ 2 * (s.gamma0 * q.p / q.d)) = _
  ring

theorem findSpeedFast_units (s : Settings ℝ) (n : Nat) (q : MS ℝ) :
    findSpeedFast (U.settings s) n (U.prim q) = U.V * findSpeedFast s n q := by
  unfold findSpeedFast
  exact fast_units U (d2_units U s q) (c2_units U s.gamma0 q) (normalB_units U n q) rfl

theorem findSpeedInfo_units (s : Settings ℝ) (q : MS ℝ) :
    findSpeedInfo (U.settings s) (U.prim q) =
      (U.V * (findSpeedInfo s q).1, U.V * (findSpeedInfo s q).2.1, U.V * (findSpeedInfo s q).2.2) := by
  have hV := U.hV
  unfold findSpeedInfo
  extract_lets b2 c2 d2 x y z b2' c2' d2' x' y' z'
  have hx : x = U.V * x' := fast_units U (d2_units U s q) (c2_units U s.gamma0 q) rfl rfl
  have hy : y = U.V * y' := fast_units U (d2_units U s q) (c2_units U s.gamma0 q) rfl rfl
  have hz : z = U.V * z' := fast_units U (d2_units U s q) (c2_units U s.gamma0 q) rfl rfl
  rw [hx, hy, hz, abs_sc hV (x := (U.prim q).u) (a := q.u) rfl, abs_sc hV (x := (U.prim q).v) (a := q.v) rfl,
    abs_sc hV (x := (U.prim q).w) (a := q.w) rfl]
  simp only [mul_add]

theorem findSpeedInfo1_units (s : Settings ℝ) (q : MS ℝ) :
    findSpeedInfo1 (U.settings s) (U.prim q) = U.V * findSpeedInfo1 s q :=
  congrArg Prod.fst (findSpeedInfo_units U s q)

theorem iso_units (s : Settings ℝ) (q : MS ℝ) :
    (if gtb (U.settings s).cIso (lit 0) = true then (U.prim q).d * (U.settings s).cIso * (U.settings s).cIso
      else (U.prim q).p) =
    U.r ^ 2 * U.V ^ 2 * (if gtb s.cIso (lit 0) = true then q.d * s.cIso * s.cIso else q.p) := by
  refine ite_sc (lt_sc U.hV (zero_sc _) rfl) ?_ rfl
  simp only [MhdUnits.settings, MhdUnits.units, Units.settings, MhdUnits.prim]; ring

theorem findMhdFlux_units (s : Settings ℝ) (q : MS ℝ) :
    findMhdFlux (U.settings s) (U.prim q) = (U.cons (findMhdFlux s q).1, U.flux (findMhdFlux s q).2) := by
  unfold findMhdFlux
  rw [iso_units]
  generalize (if gtb s.cIso (lit 0) = true then q.d * s.cIso * s.cIso else q.p) = P
  have hg : (U.settings s).gamma0 = s.gamma0 := rfl
  rw [hg]
  generalize (lit 1 / (s.gamma0 - lit 1) : ℝ) = e
  simp only [MhdUnits.prim, MhdUnits.cons, MhdUnits.flux, MhdUnits.B, RealOps.lit_real]
  refine Prod.ext (MS.ext ?_ ?_ ?_ ?_ ?_ ?_ ?_ ?_) (MS.ext ?_ ?_ ?_ ?_ ?_ ?_ ?_ ?_) <;> dsimp only <;> ring

theorem mean_units (l r : MS ℝ) : lit (1/2) * ((U.prim l).a + (U.prim r).a) = U.B * (lit (1/2) * (l.a + r.a)) := by
  simp only [MhdUnits.prim]; ring

theorem setA_units (q : MS ℝ) (a : ℝ) : { U.prim q with a := U.B * a } = U.prim { q with a := a } := rfl

theorem riemannMhdHll_units (s : Settings ℝ) (l r : MS ℝ) :
    riemannMhdHll (U.settings s) (U.prim l) (U.prim r) = U.flux (riemannMhdHll s l r) := by
  have hr := U.hr
  have hV := U.hV
  unfold riemannMhdHll
  rw [mean_units]
  generalize lit (1/2) * (l.a + r.a) = a
  dsimp only
  rw [setA_units, setA_units]
  simp only [findMhdFlux_units, findSpeedFast_units]
  generalize findSpeedFast s 0 { l with a := a } = cl
  generalize findSpeedFast s 0 { r with a := a } = cr
  generalize findMhdFlux s { l with a := a } = L
  generalize findMhdFlux s { r with a := a } = Rt
  have hsl : fmin (fmin (U.prim l).u (U.prim r).u - fmax (U.V * cl) (U.V * cr)) (lit 0) =
      U.V * fmin (fmin l.u r.u - fmax cl cr) (lit 0) := by
    refine min_sc hV ?_ (zero_sc _)
    rw [min_sc hV (x := (U.prim l).u) (y := (U.prim r).u) (a := l.u) (b := r.u) rfl rfl, max_sc hV rfl rfl]; ring
  have hsr : fmax (fmax (U.prim l).u (U.prim r).u + fmax (U.V * cl) (U.V * cr)) (lit 0) =
      U.V * fmax (fmax l.u r.u + fmax cl cr) (lit 0) := by
    refine max_sc hV ?_ (zero_sc _)
    rw [max_sc hV (x := (U.prim l).u) (y := (U.prim r).u) (a := l.u) (b := r.u) rfl rfl, max_sc hV rfl rfl]; ring
  rw [hsl, hsr]
  generalize fmin (fmin l.u r.u - fmax cl cr) (lit 0) = sl
  generalize fmax (fmax l.u r.u + fmax cl cr) (lit 0) = sr
  have key : ∀ {k k' : ℝ}, 0 < k → k' = k * U.V → ∀ a b c d : ℝ,
      (U.V * sr * (k' * a) - U.V * sl * (k' * b) + U.V * sr * (U.V * sl) * (k * d - k * c)) / (U.V * sr - U.V * sl) =
        k' * ((sr * a - sl * b + sr * sl * (d - c)) / (sr - sl)) := by
    intro k k' hk hk' a b c d
    subst hk'
    exact div_sc (a := k * U.V ^ 2) (b := U.V) (by positivity) hV (by ring) (by ring) (by ring)
  have hB := U.B_pos
  simp only [MhdUnits.flux, MhdUnits.cons]
  refine MS.ext ?_ ?_ ?_ ?_ ?_ ?_ ?_ ?_ <;> dsimp only <;> refine key (by positivity) ?_ _ _ _ _ <;> ring

theorem riemannMhdLlf_units (s : Settings ℝ) (l r : MS ℝ) :
    riemannMhdLlf (U.settings s) (U.prim l) (U.prim r) = U.flux (riemannMhdLlf s l r) := by
  have hr := U.hr
  have hV := U.hV
  unfold riemannMhdLlf
  rw [mean_units]
  generalize lit (1/2) * (l.a + r.a) = a
  dsimp only
  rw [setA_units, setA_units]
  simp only [findMhdFlux_units, findSpeedInfo1_units]
  generalize { l with a := a } = l
  generalize { r with a := a } = r
  rw [max_sc hV (a := findSpeedInfo1 s l) (b := findSpeedInfo1 s r) rfl rfl]
  generalize fmax (findSpeedInfo1 s l) (findSpeedInfo1 s r) = c
  generalize findMhdFlux s l = L
  generalize findMhdFlux s r = Rt
  simp only [MhdUnits.flux, MhdUnits.cons, RealOps.lit_real]
  refine MS.ext ?_ ?_ ?_ ?_ ?_ ?_ ?_ ?_ <;> dsimp only <;> ring

/-! ## HLLD -/

/-- sampled variables in the new units -/
noncomputable def Spec.MhdUnits.out (o : HlldOut ℝ) : HlldOut ℝ :=
  ⟨U.r ^ 2 * o.ro, U.V * o.uo, U.V * o.vo, U.V * o.wo, U.B * o.bo, U.B * o.co, U.r ^ 2 * U.V ^ 2 * o.ptoto,
    U.r ^ 2 * U.V ^ 2 * o.etoto, U.B * U.V * o.vdotbo⟩

/-- star variables in the new units -/
noncomputable def Spec.MhdUnits.star (o : HlldStar ℝ) : HlldStar ℝ :=
  ⟨U.r ^ 2 * o.rstar, U.V * o.vstar, U.V * o.wstar, U.B * o.bstar, U.B * o.cstar, U.B * U.V * o.vdotbstar,
    U.r ^ 2 * U.V ^ 2 * o.etotstar, U.r * o.sqrrstar, U.V * o.calfven⟩

theorem hlldStar_units (a r u v w b c etot ptot vdotb sk ustar ptotstar : ℝ) :
    hlldStar (U.B * a) (U.r ^ 2 * r) (U.V * u) (U.V * v) (U.V * w) (U.B * b) (U.B * c) (U.r ^ 2 * U.V ^ 2 * etot)
      (U.r ^ 2 * U.V ^ 2 * ptot) (U.B * U.V * vdotb) (U.V * sk) (U.V * ustar) (U.r ^ 2 * U.V ^ 2 * ptotstar) =
    U.star (hlldStar a r u v w b c etot ptot vdotb sk ustar ptotstar) := by
  have hr := U.hr
  have hV := U.hV
  have hB := U.B_pos
  have hP : 0 < U.r ^ 2 * U.V ^ 2 := by positivity
  have eB : U.B = U.r * U.V := rfl
  unfold hlldStar
  extract_lets rs es e deg vs bs ws cs vb et sq ca rs' es' e' deg' vs' bs' ws' cs' vb' et' sq' ca'
  have h_rs : rs = U.r ^ 2 * rs' := div_sc (a := U.r ^ 2 * U.V) (b := U.V) (by positivity) hV (by ring) (by ring)
    (by ring)
  have h_es : es = U.r ^ 2 * U.V ^ 2 * es' := by simp only [es, es', eB]; ring
  have h_e : e = U.r ^ 2 * U.V ^ 2 * e' := by simp only [e, e', eB]; ring
  have h_deg : deg = deg' := by
    simp only [deg, deg']
    have haa : U.B * a * (U.B * a) = U.r ^ 2 * U.V ^ 2 * (a * a) := by rw [eB]; ring
    rw [show gtb (U.B * a * (U.B * a)) (lit 0) = gtb (a * a) (lit 0) from lt_sc hP (zero_sc _) haa,
      div_sc hP hP h_es haa (c := 1) (by ring), one_mul]
  have h_vs : vs = U.V * vs' := by
    refine ite_sc h_deg rfl ?_
    rw [div_sc (a := U.r ^ 2 * U.V ^ 3) (b := U.r ^ 2 * U.V ^ 2) (by positivity) hP (x' := a * b * (ustar - u))
      (by rw [eB]; ring) h_es (c := U.V) (by ring)]
    ring
  have h_ws : ws = U.V * ws' := by
    refine ite_sc h_deg rfl ?_
    rw [div_sc (a := U.r ^ 2 * U.V ^ 3) (b := U.r ^ 2 * U.V ^ 2) (by positivity) hP (x' := a * c * (ustar - u))
      (by rw [eB]; ring) h_es (c := U.V) (by ring)]
    ring
  have h_bs : bs = U.B * bs' := ite_sc h_deg rfl
    (div_sc (a := U.B * (U.r ^ 2 * U.V ^ 2)) (b := U.r ^ 2 * U.V ^ 2) (by positivity) hP
      (by rw [h_e]; ring) h_es (by ring))
  have h_cs : cs = U.B * cs' := ite_sc h_deg rfl
    (div_sc (a := U.B * (U.r ^ 2 * U.V ^ 2)) (b := U.r ^ 2 * U.V ^ 2) (by positivity) hP
      (by rw [h_e]; ring) h_es (by ring))
  have h_vb : vb = U.B * U.V * vb' := by simp only [vb, vb', h_vs, h_bs, h_ws, h_cs]; ring
  have h_et : et = U.r ^ 2 * U.V ^ 2 * et' := div_sc (a := U.r ^ 2 * U.V ^ 3) (b := U.V) (by positivity) hV
    (by rw [h_vb, eB]; ring) (by ring) (by ring)
  have h_sq : sq = U.r * sq' := sqrt_sc hr h_rs
  have h_ca : ca = U.V * ca' := div_sc hB hr (abs_sc hB rfl) h_sq eB
  rw [h_rs, h_vs, h_ws, h_bs, h_cs, h_vb, h_et, h_sq, h_ca]
  rfl

theorem hlldIn_units (s : Settings ℝ) (a : ℝ) (q : MS ℝ) :
    hlldIn (U.settings s) (U.B * a) (U.prim q) = U.prim (hlldIn s a q) := by
  unfold hlldIn
  refine ite_eq_sc U.prim (lt_sc U.hV (zero_sc _) rfl) ?_ rfl
  simp only [MhdUnits.settings, MhdUnits.units, Units.settings, MhdUnits.prim]
  refine MS.ext ?_ ?_ ?_ ?_ ?_ ?_ ?_ ?_ <;> dsimp only
  ring

theorem hlldSide_units (e a : ℝ) (q : MS ℝ) : hlldSide e (U.B * a) (U.prim q) = U.out (hlldSide e a q) := by
  unfold hlldSide MhdUnits.out
  simp only [MhdUnits.prim, MhdUnits.B, RealOps.lit_real, HlldOut.mk.injEq]
  refine ⟨trivial, trivial, trivial, trivial, trivial, trivial, ?_, ?_, ?_⟩ <;> ring

theorem hlldStarOut_units (o : HlldStar ℝ) (u p : ℝ) :
    hlldStarOut (U.star o) (U.V * u) (U.r ^ 2 * U.V ^ 2 * p) = U.out (hlldStarOut o u p) := rfl

theorem hlldSS_units (a sg u p : ℝ) (l r : HlldStar ℝ) :
    hlldSS (U.B * a) sg (U.V * u) (U.r ^ 2 * U.V ^ 2 * p) (U.star l) (U.star r) =
      (U.out (hlldSS a sg u p l r).1, U.out (hlldSS a sg u p l r).2) := by
  have hr := U.hr
  have hV := U.hV
  have hB := U.B_pos
  have eB : U.B = U.r * U.V := rfl
  unfold hlldSS
  extract_lets den v w b c vb el er den' v' w' b' c' vb' el' er'
  have h_den : den = U.r * den' := by simp only [den, den', MhdUnits.star]; ring
  have h_v : v = U.V * v' := div_sc hB hr (by simp only [MhdUnits.star, eB]; ring) h_den eB
  have h_w : w = U.V * w' := div_sc hB hr (by simp only [MhdUnits.star, eB]; ring) h_den eB
  have h_b : b = U.B * b' := div_sc (a := U.r * U.B) (by positivity) hr
    (by simp only [MhdUnits.star, eB]; ring) h_den (by ring)
  have h_c : c = U.B * c' := div_sc (a := U.r * U.B) (by positivity) hr
    (by simp only [MhdUnits.star, eB]; ring) h_den (by ring)
  have h_vb : vb = U.B * U.V * vb' := by simp only [vb, vb', h_v, h_w, h_b, h_c]; ring
  have h_el : el = U.r ^ 2 * U.V ^ 2 * el' := by simp only [el, el', h_vb, MhdUnits.star, eB]; ring
  have h_er : er = U.r ^ 2 * U.V ^ 2 * er' := by simp only [er, er', h_vb, MhdUnits.star, eB]; ring
  rw [h_v, h_w, h_b, h_c, h_vb, h_el, h_er]
  rfl

theorem hlldSample_units (sl sal u sar sr : ℝ) (l ls lss rss rs r : HlldOut ℝ) :
    hlldSample (U.V * sl) (U.V * sal) (U.V * u) (U.V * sar) (U.V * sr) (U.out l) (U.out ls) (U.out lss)
      (U.out rss) (U.out rs) (U.out r) = U.out (hlldSample sl sal u sar sr l ls lss rss rs r) := by
  unfold hlldSample
  have h : ∀ x : ℝ, gtb (U.V * x) (lit 0) = gtb x (lit 0) := fun x => lt_sc U.hV (zero_sc _) rfl
  rw [h, h, h, h, h]
  refine ite_eq_sc U.out rfl rfl (ite_eq_sc U.out rfl rfl (ite_eq_sc U.out rfl rfl (ite_eq_sc U.out rfl rfl
    (ite_eq_sc U.out rfl rfl rfl))))

theorem hlldFlux_units (a : ℝ) (o : HlldOut ℝ) : hlldFlux (U.B * a) (U.out o) = U.flux (hlldFlux a o) := by
  unfold hlldFlux
  simp only [MhdUnits.flux, MhdUnits.out, MhdUnits.B, RealOps.lit_real]
  refine MS.ext ?_ ?_ ?_ ?_ ?_ ?_ ?_ ?_ <;> dsimp only <;> ring

theorem hlldTail_units (a sg sl sr u p : ℝ) (l r : HlldOut ℝ) :
    hlldTail (U.B * a) sg (U.V * sl) (U.V * sr) (U.V * u) (U.r ^ 2 * U.V ^ 2 * p) (U.out l) (U.out r) =
      U.flux (hlldTail a sg sl sr u p l r) := by
  unfold hlldTail
  have h1 := hlldStar_units U a l.ro l.uo l.vo l.wo l.bo l.co l.etoto l.ptoto l.vdotbo sl u p
  have h2 := hlldStar_units U a r.ro r.uo r.vo r.wo r.bo r.co r.etoto r.ptoto r.vdotbo sr u p
  dsimp only [MhdUnits.out] at h1 h2 ⊢
  rw [h1, h2]
  generalize hlldStar a l.ro l.uo l.vo l.wo l.bo l.co l.etoto l.ptoto l.vdotbo sl u p = L
  generalize hlldStar a r.ro r.uo r.vo r.wo r.bo r.co r.etoto r.ptoto r.vdotbo sr u p = Rt
  rw [hlldSS_units, hlldStarOut_units, hlldStarOut_units]
  have e1 : U.V * u - (U.star L).calfven = U.V * (u - L.calfven) := by simp only [MhdUnits.star]; ring
  have e2 : U.V * u + (U.star Rt).calfven = U.V * (u + Rt.calfven) := by simp only [MhdUnits.star]; ring
  rw [e1, e2]
  exact (congrArg _ (hlldSample_units U _ _ _ _ _ _ _ _ _ _ _)).trans (hlldFlux_units U _ _)

theorem hlldBody_units (a sg sl sr : ℝ) (l r : HlldOut ℝ) :
    hlldBody (U.B * a) sg (U.V * sl) (U.V * sr) (U.out l) (U.out r) = U.flux (hlldBody a sg sl sr l r) := by
  have hr := U.hr
  have hV := U.hV
  have hDV : 0 < U.r ^ 2 * U.V := by positivity
  unfold hlldBody
  extract_lets cl cr u p cl' cr' u' p'
  have h_cl : cl = U.r ^ 2 * U.V * cl' := by simp only [cl, cl', MhdUnits.out]; ring
  have h_cr : cr = U.r ^ 2 * U.V * cr' := by simp only [cr, cr', MhdUnits.out]; ring
  have h_u : u = U.V * u' := div_sc (a := U.r ^ 2 * U.V ^ 2) (by positivity) hDV
    (by rw [h_cl, h_cr]; simp only [MhdUnits.out]; ring) (by rw [h_cl, h_cr]; ring) (by ring)
  have h_p : p = U.r ^ 2 * U.V ^ 2 * p' := div_sc (a := U.r ^ 4 * U.V ^ 3) (by positivity) hDV
    (by rw [h_cl, h_cr]; simp only [MhdUnits.out]; ring) (by rw [h_cl, h_cr]; ring) (by ring)
  rw [h_u, h_p]
  exact hlldTail_units U a sg sl sr u' p' l r

theorem riemannMhdHlld_units (s : Settings ℝ) (l r : MS ℝ) :
    riemannMhdHlld (U.settings s) (U.prim l) (U.prim r) = U.flux (riemannMhdHlld s l r) := by
  have hV := U.hV
  unfold riemannMhdHlld
  rw [mean_units]
  generalize lit (1/2) * (l.a + r.a) = a
  dsimp only
  rw [hlldIn_units, hlldIn_units]
  generalize hlldIn s a l = l
  generalize hlldIn s a r = r
  rw [findSpeedFast_units, findSpeedFast_units, hlldSide_units, hlldSide_units,
    show geb (U.B * a) (lit 0) = geb a (lit 0) from le_sc U.B_pos (zero_sc _) rfl,
    max_sc hV (x := U.V * findSpeedFast s 0 l) rfl rfl,
    min_sc hV (x := (U.prim l).u) (y := (U.prim r).u) (a := l.u) (b := r.u) rfl rfl,
    max_sc hV (x := (U.prim l).u) (y := (U.prim r).u) (a := l.u) (b := r.u) rfl rfl, ← mul_sub, ← mul_add]
  exact hlldBody_units U _ _ _ _ _ _

theorem fluxM_zero_units : U.flux MS.zero = MS.zero := by
  simp [MhdUnits.flux, MS.zero, RealOps.lit_real]

theorem riemannMhd_units (s : Settings ℝ) (t : RiemannType) (l r : MS ℝ) :
    riemannMhd (U.settings s) t (U.prim l) (U.prim r) MS.zero = U.flux (riemannMhd s t l r MS.zero) := by
  cases t <;> simp only [riemannMhd, riemannMhdHll_units, riemannMhdLlf_units, riemannMhdHlld_units, fluxM_zero_units]

/-! ## Electromotive force -/

/-- corner star values in the new units -/
noncomputable def Spec.MhdUnits.mag (o : MagStar ℝ) : MagStar ℝ :=
  ⟨U.r ^ 2 * o.rx, U.B * o.B, U.r ^ 2 * o.ry, U.B * o.A, U.r ^ 2 * o.r, U.B * U.V * o.Ex, U.B * U.V * o.Ey,
    U.B * U.V * o.E⟩

theorem magStar_units (q : MS ℝ) (SX SY u v : ℝ) :
    magStar (U.prim q) (U.V * SX) (U.V * SY) (U.V * u) (U.V * v) = U.mag (magStar q SX SY u v) := by
  have hr := U.hr
  have hV := U.hV
  have hB := U.B_pos
  unfold magStar
  extract_lets rx B ry A rr Ex Ey E rx' B' ry' A' rr' Ex' Ey' E'
  have h_rx : rx = U.r ^ 2 * rx' := div_sc (a := U.r ^ 2 * U.V) (by positivity) hV
    (by simp only [MhdUnits.prim]; ring) (by ring) (by ring)
  have h_ry : ry = U.r ^ 2 * ry' := div_sc (a := U.r ^ 2 * U.V) (by positivity) hV
    (by simp only [MhdUnits.prim]; ring) (by ring) (by ring)
  have h_B : B = U.B * B' := div_sc (a := U.B * U.V) (by positivity) hV
    (by simp only [MhdUnits.prim]; ring) (by ring) (by ring)
  have h_A : A = U.B * A' := div_sc (a := U.B * U.V) (by positivity) hV
    (by simp only [MhdUnits.prim]; ring) (by ring) (by ring)
  have h_rr : rr = U.r ^ 2 * rr' := div_sc (a := U.r ^ 2 * U.V) (by positivity) hV
    (by show rx * (U.V * SY - (U.prim q).v) = _; rw [h_rx]; simp only [MhdUnits.prim, rx']; ring) (by ring) (by ring)
  have h_Ex : Ex = U.B * U.V * Ex' := by simp only [Ex, Ex', h_B, MhdUnits.prim]; ring
  have h_Ey : Ey = U.B * U.V * Ey' := by simp only [Ey, Ey', h_A, MhdUnits.prim]; ring
  have h_E : E = U.B * U.V * E' := by simp only [E, E', h_A, h_B]; ring
  rw [h_rx, h_ry, h_B, h_A, h_rr, h_Ex, h_Ey, h_E]
  rfl

theorem posBit_units (x : ℝ) : posBit (U.V * x) = posBit x := by
  unfold posBit; rw [copysign_sc U.hV rfl]

theorem magSelect_units (SL SR SB ST AL AR AB AT : ℝ) (qLL qRL qLR qRR : MS ℝ) (LL RL LR RR : MagStar ℝ)
    (ELL ERL ELR ERR : ℝ) :
    magSelect (U.V * SL) (U.V * SR) (U.V * SB) (U.V * ST) (U.V * AL) (U.V * AR) (U.V * AB) (U.V * AT)
      (U.prim qLL) (U.prim qRL) (U.prim qLR) (U.prim qRR) (U.mag LL) (U.mag RL) (U.mag LR) (U.mag RR)
      (U.B * U.V * ELL) (U.B * U.V * ERL) (U.B * U.V * ELR) (U.B * U.V * ERR) =
    U.B * U.V * magSelect SL SR SB ST AL AR AB AT qLL qRL qLR qRR LL RL LR RR ELL ERL ELR ERR := by
  have hV := U.hV
  have hB := U.B_pos
  have hBV : 0 < U.B * U.V := by positivity
  have hBV2 : 0 < U.B * U.V ^ 2 := by positivity
  unfold magSelect
  extract_lets a1 a2 b1 b2 p1 p2 p3 p4 E0 t1 E1 t2 t3 E2 t4 t5 E3 t6 E4 t7
    a1' a2' b1' b2' p1' p2' p3' p4' t1' E1' t2' t3' E2' t4' t5' E3' t6' E4' t7'
  have h_p1 : p1 = p1' := posBit_units U _
  have h_p2 : p2 = p2' := posBit_units U _
  have h_p3 : p3 = p3' := posBit_units U _
  have h_p4 : p4 = p4' := posBit_units U _
  have e1 : U.V * AR - U.V * AL = U.V * (AR - AL) := by ring
  have e2 : U.V * AT - U.V * AB = U.V * (AT - AB) := by ring
  have h_a1 : a1 = U.B * a1' := div_sc (a := U.B * U.V) (by positivity) hV (by simp only [MhdUnits.mag]; ring) e1 (by ring)
  have h_a2 : a2 = U.B * a2' := div_sc (a := U.B * U.V) (by positivity) hV (by simp only [MhdUnits.mag]; ring) e1 (by ring)
  have h_b1 : b1 = U.B * b1' := div_sc (a := U.B * U.V) (by positivity) hV (by simp only [MhdUnits.mag]; ring) e2 (by ring)
  have h_b2 : b2 = U.B * b2' := div_sc (a := U.B * U.V) (by positivity) hV (by simp only [MhdUnits.mag]; ring) e2 (by ring)
  have k1 : U.V * AT * (U.V * AB) / (U.V * AT - U.V * AB) = U.V * (AT * AB / (AT - AB)) :=
    div_sc (a := U.V ^ 2) (by positivity) hV (by ring) e2 (by ring)
  have k2 : U.V * AR * (U.V * AL) / (U.V * AR - U.V * AL) = U.V * (AR * AL / (AR - AL)) :=
    div_sc (a := U.V ^ 2) (by positivity) hV (by ring) e1 (by ring)
  have h_t1 : t1 = U.B * U.V * t1' := by
    simp only [t1, t1']
    rw [k1, k2, h_a1, h_a2, h_b1, h_b2,
      div_sc (a := U.B * U.V ^ 2) (b := U.V) (c := U.B * U.V) hBV2 hV (y' := AT - AB)
        (x' := (AL * AB * RR.E - AL * AT * RL.E - AR * AB * LR.E + AR * AT * LL.E) / (AR - AL)) ?_ e2 (by ring)]
    · ring
    · exact div_sc (a := U.B * U.V ^ 3) (by positivity) hV (by simp only [MhdUnits.mag]; ring) e1 (by ring)
  have h_t2 : t2 = U.B * U.V * t2' := div_sc hBV2 hV
    (by simp only [MhdUnits.mag, MhdUnits.prim]; ring) e1 (by ring)
  have h_t4 : t4 = U.B * U.V * t4' := div_sc hBV2 hV
    (by simp only [MhdUnits.mag, MhdUnits.prim]; ring) e1 (by ring)
  have h_t6 : t6 = U.B * U.V * t6' := div_sc hBV2 hV
    (by simp only [MhdUnits.mag, MhdUnits.prim]; ring) e2 (by ring)
  have h_t7 : t7 = U.B * U.V * t7' := div_sc hBV2 hV
    (by simp only [MhdUnits.mag, MhdUnits.prim]; ring) e2 (by ring)
  have h_t3 : t3 = U.B * U.V * t3' := by simp only [t3, t3', h_t2, h_p3, h_p4]; ring
  have h_t5 : t5 = U.B * U.V * t5' := by simp only [t5, t5', h_t4, h_p3, h_p4]; ring
  have h_E1 : E1 = U.B * U.V * E1' := by simp only [E1, E1', E0, h_t1, h_p1, h_p2, h_p3, h_p4, RealOps.lit_real]; push_cast; ring
  have h_E2 : E2 = U.B * U.V * E2' := by simp only [E2, E2', h_E1, h_t3, h_p1]; ring
  have h_E3 : E3 = U.B * U.V * E3' := by simp only [E3, E3', h_E2, h_t5, h_p1, h_p2]; ring
  have h_E4 : E4 = U.B * U.V * E4' := by simp only [E4, E4', h_E3, h_t6, h_p1, h_p2, h_p3]; ring
  rw [h_E4, h_t7, h_p1, h_p2, h_p3, h_p4]; ring

theorem fmax4_units (a b c d : ℝ) : fmax4 (U.V * a) (U.V * b) (U.V * c) (U.V * d) = U.V * fmax4 a b c d := by
  have hV := U.hV
  unfold fmax4
  have m : ∀ x y : ℝ, (if gtb (U.V * x) (U.V * y) = true then U.V * x else U.V * y) =
      U.V * (if gtb x y = true then x else y) := fun x y => ite_sc (lt_sc hV rfl rfl) rfl rfl
  simp only [m]

theorem fmin4_units (a b c d : ℝ) : fmin4 (U.V * a) (U.V * b) (U.V * c) (U.V * d) = U.V * fmin4 a b c d := by
  have hV := U.hV
  unfold fmin4
  have m : ∀ x y : ℝ, (if RealOps.lt (U.V * x) (U.V * y) = true then U.V * x else U.V * y) =
      U.V * (if RealOps.lt x y = true then x else y) := fun x y => ite_sc (lt_sc hV rfl rfl) rfl rfl
  simp only [m]

theorem fmax5_units {a b c d e a' b' c' d' e' : ℝ} (ha : a = U.V * a') (hb : b = U.V * b') (hc : c = U.V * c')
    (hd : d = U.V * d') (he : e = U.V * e') : fmax5 a b c d e = U.V * fmax5 a' b' c' d' e' := by
  have hV := U.hV
  subst ha hb hc hd he
  unfold fmax5
  have m : ∀ x y : ℝ, (if gtb (U.V * x) (U.V * y) = true then U.V * x else U.V * y) =
      U.V * (if gtb x y = true then x else y) := fun x y => ite_sc (lt_sc hV rfl rfl) rfl rfl
  simp only [m]

theorem alfven_units {b d b' d' : ℝ} (hb : b = U.B * b') (hd : d = U.r ^ 2 * d') :
    fabs b / RealOps.sqrt d = U.V * (fabs b' / RealOps.sqrt d') :=
  div_sc U.B_pos U.hr (abs_sc U.B_pos hb) (sqrt_sc U.hr hd) rfl

theorem magTail_units (s : Settings ℝ) (qLL qRL qLR qRR : MS ℝ) (ELL ERL ELR ERR SL SR SB ST u v : ℝ) :
    magTail (U.settings s) (U.prim qLL) (U.prim qRL) (U.prim qLR) (U.prim qRR) (U.B * U.V * ELL) (U.B * U.V * ERL)
      (U.B * U.V * ELR) (U.B * U.V * ERR) (U.V * SL) (U.V * SR) (U.V * SB) (U.V * ST) (U.V * u) (U.V * v) =
    U.B * U.V * magTail s qLL qRL qLR qRR ELL ERL ELR ERR SL SR SB ST u v := by
  have hV := U.hV
  unfold magTail
  extract_lets LL LR RL RR cL cR cB cT AL AR AB AT LL' LR' RL' RR' cL' cR' cB' cT' AL' AR' AB' AT'
  have h_LL : LL = U.mag LL' := magStar_units U _ _ _ _ _
  have h_LR : LR = U.mag LR' := magStar_units U _ _ _ _ _
  have h_RL : RL = U.mag RL' := magStar_units U _ _ _ _ _
  have h_RR : RR = U.mag RR' := magStar_units U _ _ _ _ _
  have h_cL : cL = U.V * cL' := fmax5_units U (alfven_units U rfl (by rw [h_LR]; rfl))
    (alfven_units U (by rw [h_LR]; rfl) (by rw [h_LR]; rfl)) (alfven_units U rfl (by rw [h_LL]; rfl))
    (alfven_units U (by rw [h_LL]; rfl) (by rw [h_LL]; rfl)) rfl
  have h_cR : cR = U.V * cR' := fmax5_units U (alfven_units U rfl (by rw [h_RR]; rfl))
    (alfven_units U (by rw [h_RR]; rfl) (by rw [h_RR]; rfl)) (alfven_units U rfl (by rw [h_RL]; rfl))
    (alfven_units U (by rw [h_RL]; rfl) (by rw [h_RL]; rfl)) rfl
  have h_cB : cB = U.V * cB' := fmax5_units U (alfven_units U rfl (by rw [h_LL]; rfl))
    (alfven_units U (by rw [h_LL]; rfl) (by rw [h_LL]; rfl)) (alfven_units U rfl (by rw [h_RL]; rfl))
    (alfven_units U (by rw [h_RL]; rfl) (by rw [h_RL]; rfl)) rfl
  have h_cT : cT = U.V * cT' := fmax5_units U (alfven_units U rfl (by rw [h_LR]; rfl))
    (alfven_units U (by rw [h_LR]; rfl) (by rw [h_LR]; rfl)) (alfven_units U rfl (by rw [h_RR]; rfl))
    (alfven_units U (by rw [h_RR]; rfl) (by rw [h_RR]; rfl)) rfl
  have h_AL : AL = U.V * AL' := min_sc hV (by rw [h_cL]; ring) (zero_sc _)
  have h_AR : AR = U.V * AR' := max_sc hV (by rw [h_cR]; ring) (zero_sc _)
  have h_AB : AB = U.V * AB' := min_sc hV (by rw [h_cB]; ring) (zero_sc _)
  have h_AT : AT = U.V * AT' := max_sc hV (by rw [h_cT]; ring) (zero_sc _)
  rw [h_AL, h_AR, h_AB, h_AT, h_LL, h_LR, h_RL, h_RR]
  exact magSelect_units U ..

theorem magPtot_units (q : MS ℝ) : magPtot (U.prim q) = U.r ^ 2 * U.V ^ 2 * magPtot q := by
  simp only [magPtot, MhdUnits.prim, MhdUnits.B]; ring

theorem magBody_units (s : Settings ℝ) (qLL qRL qLR qRR : MS ℝ) (ELL ERL ELR ERR SL SR SB ST : ℝ) :
    magBody (U.settings s) (U.prim qLL) (U.prim qRL) (U.prim qLR) (U.prim qRR) (U.B * U.V * ELL) (U.B * U.V * ERL)
      (U.B * U.V * ELR) (U.B * U.V * ERR) (U.V * SL) (U.V * SR) (U.V * SB) (U.V * ST) =
    U.B * U.V * magBody s qLL qRL qLR qRR ELL ERL ELR ERR SL SR SB ST := by
  have hr := U.hr
  have hV := U.hV
  have hDV : 0 < U.r ^ 2 * U.V := by positivity
  have hP : 0 < U.r ^ 2 * U.V ^ 2 := by positivity
  unfold magBody
  extract_lets P1 P2 P3 P4 c1 c2 c3 c4 c5 c6 c7 c8 u v P1' P2' P3' P4' c1' c2' c3' c4' c5' c6' c7' c8' u' v'
  have h_u : u = U.V * u' := div_sc hP hDV
    (by simp only [P1, P2, P3, P4, P1', P2', P3', P4', magPtot_units]; simp only [c1, c2, c3, c4, c1', c2', c3', c4', MhdUnits.prim]; ring)
    (by simp only [c1, c2, c3, c4, c1', c2', c3', c4', MhdUnits.prim]; ring) (by ring)
  have h_v : v = U.V * v' := div_sc hP hDV
    (by simp only [P1, P2, P3, P4, P1', P2', P3', P4', magPtot_units]; simp only [c5, c6, c7, c8, c5', c6', c7', c8', MhdUnits.prim]; ring)
    (by simp only [c5, c6, c7, c8, c5', c6', c7', c8', MhdUnits.prim]; ring) (by ring)
  rw [h_u, h_v]
  exact magTail_units U ..

theorem magRiemann2dHlld_units (s : Settings ℝ) (qLL qRL qLR qRR : MS ℝ) (ELL ERL ELR ERR : ℝ) :
    magRiemann2dHlld (U.settings s) (U.prim qLL) (U.prim qRL) (U.prim qLR) (U.prim qRR) (U.B * U.V * ELL)
      (U.B * U.V * ERL) (U.B * U.V * ELR) (U.B * U.V * ERR) =
    U.B * U.V * magRiemann2dHlld s qLL qRL qLR qRR ELL ERL ELR ERR := by
  unfold magRiemann2dHlld
  simp only [findSpeedFast_units]
  dsimp only [MhdUnits.prim]
  simp only [fmax4_units, fmin4_units, ← mul_sub, ← mul_add]
  exact magBody_units U s qLL qRL qLR qRR ELL ERL ELR ERR _ _ _ _

theorem frame_units (dir : EmfDir) (q : MS ℝ) : dir.frame (U.prim q) = U.prim (dir.frame q) := by
  cases dir <;> rfl

/-- edge states in the new units -/
noncomputable def Spec.MhdUnits.edge (e : Edge4 ℝ) : Edge4 ℝ := ⟨U.prim e.rt, U.prim e.rb, U.prim e.lt, U.prim e.lb⟩

theorem computeEmf_units (s : Settings ℝ) (dir : EmfDir) (e : Edge4 ℝ) :
    computeEmf (U.settings s) dir (U.edge e) = U.B * U.V * computeEmf s dir e := by
  unfold computeEmf
  dsimp only [MhdUnits.edge]
  simp only [frame_units]
  generalize dir.frame e.rt = rt
  generalize dir.frame e.rb = rb
  generalize dir.frame e.lt = lt
  generalize dir.frame e.lb = lb
  simp only [iso_units]
  generalize (if gtb s.cIso (lit 0) = true then rt.d * s.cIso * s.cIso else rt.p) = p1
  generalize (if gtb s.cIso (lit 0) = true then rb.d * s.cIso * s.cIso else rb.p) = p2
  generalize (if gtb s.cIso (lit 0) = true then lt.d * s.cIso * s.cIso else lt.p) = p3
  generalize (if gtb s.cIso (lit 0) = true then lb.d * s.cIso * s.cIso else lb.p) = p4
  have hm : ∀ x y : ℝ, lit (1/2) * (U.B * x + U.B * y) = U.B * (lit (1/2) * (x + y)) := by intro x y; ring
  have hE : ∀ u b v a : ℝ, U.V * u * (U.B * b) - U.V * v * (U.B * a) = U.B * U.V * (u * b - v * a) := by
    intro u b v a; ring
  dsimp only [MhdUnits.prim]
  simp only [hm, hE]
  exact magRiemann2dHlld_units U s ⟨rt.d, p1, rt.u, rt.v, rt.w, _, _, rt.c⟩ ⟨lt.d, p3, lt.u, lt.v, lt.w, _, _, lt.c⟩
    ⟨rb.d, p2, rb.u, rb.v, rb.w, _, _, rb.c⟩ ⟨lb.d, p4, lb.u, lb.v, lb.w, _, _, lb.c⟩ _ _ _ _

end EulerKokkos
