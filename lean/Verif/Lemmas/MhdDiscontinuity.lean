import Verif.Props.C55
import Verif.Spec.Discontinuity

/-!
# HLLD between states with the same normal velocity and total pressure
-/

set_option linter.constructorNameAsVariable false
set_option linter.unusedSectionVars false
set_option linter.unusedSimpArgs false
set_option linter.unusedVariables false

namespace EulerKokkos
open Spec

/-- star values of a side that is not changed by the outer wave -/
noncomputable def keepStar (a : ℝ) (o : HlldOut ℝ) : HlldStar ℝ :=
  ⟨o.ro, o.vo, o.wo, o.bo, o.co, o.vdotbo, o.etoto, Real.sqrt o.ro, |a| / Real.sqrt o.ro⟩

theorem hlldStar_keep {a sk : ℝ} {o : HlldOut ℝ} (hv : o.vdotbo = o.uo * a + o.vo * o.bo + o.wo * o.co)
    (hs : sk - o.uo ≠ 0) (he : o.ro * (sk - o.uo) * (sk - o.uo) - a * a ≠ 0) :
    hlldStar a o.ro o.uo o.vo o.wo o.bo o.co o.etoto o.ptoto o.vdotbo sk o.uo o.ptoto = keepStar a o := by
  unfold keepStar
  rw [hv]
  exact hlldStar_same hs he

/-- fast speeds dominate the Alfven speed, strictly outside the switch-like case -/
theorem fast_gt_alfven {γ : ℝ} (hg : 1 < γ) {q : MS ℝ} (hq : PhysM q) (hsw : ¬ Switchlike γ q) :
    q.a ^ 2 < q.d * fastSpeed γ q.a q ^ 2 := by
  let s : Settings ℝ := ⟨γ, 0, 0, 0, 0, 0, 0, 0, 0⟩
  have h := (fast_lower (s := s) hg hq 0).2
  have hsp := findSpeedFast_spec (s := s) hg hq 0
  change findSpeedFast s 0 q = fastSpeed γ q.a q at hsp
  rw [hsp] at h
  have h2 : q.bsq = q.a * q.a + q.b * q.b + q.c * q.c := rfl
  have hne := fun e => hsw ((fast_eq_alfven hg hq).1 e)
  refine lt_of_le_of_ne ?_ (fun e => hne e.symm)
  nlinarith [mul_self_nonneg q.b, mul_self_nonneg q.c]

theorem hlldBody_keep {a g c : ℝ} {l r : HlldOut ℝ} (hc : 0 < c) (hu : l.uo = r.uo) (hp : l.ptoto = r.ptoto)
    (hl : 0 < l.ro) (hr : 0 < r.ro)
    (hvl : l.vdotbo = l.uo * a + l.vo * l.bo + l.wo * l.co)
    (hvr : r.vdotbo = r.uo * a + r.vo * r.bo + r.wo * r.co)
    (hel : l.ro * c ^ 2 - a ^ 2 ≠ 0) (her : r.ro * c ^ 2 - a ^ 2 ≠ 0) :
    hlldBody a g (l.uo - c) (l.uo + c) l r =
      hlldFlux a (hlldSample (l.uo - c) (l.uo - |a| / Real.sqrt l.ro) l.uo (l.uo + |a| / Real.sqrt r.ro) (l.uo + c)
        l l (hlldSS a g l.uo l.ptoto (keepStar a l) (keepStar a r)).1
        (hlldSS a g l.uo l.ptoto (keepStar a l) (keepStar a r)).2 r r) := by
  have hd : r.ro * (l.uo + c - r.uo) + l.ro * (l.uo - (l.uo - c)) ≠ 0 := by
    rw [← hu]
    have : r.ro * (l.uo + c - l.uo) + l.ro * (l.uo - (l.uo - c)) = (r.ro + l.ro) * c := by ring
    rw [this]; positivity
  have u1 : (r.ro * (l.uo + c - r.uo) * r.uo + l.ro * (l.uo - (l.uo - c)) * l.uo + (l.ptoto - r.ptoto)) /
      (r.ro * (l.uo + c - r.uo) + l.ro * (l.uo - (l.uo - c))) = l.uo := by
    rw [div_eq_iff hd, hp, ← hu]; ring
  have u2 : (r.ro * (l.uo + c - r.uo) * l.ptoto + l.ro * (l.uo - (l.uo - c)) * r.ptoto +
      l.ro * (l.uo - (l.uo - c)) * (r.ro * (l.uo + c - r.uo)) * (l.uo - r.uo)) /
      (r.ro * (l.uo + c - r.uo) + l.ro * (l.uo - (l.uo - c))) = l.ptoto := by
    rw [div_eq_iff hd, ← hp, ← hu]; ring
  have s1 := hlldStar_keep (sk := l.uo - c) hvl (by linarith)
    (by intro h; apply hel; linear_combination h)
  have s2 := hlldStar_keep (sk := l.uo + c) hvr (by rw [← hu]; linarith)
    (by rw [← hu]; intro h; apply her; linear_combination h)
  unfold hlldBody hlldTail
  simp only [u1, u2, s1]
  rw [← hu, ← hp] at s2
  have e2 : hlldStar a r.ro r.uo r.vo r.wo r.bo r.co r.etoto r.ptoto r.vdotbo (l.uo + c) l.uo l.ptoto = keepStar a r := by
    rw [← hu, ← hp]; exact s2
  rw [e2]
  have o1 : hlldStarOut (keepStar a l) l.uo l.ptoto = l := rfl
  have o2 : hlldStarOut (keepStar a r) l.uo l.ptoto = r := by rw [hu, hp]; rfl
  rw [o1, o2]
  rfl

section
variable {s : Settings ℝ} (hs : GoodSettings s) (hi : s.cIso = 0) {l r : MS ℝ} (hl : PhysM l) (hr : PhysM r)
  (ha : l.a = r.a) (hu : l.u = r.u) (hp : totalPressure l = totalPressure r)
  (hsl : ¬ Switchlike s.gamma0 l) (hsr : ¬ Switchlike s.gamma0 r)
include hs hi hl hr ha hu hp hsl hsr

/-- HLLD between states with equal normal velocity, normal field and total pressure: only the Alfven waves and the
contact are inside the fan -/
theorem hlld_keep : ∃ c : ℝ, 0 < c ∧ |l.a| / Real.sqrt l.d < c ∧ |l.a| / Real.sqrt r.d < c ∧
    let o := fun q => hlldSide (lit 1 / (s.gamma0 - lit 1)) l.a q
    let ss := hlldSS l.a (signOf l.a) l.u (o l).ptoto (keepStar l.a (o l)) (keepStar l.a (o r))
    riemannMhdHlld s l r = hlldFlux l.a (hlldSample (l.u - c) (l.u - |l.a| / Real.sqrt l.d) l.u
      (l.u + |l.a| / Real.sqrt r.d) (l.u + c) (o l) (o l) ss.1 ss.2 (o r) (o r)) := by
  have hg := hs.gamma
  have h0 : ¬ 0 < s.cIso := by rw [hi]; exact lt_irrefl _
  have ea : (lit (1/2) : ℝ) * (l.a + r.a) = l.a := by
    rw [RealOps.lit_real, ← ha]; push_cast; ring
  have il : hlldIn s l.a l = l := by
    unfold hlldIn
    rw [if_neg (by simp [gtb, RealOps.lit_real, hi])]
  have ir : hlldIn s l.a r = r := by
    unfold hlldIn
    rw [if_neg (by simp [gtb, RealOps.lit_real, hi]), ha]
  set c := max (fastSpeed s.gamma0 l.a l) (fastSpeed s.gamma0 r.a r) with hcd
  have hfl := fast_gt_alfven hg hl hsl
  have hfr := fast_gt_alfven hg hr hsr
  have pl : 0 < fastSpeed s.gamma0 l.a l := fastSpeed_pos hg hl l.a
  have pr : 0 < fastSpeed s.gamma0 r.a r := fastSpeed_pos hg hr r.a
  have cl : fastSpeed s.gamma0 l.a l ≤ c := le_max_left _ _
  have cr : fastSpeed s.gamma0 r.a r ≤ c := le_max_right _ _
  have hc : 0 < c := pl.trans_le cl
  have hld := hl.d
  have hrd := hr.d
  have kl : l.a ^ 2 < l.d * c ^ 2 := hfl.trans_le (by gcongr)
  have kr : l.a ^ 2 < r.d * c ^ 2 := by rw [ha]; exact hfr.trans_le (by gcongr)
  have al : ∀ d : ℝ, 0 < d → l.a ^ 2 < d * c ^ 2 → |l.a| / Real.sqrt d < c := by
    intro d hd h
    have hq := Real.sqrt_pos.2 hd
    rw [div_lt_iff₀ hq]
    refine abs_lt_of_sq_lt_sq ?_ (by positivity)
    rw [mul_pow, Real.sq_sqrt hd.le]; linarith
  refine ⟨c, hc, al _ hld kl, al _ hrd kr, ?_⟩
  intro o ss
  unfold riemannMhdHlld
  have es := code_signOf l.a
  simp only [ea, il, ir, findSpeedFast_spec hg hl, findSpeedFast_spec hg hr, RealOps.fmin_real, RealOps.fmax_real,
    ← hu, min_self, max_self, es]
  exact hlldBody_keep (l := o l) (r := o r) hc hu (by
      show l.p + lit (1/2) * (l.a * l.a + l.b * l.b + l.c * l.c) = r.p + lit (1/2) * (l.a * l.a + r.b * r.b + r.c * r.c)
      have := hp
      unfold totalPressure magPressure at this
      rw [← ha] at this
      rw [RealOps.lit_real]; push_cast; linear_combination this) hld hrd rfl rfl
    (by show l.d * c ^ 2 - l.a ^ 2 ≠ 0; linarith) (by show r.d * c ^ 2 - l.a ^ 2 ≠ 0; linarith)
end

end EulerKokkos
