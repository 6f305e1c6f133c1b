import Verif.Lemmas.MhdTextbook
import Mathlib.Tactic.LinearCombination

/-!
# `riemann_hlld` against Miyoshi & Kusano (exact arithmetic)
-/

set_option linter.unusedSimpArgs false
set_option linter.constructorNameAsVariable false
set_option linter.unusedSectionVars false
set_option linter.unnecessarySeqFocus false

namespace EulerKokkos

open Spec

attribute [local ext] MS

/-- physical flux of a state of the fan with total pressure `pT` -/
noncomputable def fanFlux (pT : ℝ) (m : MS ℝ) : MS ℝ :=
  ⟨m.d * m.u, (m.p + pT) * m.u - m.a * (m.u * m.a + m.v * m.b + m.w * m.c),
    m.d * m.u * m.u - m.a * m.a + pT, m.d * m.u * m.v - m.a * m.b, m.d * m.u * m.w - m.a * m.c, 0,
    m.b * m.u - m.a * m.v, m.c * m.u - m.a * m.w⟩

/-- transverse components across the outer wave -/
theorem star_trans {S SM a d u v b : ℝ}
    (he : d * (S - u) * (S - SM) - a ^ 2 ≠ 0) :
    let D := d * (S - u) * (S - SM) - a ^ 2
    let v' := v - a * b * (SM - u) / D
    let b' := b * ((d * (S - u) ^ 2 - a ^ 2) / D)
    d * (S - u) * (v - v') = a * (b' - b) ∧ (S - u) * b + a * v = (S - SM) * b' + a * v' := by
  intro D v' b'
  constructor
  · have hd : D = d * (S - u) * (S - SM) - a ^ 2 := rfl
    have h0 : D ≠ 0 := he
    simp only [v', b']
    clear_value D
    field_simp
    linear_combination (a * b) * hd
  · have hd : D = d * (S - u) * (S - SM) - a ^ 2 := rfl
    have h0 : D ≠ 0 := he
    simp only [v', b']
    clear_value D
    field_simp
    linear_combination b * (S - u) * hd

theorem star_jump {γ S SM pT : ℝ} {q : MS ℝ} (hD : S - SM ≠ 0)
    (he : q.d * (S - q.u) * (S - SM) - q.a ^ 2 ≠ 0)
    (hp : pT = totalPressure q + q.d * (S - q.u) * (SM - q.u)) :
    fanFlux pT (starState γ S SM pT q) =
      mhdFlux γ q + S • (fanCons (starState γ S SM pT q) - mhdCons γ q) := by
  obtain ⟨hv, hb⟩ := star_trans (v := q.v) (b := q.b) he
  obtain ⟨hw, hc⟩ := star_trans (v := q.w) (b := q.c) he
  unfold starState
  dsimp only at hv hb hw hc ⊢
  generalize q.v - q.a * q.b * (SM - q.u) / (q.d * (S - q.u) * (S - SM) - q.a ^ 2) = v' at *
  generalize q.w - q.a * q.c * (SM - q.u) / (q.d * (S - q.u) * (S - SM) - q.a ^ 2) = w' at *
  generalize q.b * ((q.d * (S - q.u) ^ 2 - q.a ^ 2) / (q.d * (S - q.u) * (S - SM) - q.a ^ 2)) = b' at *
  generalize q.c * ((q.d * (S - q.u) ^ 2 - q.a ^ 2) / (q.d * (S - q.u) * (S - SM) - q.a ^ 2)) = c' at *
  generalize hr : q.d * (S - q.u) / (S - SM) = r'
  generalize hE : ((S - q.u) * mhdEnergy γ q - totalPressure q * q.u + pT * SM +
      q.a * (q.u * q.a + q.v * q.b + q.w * q.c - (SM * q.a + v' * b' + w' * c'))) / (S - SM) = e'
  rw [div_eq_iff hD] at hr hE
  simp only [fanFlux, fanCons, mhdFlux, mhdCons, ms_add, ms_sub, ms_smul]
  ext <;> dsimp only
  · linear_combination hr
  · linear_combination hE
  · linear_combination SM * hr + hp
  · linear_combination v' * hr + hv
  · linear_combination w' * hr + hw
  · ring
  · linear_combination hb
  · linear_combination hc

theorem signOf_mul (a : ℝ) : signOf a * a = |a| := by
  unfold signOf
  split_ifs with h
  · rw [abs_of_nonneg h]; ring
  · rw [abs_of_neg (not_le.1 h)]; ring

theorem signOf_sq (a : ℝ) : signOf a * signOf a = 1 := by
  unfold signOf
  split_ifs <;> norm_num

theorem sqrt_pos_sum {x y : ℝ} (hx : 0 < x) : Real.sqrt x + Real.sqrt y ≠ 0 := by
  have := Real.sqrt_pos.2 hx
  have := Real.sqrt_nonneg y
  apply ne_of_gt; linarith

/-- across the Alfven waves -/
theorem dstar_jump_l {pT : ℝ} {l r : MS ℝ} (hl : 0 < l.d) (hr : 0 < r.d) :
    fanFlux pT (doubleStar (-1) l r l) =
      fanFlux pT l + (l.u - |l.a| / Real.sqrt l.d) • (fanCons (doubleStar (-1) l r l) - fanCons l) := by
  unfold doubleStar
  have x1 := Real.sqrt_pos.2 hl
  have x2 := Real.sqrt_pos.2 hr
  have x3 := Real.mul_self_sqrt hl.le
  have s1 := signOf_mul l.a
  have s2 := signOf_sq l.a
  generalize signOf l.a = g at *
  rw [← s1]
  generalize Real.sqrt l.d = x at *
  generalize Real.sqrt r.d = y at *
  have key : ∀ vl vr bl br : ℝ, (x * br + y * bl + x * y * (vr - vl) * g) / (x + y) - bl =
      g * x * ((x * vl + y * vr + (br - bl) * g) / (x + y) - vl) := by
    intro vl vr bl br
    have : x + y ≠ 0 := by linarith
    field_simp
    linear_combination (-(x * (br - bl))) * s2
  have hb := key l.v r.v l.b r.b
  have hc := key l.w r.w l.c r.c
  dsimp only
  generalize (x * r.b + y * l.b + x * y * (r.v - l.v) * g) / (x + y) = b' at *
  generalize (x * l.v + y * r.v + (r.b - l.b) * g) / (x + y) = v' at *
  generalize (x * r.c + y * l.c + x * y * (r.w - l.w) * g) / (x + y) = c' at *
  generalize (x * l.w + y * r.w + (r.c - l.c) * g) / (x + y) = w' at *
  have hb' : g * (b' - l.b) = x * (v' - l.v) := by linear_combination g * hb + x * (v' - l.v) * s2
  have hc' : g * (c' - l.c) = x * (w' - l.w) := by linear_combination g * hc + x * (w' - l.w) * s2
  have ex : g * l.a / x * x = g * l.a := by field_simp
  generalize g * l.a / x = k at *
  simp only [fanFlux, fanCons, ms_add, ms_sub, ms_smul]
  ext <;> dsimp only
  · ring
  · linear_combination (-(g * (l.v * l.b + l.w * l.c - v' * b' - w' * c'))) * ex -
      l.a * (l.v * l.b + l.w * l.c - v' * b' - w' * c') * s2
  · ring
  · linear_combination (-(k * (v' - l.v))) * x3 - k * x * hb' + g * (b' - l.b) * ex + l.a * (b' - l.b) * s2
  · linear_combination (-(k * (w' - l.w))) * x3 - k * x * hc' + g * (c' - l.c) * ex + l.a * (c' - l.c) * s2
  · ring
  · linear_combination k * hb + g * (v' - l.v) * ex + l.a * (v' - l.v) * s2
  · linear_combination k * hc + g * (w' - l.w) * ex + l.a * (w' - l.w) * s2

theorem dstar_jump_r {pT : ℝ} {l r : MS ℝ} (hl : 0 < l.d) (hr : 0 < r.d) :
    fanFlux pT (doubleStar 1 l r r) =
      fanFlux pT r + (r.u + |r.a| / Real.sqrt r.d) • (fanCons (doubleStar 1 l r r) - fanCons r) := by
  unfold doubleStar
  have x1 := Real.sqrt_pos.2 hr
  have x2 := Real.sqrt_pos.2 hl
  have x3 := Real.mul_self_sqrt hr.le
  have s1 := signOf_mul r.a
  have s2 := signOf_sq r.a
  generalize signOf r.a = g at *
  rw [← s1]
  generalize Real.sqrt r.d = x at *
  generalize Real.sqrt l.d = y at *
  have key : ∀ vl vr bl br : ℝ, (y * br + x * bl + y * x * (vr - vl) * g) / (y + x) - br =
      -(g * x * ((y * vl + x * vr + (br - bl) * g) / (y + x) - vr)) := by
    intro vl vr bl br
    have : y + x ≠ 0 := by linarith
    field_simp
    linear_combination (x * (br - bl)) * s2
  have hb := key l.v r.v l.b r.b
  have hc := key l.w r.w l.c r.c
  dsimp only
  generalize (y * r.b + x * l.b + y * x * (r.v - l.v) * g) / (y + x) = b' at *
  generalize (y * l.v + x * r.v + (r.b - l.b) * g) / (y + x) = v' at *
  generalize (y * r.c + x * l.c + y * x * (r.w - l.w) * g) / (y + x) = c' at *
  generalize (y * l.w + x * r.w + (r.c - l.c) * g) / (y + x) = w' at *
  have hb' : g * (b' - r.b) = -(x * (v' - r.v)) := by linear_combination g * hb - x * (v' - r.v) * s2
  have hc' : g * (c' - r.c) = -(x * (w' - r.w)) := by linear_combination g * hc - x * (w' - r.w) * s2
  have ex : g * r.a / x * x = g * r.a := by field_simp
  generalize g * r.a / x = k at *
  simp only [fanFlux, fanCons, ms_add, ms_sub, ms_smul]
  ext <;> dsimp only
  · ring
  · linear_combination (-(g * (r.v * r.b + r.w * r.c - v' * b' - w' * c'))) * ex -
      r.a * (r.v * r.b + r.w * r.c - v' * b' - w' * c') * s2
  · ring
  · linear_combination ((k * (v' - r.v))) * x3 - k * x * hb' + g * (b' - r.b) * ex + r.a * (b' - r.b) * s2
  · linear_combination ((k * (w' - r.w))) * x3 - k * x * hc' + g * (c' - r.c) * ex + r.a * (c' - r.c) * s2
  · ring
  · linear_combination (-k) * hb + g * (v' - r.v) * ex + r.a * (v' - r.v) * s2
  · linear_combination (-k) * hc + g * (w' - r.w) * ex + r.a * (w' - r.w) * s2

/-! ### the code -/

/-- the code's record of a state of the fan -/
def HlldOut.IsFan (o : HlldOut ℝ) (a pT : ℝ) (m : MS ℝ) : Prop :=
  o = ⟨m.d, m.u, m.v, m.w, m.b, m.c, pT, m.p, m.u * a + m.v * m.b + m.w * m.c⟩ ∧ m.a = a

theorem hlldFlux_fan {o : HlldOut ℝ} {a pT : ℝ} {m : MS ℝ} (h : o.IsFan a pT m) :
    hlldFlux a o = fanFlux pT m := by
  obtain ⟨rfl, rfl⟩ := h
  simp only [hlldFlux, fanFlux, RealOps.lit_real]
  ext <;> dsimp only <;> push_cast <;> ring

theorem hlldFlux_side (γ : ℝ) (q : MS ℝ) :
    hlldFlux q.a (hlldSide (lit 1 / (γ - lit 1)) q.a q) = mhdFlux γ q := by
  simp only [hlldFlux, hlldSide, mhdFlux, mhdEnergy, totalPressure, magPressure, RealOps.lit_real]
  ext <;> dsimp only <;> push_cast <;> ring

theorem hlldStar_fan {γ S SM pT : ℝ} {q : MS ℝ}
    (hg : q.a ≠ 0 → 1/100000000 < |(q.d * (S - q.u) * (S - SM) - q.a ^ 2) / q.a ^ 2 - 1|) :
    let o := hlldSide (lit 1 / (γ - lit 1)) q.a q
    let L := hlldStar q.a o.ro o.uo o.vo o.wo o.bo o.co o.etoto o.ptoto o.vdotbo S SM pT
    (hlldStarOut L SM pT).IsFan q.a pT (starState γ S SM pT q) ∧
      L.sqrrstar = Real.sqrt (starState γ S SM pT q).d ∧
      L.calfven = |q.a| / Real.sqrt (starState γ S SM pT q).d := by
  intro o L
  have hdeg : (gtb (q.a * q.a) (lit 0) &&
      RealOps.le (fabs ((q.d * (S - q.u) * (S - SM) - q.a * q.a) / (q.a * q.a) - lit 1))
        (lit (1/100000000)) : Bool) = false := by
    by_cases h0 : q.a = 0
    · rw [h0]; simp [gtb, RealOps.lit_real]
    · have := hg h0
      rw [sq] at this
      rw [Bool.and_eq_false_iff]
      right
      rw [RealOps.fabs_real, RealOps.lit_real, RealOps.lit_real, ← Bool.not_eq_true, RealOps.le_real, not_le]
      push_cast
      exact this
  have e1 : q.d * (S - q.u) * (S - SM) - q.a * q.a = q.d * (S - q.u) * (S - SM) - q.a ^ 2 := by ring
  have e2 : q.d * (S - q.u) * (S - q.u) - q.a * q.a = q.d * (S - q.u) ^ 2 - q.a ^ 2 := by ring
  have eL : L = ⟨(starState γ S SM pT q).d, (starState γ S SM pT q).v, (starState γ S SM pT q).w,
      (starState γ S SM pT q).b, (starState γ S SM pT q).c,
      SM * q.a + (starState γ S SM pT q).v * (starState γ S SM pT q).b +
        (starState γ S SM pT q).w * (starState γ S SM pT q).c,
      (starState γ S SM pT q).p, Real.sqrt (starState γ S SM pT q).d,
      |q.a| / Real.sqrt (starState γ S SM pT q).d⟩ := by
    simp only [L, o, hlldStar, hlldSide, hdeg, Bool.false_eq_true, if_false]
    simp only [RealOps.sqrt_real, RealOps.fabs_real, e1, e2]
    have eE : q.p * (lit 1 / (γ - lit 1)) + lit (1/2) * (q.u * q.u + q.v * q.v + q.w * q.w) * q.d +
        lit (1/2) * (q.a * q.a + q.b * q.b + q.c * q.c) = mhdEnergy γ q := by
      simp only [mhdEnergy, magPressure, RealOps.lit_real]; push_cast; ring
    have eP : q.p + lit (1/2) * (q.a * q.a + q.b * q.b + q.c * q.c) = totalPressure q := by
      simp only [totalPressure, magPressure, RealOps.lit_real]; push_cast; ring
    rw [eE, eP]
    simp only [starState, mul_div_assoc]
  refine ⟨⟨?_, rfl⟩, ?_, ?_⟩
  · rw [eL]; rfl
  · rw [eL]
  · rw [eL]

theorem code_signOf (a : ℝ) : (if geb a (lit 0) = true then lit 1 else -lit 1 : ℝ) = signOf a := by
  unfold signOf geb
  simp only [RealOps.lit_real, RealOps.le_real]
  push_cast
  rfl

theorem hlldSS_fan {a SM pT : ℝ} {L Rt : HlldStar ℝ} {ls rs : MS ℝ}
    (hl : (hlldStarOut L SM pT).IsFan a pT ls) (hr : (hlldStarOut Rt SM pT).IsFan a pT rs)
    (el : L.sqrrstar = Real.sqrt ls.d) (er : Rt.sqrrstar = Real.sqrt rs.d) :
    (hlldSS a (signOf a) SM pT L Rt).1.IsFan a pT (doubleStar (-1) ls rs ls) ∧
    (hlldSS a (signOf a) SM pT L Rt).2.IsFan a pT (doubleStar 1 ls rs rs) := by
  obtain ⟨hl, al⟩ := hl
  obtain ⟨hr, ar⟩ := hr
  unfold hlldStarOut at hl hr
  rw [HlldOut.mk.injEq] at hl hr
  obtain ⟨l1, l2, l3, l4, l5, l6, -, l7, l8⟩ := hl
  obtain ⟨r1, r2, r3, r4, r5, r6, -, r7, r8⟩ := hr
  have k1 : ∀ x y z w : ℝ, x * y + z * w + signOf a * (rs.b - ls.b) =
    x * y + z * w + (rs.b - ls.b) * signOf a := by intros; ring
  have k2 : ∀ x y z w : ℝ, x * y + z * w + signOf a * (rs.c - ls.c) =
    x * y + z * w + (rs.c - ls.c) * signOf a := by intros; ring
  have k3 : ∀ x y z w p q : ℝ, x * y + z * w + signOf a * p * q * (rs.v - ls.v) =
    x * y + z * w + p * q * (rs.v - ls.v) * signOf a := by intros; ring
  have k4 : ∀ x y z w p q : ℝ, x * y + z * w + signOf a * p * q * (rs.w - ls.w) =
    x * y + z * w + p * q * (rs.w - ls.w) * signOf a := by intros; ring
  constructor
  · refine ⟨?_, al⟩
    simp only [hlldSS, doubleStar, l1, l3, l4, l5, l6, l7, l8, r1, r3, r4, r5, r6, r7, r8, el, er, al, k1, k2,
      k3, k4, ← l2]
    congr 1
    ring
  · refine ⟨?_, ar⟩
    simp only [hlldSS, doubleStar, l1, l3, l4, l5, l6, l7, l8, r1, r3, r4, r5, r6, r7, r8, el, er, ar, k1, k2,
      k3, k4, ← r2]
    congr 1
    ring

theorem starPressure_side {SL SR : ℝ} {l r : MS ℝ} (hl : 0 < l.d) (hr : 0 < r.d)
    (hl1 : SL < l.u) (hr1 : r.u < SR) :
    starPressure SL SR l r = totalPressure l + l.d * (SL - l.u) * (speedM SL SR l r - l.u) ∧
    starPressure SL SR l r = totalPressure r + r.d * (SR - r.u) * (speedM SL SR l r - r.u) := by
  have h : (SR - r.u) * r.d - (SL - l.u) * l.d ≠ 0 := by
    have := mul_pos hl (sub_pos.2 hl1)
    have := mul_pos hr (sub_pos.2 hr1)
    apply ne_of_gt; linarith
  unfold starPressure speedM
  generalize hD : (SR - r.u) * r.d - (SL - l.u) * l.d = D at *
  constructor
  · field_simp
    linear_combination (totalPressure l - l.d * (SL - l.u) * l.u) * hD
  · field_simp
    linear_combination (totalPressure r - r.d * (SR - r.u) * r.u) * hD

theorem hlldBody_textbook {γ SL SR : ℝ} {l r : MS ℝ} (hn : l.a = r.a) (hl : 0 < l.d) (hr : 0 < r.d)
    (hl1 : SL < l.u) (hr1 : r.u < SR) (hl2 : SL < speedM SL SR l r) (hr2 : speedM SL SR l r < SR)
    (hl3 : l.d * (SL - l.u) * (SL - speedM SL SR l r) ≠ l.a ^ 2)
    (hr3 : r.d * (SR - r.u) * (SR - speedM SL SR l r) ≠ r.a ^ 2)
    (gl : l.a ≠ 0 → 1/100000000 <
      |(l.d * (SL - l.u) * (SL - speedM SL SR l r) - l.a ^ 2) / l.a ^ 2 - 1|)
    (gr : r.a ≠ 0 → 1/100000000 <
      |(r.d * (SR - r.u) * (SR - speedM SL SR l r) - r.a ^ 2) / r.a ^ 2 - 1|) :
    hlldBody l.a (signOf l.a) SL SR (hlldSide (lit 1 / (γ - lit 1)) l.a l)
      (hlldSide (lit 1 / (γ - lit 1)) l.a r) = hlldFluxWith γ SL SR l r := by
  have hu : ((hlldSide (lit 1 / (γ - lit 1)) l.a r).ro * (SR - (hlldSide (lit 1 / (γ - lit 1)) l.a r).uo) *
        (hlldSide (lit 1 / (γ - lit 1)) l.a r).uo +
      (hlldSide (lit 1 / (γ - lit 1)) l.a l).ro * ((hlldSide (lit 1 / (γ - lit 1)) l.a l).uo - SL) *
        (hlldSide (lit 1 / (γ - lit 1)) l.a l).uo +
      ((hlldSide (lit 1 / (γ - lit 1)) l.a l).ptoto - (hlldSide (lit 1 / (γ - lit 1)) l.a r).ptoto)) /
      ((hlldSide (lit 1 / (γ - lit 1)) l.a r).ro * (SR - (hlldSide (lit 1 / (γ - lit 1)) l.a r).uo) +
      (hlldSide (lit 1 / (γ - lit 1)) l.a l).ro * ((hlldSide (lit 1 / (γ - lit 1)) l.a l).uo - SL)) =
      speedM SL SR l r := by
    unfold hlldSide speedM totalPressure magPressure
    rw [hn]
    simp only [RealOps.lit_real]
    push_cast
    congr 1 <;> ring
  have hp : ((hlldSide (lit 1 / (γ - lit 1)) l.a r).ro * (SR - (hlldSide (lit 1 / (γ - lit 1)) l.a r).uo) *
        (hlldSide (lit 1 / (γ - lit 1)) l.a l).ptoto +
      (hlldSide (lit 1 / (γ - lit 1)) l.a l).ro * ((hlldSide (lit 1 / (γ - lit 1)) l.a l).uo - SL) *
        (hlldSide (lit 1 / (γ - lit 1)) l.a r).ptoto +
      (hlldSide (lit 1 / (γ - lit 1)) l.a l).ro * ((hlldSide (lit 1 / (γ - lit 1)) l.a l).uo - SL) *
        ((hlldSide (lit 1 / (γ - lit 1)) l.a r).ro * (SR - (hlldSide (lit 1 / (γ - lit 1)) l.a r).uo)) *
        ((hlldSide (lit 1 / (γ - lit 1)) l.a l).uo - (hlldSide (lit 1 / (γ - lit 1)) l.a r).uo)) /
      ((hlldSide (lit 1 / (γ - lit 1)) l.a r).ro * (SR - (hlldSide (lit 1 / (γ - lit 1)) l.a r).uo) +
      (hlldSide (lit 1 / (γ - lit 1)) l.a l).ro * ((hlldSide (lit 1 / (γ - lit 1)) l.a l).uo - SL)) =
      starPressure SL SR l r := by
    unfold hlldSide starPressure totalPressure magPressure
    rw [hn]
    simp only [RealOps.lit_real]
    push_cast
    congr 1 <;> ring
  obtain ⟨pl, pr⟩ := starPressure_side hl hr hl1 hr1
  unfold hlldBody
  simp only [hu, hp]
  unfold hlldFluxWith hlldTail
  have fl := hlldStar_fan (γ := γ) (pT := starPressure SL SR l r) gl
  have fr := hlldStar_fan (γ := γ) (pT := starPressure SL SR l r) gr
  have dl : 0 < (starState γ SL (speedM SL SR l r) (starPressure SL SR l r) l).d :=
    div_pos_of_neg_of_neg (mul_neg_of_pos_of_neg hl (by linarith)) (by linarith)
  have dr : 0 < (starState γ SR (speedM SL SR l r) (starPressure SL SR l r) r).d :=
    div_pos (mul_pos hr (by linarith)) (by linarith)
  have jl := star_jump (γ := γ) (S := SL) (SM := speedM SL SR l r) (q := l) (by linarith)
    (sub_ne_zero.2 hl3) pl
  have jr := star_jump (γ := γ) (S := SR) (SM := speedM SL SR l r) (q := r) (by linarith)
    (sub_ne_zero.2 hr3) pr
  have ul : (starState γ SL (speedM SL SR l r) (starPressure SL SR l r) l).u = speedM SL SR l r := rfl
  have ur : (starState γ SR (speedM SL SR l r) (starPressure SL SR l r) r).u = speedM SL SR l r := rfl
  have al : (starState γ SL (speedM SL SR l r) (starPressure SL SR l r) l).a = l.a := rfl
  have ar : (starState γ SR (speedM SL SR l r) (starPressure SL SR l r) r).a = r.a := rfl
  have ol := hlldFlux_side γ l
  have or' := hlldFlux_side γ r
  rw [← hn] at fr or'
  dsimp only at fl fr ⊢
  obtain ⟨fl1, fl2, fl3⟩ := fl
  obtain ⟨fr1, fr2, fr3⟩ := fr
  generalize hlldStar l.a _ _ _ _ _ _ _ _ _ SL _ _ = L at *
  generalize hlldStar l.a _ _ _ _ _ _ _ _ _ SR _ _ = Rt at *
  have fss := hlldSS_fan fl1 fr1 fl2 fr2
  generalize starState γ SL _ _ l = ls at *
  generalize starState γ SR _ _ r = rs at *
  have dll := dstar_jump_l (pT := starPressure SL SR l r) dl dr
  have drr := dstar_jump_r (pT := starPressure SL SR l r) dl dr
  rw [fl3, fr3]
  generalize hlldSS l.a _ _ _ L Rt = ss at *
  rw [ul, al] at dll
  rw [ur, ar] at drr
  rw [← hn] at drr ⊢
  generalize speedM SL SR l r - |l.a| / Real.sqrt ls.d = SLs at *
  generalize speedM SL SR l r + |l.a| / Real.sqrt rs.d = SRs at *
  unfold hlldSample
  have g0 : ∀ x : ℝ, (gtb x (lit 0) = true) ↔ 0 < x := by
    intro x; simp [gtb, RealOps.lit_real]
  simp only [g0]
  have lastL : fanFlux (starPressure SL SR l r) (doubleStar (-1) ls rs ls) =
      mhdFlux γ l + SLs • fanCons (doubleStar (-1) ls rs ls) - (SLs - SL) • fanCons ls - SL • mhdCons γ l := by
    rw [dll, jl]
    simp only [ms_add, ms_sub, ms_smul]
    ext <;> dsimp only <;> ring
  have lastR : fanFlux (starPressure SL SR l r) (doubleStar 1 ls rs rs) =
      mhdFlux γ r + SRs • fanCons (doubleStar 1 ls rs rs) - (SRs - SR) • fanCons rs - SR • mhdCons γ r := by
    rw [drr, jr]
    simp only [ms_add, ms_sub, ms_smul]
    ext <;> dsimp only <;> ring
  split_ifs
  · exact ol
  · rw [hlldFlux_fan fl1, jl]
  · rw [hlldFlux_fan fss.1, lastL]
  · rw [hlldFlux_fan fss.2, lastR]
  · rw [hlldFlux_fan fr1, jr]
  · exact or'

theorem hlld_textbook {s : Settings ℝ} (hg : 1 < s.gamma0) {l r : MS ℝ} (hl : PhysM l) (hr : PhysM r)
    (hreg : HlldRegular s.gamma0 (isoState s (meanNormal l r l)) (isoState s (meanNormal l r r)))
    (hgd : GuardSilent s.gamma0 (isoState s (meanNormal l r l)) (isoState s (meanNormal l r r))) :
    riemannMhdHlld s l r = hlldTextbook s.gamma0 (isoState s (meanNormal l r l))
      (isoState s (meanNormal l r r)) := by
  have hl' : PhysM (isoState s (meanNormal l r l)) := isoState_phys ⟨hl.d, hl.p⟩
  have hr' : PhysM (isoState s (meanNormal l r r)) := isoState_phys ⟨hr.d, hr.p⟩
  obtain ⟨w1, w2, w3, w4⟩ := hlld_waves hg hl' hr' rfl
  have hn : (isoState s (meanNormal l r l)).a = (isoState s (meanNormal l r r)).a := rfl
  have ea : (lit (1/2) : ℝ) * (l.a + r.a) = (isoState s (meanNormal l r l)).a := by
    change _ = (l.a + r.a) / 2
    rw [RealOps.lit_real]; push_cast; ring
  have key := hlldBody_textbook (γ := s.gamma0) (l := isoState s (meanNormal l r l))
    (r := isoState s (meanNormal l r r)) hn hl'.d hr'.d w1 w2 w3 w4 hreg.1 hreg.2 hgd.1 hgd.2
  unfold riemannMhdHlld hlldTextbook
  simp only [hlldIn_iso]
  rw [findSpeedFast_spec hg hl', findSpeedFast_spec hg hr', code_signOf, ← key, ea]
  simp only [RealOps.fmin_real, RealOps.fmax_real]
  generalize isoState s (meanNormal l r l) = ql
  generalize isoState s (meanNormal l r r) = qr
  rfl

end EulerKokkos
