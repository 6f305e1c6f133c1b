import Verif.Spec.Euler
import Verif.Model.Hydro3D
import Mathlib.Tactic.Linarith
import Mathlib.Tactic.FieldSimp
import Mathlib.Tactic.Ring
import Mathlib.Tactic.Positivity
import Verif.Props.Sample

/-!
# C18 — conversion to primitive variables; C19 — the slope limiter
-/

set_option linter.constructorNameAsVariable false
set_option linter.unusedSimpArgs false
set_option linter.unnecessarySeqFocus false

namespace EulerKokkos
open Spec

/-- parameters after `init()` satisfy `GoodSettings` -/
theorem goodSettings_init {p : Params ℝ} (hg : 1 < p.settings.gamma0) (hr : 0 < p.settings.smallr)
    (hc : 0 < p.settings.smallc) : GoodSettings p.init.settings where
  gamma := hg
  smallr := hr
  smallc := hc
  smallp := rfl
  smallpp := rfl
  gamma6 := by simp [Params.init]

/-- Non-vacuity of `GoodSettings`. -/
theorem sample_good (a b : BC) (gw : Int) (n : Nat) : GoodSettings (rawSample a b gw n).init.settings :=
  goodSettings_init (by norm_num [rawSample]) (by norm_num [rawSample]) (by norm_num [rawSample])

/-- **C18 (positivity, 2D)**: for *every* conservative content of a cell, physical or not. -/
theorem C18_primitives_positive_2d {s : Settings ℝ} (hs : GoodSettings s) (u : HS ℝ) :
    let r := computePrimitives2 s u
    s.smallr ≤ r.1.d ∧ r.1.d * s.smallp ≤ r.1.p ∧ 0 < r.1.p ∧ 0 < r.2 ∧
      r.2 ^ 2 = s.gamma0 * r.1.p / r.1.d ∧ Physical s r.1 := by
  have h1 := hs.smallp_pos
  have h2 := hs.smallr
  have hg := hs.gamma
  intro r
  have hd : s.smallr ≤ r.1.d := le_max_right _ _
  have hp : r.1.d * s.smallp ≤ r.1.p := le_max_right _ _
  have hd0 : 0 < r.1.d := lt_of_lt_of_le h2 hd
  have hp0 : 0 < r.1.p := lt_of_lt_of_le (mul_pos hd0 h1) hp
  have hc : r.2 = Real.sqrt (s.gamma0 * r.1.p / r.1.d) := rfl
  have hpos : 0 < s.gamma0 * r.1.p / r.1.d := by positivity
  exact ⟨hd, hp, hp0, hc ▸ Real.sqrt_pos.2 hpos, hc ▸ Real.sq_sqrt hpos.le, hd, hp⟩

/-- **C18 (positivity, 3D)**. -/
theorem C18_primitives_positive_3d {s : Settings ℝ} (hs : GoodSettings s) (u : HS ℝ) :
    let r := computePrimitives3 s u
    s.smallr ≤ r.1.d ∧ r.1.d * s.smallp ≤ r.1.p ∧ 0 < r.1.p ∧ 0 < r.2 ∧
      r.2 ^ 2 = s.gamma0 * r.1.p / r.1.d ∧ Physical s r.1 := by
  have h1 := hs.smallp_pos
  have h2 := hs.smallr
  have hg := hs.gamma
  intro r
  have hd : s.smallr ≤ r.1.d := le_max_right _ _
  have hp : r.1.d * s.smallp ≤ r.1.p := le_max_right _ _
  have hd0 : 0 < r.1.d := lt_of_lt_of_le h2 hd
  have hp0 : 0 < r.1.p := lt_of_lt_of_le (mul_pos hd0 h1) hp
  have hc : r.2 = Real.sqrt (s.gamma0 * r.1.p / r.1.d) := rfl
  have hpos : 0 < s.gamma0 * r.1.p / r.1.d := by positivity
  exact ⟨hd, hp, hp0, hc ▸ Real.sqrt_pos.2 hpos, hc ▸ Real.sq_sqrt hpos.le, hd, hp⟩

theorem prim3_inverse {s : Settings ℝ} (hs : GoodSettings s) {q : HS ℝ} (hq : Physical s q) :
    (computePrimitives3 s (toCons s.gamma0 q)).1 = q := by
  have h2 := hs.smallr
  have hg := hs.gamma
  have hg' : s.gamma0 - 1 ≠ 0 := by linarith
  have hd0 : 0 < q.d := lt_of_lt_of_le h2 hq.1
  have hd : max q.d s.smallr = q.d := max_eq_left hq.1
  have e : (s.gamma0 - 1) * q.d * ((q.p / (s.gamma0 - 1) +
      q.d * (q.u ^ 2 + q.v ^ 2 + q.w ^ 2) / 2) / q.d -
      1 / 2 * (q.d * q.u / q.d * (q.d * q.u / q.d) + q.d * q.v / q.d * (q.d * q.v / q.d) +
        q.d * q.w / q.d * (q.d * q.w / q.d))) = q.p := by
    field_simp; ring
  unfold computePrimitives3 toCons
  simp only [RealOps.fmax_real, hd, RealOps.lit_real]
  push_cast
  rw [e, max_eq_left hq.2]
  ext <;> simp only <;> field_simp

/-- the 2D conversion is the 3D one without third velocity -/
theorem computePrimitives2_eq3 (s : Settings ℝ) (u : HS ℝ) :
    computePrimitives2 s u = computePrimitives3 s u.trunc := by
  simp [computePrimitives2, computePrimitives3, HS.trunc]

/-- **C18 (inverse, 3D)**: primitive → conservative → primitive is the identity on states at or
above the floors; and on conservative contents above the floors the converse composition is the
identity. -/
theorem C18_inverse_3d {s : Settings ℝ} (hs : GoodSettings s) :
    (∀ q, Physical s q → (computePrimitives3 s (toCons s.gamma0 q)).1 = q) ∧
    (∀ u : HS ℝ, (∃ q, Physical s q ∧ u = toCons s.gamma0 q) →
      toCons s.gamma0 (computePrimitives3 s u).1 = u) :=
  ⟨fun q hq => prim3_inverse hs hq, by rintro u ⟨q, hq, rfl⟩; rw [prim3_inverse hs hq]⟩

/-- **C18 (inverse, 2D)**. -/
theorem C18_inverse_2d {s : Settings ℝ} (hs : GoodSettings s) :
    (∀ q, Physical s q → Is2D q → (computePrimitives2 s (toCons s.gamma0 q)).1 = q) ∧
    (∀ u : HS ℝ, (∃ q, Physical s q ∧ Is2D q ∧ u = toCons s.gamma0 q) →
      toCons s.gamma0 (computePrimitives2 s u).1 = u) := by
  have h : ∀ q, Physical s q → Is2D q → (computePrimitives2 s (toCons s.gamma0 q)).1 = q := by
    intro q hq h2
    rw [computePrimitives2_eq3]
    have : (toCons s.gamma0 q).trunc = toCons s.gamma0 q := by
      unfold HS.trunc toCons; rw [h2]; simp
    rw [this, prim3_inverse hs hq]
  exact ⟨h, by rintro u ⟨q, hq, h2, rfl⟩; rw [h q hq h2]⟩

/-- Which contents are "above the floors", in terms of the conservative variables: density at least
`smallr`, and internal energy at least the floor pressure over `γ-1`. -/
theorem C18_above_floors_iff {s : Settings ℝ} (hs : GoodSettings s) (u : HS ℝ) :
    (∃ q, Physical s q ∧ u = toCons s.gamma0 q) ↔
      s.smallr ≤ u.d ∧
      u.d * s.smallp ≤ (s.gamma0 - 1) * (u.p - (u.u ^ 2 + u.v ^ 2 + u.w ^ 2) / (2 * u.d)) := by
  have h2 := hs.smallr
  have hg := hs.gamma
  have hg' : s.gamma0 - 1 ≠ 0 := by linarith
  constructor
  · rintro ⟨q, hq, rfl⟩
    have hd0 : 0 < q.d := lt_of_lt_of_le h2 hq.1
    refine ⟨hq.1, ?_⟩
    have : (s.gamma0 - 1) * ((toCons s.gamma0 q).p - ((toCons s.gamma0 q).u ^ 2 +
        (toCons s.gamma0 q).v ^ 2 + (toCons s.gamma0 q).w ^ 2) / (2 * (toCons s.gamma0 q).d)) =
        q.p := by
      unfold toCons; simp only; field_simp; ring
    rw [this]; exact hq.2
  · rintro ⟨h3, h4⟩
    have hd0 : 0 < u.d := lt_of_lt_of_le h2 h3
    refine ⟨⟨u.d, _, u.u / u.d, u.v / u.d, u.w / u.d⟩, ⟨h3, h4⟩, ?_⟩
    unfold toCons
    ext <;> simp only <;> field_simp <;> ring

/-- Non-vacuity: a physical moving state for the sample settings. -/
example : Physical (sample .periodic .periodic).settings ⟨1, 1, 3, -2, 0⟩ ∧
    GoodSettings (sample .periodic .periodic).settings :=
  ⟨by constructor <;> norm_num [sample, rawSample, Params.init], sample_good _ _ _ _⟩

/-! ## C19 -/

/-- A TVD-limited slope `s` of the values `(qm, q, qp)`, with limiter constant `θ`. -/
structure Spec.TVD (θ q qp qm s : ℝ) : Prop where
  /-- zero at extrema -/
  extremum : (qp - q) * (q - qm) ≤ 0 → s = 0
  /-- same sign as both one-sided differences -/
  sign : 0 ≤ s * (qp - q) ∧ 0 ≤ s * (q - qm)
  /-- bounded by `θ` times each of them and by the central difference -/
  bound : |s| ≤ θ * |qp - q| ∧ |s| ≤ θ * |q - qm| ∧ |s| ≤ |qp - qm| / 2
  /-- the reconstructed face values stay between the neighbouring cell values -/
  monotone : min q qp ≤ q + s / 2 ∧ q + s / 2 ≤ max q qp ∧ min qm q ≤ q - s / 2 ∧
    q - s / 2 ≤ max qm q
  /-- exact on linear data when `θ ≥ 1` -/
  linear : 1 ≤ θ → qp - q = q - qm → s = q - qm

theorem slopeScalarDir_real (θ q qp qm : ℝ) :
    slopeScalarDir θ q qp qm =
      (if 0 ≤ (1/2) * (qp - qm) then 1 else -1) *
        min (if θ * (q - qm) * (θ * (qp - q)) ≤ 0 then 0 else
          min |θ * (q - qm)| |θ * (qp - q)|) |(1/2) * (qp - qm)| := by
  simp [slopeScalarDir, gtb, geb]

theorem slopeScalarDir_tvd {θ : ℝ} (h0 : 0 ≤ θ) (h2 : θ ≤ 2) (q qp qm : ℝ) :
    TVD θ q qp qm (slopeScalarDir θ q qp qm) := by
  rw [slopeScalarDir_real]
  set a := q - qm with ha
  set b := qp - q with hb
  have hc : qp - qm = a + b := by rw [ha, hb]; ring
  rw [hc]
  by_cases hab : b * a ≤ 0
  · have : θ * a * (θ * b) ≤ 0 := by nlinarith [mul_nonneg h0 h0]
    rw [if_pos this, min_eq_left (abs_nonneg _), mul_zero]
    refine ⟨fun _ => rfl, by simp, ⟨by simp; positivity, by simp; positivity, by simp; positivity⟩,
      by simp, fun _ e => ?_⟩
    have e' : b = a := e
    rw [e'] at hab
    have := mul_self_eq_zero.1 (le_antisymm hab (mul_self_nonneg a))
    rw [← ha, this]
  · push Not at hab
    by_cases hθ : θ = 0
    · subst hθ
      simp only [zero_mul, le_refl, if_true]
      rw [min_eq_left (abs_nonneg _), mul_zero]
      exact ⟨fun _ => rfl, by simp, ⟨by simp, by simp, by simp; positivity⟩, by simp,
        fun h => by norm_num at h⟩
    have hθ' : 0 < θ := lt_of_le_of_ne h0 (Ne.symm hθ)
    have hn : ¬ (θ * a * (θ * b) ≤ 0) := by
      have : 0 < θ * a * (θ * b) := by
        have : θ * a * (θ * b) = (θ * θ) * (b * a) := by ring
        rw [this]; positivity
      linarith
    rw [if_neg hn]
    rcases lt_or_ge 0 a with ha0 | ha0
    · have hb0 : 0 < b := pos_of_mul_pos_left hab ha0.le
      have e1 : |θ * a| = θ * a := abs_of_pos (by positivity)
      have e2 : |θ * b| = θ * b := abs_of_pos (by positivity)
      have e3 : |1 / 2 * (a + b)| = 1 / 2 * (a + b) := abs_of_pos (by positivity)
      rw [if_pos (by positivity), e1, e2, e3, one_mul]
      set m := min (min (θ * a) (θ * b)) (1 / 2 * (a + b)) with hm
      have m1 : m ≤ θ * a := le_trans (min_le_left _ _) (min_le_left _ _)
      have m2 : m ≤ θ * b := le_trans (min_le_left _ _) (min_le_right _ _)
      have m3 : m ≤ 1 / 2 * (a + b) := min_le_right _ _
      have m0 : 0 ≤ m := le_min (le_min (by positivity) (by positivity)) (by positivity)
      have hqb : qp = q + b := by rw [hb]; ring
      have hqa : qm = q - a := by rw [ha]; ring
      refine ⟨fun h => by nlinarith, ⟨by positivity, by positivity⟩, ⟨?_, ?_, ?_⟩, ⟨?_, ?_, ?_, ?_⟩,
        fun h1 e => ?_⟩
      · rw [abs_of_nonneg m0, abs_of_pos hb0]; exact m2
      · rw [abs_of_nonneg m0, abs_of_pos ha0]; exact m1
      · rw [abs_of_nonneg m0, abs_of_pos (by linarith)]; linarith
      · exact le_trans (min_le_left _ _) (by linarith)
      · exact le_trans (by nlinarith) (le_max_right _ _)
      · exact le_trans (min_le_left _ _) (by nlinarith)
      · exact le_trans (by linarith) (le_max_right _ _)
      · have e' : b = a := e
        rw [← ha, hm, e', min_self, min_eq_right (by nlinarith)]; ring
    · have ha1 : a < 0 := by
        rcases ha0.lt_or_eq with h | h
        · exact h
        · rw [h] at hab; simp at hab
      have hb0 : b < 0 := by nlinarith
      have e1 : |θ * a| = -(θ * a) := abs_of_neg (by nlinarith)
      have e2 : |θ * b| = -(θ * b) := abs_of_neg (by nlinarith)
      have e3 : |1 / 2 * (a + b)| = -(1 / 2 * (a + b)) := abs_of_neg (by linarith)
      rw [if_neg (by linarith), e1, e2, e3]
      set m := min (min (-(θ * a)) (-(θ * b))) (-(1 / 2 * (a + b))) with hm
      have m1 : m ≤ -(θ * a) := le_trans (min_le_left _ _) (min_le_left _ _)
      have m2 : m ≤ -(θ * b) := le_trans (min_le_left _ _) (min_le_right _ _)
      have m3 : m ≤ -(1 / 2 * (a + b)) := min_le_right _ _
      have m0 : 0 ≤ m := le_min (le_min (by nlinarith) (by nlinarith)) (by linarith)
      have hqb : qp = q + b := by rw [hb]; ring
      have hqa : qm = q - a := by rw [ha]; ring
      refine ⟨fun h => by nlinarith, ⟨by nlinarith, by nlinarith⟩, ⟨?_, ?_, ?_⟩, ⟨?_, ?_, ?_, ?_⟩,
        fun h1 e => ?_⟩
      · rw [abs_mul, abs_neg, abs_one, one_mul, abs_of_nonneg m0, abs_of_neg hb0]; linarith
      · rw [abs_mul, abs_neg, abs_one, one_mul, abs_of_nonneg m0, abs_of_neg ha1]; linarith
      · rw [abs_mul, abs_neg, abs_one, one_mul, abs_of_nonneg m0, abs_of_neg (by linarith)]; linarith
      · exact le_trans (min_le_right _ _) (by nlinarith)
      · exact le_trans (by linarith) (le_max_left _ _)
      · exact le_trans (min_le_right _ _) (by linarith)
      · exact le_trans (by nlinarith) (le_max_left _ _)
      · have e' : b = a := e
        rw [← ha, hm, e', min_self, min_eq_right (by nlinarith)]; ring

/-- **C19 (2D).** Every component of the two slopes returned by the 2D slope routine is a
TVD-limited slope of the corresponding neighbours, for `slope_type` 0, 1 or 2. -/
theorem C19_slopes_tvd_2d {s : Settings ℝ}
    (hs : s.slope_type = 0 ∨ s.slope_type = 1 ∨ s.slope_type = 2)
    (q qpx qmx qpy qmy dx0 dy0 : HS ℝ) {v : Nat} (hv : v < 4) :
    let r := slope2 s q qpx qmx qpy qmy dx0 dy0
    TVD s.slope_type (q.get v) (qpx.get v) (qmx.get v) (r.1.get v) ∧
    TVD s.slope_type (q.get v) (qpy.get v) (qmy.get v) (r.2.get v) := by
  have h0 : 0 ≤ s.slope_type := by rcases hs with h | h | h <;> rw [h] <;> norm_num
  have h2 : s.slope_type ≤ 2 := by rcases hs with h | h | h <;> rw [h] <;> norm_num
  have key := slopeScalarDir_tvd h0 h2
  intro r
  by_cases hz : s.slope_type = 0
  · have hr : r = (HS.zero, HS.zero) := by simp [r, slope2, hz]
    have hzero : ∀ v, (HS.zero : HS ℝ).get v = 0 := by
      intro v; unfold HS.get HS.zero; split <;> simp
    have hk : ∀ a b c : ℝ, slopeScalarDir s.slope_type a b c = 0 := by
      intro a b c; rw [slopeScalarDir_real, hz]; simp
    rw [hr]; simp only [hzero]
    constructor
    · have := key (q.get v) (qpx.get v) (qmx.get v); rwa [hk] at this
    · have := key (q.get v) (qpy.get v) (qmy.get v); rwa [hk] at this
  · have h12 : s.slope_type = 1 ∨ s.slope_type = 2 := by
      rcases hs with h | h | h
      · exact absurd h hz
      · exact Or.inl h
      · exact Or.inr h
    have hr : r = (let sd := slopeScalar2 s.slope_type q.d qpx.d qmx.d qpy.d qmy.d
        let sp := slopeScalar2 s.slope_type q.p qpx.p qmx.p qpy.p qmy.p
        let su := slopeScalar2 s.slope_type q.u qpx.u qmx.u qpy.u qmy.u
        let sv := slopeScalar2 s.slope_type q.v qpx.v qmx.v qpy.v qmy.v
        (⟨sd.1, sp.1, su.1, sv.1, lit 0⟩, ⟨sd.2, sp.2, su.2, sv.2, lit 0⟩)) := by
      unfold r slope2
      rw [if_neg (by simp [hz]), if_pos (by simpa using h12)]
    rw [hr]
    match v, hv with
    | 0, _ => exact ⟨key _ _ _, key _ _ _⟩
    | 1, _ => exact ⟨key _ _ _, key _ _ _⟩
    | 2, _ => exact ⟨key _ _ _, key _ _ _⟩
    | 3, _ => exact ⟨key _ _ _, key _ _ _⟩

/-- **C19 (3D).** -/
theorem C19_slopes_tvd_3d {s : Settings ℝ}
    (hs : s.slope_type = 0 ∨ s.slope_type = 1 ∨ s.slope_type = 2)
    (q qpx qmx qpy qmy qpz qmz : HS ℝ) (d0 : Slopes3 ℝ) {v : Nat} (hv : v < 5) :
    let r := slope3 s q qpx qmx qpy qmy qpz qmz d0
    TVD s.slope_type (q.get v) (qpx.get v) (qmx.get v) (r.x.get v) ∧
    TVD s.slope_type (q.get v) (qpy.get v) (qmy.get v) (r.y.get v) ∧
    TVD s.slope_type (q.get v) (qpz.get v) (qmz.get v) (r.z.get v) := by
  have h0 : 0 ≤ s.slope_type := by rcases hs with h | h | h <;> rw [h] <;> norm_num
  have h2 : s.slope_type ≤ 2 := by rcases hs with h | h | h <;> rw [h] <;> norm_num
  have key := slopeScalarDir_tvd h0 h2
  intro r
  by_cases hz : s.slope_type = 0
  · have hr : r = ⟨HS.zero, HS.zero, HS.zero⟩ := by simp [r, slope3, hz]
    have hzero : ∀ v, (HS.zero : HS ℝ).get v = 0 := by
      intro v; unfold HS.get HS.zero; split <;> simp
    have hk : ∀ a b c : ℝ, slopeScalarDir s.slope_type a b c = 0 := by
      intro a b c; rw [slopeScalarDir_real, hz]; simp
    rw [hr]; simp only [hzero]
    refine ⟨?_, ?_, ?_⟩
    · have := key (q.get v) (qpx.get v) (qmx.get v); rwa [hk] at this
    · have := key (q.get v) (qpy.get v) (qmy.get v); rwa [hk] at this
    · have := key (q.get v) (qpz.get v) (qmz.get v); rwa [hk] at this
  · have h12 : s.slope_type = 1 ∨ s.slope_type = 2 := by
      rcases hs with h | h | h
      · exact absurd h hz
      · exact Or.inl h
      · exact Or.inr h
    have hr : r = (let dir (a b : HS ℝ) : HS ℝ :=
          ⟨slopeScalarDir s.slope_type q.d a.d b.d, slopeScalarDir s.slope_type q.p a.p b.p,
           slopeScalarDir s.slope_type q.u a.u b.u, slopeScalarDir s.slope_type q.v a.v b.v,
           slopeScalarDir s.slope_type q.w a.w b.w⟩
        ⟨dir qpx qmx, dir qpy qmy, dir qpz qmz⟩) := by
      unfold r slope3
      rw [if_neg (by simp [hz]), if_pos (by simpa using h12)]
    rw [hr]
    match v, hv with
    | 0, _ => exact ⟨key _ _ _, key _ _ _, key _ _ _⟩
    | 1, _ => exact ⟨key _ _ _, key _ _ _, key _ _ _⟩
    | 2, _ => exact ⟨key _ _ _, key _ _ _, key _ _ _⟩
    | 3, _ => exact ⟨key _ _ _, key _ _ _, key _ _ _⟩
    | 4, _ => exact ⟨key _ _ _, key _ _ _, key _ _ _⟩

theorem slopeScalarDir_neg (θ q qp qm : ℝ) :
    slopeScalarDir θ (-q) (-qp) (-qm) = -slopeScalarDir θ q qp qm := by
  rw [slopeScalarDir_real, slopeScalarDir_real]
  have e1 : |θ * (-q - -qm)| = |θ * (q - qm)| := by rw [← abs_neg]; congr 1; ring
  have e2 : |θ * (-qp - -q)| = |θ * (qp - q)| := by rw [← abs_neg]; congr 1; ring
  have e3 : |1 / 2 * (-qp - -qm)| = |1 / 2 * (qp - qm)| := by rw [← abs_neg]; congr 1; ring
  have e4 : θ * (-q - -qm) * (θ * (-qp - -q)) = θ * (q - qm) * (θ * (qp - q)) := by ring
  rw [e1, e2, e3, e4]
  have hx : (0:ℝ) ≤ (if θ * (q - qm) * (θ * (qp - q)) ≤ 0 then 0 else
    min |θ * (q - qm)| |θ * (qp - q)|) := by split_ifs <;> positivity
  generalize (if θ * (q - qm) * (θ * (qp - q)) ≤ 0 then 0 else
    min |θ * (q - qm)| |θ * (qp - q)|) = x at *
  rcases lt_trichotomy (qp - qm) 0 with h | h | h
  · rw [if_pos (by linarith), if_neg (by linarith)]; ring
  · rw [h, show -qp - -qm = 0 by linarith]
    simp only [mul_zero, abs_zero, le_refl, if_true]
    rw [min_eq_right hx]
    ring
  · rw [if_neg (by linarith), if_pos (by linarith)]; ring

/-- **C19 (symmetry)**: the limiter is odd, changes sign when the two neighbours are exchanged
(mirror reflection), and ignores a constant shift. -/
theorem C19_slope_symmetry (θ q qp qm c : ℝ) :
    slopeScalarDir θ (-q) (-qp) (-qm) = -slopeScalarDir θ q qp qm ∧
    slopeScalarDir θ q qm qp = -slopeScalarDir θ q qp qm ∧
    slopeScalarDir θ (q + c) (qp + c) (qm + c) = slopeScalarDir θ q qp qm := by
  refine ⟨slopeScalarDir_neg θ q qp qm, ?_, ?_⟩
  · rw [← slopeScalarDir_neg]
    rw [slopeScalarDir_real, slopeScalarDir_real]
    have e1 : θ * (q - qp) = θ * (-qp - -q) := by ring
    have e2 : θ * (qm - q) = θ * (-q - -qm) := by ring
    have e3 : qm - qp = -qp - -qm := by ring
    rw [e1, e2, e3, min_comm |θ * (-qp - -q)|, mul_comm (θ * (-qp - -q))]
  · rw [slopeScalarDir_real, slopeScalarDir_real]
    simp only [add_sub_add_right_eq_sub]

/-- Non-vacuity: with `slope_type = 1` the slope is not always zero. -/
example : slopeScalarDir (1 : ℝ) 1 3 0 = 1 := by
  rw [slopeScalarDir_real]; norm_num

end EulerKokkos
