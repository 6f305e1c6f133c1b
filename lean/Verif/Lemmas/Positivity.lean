import Verif.Spec.RiemannProblem
import Verif.Spec.Euler
import Mathlib.Tactic.Linarith
import Mathlib.Tactic.FieldSimp
import Mathlib.Tactic.Ring
import Mathlib.Tactic.LinearCombination

/-!
# States of positive density and thermal energy form a convex cone, and the textbook fluxes split in it
-/

set_option linter.constructorNameAsVariable false
set_option linter.unusedSectionVars false
set_option linter.unusedSimpArgs false

namespace EulerKokkos
open Spec

/-- density and thermal energy are positive -/
def PosState (u : HS ℝ) : Prop := 0 < u.d ∧ u.u ^ 2 + u.v ^ 2 + u.w ^ 2 < 2 * u.d * u.p

/-- closure -/
def Cone (u : HS ℝ) : Prop := 0 ≤ u.d ∧ 0 ≤ u.p ∧ u.u ^ 2 + u.v ^ 2 + u.w ^ 2 ≤ 2 * u.d * u.p

theorem PosState.p_pos {u : HS ℝ} (h : PosState u) : 0 < u.p := by
  obtain ⟨h1, h2⟩ := h
  by_contra hp
  have : 2 * u.d * u.p ≤ 0 := by nlinarith
  nlinarith [sq_nonneg u.u, sq_nonneg u.v, sq_nonneg u.w]

theorem PosState.cone {u : HS ℝ} (h : PosState u) : Cone u := ⟨h.1.le, h.p_pos.le, h.2.le⟩

theorem cross_le {d1 p1 u1 v1 w1 d2 p2 u2 v2 w2 : ℝ} (hd1 : 0 ≤ d1) (hp1 : 0 ≤ p1) (hd2 : 0 ≤ d2)
    (hp2 : 0 ≤ p2) (h1 : u1 ^ 2 + v1 ^ 2 + w1 ^ 2 ≤ 2 * d1 * p1) (h2 : u2 ^ 2 + v2 ^ 2 + w2 ^ 2 ≤ 2 * d2 * p2) :
    u1 * u2 + v1 * v2 + w1 * w2 ≤ d1 * p2 + d2 * p1 := by
  apply le_of_sq_le_sq _ (by positivity)
  have a : (u1 * u2 + v1 * v2 + w1 * w2) ^ 2 ≤ (u1 ^ 2 + v1 ^ 2 + w1 ^ 2) * (u2 ^ 2 + v2 ^ 2 + w2 ^ 2) := by
    nlinarith [sq_nonneg (u1 * v2 - v1 * u2), sq_nonneg (u1 * w2 - w1 * u2), sq_nonneg (v1 * w2 - w1 * v2)]
  have b : (u1 ^ 2 + v1 ^ 2 + w1 ^ 2) * (u2 ^ 2 + v2 ^ 2 + w2 ^ 2) ≤ (2 * d1 * p1) * (2 * d2 * p2) :=
    mul_le_mul h1 h2 (by positivity) (by positivity)
  nlinarith [sq_nonneg (d1 * p2 - d2 * p1)]
where
  le_of_sq_le_sq {a b : ℝ} (h : a ^ 2 ≤ b ^ 2) (hb : 0 ≤ b) : a ≤ b := abs_le_of_sq_le_sq' h hb |>.2

theorem Cone.add {a b : HS ℝ} (ha : Cone a) (hb : Cone b) : Cone (a + b) := by
  obtain ⟨a1, a2, a3⟩ := ha
  obtain ⟨b1, b2, b3⟩ := hb
  have := cross_le a1 a2 b1 b2 a3 b3
  rw [hs_add]
  refine ⟨add_nonneg a1 b1, add_nonneg a2 b2, ?_⟩
  dsimp only
  nlinarith

theorem PosState.add {a b : HS ℝ} (ha : PosState a) (hb : Cone b) : PosState (a + b) := by
  have ha' := ha.cone
  obtain ⟨a1, a2, a3⟩ := ha'
  obtain ⟨b1, b2, b3⟩ := hb
  have := cross_le a1 a2 b1 b2 a3 b3
  rw [hs_add]
  refine ⟨add_pos_of_pos_of_nonneg ha.1 b1, ?_⟩
  dsimp only
  nlinarith [ha.2]

theorem Cone.smul {a : HS ℝ} (ha : Cone a) {c : ℝ} (hc : 0 ≤ c) : Cone (c • a) := by
  obtain ⟨a1, a2, a3⟩ := ha
  rw [hs_smul]
  refine ⟨mul_nonneg hc a1, mul_nonneg hc a2, ?_⟩
  dsimp only
  nlinarith [mul_nonneg hc hc, mul_le_mul_of_nonneg_left a3 (mul_nonneg hc hc)]

theorem PosState.smul {a : HS ℝ} (ha : PosState a) {c : ℝ} (hc : 0 < c) : PosState (c • a) := by
  obtain ⟨a1, a2⟩ := ha
  rw [hs_smul]
  refine ⟨mul_pos hc a1, ?_⟩
  dsimp only
  nlinarith [mul_lt_mul_of_pos_left a2 (mul_pos hc hc)]

theorem Cone.zero : Cone (⟨0, 0, 0, 0, 0⟩ : HS ℝ) := by
  refine ⟨le_refl _, le_refl _, ?_⟩; norm_num

theorem HS.eqv {a b : HS ℝ} (h1 : a.d = b.d) (h2 : a.p = b.p) (h3 : a.u = b.u) (h4 : a.v = b.v)
    (h5 : a.w = b.w) : a = b := HS.ext h1 h2 h3 h4 h5

section states
variable {γ : ℝ} {q : HS ℝ} (hγ : 1 < γ) (hd : 0 < q.d) (hp : 0 < q.p)
include hγ hd hp

theorem soundSpeed_pos : 0 < soundSpeed γ q := Real.sqrt_pos.2 (by positivity)

theorem soundSpeed_sq : soundSpeed γ q ^ 2 * q.d = γ * q.p := by
  unfold soundSpeed
  rw [Real.sq_sqrt (by positivity)]
  field_simp

theorem toCons_pos : PosState (toCons γ q) := by
  refine ⟨hd, ?_⟩
  unfold toCons
  dsimp only
  have : 0 < q.p / (γ - 1) := div_pos hp (by linarith)
  nlinarith [mul_pos hd this]

/-- `k ρ² ...`: the pressure does not exceed what a sonic margin leaves -/
theorem sonic_margin {k : ℝ} (hk : soundSpeed γ q ≤ k) :
    q.p ^ 2 < 2 * q.d * k ^ 2 * (q.p / (γ - 1)) := by
  have hc := soundSpeed_pos hγ hd hp
  have h1 : γ * q.p ≤ k ^ 2 * q.d := by
    rw [← soundSpeed_sq hγ hd hp]
    exact mul_le_mul_of_nonneg_right (pow_le_pow_left₀ hc.le hk 2) hd.le
  have hg : 0 < γ - 1 := by linarith
  rw [mul_div_assoc', lt_div_iff₀ hg]
  nlinarith [mul_pos hp hp, mul_le_mul_of_nonneg_right h1 hp.le]

/-- a right-going wave faster than `u + c` leaves a positive state -/
theorem pos_minus {a : ℝ} (ha : soundSpeed γ q ≤ a - q.u) : PosState (a • toCons γ q - eulerFlux γ q) := by
  have hk := sonic_margin hγ hd hp ha
  have hc := soundSpeed_pos hγ hd hp
  rw [hs_smul, hs_sub]
  unfold eulerFlux toCons PosState
  dsimp only
  set E := q.p / (γ - 1)
  refine ⟨by nlinarith, ?_⟩
  nlinarith

/-- a left-going wave faster than `c - u` leaves a positive state -/
theorem pos_plus {a : ℝ} (ha : soundSpeed γ q ≤ a + q.u) : PosState (a • toCons γ q + eulerFlux γ q) := by
  have hk := sonic_margin hγ hd hp ha
  have hc := soundSpeed_pos hγ hd hp
  rw [hs_smul, hs_add]
  unfold eulerFlux toCons PosState
  dsimp only
  set E := q.p / (γ - 1)
  refine ⟨by nlinarith, ?_⟩
  nlinarith

/-- HLLC star states are positive -/
theorem star_pos {S Sm : ℝ} (hS : soundSpeed γ q ≤ |S - q.u|) (hs : 0 < (S - q.u) / (S - Sm)) :
    PosState (starCons γ S Sm q) := by
  have hk := sonic_margin hγ hd hp hS
  have hc := soundSpeed_pos hγ hd hp
  have hb : S - q.u ≠ 0 := by
    intro h; rw [h] at hS; simp at hS; linarith
  unfold starCons
  rw [mul_div_assoc]
  refine PosState.smul ?_ (mul_pos hd hs)
  refine ⟨one_pos, ?_⟩
  unfold toCons
  dsimp only
  rw [sq_abs] at hk
  set b := S - q.u with hbdef
  set E := q.p / (γ - 1) with hE
  have e : 2 * 1 * ((E + q.d * (q.u ^ 2 + q.v ^ 2 + q.w ^ 2) / 2) / q.d
      + (Sm - q.u) * (Sm + q.p / (q.d * b))) - (Sm ^ 2 + q.v ^ 2 + q.w ^ 2) =
      ((q.d * b * (Sm - q.u) + q.p) ^ 2 + (2 * q.d * b ^ 2 * E - q.p ^ 2)) / (q.d ^ 2 * b ^ 2) := by
    field_simp
    ring
  have : 0 < ((q.d * b * (Sm - q.u) + q.p) ^ 2 + (2 * q.d * b ^ 2 * E - q.p ^ 2)) / (q.d ^ 2 * b ^ 2) := by
    apply div_pos
    · nlinarith [sq_nonneg (q.d * b * (Sm - q.u) + q.p)]
    · positivity
  linarith

/-- flux of a star state -/
theorem star_flux {S Sm : ℝ} (hb : S - q.u ≠ 0) (hm : S - Sm ≠ 0) :
    eulerFlux γ q + S • (starCons γ S Sm q - toCons γ q) =
      Sm • starCons γ S Sm q + (⟨0, Sm * (q.p + q.d * (S - q.u) * (Sm - q.u)),
        q.p + q.d * (S - q.u) * (Sm - q.u), 0, 0⟩ : HS ℝ) := by
  have hg : γ - 1 ≠ 0 := by intro h; linarith
  unfold starCons eulerFlux
  simp only [hs_smul, hs_sub, hs_add]
  have hS : S - Sm ≠ 0 := hm
  unfold toCons
  dsimp only
  generalize hE : q.p / (γ - 1) + q.d * (q.u ^ 2 + q.v ^ 2 + q.w ^ 2) / 2 = E
  refine HS.eqv ?_ ?_ ?_ ?_ ?_ <;> dsimp only <;> field_simp <;> ring
end states

/-! ## Splitting of the textbook fluxes -/

/-- A flux through a face seen from the two sides: up to `θ` times the exact flux of a side, it takes away
from the left cell at most `A` times its content and gives it a positive state, and the same to the right. -/
structure FluxSplit (γ θ K : ℝ) (l r f : HS ℝ) (P : HS ℝ → Prop) : Prop where
  left : ∃ A X, 0 ≤ A ∧ A ≤ K ∧ P X ∧ f = θ • eulerFlux γ l + A • toCons γ l - X
  right : ∃ B Y, 0 ≤ B ∧ B ≤ K ∧ P Y ∧ f = θ • eulerFlux γ r - B • toCons γ r + Y

section split
variable {γ : ℝ} {l r : HS ℝ} (hγ : 1 < γ) (hl : 0 < l.d) (hlp : 0 < l.p) (hr : 0 < r.d) (hrp : 0 < r.p)
include hγ hl hlp hr hrp

theorem rusanov_split {a : ℝ} (ha : a = max (|l.u| + soundSpeed γ l) (|r.u| + soundSpeed γ r)) :
    FluxSplit γ (1 / 2) (a / 2) l r (rusanovFlux γ a l r) PosState := by
  have h1 : |l.u| + soundSpeed γ l ≤ a := ha ▸ le_max_left _ _
  have h2 : |r.u| + soundSpeed γ r ≤ a := ha ▸ le_max_right _ _
  have c1 := soundSpeed_pos hγ hl hlp
  have a0 : 0 ≤ a / 2 := by have := abs_nonneg l.u; linarith
  refine ⟨⟨a / 2, (1 / 2 : ℝ) • (a • toCons γ r - eulerFlux γ r), a0, le_refl _,
      (pos_minus hγ hr hrp (by have := le_abs_self r.u; linarith)).smul (by norm_num), ?_⟩,
    ⟨a / 2, (1 / 2 : ℝ) • (a • toCons γ l + eulerFlux γ l), a0, le_refl _,
      (pos_plus hγ hl hlp (by have := neg_abs_le l.u; linarith)).smul (by norm_num), ?_⟩⟩
  · unfold rusanovFlux
    simp only [hs_smul, hs_sub, hs_add]
    refine HS.eqv ?_ ?_ ?_ ?_ ?_ <;> dsimp only <;> ring
  · unfold rusanovFlux
    simp only [hs_smul, hs_sub, hs_add]
    refine HS.eqv ?_ ?_ ?_ ?_ ?_ <;> dsimp only <;> ring

/-- wave speeds of HLL and HLLC are bounded by the sum of the speeds of the two states -/
theorem wave_bounds :
    let c := max (soundSpeed γ l) (soundSpeed γ r)
    let K := (|l.u| + soundSpeed γ l) + (|r.u| + soundSpeed γ r)
    0 ≤ K ∧ -(min l.u r.u - c) ≤ K ∧ max l.u r.u + c ≤ K := by
  intro c K
  have c1 := soundSpeed_pos hγ hl hlp
  have c2 := soundSpeed_pos hγ hr hrp
  have a1 := abs_nonneg l.u
  have a2 := abs_nonneg r.u
  have a3 := le_abs_self l.u
  have a4 := le_abs_self r.u
  have a5 := neg_abs_le l.u
  have a6 := neg_abs_le r.u
  have hc : c ≤ soundSpeed γ l + soundSpeed γ r := max_le (by linarith) (by linarith)
  have hm : -(|l.u| + |r.u|) ≤ min l.u r.u := le_min (by linarith) (by linarith)
  have hM : max l.u r.u ≤ |l.u| + |r.u| := max_le (by linarith) (by linarith)
  refine ⟨by simp only [K]; linarith, by simp only [K]; linarith, by simp only [K]; linarith⟩

theorem hll_split :
    let c := max (soundSpeed γ l) (soundSpeed γ r)
    FluxSplit γ 1 ((|l.u| + soundSpeed γ l) + (|r.u| + soundSpeed γ r)) l r
      (hllFlux γ (min (min l.u r.u - c) 0) (max (max l.u r.u + c) 0) l r) Cone := by
  intro c
  obtain ⟨k0, k1, k2⟩ := wave_bounds hγ hl hlp hr hrp
  set K := (|l.u| + soundSpeed γ l) + (|r.u| + soundSpeed γ r)
  set SL := min (min l.u r.u - c) 0 with hSL
  set SR := max (max l.u r.u + c) 0 with hSR
  have c1 := soundSpeed_pos hγ hl hlp
  have b1 : SL ≤ 0 := min_le_right _ _
  have b2 : 0 ≤ SR := le_max_right _ _
  have b3 : soundSpeed γ l ≤ -SL + l.u := by
    have : SL ≤ min l.u r.u - c := min_le_left _ _
    have h1 : min l.u r.u ≤ l.u := min_le_left _ _
    have h2 : soundSpeed γ l ≤ c := le_max_left _ _
    linarith
  have b4 : soundSpeed γ r ≤ SR - r.u := by
    have : max l.u r.u + c ≤ SR := le_max_left _ _
    have h1 : r.u ≤ max l.u r.u := le_max_right _ _
    have h2 : soundSpeed γ r ≤ c := le_max_right _ _
    linarith
  have c2 := soundSpeed_pos hγ hr hrp
  have hpos : 0 < SR - SL := by
    have h1 : SL ≤ min l.u r.u - c := min_le_left _ _
    have h2 : max l.u r.u + c ≤ SR := le_max_left _ _
    have h3 : min l.u r.u ≤ max l.u r.u := min_le_max
    have h4 : soundSpeed γ l ≤ c := le_max_left _ _
    linarith
  have hne : SR - SL ≠ 0 := hpos.ne'
  have kL : -SL ≤ K := by
    rw [hSL, ← max_neg_neg]; exact max_le k1 (by simpa using k0)
  have kR : SR ≤ K := max_le k2 k0
  let U : HS ℝ := (1 / (SR - SL)) • ((SR • toCons γ r - eulerFlux γ r) + ((-SL) • toCons γ l + eulerFlux γ l))
  have hU : Cone U := ((pos_minus hγ hr hrp b4).add (pos_plus hγ hl hlp b3).cone).cone.smul
    (div_nonneg zero_le_one hpos.le)
  refine ⟨⟨-SL, (-SL) • U, by linarith, kL, hU.smul (by linarith), ?_⟩,
    ⟨SR, SR • U, b2, kR, hU.smul b2, ?_⟩⟩
  · unfold hllFlux
    simp only [U, hs_smul, hs_sub, hs_add]
    refine HS.eqv ?_ ?_ ?_ ?_ ?_ <;> dsimp only <;> field_simp <;> ring
  · unfold hllFlux
    simp only [U, hs_smul, hs_sub, hs_add]
    refine HS.eqv ?_ ?_ ?_ ?_ ?_ <;> dsimp only <;> field_simp <;> ring

end split

/-- The four-state bookkeeping of HLLC, with the states as plain vectors. -/
theorem hllc_vectors {SL Sm SR K : ℝ} {Fl Fr Cl Cr Ul Ur Q : HS ℝ} (k0 : 0 ≤ K) (k1 : -SL ≤ K) (k2 : SR ≤ K)
    (hm1 : SL < Sm) (hm2 : Sm < SR) (pl : Cone Ul) (pr : Cone Ur) (cl : Cone Cl) (cr : Cone Cr)
    (fl : Fl + SL • (Ul - Cl) = Sm • Ul + Q) (fr : Fr + SR • (Ur - Cr) = Sm • Ur + Q) (f : HS ℝ)
    (hf : f = if 0 < SL then Fl else if 0 < Sm then Fl + SL • (Ul - Cl)
      else if 0 < SR then Fr + SR • (Ur - Cr) else Fr) :
    (∃ A X, 0 ≤ A ∧ A ≤ K ∧ Cone X ∧ f = (1 : ℝ) • Fl + A • Cl - X) ∧
    (∃ B Y, 0 ≤ B ∧ B ≤ K ∧ Cone Y ∧ f = (1 : ℝ) • Fr - B • Cr + Y) := by
  have gl : ∀ g : HS ℝ → ℝ, (∀ a b, g (a + b) = g a + g b) → (∀ a b, g (a - b) = g a - g b) →
      (∀ (t : ℝ) a, g (t • a) = t * g a) →
      g Fl + SL * (g Ul - g Cl) = Sm * g Ul + g Q ∧ g Fr + SR * (g Ur - g Cr) = Sm * g Ur + g Q := by
    intro g ga gs gm
    constructor
    · have := congrArg g fl
      simpa only [ga, gs, gm] using this
    · have := congrArg g fr
      simpa only [ga, gs, gm] using this
  have gd := gl HS.d (fun _ _ => rfl) (fun _ _ => rfl) (fun _ _ => rfl)
  have gp := gl HS.p (fun _ _ => rfl) (fun _ _ => rfl) (fun _ _ => rfl)
  have gu := gl HS.u (fun _ _ => rfl) (fun _ _ => rfl) (fun _ _ => rfl)
  have gv := gl HS.v (fun _ _ => rfl) (fun _ _ => rfl) (fun _ _ => rfl)
  have gw := gl HS.w (fun _ _ => rfl) (fun _ _ => rfl) (fun _ _ => rfl)
  clear gl fl fr
  subst hf
  by_cases h1 : 0 < SL
  · rw [if_pos h1]
    refine ⟨⟨0, ⟨0, 0, 0, 0, 0⟩, le_refl _, k0, Cone.zero, ?_⟩,
      ⟨SR, SL • Cl + (Sm - SL) • Ul + (SR - Sm) • Ur, by linarith, k2,
        ((cl.smul h1.le).add (pl.smul (by linarith))).add (pr.smul (by linarith)), ?_⟩⟩
    · simp only [hs_smul, hs_sub, hs_add]
      refine HS.eqv ?_ ?_ ?_ ?_ ?_ <;> dsimp only <;> ring
    · simp only [hs_smul, hs_sub, hs_add]
      refine HS.eqv ?_ ?_ ?_ ?_ ?_ <;> dsimp only
      · linear_combination gd.1 - gd.2
      · linear_combination gp.1 - gp.2
      · linear_combination gu.1 - gu.2
      · linear_combination gv.1 - gv.2
      · linear_combination gw.1 - gw.2
  · rw [if_neg h1]
    have h1' := not_lt.1 h1
    by_cases h2 : 0 < Sm
    · rw [if_pos h2]
      refine ⟨⟨-SL, (-SL) • Ul, by linarith, k1, pl.smul (by linarith), ?_⟩,
        ⟨SR, Sm • Ul + (SR - Sm) • Ur, by linarith, k2,
          (pl.smul h2.le).add (pr.smul (by linarith)), ?_⟩⟩
      · simp only [hs_smul, hs_sub, hs_add]
        refine HS.eqv ?_ ?_ ?_ ?_ ?_ <;> dsimp only <;> ring
      · simp only [hs_smul, hs_sub, hs_add]
        refine HS.eqv ?_ ?_ ?_ ?_ ?_ <;> dsimp only
        · linear_combination gd.1 - gd.2
        · linear_combination gp.1 - gp.2
        · linear_combination gu.1 - gu.2
        · linear_combination gv.1 - gv.2
        · linear_combination gw.1 - gw.2
    · rw [if_neg h2]
      have h2' := not_lt.1 h2
      by_cases h3 : 0 < SR
      · rw [if_pos h3]
        refine ⟨⟨-SL, (Sm - SL) • Ul + (-Sm) • Ur, by linarith, k1,
            (pl.smul (by linarith)).add (pr.smul (by linarith)), ?_⟩,
          ⟨SR, SR • Ur, h3.le, k2, pr.smul h3.le, ?_⟩⟩
        · simp only [hs_smul, hs_sub, hs_add]
          refine HS.eqv ?_ ?_ ?_ ?_ ?_ <;> dsimp only
          · linear_combination gd.2 - gd.1
          · linear_combination gp.2 - gp.1
          · linear_combination gu.2 - gu.1
          · linear_combination gv.2 - gv.1
          · linear_combination gw.2 - gw.1
        · simp only [hs_smul, hs_sub, hs_add]
          refine HS.eqv ?_ ?_ ?_ ?_ ?_ <;> dsimp only <;> ring
      · rw [if_neg h3]
        have h3' := not_lt.1 h3
        refine ⟨⟨-SL, (Sm - SL) • Ul + (SR - Sm) • Ur + (-SR) • Cr, by linarith, k1,
            ((pl.smul (by linarith)).add (pr.smul (by linarith))).add (cr.smul (by linarith)), ?_⟩,
          ⟨0, ⟨0, 0, 0, 0, 0⟩, le_refl _, k0, Cone.zero, ?_⟩⟩
        · simp only [hs_smul, hs_sub, hs_add]
          refine HS.eqv ?_ ?_ ?_ ?_ ?_ <;> dsimp only
          · linear_combination gd.2 - gd.1
          · linear_combination gp.2 - gp.1
          · linear_combination gu.2 - gu.1
          · linear_combination gv.2 - gv.1
          · linear_combination gw.2 - gw.1
        · simp only [hs_smul, hs_sub, hs_add]
          refine HS.eqv ?_ ?_ ?_ ?_ ?_ <;> dsimp only <;> ring

section split2
variable {γ : ℝ} {l r : HS ℝ} (hγ : 1 < γ) (hl : 0 < l.d) (hlp : 0 < l.p) (hr : 0 < r.d) (hrp : 0 < r.p)
include hγ hl hlp hr hrp

/-- the contact lies between the outer waves -/
theorem contact_between {SL SR : ℝ} (m1 : soundSpeed γ l ≤ l.u - SL) (m2 : soundSpeed γ r ≤ SR - r.u)
    (m3 : soundSpeed γ l ≤ SR - l.u) (m4 : soundSpeed γ r ≤ r.u - SL) :
    SL < contactSpeed SL SR l r ∧ contactSpeed SL SR l r < SR ∧
    l.p + l.d * (SL - l.u) * (contactSpeed SL SR l r - l.u) =
      r.p + r.d * (SR - r.u) * (contactSpeed SL SR l r - r.u) := by
  have c1 := soundSpeed_pos hγ hl hlp
  have c2 := soundSpeed_pos hγ hr hrp
  have q1 := soundSpeed_sq hγ hl hlp
  have q2 := soundSpeed_sq hγ hr hrp
  have D1 : 0 < l.d * (l.u - SL) := mul_pos hl (by linarith)
  have D2 : 0 < r.d * (SR - r.u) := mul_pos hr (by linarith)
  have hD : l.d * (SL - l.u) - r.d * (SR - r.u) ≠ 0 := by
    apply ne_of_lt; linarith
  obtain ⟨Sm, hSm⟩ : ∃ Sm, Sm = contactSpeed SL SR l r := ⟨_, rfl⟩
  have hSmEq : Sm * (l.d * (SL - l.u) - r.d * (SR - r.u)) =
      r.p - l.p + l.d * l.u * (SL - l.u) - r.d * r.u * (SR - r.u) := by
    rw [hSm]; unfold contactSpeed; field_simp
  have s1 : l.p < l.d * (l.u - SL) * (l.u - SL) := by
    have h : soundSpeed γ l ^ 2 ≤ (l.u - SL) * (l.u - SL) := by
      rw [sq]; exact mul_le_mul m1 m1 c1.le (by linarith)
    have h2 := mul_le_mul_of_nonneg_right h hl.le
    rw [q1] at h2
    have h3 : 0 < (γ - 1) * l.p := mul_pos (by linarith) hlp
    linarith
  have s2 : r.p < r.d * (SR - r.u) * (SR - r.u) := by
    have h : soundSpeed γ r ^ 2 ≤ (SR - r.u) * (SR - r.u) := by
      rw [sq]; exact mul_le_mul m2 m2 c2.le (by linarith)
    have h2 := mul_le_mul_of_nonneg_right h hr.le
    rw [q2] at h2
    have h3 : 0 < (γ - 1) * r.p := mul_pos (by linarith) hrp
    linarith
  have s3 : r.p < r.d * (SR - r.u) * (r.u - SL) := by
    have h : soundSpeed γ r ^ 2 ≤ (SR - r.u) * (r.u - SL) := by
      rw [sq]; exact mul_le_mul m2 m4 c2.le (by linarith)
    have h2 := mul_le_mul_of_nonneg_right h hr.le
    rw [q2] at h2
    have h3 : 0 < (γ - 1) * r.p := mul_pos (by linarith) hrp
    linarith
  have s4 : l.p < l.d * (l.u - SL) * (SR - l.u) := by
    have h : soundSpeed γ l ^ 2 ≤ (l.u - SL) * (SR - l.u) := by
      rw [sq]; exact mul_le_mul m1 m3 c1.le (by linarith)
    have h2 := mul_le_mul_of_nonneg_right h hl.le
    rw [q1] at h2
    have h3 : 0 < (γ - 1) * l.p := mul_pos (by linarith) hlp
    linarith
  have hpos : 0 < l.d * (l.u - SL) + r.d * (SR - r.u) := by linarith
  have e1 : (Sm - SL) * (l.d * (l.u - SL) + r.d * (SR - r.u)) =
      l.p - r.p + l.d * (l.u - SL) * (l.u - SL) + r.d * (SR - r.u) * (r.u - SL) := by
    linear_combination -hSmEq
  have e2 : (SR - Sm) * (l.d * (l.u - SL) + r.d * (SR - r.u)) =
      r.p - l.p + l.d * (l.u - SL) * (SR - l.u) + r.d * (SR - r.u) * (SR - r.u) := by
    linear_combination hSmEq
  rw [← hSm]
  refine ⟨?_, ?_, ?_⟩
  · have : 0 < Sm - SL := (mul_pos_iff_of_pos_right hpos).1 (by rw [e1]; linarith)
    linarith
  · have : 0 < SR - Sm := (mul_pos_iff_of_pos_right hpos).1 (by rw [e2]; linarith)
    linarith
  · linear_combination hSmEq

theorem hllc_split :
    let c := max (soundSpeed γ l) (soundSpeed γ r)
    FluxSplit γ 1 ((|l.u| + soundSpeed γ l) + (|r.u| + soundSpeed γ r)) l r
      (hllcFlux γ (min l.u r.u - c) (max l.u r.u + c) l r) Cone := by
  intro c
  obtain ⟨k0, k1, k2⟩ := wave_bounds hγ hl hlp hr hrp
  change -(min l.u r.u - c) ≤ _ at k1
  change max l.u r.u + c ≤ _ at k2
  obtain ⟨K, hK⟩ : ∃ K, K = (|l.u| + soundSpeed γ l) + (|r.u| + soundSpeed γ r) := ⟨_, rfl⟩
  rw [← hK] at k0 k1 k2 ⊢
  have c1 := soundSpeed_pos hγ hl hlp
  have c2 := soundSpeed_pos hγ hr hrp
  have e1 : min l.u r.u ≤ l.u := min_le_left _ _
  have e2 : min l.u r.u ≤ r.u := min_le_right _ _
  have e3 : l.u ≤ max l.u r.u := le_max_left _ _
  have e4 : r.u ≤ max l.u r.u := le_max_right _ _
  have e5 : soundSpeed γ l ≤ c := le_max_left _ _
  have e6 : soundSpeed γ r ≤ c := le_max_right _ _
  obtain ⟨SL, hSL⟩ : ∃ S, S = min l.u r.u - c := ⟨_, rfl⟩
  obtain ⟨SR, hSR⟩ : ∃ S, S = max l.u r.u + c := ⟨_, rfl⟩
  rw [← hSL] at k1 ⊢
  rw [← hSR] at k2 ⊢
  have m1 : soundSpeed γ l ≤ l.u - SL := by linarith
  have m2 : soundSpeed γ r ≤ SR - r.u := by linarith
  have m3 : soundSpeed γ l ≤ SR - l.u := by linarith
  have m4 : soundSpeed γ r ≤ r.u - SL := by linarith
  clear_value c
  obtain ⟨hm1, hm2, hP⟩ := contact_between hγ hl hlp hr hrp m1 m2 m3 m4
  obtain ⟨f, hf⟩ : ∃ f, f = hllcFlux γ SL SR l r := ⟨_, rfl⟩
  rw [← hf]
  unfold hllcFlux at hf
  dsimp only at hf
  generalize contactSpeed SL SR l r = Sm at hm1 hm2 hP hf
  have pl : PosState (starCons γ SL Sm l) := star_pos hγ hl hlp
    (by rw [abs_sub_comm, abs_of_pos (by linarith)]; exact m1)
    (div_pos_of_neg_of_neg (by linarith) (by linarith))
  have pr : PosState (starCons γ SR Sm r) := star_pos hγ hr hrp
    (by rw [abs_of_pos (by linarith)]; exact m2) (div_pos (by linarith) (by linarith))
  have fl := star_flux (S := SL) (Sm := Sm) hγ hl hlp (by apply ne_of_lt; linarith) (by apply ne_of_lt; linarith)
  have fr := star_flux (S := SR) (Sm := Sm) hγ hr hrp (by apply ne_of_gt; linarith) (by apply ne_of_gt; linarith)
  rw [← hP] at fr
  obtain ⟨h1, h2⟩ := hllc_vectors k0 k1 k2 hm1 hm2 pl.cone pr.cone (toCons_pos hγ hl hlp).cone
    (toCons_pos hγ hr hrp).cone fl fr _ hf
  exact ⟨h1, h2⟩
end split2

/-! ## One direction of the update of a cell -/

theorem FluxSplit.toCone {γ θ K : ℝ} {l r f : HS ℝ} (h : FluxSplit γ θ K l r f PosState) :
    FluxSplit γ θ K l r f Cone := by
  obtain ⟨⟨A, X, a, b, c, d⟩, ⟨B, Y, e, f, g, i⟩⟩ := h
  exact ⟨⟨A, X, a, b, c.cone, d⟩, ⟨B, Y, e, f, g.cone, i⟩⟩

/-- What the two faces of one direction do to a cell: they take away a fraction of its content and add an
element of the cone. -/
theorem dir_contrib {γ θ K1 K2 lam : ℝ} {ql q qr fl fr : HS ℝ} (hlam : 0 ≤ lam)
    (h1 : FluxSplit γ θ K1 ql q fl Cone) (h2 : FluxSplit γ θ K2 q qr fr Cone) :
    ∃ a Z, a ≤ lam * (K1 + K2) ∧ Cone Z ∧ lam • fl - lam • fr = Z - a • toCons γ q := by
  obtain ⟨B, Y, b0, bK, hY, e1⟩ := h1.right
  obtain ⟨A, X, a0, aK, hX, e2⟩ := h2.left
  refine ⟨lam * (A + B), lam • (X + Y), mul_le_mul_of_nonneg_left (by linarith) hlam,
    (hX.add hY).smul hlam, ?_⟩
  rw [e1, e2]
  simp only [hs_smul, hs_sub, hs_add]
  refine HS.eqv ?_ ?_ ?_ ?_ ?_ <;> dsimp only <;> ring

end EulerKokkos
