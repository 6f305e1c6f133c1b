import Mathlib.Tactic.Linarith
import Mathlib.Tactic.Positivity
import Mathlib.Tactic.NormNum
import Verif.Spec.Ieee
import Verif.Spec.FloatMax
import Verif.Spec.FloatDiv
import Verif.Spec.Boundary

/-!
# IEEE 754 arithmetic satisfies `MaxLaws`, `DivLaws` and `SignLaws`
-/

namespace EulerKokkos
open Spec

namespace Spec.Rounding
variable (Φ : Rounding)

theorem rnd_id {x : ℝ} (h : x ∈ Φ.grid) : Φ.rnd x = x := by
  have := Φ.nearest x x (Φ.nonneg x h) h
  rw [sub_self, abs_zero] at this
  have := abs_eq_zero.1 (le_antisymm this (abs_nonneg _))
  linarith

theorem rnd_mono {x y : ℝ} (hx : 0 ≤ x) (h : x ≤ y) : Φ.rnd x ≤ Φ.rnd y := by
  by_contra hc
  push Not at hc
  have hy := hx.trans h
  have h1 := Φ.nearest x _ hx (Φ.mem y hy)
  have h2 := Φ.nearest y _ hy (Φ.mem x hx)
  have h3 : x ≠ y := by rintro rfl; exact lt_irrefl _ hc
  have h4 : x < y := lt_of_le_of_ne h h3
  generalize Φ.rnd x = a at *
  generalize Φ.rnd y = b at *
  rcases abs_cases (x - a) with ⟨e1, _⟩ | ⟨e1, _⟩ <;> rcases abs_cases (x - b) with ⟨e2, _⟩ | ⟨e2, _⟩ <;>
  rcases abs_cases (y - a) with ⟨e3, _⟩ | ⟨e3, _⟩ <;> rcases abs_cases (y - b) with ⟨e4, _⟩ | ⟨e4, _⟩ <;>
  rw [e1, e2] at h1 <;> rw [e3, e4] at h2 <;> linarith

theorem rnd_nonneg {x : ℝ} (hx : 0 ≤ x) : 0 ≤ Φ.rnd x := Φ.nonneg _ (Φ.mem x hx)

theorem one_le_top : (1 : ℝ) ≤ Φ.top := by linarith [Φ.two_le_top]
theorem zero_le_top : (0 : ℝ) ≤ Φ.top := by linarith [Φ.two_le_top]

end Spec.Rounding

namespace Ieee
open Spec.Ieee
variable {Φ : Rounding}

theorem round_fin {s : Bool} {a : ℝ} (h : 0 ≤ a) (h' : Φ.rnd a ≤ Φ.top) :
    (round s a : Ieee Φ) = .fin s ⟨Φ.rnd a, Φ.mem a h, h'⟩ := dif_pos ⟨h, h'⟩

theorem round_inf {s : Bool} {a : ℝ} (h' : Φ.top < Φ.rnd a) : (round s a : Ieee Φ) = .inf s :=
  dif_neg fun h => absurd h.2 (not_le.2 h')

theorem round_mag {s : Bool} (m : Φ.Mag) : (round s m.1 : Ieee Φ) = .fin s m := by
  rw [round_fin (Φ.nonneg _ m.2.1) (by rw [Φ.rnd_id m.2.1]; exact m.2.2)]
  congr 1
  exact Subtype.ext (Φ.rnd_id m.2.1)

theorem round_cases (s : Bool) (a : ℝ) : (∃ m, (round s a : Ieee Φ) = .fin s m) ∨ (round s a : Ieee Φ) = .inf s := by
  unfold Spec.Ieee.round
  split
  · exact .inl ⟨_, rfl⟩
  · exact .inr rfl

theorem sg_round (a : ℝ) : Sg (round false a : Ieee Φ) := by
  rcases round_cases (Φ := Φ) false a with ⟨m, e⟩ | e <;> rw [e] <;> exact .inr rfl

theorem num_round (a : ℝ) : Num (round false a : Ieee Φ) := by
  rcases round_cases (Φ := Φ) false a with ⟨m, e⟩ | e <;> rw [e]
  · exact fun _ => rfl
  · trivial

theorem notNan_round (s : Bool) (a : ℝ) : (round s a : Ieee Φ).isNan = false := by
  rcases round_cases (Φ := Φ) s a with ⟨m, e⟩ | e <;> rw [e] <;> rfl

/-- the place of a rounded magnitude is monotone -/
theorem key_round_mono {a b : ℝ} (ha : 0 ≤ a) (h : a ≤ b) :
    (round false a : Ieee Φ).key ≤ (round false b : Ieee Φ).key := by
  have hm := Φ.rnd_mono ha h
  by_cases hb : Φ.rnd b ≤ Φ.top
  · rw [round_fin ha (hm.trans hb), round_fin (ha.trans h) hb]
    exact EReal.coe_le_coe_iff.2 hm
  · rw [round_inf (not_le.1 hb)]
    exact le_top

theorem lt_iff {a b : Ieee Φ} : lt a b = true ↔ a.isNan = false ∧ b.isNan = false ∧ a.key < b.key := by
  unfold lt
  simp [and_assoc]

theorem num_notNan {a : Ieee Φ} (h : Num a) : a.isNan = false := by
  cases a with
  | nan => exact h.elim
  | inf s => rfl
  | fin s m => rfl

theorem ltNum {a b : Ieee Φ} (ha : Num a) (hb : Num b) : lt a b = true ↔ a.key < b.key := by
  rw [lt_iff]
  exact ⟨fun h => h.2.2, fun h => ⟨num_notNan ha, num_notNan hb, h⟩⟩

theorem key_inj {a b : Ieee Φ} (ha : Num a) (hb : Num b) (h : a.key = b.key) : a = b := by
  cases a with
  | nan => exact ha.elim
  | inf s =>
    cases b with
    | nan => exact hb.elim
    | inf t => cases s <;> cases t <;> first | rfl | (exact absurd h (by simp [key]))
    | fin t n => cases s <;> simp [key] at h
  | fin s m =>
    cases b with
    | nan => exact hb.elim
    | inf t => cases t <;> simp [key] at h
    | fin t n =>
      have h : real s m = real t n := EReal.coe_injective h
      have hm := Φ.nonneg _ m.2.1
      have hn := Φ.nonneg _ n.2.1
      have ha : m.1 = 0 → s = false := ha
      have hb : n.1 = 0 → t = false := hb
      unfold real at h
      have e : m.1 = n.1 ∧ s = t := by
        cases s <;> cases t <;> simp only [if_true, if_false, Bool.false_eq_true] at h
        · exact ⟨h, rfl⟩
        · exact absurd (hb (by linarith)) (by decide)
        · exact absurd (ha (by linarith)) (by decide)
        · exact ⟨by linarith, rfl⟩
      obtain ⟨e1, rfl⟩ := e
      rw [Subtype.ext e1]

theorem lit_eq (q : ℚ) (h : 0 ≤ q) : (lit q : Ieee Φ) = round false (q : ℝ) := by
  show round (decide (q < 0)) |(q : ℝ)| = _
  rw [decide_eq_false (not_lt.2 h), abs_of_nonneg (by exact_mod_cast h)]

theorem lit_zero : (lit 0 : Ieee Φ) = .fin false ⟨0, Φ.zero_mem, Φ.zero_le_top⟩ := by
  rw [lit_eq 0 le_rfl, Rat.cast_zero]
  exact round_mag (⟨0, Φ.zero_mem, Φ.zero_le_top⟩ : Φ.Mag)

theorem lit_one : (lit 1 : Ieee Φ) = .fin false ⟨1, Φ.one_mem, Φ.one_le_top⟩ := by
  rw [lit_eq 1 zero_le_one, Rat.cast_one]
  exact round_mag (⟨1, Φ.one_mem, Φ.one_le_top⟩ : Φ.Mag)

theorem lit_two : (lit 2 : Ieee Φ) = .fin false ⟨2, Φ.two_mem, Φ.two_le_top⟩ := by
  rw [lit_eq 2 zero_le_two, Rat.cast_ofNat]
  exact round_mag (⟨2, Φ.two_mem, Φ.two_le_top⟩ : Φ.Mag)

theorem lit_neg_one : (lit (-1) : Ieee Φ) = .fin true ⟨1, Φ.one_mem, Φ.one_le_top⟩ := by
  show round (decide ((-1 : ℚ) < 0)) |((-1 : ℚ) : ℝ)| = _
  rw [decide_eq_true (by norm_num), show |((-1 : ℚ) : ℝ)| = 1 by norm_num]
  exact round_mag (⟨1, Φ.one_mem, Φ.one_le_top⟩ : Φ.Mag)

theorem sg_nan : Sg (.nan : Ieee Φ) := .inl rfl
theorem sg_inf {s : Bool} : Sg (.inf s : Ieee Φ) ↔ s = false :=
  ⟨fun h => h.elim (fun e => by cases e) id, .inr⟩
theorem sg_fin {s : Bool} {m : Φ.Mag} : Sg (.fin s m : Ieee Φ) ↔ s = false :=
  ⟨fun h => h.elim (fun e => by cases e) id, .inr⟩

theorem real_false (m : Φ.Mag) : real false m = m.1 := rfl
theorem real_true (m : Φ.Mag) : real true m = -m.1 := rfl

/-- a sum that is not negative, of terms that are not both negative zeros, has a clear sign bit -/
theorem sg_add_fin {s t : Bool} {a b : Φ.Mag} (h : (s && t) = false) (h' : 0 ≤ real s a + real t b) :
    Sg ((.fin s a : Ieee Φ) + (.fin t b : Ieee Φ)) := by
  show Sg (add _ _)
  unfold add
  dsimp only
  split
  · rw [h]; exact sg_round _
  · rw [decide_eq_false (not_lt.2 h')]; exact sg_round _

theorem add_inf_right {s t : Bool} {a : Φ.Mag} : (.fin s a : Ieee Φ) + (.inf t : Ieee Φ) = .inf t := rfl
theorem add_inf_left {s t : Bool} {a : Φ.Mag} : (.inf t : Ieee Φ) + (.fin s a : Ieee Φ) = .inf t := rfl

theorem sg_add (x y : Ieee Φ) (hx : Sg x) (hy : Sg y) : Sg (x + y) := by
  cases x with
  | nan => exact sg_nan
  | inf s =>
    cases sg_inf.1 hx
    cases y with
    | nan => exact sg_nan
    | inf t => cases sg_inf.1 hy; exact .inr rfl
    | fin t b => exact sg_inf.2 rfl
  | fin s a =>
    cases sg_fin.1 hx
    cases y with
    | nan => exact sg_nan
    | inf t => cases sg_inf.1 hy; exact sg_inf.2 rfl
    | fin t b =>
      cases sg_fin.1 hy
      exact sg_add_fin rfl (add_nonneg (Φ.nonneg _ a.2.1) (Φ.nonneg _ b.2.1))

theorem sg_mul (x y : Ieee Φ) (hx : Sg x) (hy : Sg y) : Sg (x * y) := by
  show Sg (mul x y)
  cases x with
  | nan => exact sg_nan
  | inf s =>
    cases sg_inf.1 hx
    cases y with
    | nan => exact sg_nan
    | inf t => cases sg_inf.1 hy; exact .inr rfl
    | fin t b =>
      cases sg_fin.1 hy
      unfold mul; dsimp only
      split
      · exact sg_nan
      · exact .inr rfl
  | fin s a =>
    cases sg_fin.1 hx
    cases y with
    | nan => exact sg_nan
    | inf t =>
      cases sg_inf.1 hy
      unfold mul; dsimp only
      split
      · exact sg_nan
      · exact .inr rfl
    | fin t b => cases sg_fin.1 hy; exact sg_round _

theorem sg_div (x y : Ieee Φ) (hx : Sg x) (hy : Sg y) : Sg (x / y) := by
  show Sg (div x y)
  cases x with
  | nan => exact sg_nan
  | inf s =>
    cases sg_inf.1 hx
    cases y with
    | nan => exact sg_nan
    | inf t => exact sg_nan
    | fin t b => cases sg_fin.1 hy; exact .inr rfl
  | fin s a =>
    cases sg_fin.1 hx
    cases y with
    | nan => exact sg_nan
    | inf t => cases sg_inf.1 hy; exact sg_round _
    | fin t b =>
      cases sg_fin.1 hy
      unfold div; dsimp only
      split
      · split
        · exact sg_nan
        · exact .inr rfl
      · exact sg_round _

theorem sg_min (x y : Ieee Φ) (hx : Sg x) (hy : Sg y) : Sg (fmin x y) := by
  show Sg (Spec.Ieee.fmin x y)
  unfold Spec.Ieee.fmin
  split
  · exact hy
  · split
    · exact hx
    · split
      · exact hy
      · exact hx

theorem sg_speed (x y : Ieee Φ) : Sg (RealOps.sqrt x + fabs y) := by
  show Sg (sqrt x + withSign false y)
  have key : ∀ (z : Ieee Φ), Sg z → Sg (z + withSign false y) := fun z hz => by
    refine sg_add _ _ hz ?_
    cases y with
    | nan => exact sg_nan
    | inf t => exact .inr rfl
    | fin t b => exact .inr rfl
  cases x with
  | nan => exact sg_nan
  | inf s =>
    cases s
    · exact key _ (.inr rfl)
    · exact key _ sg_nan
  | fin s a =>
    show Sg ((if a.1 = 0 then .fin s a else if s = true then .nan else round false (Real.sqrt a.1)) + withSign false y)
    by_cases h : a.1 = 0
    · rw [if_pos h]
      cases y with
      | nan => exact sg_nan
      | inf t => exact .inr rfl
      | fin t b =>
        refine sg_add_fin (Bool.and_false s) ?_
        rw [real_false]
        have : real s a = 0 := by unfold real; rw [h]; cases s <;> simp
        rw [this, zero_add]
        exact Φ.nonneg _ b.2.1
    · rw [if_neg h]
      cases s
      · exact key _ (sg_round _)
      · exact key _ sg_nan

/-- a positive literal in the middle: `fmax x 1e-4` is a number with clear sign bit -/
theorem fmax_eps (x : Ieee Φ) : (∃ m, Spec.Ieee.fmax x (lit (1 / 10000)) = .fin false m) ∨
    Spec.Ieee.fmax x (lit (1 / 10000)) = (.inf false : Ieee Φ) := by
  have hq : ((((1 : ℚ) / 10000 : ℚ)) : ℝ) = 1 / 10000 := by push_cast; ring
  have he : (lit (1 / 10000) : Ieee Φ) = round false (1 / 10000) := by rw [lit_eq _ (by norm_num), hq]
  rcases round_cases (Φ := Φ) false (1 / 10000) with ⟨m, e⟩ | e
  · have hm : 0 < m.1 := by
      have := e
      unfold Spec.Ieee.round at this
      split at this
      · injection this with _ h2
        rw [← h2]
        exact Φ.eps_pos
      · cases this
    rw [he, e]
    unfold Spec.Ieee.fmax
    split
    · exact .inl ⟨m, rfl⟩
    · rw [if_neg (by simp [isNan])]
      split
      · exact .inl ⟨m, rfl⟩
      · rename_i hx hl
        have hx : x.isNan = false := by simpa using hx
        have hk : ¬ x.key < (.fin false m : Ieee Φ).key := fun h => hl (lt_iff.2 ⟨hx, rfl, h⟩)
        have hk := not_lt.1 hk
        cases x with
        | nan => cases hx
        | inf s =>
          cases s
          · exact .inr rfl
          · exact absurd hk (by simp [key])
        | fin s a =>
          cases s
          · exact .inl ⟨a, rfl⟩
          · have hk : real false m ≤ real true a := EReal.coe_le_coe_iff.1 hk
            rw [real_false, real_true] at hk
            have := Φ.nonneg _ a.2.1
            linarith
  · rw [he, e]
    unfold Spec.Ieee.fmax
    split
    · exact .inr rfl
    · rw [if_neg (by simp [isNan])]
      split
      · exact .inr rfl
      · rename_i hx hl
        have hx : x.isNan = false := by simpa using hx
        have hk : ¬ x.key < (.inf false : Ieee Φ).key := fun h => hl (lt_iff.2 ⟨hx, rfl, h⟩)
        have hk := not_lt.1 hk
        cases x with
        | nan => cases hx
        | inf s =>
          cases s
          · exact .inr rfl
          · exact absurd hk (by simp [key])
        | fin s a => exact absurd hk (by simp [key])

theorem sg_grav (x : Ieee Φ) :
    Sg (RealOps.sqrt (lit 1 + lit 2 * fmax x (lit (1 / 10000))) - lit 1 : Ieee Φ) := by
  show Sg (add (sqrt (add (lit 1) (mul (lit 2) (Spec.Ieee.fmax x (lit (1 / 10000)))))) (neg (lit 1)))
  rw [lit_one, lit_two]
  generalize Spec.Ieee.fmax x (lit (1 / 10000)) = k, fmax_eps x = hk
  have inf1 : Sg (add (sqrt (.inf false : Ieee Φ)) (neg (.fin false ⟨1, Φ.one_mem, Φ.one_le_top⟩))) := .inr rfl
  -- 1 + 2k is infinite or a magnitude of at least 1
  have big : ∀ m : Φ.Mag, 1 ≤ m.1 →
      Sg (add (sqrt (.fin false m : Ieee Φ)) (neg (.fin false ⟨1, Φ.one_mem, Φ.one_le_top⟩))) := by
    intro m hm
    have e : sqrt (.fin false m : Ieee Φ) = round false (Real.sqrt m.1) := by
      unfold sqrt; dsimp only
      rw [if_neg (by linarith), if_neg (by decide)]
    rw [e]
    have h1 : (1 : ℝ) ≤ Φ.rnd (Real.sqrt m.1) := by
      have := Φ.rnd_mono zero_le_one (Real.one_le_sqrt.2 hm)
      rwa [Φ.rnd_id Φ.one_mem] at this
    by_cases h2 : Φ.rnd (Real.sqrt m.1) ≤ Φ.top
    · rw [round_fin (Real.sqrt_nonneg _) h2]
      exact sg_add_fin (s := false) (t := true) rfl (by rw [real_false, real_true]; simpa using h1)
    · rw [round_inf (not_le.1 h2)]
      exact .inr rfl
  have one : ∀ m : Φ.Mag, Sg (add (sqrt (add (.fin false ⟨1, Φ.one_mem, Φ.one_le_top⟩) (.fin false m)))
      (neg (.fin false ⟨1, Φ.one_mem, Φ.one_le_top⟩))) := by
    intro m
    have hm := Φ.nonneg _ m.2.1
    have e : add (.fin false ⟨1, Φ.one_mem, Φ.one_le_top⟩) (.fin false m : Ieee Φ) = round false (1 + m.1) := by
      unfold add; dsimp only
      rw [real_false, real_false, if_neg (by dsimp only; linarith), decide_eq_false (by dsimp only; linarith), abs_of_nonneg (by dsimp only; linarith)]
    rw [e]
    have h1 : (1 : ℝ) ≤ Φ.rnd (1 + m.1) := by
      have := Φ.rnd_mono zero_le_one (show (1 : ℝ) ≤ 1 + m.1 by linarith)
      rwa [Φ.rnd_id Φ.one_mem] at this
    by_cases h2 : Φ.rnd (1 + m.1) ≤ Φ.top
    · rw [round_fin (by linarith) h2]
      exact big _ h1
    · rw [round_inf (not_le.1 h2)]
      exact inf1
  rcases hk with ⟨m, rfl⟩ | rfl
  · show Sg (add (sqrt (add _ (round false (2 * m.1)))) _)
    rcases round_cases (Φ := Φ) false (2 * m.1) with ⟨n, e⟩ | e <;> rw [e]
    · exact one n
    · exact inf1
  · have e : mul (.fin false ⟨2, Φ.two_mem, Φ.two_le_top⟩) (.inf false : Ieee Φ) = .inf false := by
      unfold mul; dsimp only
      rw [if_neg (by norm_num)]
      rfl
    rw [e]
    exact inf1

theorem maxLaws : MaxLaws (Ieee Φ) Num Sg where
  max_num a x ha hx := by
    show Spec.Ieee.fmax a x = if lt a x = true then x else a
    unfold Spec.Ieee.fmax
    rw [num_notNan ha, num_notNan hx]
    rfl
  max_nan a x ha hx hs := by
    show Spec.Ieee.fmax a x = a
    have : x.isNan = true := by
      cases x with
      | nan => rfl
      | inf s => exact absurd trivial hx
      | fin s m =>
        cases sg_fin.1 hs
        exact absurd (fun _ => rfl) hx
    unfold Spec.Ieee.fmax
    rw [num_notNan ha, this]
    rfl
  asymm a b ha hb h := by
    have h := (ltNum ha hb).1 h
    show lt b a = false
    rw [Bool.eq_false_iff, Ne, ltNum hb ha]
    exact not_lt.2 h.le
  trans a b c ha hb hc h h' := (ltNum ha hc).2 (((ltNum ha hb).1 h).trans ((ltNum hb hc).1 h'))
  total a b ha hb h h' := by
    have h : ¬ a.key < b.key := fun e => by simpa [(ltNum ha hb).2 e] using (show lt a b = false from h)
    have h' : ¬ b.key < a.key := fun e => by simpa [(ltNum hb ha).2 e] using (show lt b a = false from h')
    exact key_inj ha hb (le_antisymm (not_lt.1 h') (not_lt.1 h))
  sg_zero := by rw [lit_zero]; exact .inr rfl
  sg_speed := sg_speed
  sg_add := sg_add
  sg_mul := sg_mul
  sg_div := sg_div
  sg_min := sg_min
  sg_floor x := by
    rcases fmax_eps x with ⟨m, e⟩ | e
    · exact .inr (congrArg negative e)
    · exact .inr (congrArg negative e)
  sg_grav := sg_grav

/-- a number with a clear sign bit is not below zero -/
theorem rate_key {x : Ieee Φ} (h : Rate x) : 0 ≤ x.key := by
  obtain ⟨hx, h0⟩ := h
  cases x with
  | nan => cases hx
  | inf s => cases (show s = false from h0); exact le_top
  | fin s m =>
    cases (show s = false from h0)
    exact EReal.coe_le_coe_iff.2 (Φ.nonneg _ m.2.1)

/-- the quotients of a finite positive `c` by the numbers with a clear sign bit -/
theorem divLaws {c : Φ.Mag} (hc : 0 < c.1) : DivLaws (Ieee Φ) Num Rate (.fin false c) := by
  have fin : ∀ x : Ieee Φ, Rate x → (x = .inf false ∧ div (.fin false c) x = round false 0) ∨
      (∃ m : Φ.Mag, 0 < m.1 ∧ x = .fin false m ∧ div (.fin false c) x = round false (c.1 / m.1)) ∨
      (x.key = 0 ∧ div (.fin false c) x = .inf false) := by
    rintro x ⟨hx, h0⟩
    cases x with
    | nan => cases hx
    | inf s =>
      cases (show s = false from h0)
      exact .inl ⟨rfl, rfl⟩
    | fin s m =>
      cases (show s = false from h0)
      rcases (Φ.nonneg _ m.2.1).eq_or_lt with h | h
      · refine .inr (.inr ⟨?_, ?_⟩)
        · show ((m.1 : ℝ) : EReal) = 0
          rw [← h]; rfl
        · unfold div; dsimp only
          rw [if_pos h.symm, if_neg hc.ne']
          rfl
      · refine .inr (.inl ⟨m, h, rfl, ?_⟩)
        unfold div; dsimp only
        rw [if_neg h.ne']
        rfl
  refine ⟨?_, ?_, ?_, ?_, ?_⟩
  · rintro a ⟨ha, h⟩
    cases a with
    | nan => cases ha
    | inf s => trivial
    | fin s m => exact fun _ => h
  · rintro a b ha hb h
    refine ⟨num_notNan hb, ?_⟩
    have h : ¬ b.key < a.key := fun e => by
      have : lt b a = true := lt_iff.2 ⟨num_notNan hb, ha.1, e⟩
      rw [show RealOps.lt b a = lt b a from rfl, this] at h
      cases h
    have h0 : (0 : EReal) ≤ a.key := rate_key ha
    have h := h0.trans (not_lt.1 h)
    cases b with
    | nan => exact hb.elim
    | inf s =>
      cases s
      · rfl
      · exact absurd h (by simp [key])
    | fin s m =>
      cases s
      · rfl
      · have h : (0 : ℝ) ≤ real true m := EReal.coe_le_coe_iff.1 h
        rw [real_true] at h
        exact absurd (hb (le_antisymm (by linarith) (Φ.nonneg _ m.2.1))) (by decide)
  · intro a b ha hb
    show Spec.Ieee.fmin a b = if lt b a = true then b else a
    unfold Spec.Ieee.fmin
    rw [num_notNan ha, num_notNan hb]
    rfl
  · intro a ha
    show Num (div _ a)
    rcases fin a ha with ⟨_, e⟩ | ⟨m, _, _, e⟩ | ⟨_, e⟩ <;> rw [e]
    · exact num_round _
    · exact num_round _
    · trivial
  · intro a b ha hb h
    have h : ¬ a.key < b.key := fun e => by
      have : lt a b = true := lt_iff.2 ⟨ha.1, hb.1, e⟩
      rw [show RealOps.lt a b = lt a b from rfl, this] at h
      cases h
    have h := not_lt.1 h
    have hb0 := rate_key hb
    show lt (div _ b) (div _ a) = false
    rw [Bool.eq_false_iff, Ne, lt_iff]
    rintro ⟨_, _, hlt⟩
    refine absurd hlt (not_lt.2 ?_)
    rcases fin b hb with ⟨eb, e'⟩ | ⟨n, hn, eb, e'⟩ | ⟨eb, e'⟩ <;> rw [e']
    · rcases fin a ha with ⟨ea, e⟩ | ⟨m, hm, ea, e⟩ | ⟨ea, e⟩ <;> rw [e]
      · rw [ea, eb] at h
        exact absurd h (by simp [key])
      · rw [ea, eb] at h
        exact absurd h (by simp [key])
    · rcases fin a ha with ⟨ea, e⟩ | ⟨m, hm, ea, e⟩ | ⟨ea, e⟩ <;> rw [e]
      · exact key_round_mono le_rfl (div_nonneg hc.le hn.le)
      · rw [ea, eb] at h
        have : n.1 ≤ m.1 := EReal.coe_le_coe_iff.1 h
        exact key_round_mono (div_nonneg hc.le hm.le) (div_le_div_of_nonneg_left hc.le hn this)
      · rw [ea, eb] at h
        have : n.1 ≤ 0 := EReal.coe_le_coe_iff.1 h
        linarith
    · exact le_top

theorem signLaws : SignLaws (Ieee Φ) where
  mul_one x := by
    rw [lit_one]
    show mul x _ = x
    cases x with
    | nan => rfl
    | inf s =>
      unfold mul; dsimp only
      rw [if_neg one_ne_zero, Bool.xor_false]
    | fin s a =>
      unfold mul; dsimp only
      rw [mul_one, Bool.xor_false, round_mag]
  mul_neg_one x := by
    rw [lit_neg_one]
    show mul x _ = neg x
    cases x with
    | nan => rfl
    | inf s =>
      unfold mul; dsimp only
      rw [if_neg one_ne_zero, Bool.xor_true]
      rfl
    | fin s a =>
      unfold mul; dsimp only
      rw [mul_one, Bool.xor_true, round_mag]
      rfl

theorem num_lowest : Num (lowest : Ieee Φ) := fun h => absurd h (by
  have := Φ.two_le_top
  show Φ.top ≠ 0
  linarith)

theorem lowest_not_rate : ¬ Rate (lowest : Ieee Φ) := fun h => by cases h.2

end Ieee
end EulerKokkos
