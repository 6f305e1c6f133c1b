import Verif.Lemmas.IeeeRate
import Verif.Lemmas.IeeeCalc

/-!
# The inverse time step of a gas cell under gravity in double precision
-/

set_option linter.constructorNameAsVariable false

namespace EulerKokkos
open Spec
namespace Ieee64
open Spec.Ieee (Rate)

/-- a finite number between two bounds, sign bit clear -/
def Between (lo hi : ℝ) (x : Double) : Prop := ∃ m : binary64.Mag, x = .fin false m ∧ lo ≤ m.1 ∧ m.1 ≤ hi

theorem round_between {lo hi : ℚ} (hl : Rep lo) (hh : Rep hi) {a : ℝ} (h1 : (lo : ℝ) ≤ a) (h2 : a ≤ hi) :
    Between lo hi (Spec.Ieee.round false a) := by
  have h0 : (0 : ℝ) ≤ lo := Rat.cast_nonneg.2 hl.nonneg
  have a1 := binary64.rnd_mono h0 h1
  have a2 := binary64.rnd_mono (h0.trans h1) h2
  rw [binary64.rnd_id hl.grid.1] at a1
  rw [binary64.rnd_id hh.grid.1] at a2
  exact ⟨_, Ieee.round_fin (h0.trans h1) (a2.trans hh.grid.2), a1, a2⟩

theorem rep_pow (n : ℕ) (hn : n ≤ 1074) : Rep ((2 : ℚ) ^ (-(n : ℤ))) :=
  ⟨1, -n, by norm_num, by norm_num, by omega, by omega⟩

theorem rep1 : Rep 1 := ⟨1, 0, by norm_num, by norm_num, by norm_num, by norm_num⟩
theorem rep2 : Rep 2 := ⟨2, 0, by norm_num, by norm_num, by norm_num, by norm_num⟩
theorem rep4 : Rep 4 := ⟨4, 0, by norm_num, by norm_num, by norm_num, by norm_num⟩

/-- `1e-4` in double precision -/
theorem eps_between : Between (1/16384 : ℚ) (1 : ℚ) (lit (1/10000)) := by
  rw [Ieee.lit_eq _ (by norm_num)]
  exact round_between ⟨1, -14, by norm_num, by norm_num, by norm_num, by norm_num⟩ rep1 (by norm_num) (by norm_num)

/-- the correction factor at the floor `k = 1e-4` is finite and positive -/
theorem factor_eps : FinitePos (lit (1/10000) / (RealOps.sqrt (lit 1 + lit 2 * lit (1/10000)) - lit 1) : Double) := by
  obtain ⟨e, he, e1, e2⟩ := eps_between
  push_cast at e1 e2
  rw [he]
  have hm : Between (1/8192 : ℚ) (2 : ℚ) (lit 2 * .fin false e) := by
    rw [Ieee.lit_two]
    exact round_between ⟨1, -13, by norm_num, by norm_num, by norm_num, by norm_num⟩ rep2
      (by push_cast; linarith) (by push_cast; linarith)
  obtain ⟨m, hm, m1, m2⟩ := hm
  push_cast at m1 m2
  rw [hm]
  have hn : Between (8193/8192 : ℚ) (4 : ℚ) (lit 1 + .fin false m) := by
    rw [Ieee.lit_one]
    show Between _ _ (Spec.Ieee.add _ _)
    unfold Spec.Ieee.add; dsimp only
    rw [Ieee.real_false, Ieee.real_false, if_neg (by dsimp only; linarith), decide_eq_false (by dsimp only; linarith),
      abs_of_nonneg (by dsimp only; linarith)]
    exact round_between ⟨8193, -13, by norm_num, by norm_num, by norm_num, by norm_num⟩ rep4
      (by push_cast; linarith) (by push_cast; linarith)
  obtain ⟨n, hn, n1, n2⟩ := hn
  push_cast at n1 n2
  rw [hn]
  have hr : Between (32769/32768 : ℚ) (2 : ℚ) (RealOps.sqrt (.fin false n : Double)) := by
    show Between _ _ (Spec.Ieee.sqrt _)
    unfold Spec.Ieee.sqrt; dsimp only
    rw [if_neg (by linarith), if_neg (by decide)]
    refine round_between ⟨32769, -15, by norm_num, by norm_num, by norm_num, by norm_num⟩ rep2 ?_ ?_
    · refine Real.le_sqrt_of_sq_le ?_
      push_cast
      linarith [show ((32769 : ℝ)/32768)^2 ≤ 8193/8192 by norm_num]
    · refine Real.sqrt_le_iff.2 ⟨by norm_num, ?_⟩
      push_cast
      linarith
  obtain ⟨r, hr, r1, r2⟩ := hr
  push_cast at r1 r2
  rw [hr]
  have hs : Between (1/32768 : ℚ) (1 : ℚ) (.fin false r - lit 1) := by
    rw [Ieee.lit_one]
    show Between _ _ (Spec.Ieee.add _ (.fin true _))
    unfold Spec.Ieee.add; dsimp only
    rw [Ieee.real_false, Ieee.real_true, if_neg (by dsimp only; linarith), decide_eq_false (by dsimp only; linarith),
      abs_of_nonneg (by dsimp only; linarith)]
    exact round_between ⟨1, -15, by norm_num, by norm_num, by norm_num, by norm_num⟩ rep1
      (by push_cast; linarith) (by push_cast; linarith)
  obtain ⟨d, hd, d1, d2⟩ := hs
  push_cast at d1 d2
  rw [hd]
  have hd0 : 0 < d.1 := by linarith
  have hq : Between (1/16384 : ℚ) (32768 : ℚ) (.fin false e / .fin false d) := by
    show Between _ _ (Spec.Ieee.div _ _)
    unfold Spec.Ieee.div; dsimp only
    rw [if_neg hd0.ne']
    refine round_between ⟨1, -14, by norm_num, by norm_num, by norm_num, by norm_num⟩
      ⟨32768, 0, by norm_num, by norm_num, by norm_num, by norm_num⟩ ?_ ?_
    · rw [le_div_iff₀ hd0]; push_cast; nlinarith
    · rw [div_le_iff₀ hd0]; push_cast; nlinarith
  obtain ⟨q, hq, q1, -⟩ := hq
  push_cast at q1
  exact ⟨q, by linarith, hq⟩

theorem notNan_mul_fin {v x : Double} (hv : FinitePos v) (hx : x.isNan = false) : (v * x).isNan = false := by
  obtain ⟨m, hm, rfl⟩ := hv
  show (Spec.Ieee.mul _ _).isNan = false
  cases x with
  | nan => cases hx
  | inf s => unfold Spec.Ieee.mul; dsimp only; rw [if_neg hm.ne']; rfl
  | fin s n => exact Ieee.notNan_round _ _

theorem notNan_mul_pos {v x : Double} (hv : NotBelow v) (hx : FinitePos x) : (v * x).isNan = false := by
  obtain ⟨m, hm, rfl⟩ := hx
  show (Spec.Ieee.mul _ _).isNan = false
  cases v with
  | nan => cases hv.1
  | inf s => unfold Spec.Ieee.mul; dsimp only; rw [if_neg hm.ne']; rfl
  | fin s n => exact Ieee.notNan_round _ _

theorem notNan_div_pos {x d : Double} (hx : FinitePos x) (hd : d.isNan = false) : (x / d).isNan = false := by
  obtain ⟨m, hm, rfl⟩ := hx
  show (Spec.Ieee.div _ _).isNan = false
  cases d with
  | nan => cases hd
  | inf s => exact Ieee.notNan_round _ _
  | fin s n =>
    unfold Spec.Ieee.div; dsimp only
    split
    · rw [if_neg hm.ne']; rfl
    · exact Ieee.notNan_round _ _

theorem notNan_sub_one {x : Double} (hx : x.isNan = false) : (x - lit 1).isNan = false := by
  rw [Ieee.lit_one]
  show (Spec.Ieee.add _ (.fin true _)).isNan = false
  cases x with
  | nan => cases hx
  | inf s => rfl
  | fin s n =>
    unfold Spec.Ieee.add; dsimp only
    split <;> exact Ieee.notNan_round _ _

theorem eps_pos : FinitePos (lit (1/10000) : Double) := by
  obtain ⟨e, he, e1, -⟩ := eps_between
  push_cast at e1
  exact ⟨e, by linarith, he⟩

/-- a number below the floor, or a NaN, is replaced by the floor -/
theorem floor_eps {k : Double} (h : k = .nan ∨ k = .inf true ∨ ∃ s m, m.1 = 0 ∧ k = .fin s m) :
    RealOps.fmax k (lit (1/10000)) = lit (1/10000) := by
  obtain ⟨e, he, e1, -⟩ := eps_between
  push_cast at e1
  rw [he]
  show Spec.Ieee.fmax _ _ = _
  have key : ∀ k : Double, k.isNan = false → k.key < (.fin false e : Double).key →
      Spec.Ieee.fmax k (.fin false e) = .fin false e := fun k h1 h2 => by
    unfold Spec.Ieee.fmax
    rw [if_neg (by simp [h1]), if_neg (by simp [Spec.Ieee.isNan]), if_pos (Ieee.lt_iff.2 ⟨h1, rfl, h2⟩)]
  rcases h with rfl | rfl | ⟨s, m, hm, rfl⟩
  · rfl
  · exact key _ rfl (EReal.bot_lt_coe _)
  · refine key _ rfl (EReal.coe_lt_coe_iff.2 ?_)
    rw [Ieee.real_false]
    have : Spec.Ieee.real s m = 0 := by cases s <;> simp [Spec.Ieee.real, hm]
    rw [this]; linarith

/-- **The gravity rate is not a NaN** unless the ratio of the acceleration to the squared speed overflows. -/
theorem notNan_gravRate {cfl h v a : Double} (hc : FinitePos cfl) (hh : FinitePos h) (hv : Rate v)
    (hk : a * (cfl * h / (v * v)) ≠ .inf false) : (gravRate cfl h v a).isNan = false := by
  unfold gravRate
  dsimp only
  have hvb : NotBelow v := Ieee.rate_notBelow hv
  refine Ieee.notNan_div ?_ hh
  -- at the floor
  have atfloor : RealOps.fmax (a * (cfl * h / (v * v))) (lit (1/10000)) = (lit (1/10000) : Double) →
      (v * (RealOps.fmax (a * (cfl * h / (v * v))) (lit (1/10000)) / (RealOps.sqrt (lit 1 + lit 2 *
        RealOps.fmax (a * (cfl * h / (v * v))) (lit (1/10000))) - lit 1))).isNan = false := fun e => by
    rw [e]
    exact notNan_mul_pos hvb factor_eps
  have hch : NotBelow (cfl * h) := Ieee.notBelow_mul hc (by
    obtain ⟨m, hm, rfl⟩ := hh
    exact ⟨rfl, EReal.coe_le_coe_iff.2 hm.le⟩)
  have hzero : ∀ (b : Double) (s : Bool) (m : binary64.Mag), m.1 = 0 →
      b * .fin s m = .nan ∨ ∃ s' m', m'.1 = 0 ∧ b * .fin s m = (.fin s' m' : Double) := fun b s m hm => by
    cases b with
    | nan => exact .inl rfl
    | inf t => exact .inl (by show Spec.Ieee.mul _ _ = _; unfold Spec.Ieee.mul; dsimp only; rw [if_pos hm])
    | fin t n =>
      refine .inr ⟨t ^^ s, m, hm, ?_⟩
      show Spec.Ieee.round (t ^^ s) (n.1 * m.1) = _
      rw [show n.1 * m.1 = m.1 by rw [hm, mul_zero]]
      exact Ieee.round_mag m
  obtain ⟨hv1, hv2⟩ := hv
  cases v with
  | nan => cases hv1
  | inf s =>
    have hs : s = false := hv2
    subst hs
    refine atfloor (floor_eps ?_)
    have hvv : (.inf false * .inf false : Double) = .inf false := rfl
    rw [hvv]
    have : cfl * h / .inf false = .nan ∨ ∃ s m, m.1 = 0 ∧ cfl * h / .inf false = (.fin s m : Double) := by
      generalize cfl * h = b
      cases b with
      | nan => exact .inl rfl
      | inf t => exact .inl rfl
      | fin t n => exact .inr ⟨t ^^ false, ⟨0, binary64.zero_mem, binary64.zero_le_top⟩, rfl,
          Ieee.round_mag (⟨0, binary64.zero_mem, binary64.zero_le_top⟩ : binary64.Mag)⟩
    rcases this with e | ⟨s, m, hm, e⟩ <;> rw [e]
    · exact .inl (by cases a <;> rfl)
    · rcases hzero a s m hm with e | e
      · exact .inl e
      · exact .inr (.inr e)
  | fin s m =>
    have hs : s = false := hv2
    subst hs
    by_cases hm : m.1 = 0
    · refine atfloor (floor_eps ?_)
      revert hk
      have hvv : (.fin false m * .fin false m : Double) = .fin false m := by
        show Spec.Ieee.round (false ^^ false) (m.1 * m.1) = _
        rw [show m.1 * m.1 = m.1 by rw [hm, mul_zero]]
        exact Ieee.round_mag m
      rw [hvv]
      intro hk
      have : cfl * h / .fin false m = .nan ∨ cfl * h / .fin false m = (.inf false : Double) := by
        rcases Ieee.notBelow_cases hch with e | ⟨n, e⟩ | ⟨n, hn, e⟩ <;> rw [e]
        · exact .inr rfl
        · by_cases hn : n.1 = 0
          · exact .inl (by show Spec.Ieee.div _ _ = _; unfold Spec.Ieee.div; dsimp only; rw [if_pos hm, if_pos hn])
          · exact .inr (by show Spec.Ieee.div _ _ = _; unfold Spec.Ieee.div; dsimp only; rw [if_pos hm, if_neg hn]; rfl)
        · exact .inl (by show Spec.Ieee.div _ _ = _; unfold Spec.Ieee.div; dsimp only; rw [if_pos hm, if_pos hn])
      rcases this with e | e <;> rw [e] at hk ⊢
      · exact .inl (by cases a <;> rfl)
      · cases a with
        | nan => exact .inl rfl
        | inf t =>
          cases t
          · exact absurd rfl hk
          · exact .inr (.inl rfl)
        | fin t n =>
          by_cases hn : n.1 = 0
          · exact .inl (by show Spec.Ieee.mul _ _ = _; unfold Spec.Ieee.mul; dsimp only; rw [if_pos hn])
          · have e2 : (.fin t n * .inf false : Double) = .inf (t ^^ false) := by
              show Spec.Ieee.mul _ _ = _; unfold Spec.Ieee.mul; dsimp only; rw [if_neg hn]
            rw [e2] at hk ⊢
            cases t
            · exact absurd rfl hk
            · exact .inr (.inl rfl)
    · have hpos : FinitePos (.fin false m : Double) := ⟨m, lt_of_le_of_ne (binary64.nonneg _ m.2.1) (Ne.symm hm), rfl⟩
      have hkp := Ieee.fmax_finitePos eps_pos hk
      generalize RealOps.fmax (a * (cfl * h / (.fin false m * .fin false m))) (lit (1/10000)) = k at hkp
      refine notNan_mul_fin hpos (notNan_div_pos hkp (notNan_sub_one ?_))
      have nb : ∀ {x : Double}, FinitePos x → NotBelow x := fun {x} hx => by
        obtain ⟨m, hm, rfl⟩ := hx
        exact ⟨rfl, EReal.coe_le_coe_iff.2 hm.le⟩
      have h1 : NotBelow (lit 1 : Double) := by
        rw [Ieee.lit_one]
        exact ⟨rfl, EReal.coe_le_coe_iff.2 zero_le_one⟩
      have h2 : FinitePos (lit 2 : Double) := ⟨_, two_pos, Ieee.lit_two⟩
      have h3 : NotBelow (lit 1 + lit 2 * k) := Ieee.notBelow_add h1 (Ieee.notBelow_mul h2 (nb hkp))
      exact (Ieee.notBelow_sqrt h3).1

end Ieee64
end EulerKokkos
