import Verif.Lemmas.IeeeBinary

/-!
# Calculating with literals in double precision
-/

namespace EulerKokkos
open Spec Spec.Ieee
namespace Ieee64

/-- a magnitude `double` has -/
def Rep (q : ℚ) : Prop := ∃ (m : ℕ) (e : ℤ), q = m * (2 : ℚ) ^ e ∧ m < 2 ^ 53 ∧ -1074 ≤ e ∧ e ≤ 971

/-- `q` is the `double` nearest to `x`, strictly -/
def Near (x q : ℚ) : Prop := ∃ (m : ℕ) (e : ℤ), q = m * (2 : ℚ) ^ e ∧ m < 2 ^ 53 ∧ -1074 ≤ e ∧ e ≤ 971 ∧
  (2 : ℚ) ^ (52 + e) ≤ x ∧ |x - q| < (2 : ℚ) ^ e / 2

theorem Near.rep {x q : ℚ} (h : Near x q) : Rep q := by
  obtain ⟨m, e, h1, h2, h3, h4, -⟩ := h
  exact ⟨m, e, h1, h2, h3, h4⟩

theorem Rep.grid {q : ℚ} (h : Rep q) : (q : ℝ) ∈ binary64.grid ∧ (q : ℝ) ≤ binary64.top := by
  obtain ⟨m, e, rfl, h2, h3, h4⟩ := h
  refine ⟨⟨m, e, by positivity, by exact_mod_cast h2, h3, by push_cast; rfl⟩, ?_⟩
  show (((m : ℚ) * (2 : ℚ) ^ e : ℚ) : ℝ) ≤ ((2 : ℝ) ^ 53 - 1) * (2 : ℝ) ^ (971 : ℤ)
  push_cast
  have h5 : (m : ℝ) ≤ 2 ^ 53 - 1 := by
    have : m + 1 ≤ 2 ^ 53 := h2
    have : ((m + 1 : ℕ) : ℝ) ≤ ((2 ^ 53 : ℕ) : ℝ) := by exact_mod_cast this
    push_cast at this
    linarith
  exact mul_le_mul h5 (zpow_le_zpow_right₀ (by norm_num) h4) (zpow_pos two_pos _).le (by norm_num)

theorem Rep.nonneg {q : ℚ} (h : Rep q) : 0 ≤ q := by
  obtain ⟨m, e, rfl, -⟩ := h
  exact mul_nonneg (Nat.cast_nonneg m) (zpow_pos two_pos _).le

theorem lit_rep {q : ℚ} (h : Rep q) : (lit q : Double) = .fin false ⟨(q : ℝ), h.grid⟩ := by
  rw [Ieee.lit_eq q h.nonneg]
  exact Ieee.round_mag ⟨(q : ℝ), h.grid⟩

theorem roundEven_eq {y : ℝ} {n : ℤ} (h : |y - n| < 1 / 2) : roundEven y = n := by
  have h1 := (roundEven_nearest y n).trans_lt h
  rw [abs_lt] at h h1
  have h2 : ((roundEven y : ℝ)) - n < 1 := by linarith
  have h3 : -1 < ((roundEven y : ℝ)) - n := by linarith
  have h2 : roundEven y - n < 1 := by exact_mod_cast h2
  have h3 : -1 < roundEven y - n := by exact_mod_cast h3
  omega

theorem Near.rnd {x q : ℚ} (h : Near x q) : binary64.rnd (x : ℝ) = q := by
  obtain ⟨m, e, hq, hm, h3, h4, h5, h6⟩ := h
  have hpos : (0 : ℝ) < (2 : ℝ) ^ e := zpow_pos two_pos _
  have h5 : (2 : ℝ) ^ (52 + e) ≤ (x : ℝ) := by have := (Rat.cast_le (K := ℝ)).2 h5; push_cast at this; exact this
  have h6 : |(x : ℝ) - q| < (2 : ℝ) ^ e / 2 := by have := (Rat.cast_lt (K := ℝ)).2 h6; push_cast at this; exact this
  have hq' : (q : ℝ) = m * (2 : ℝ) ^ e := by rw [hq]; push_cast; rfl
  have hx : (0 : ℝ) < x := lt_of_lt_of_le (zpow_pos two_pos _) h5
  have hlt : (x : ℝ) < (2 : ℝ) ^ (52 + e + 1) := by
    have : (m : ℝ) ≤ 2 ^ 53 - 1 := by
      have : ((m + 1 : ℕ) : ℝ) ≤ ((2 ^ 53 : ℕ) : ℝ) := by exact_mod_cast hm
      push_cast at this
      linarith
    rw [show (52 : ℤ) + e + 1 = ((53 : ℕ) : ℤ) + e by norm_num; ring, zpow_add₀ (by norm_num), zpow_natCast]
    rw [abs_lt, hq'] at h6
    nlinarith
  have hl : Int.log 2 (x : ℝ) = 52 + e := by
    have a := (Int.zpow_le_iff_le_log (b := 2) one_lt_two hx (x := 52 + e)).1 (by exact_mod_cast h5)
    have b := (Int.lt_zpow_iff_log_lt (b := 2) one_lt_two hx (x := 52 + e + 1)).1 (by exact_mod_cast hlt)
    omega
  show binaryRound 53 (-1074) (x : ℝ) = q
  have hu : ulpExp 53 (-1074) (x : ℝ) = e := by
    unfold ulpExp
    rw [hl, max_eq_right] <;> norm_num <;> omega
  unfold binaryRound
  rw [hu, roundEven_eq (n := m), hq']
  · push_cast; rfl
  · have : (x : ℝ) / 2 ^ e - ((m : ℤ) : ℝ) = (x - q) / 2 ^ e := by
      rw [hq']; push_cast; field_simp
    rw [this, abs_div, abs_of_pos hpos, div_lt_iff₀ hpos]
    linarith

theorem round_near {x q : ℚ} (h : Near x q) : (round false (x : ℝ) : Double) = lit q := by
  rw [lit_rep h.rep]
  have hx : (0 : ℝ) ≤ x := by
    obtain ⟨m, e, -, -, -, -, h5, -⟩ := h
    exact_mod_cast le_trans (zpow_pos two_pos _).le h5
  have hr := h.rep.grid.2
  rw [Ieee.round_fin hx (by rw [h.rnd]; exact hr)]
  congr 2
  exact h.rnd

theorem round_rep {q : ℚ} (h : Rep q) : (round false (q : ℝ) : Double) = lit q := by
  rw [Ieee.lit_eq q h.nonneg]

theorem mul_near {a b q : ℚ} (ha : Rep a) (hb : Rep b) (h : Near (a * b) q) : (lit a : Double) * lit b = lit q := by
  rw [lit_rep ha, lit_rep hb, ← round_near h]
  show round _ _ = _
  push_cast
  rfl

theorem mul_rep {a b q : ℚ} (ha : Rep a) (hb : Rep b) (e : q = a * b) (h : Rep q) : (lit a : Double) * lit b = lit q := by
  rw [lit_rep ha, lit_rep hb, ← round_rep h, e]
  show round _ _ = _
  push_cast
  rfl

theorem div_rep {a b q : ℚ} (ha : Rep a) (hb : Rep b) (hb0 : b ≠ 0) (e : q = a / b) (h : Rep q) :
    (lit a : Double) / lit b = lit q := by
  rw [lit_rep ha, lit_rep hb, ← round_rep h, e]
  show div _ _ = _
  unfold div; dsimp only
  rw [if_neg (by exact_mod_cast hb0)]
  push_cast
  rfl

theorem add_rep {a b q : ℚ} (ha : Rep a) (hb : Rep b) (e : q = a + b) (h : Rep q) : (lit a : Double) + lit b = lit q := by
  rw [lit_rep ha, lit_rep hb, ← round_rep h, e]
  have h0 : (0 : ℝ) ≤ (a : ℝ) + b := by exact_mod_cast add_nonneg ha.nonneg hb.nonneg
  show add _ _ = _
  unfold add; dsimp only
  rw [Ieee.real_false, Ieee.real_false]
  push_cast
  split
  · rename_i h1
    rw [h1]; rfl
  · rw [abs_of_nonneg h0]
    congr 1
    simpa using h0

end Ieee64
end EulerKokkos
