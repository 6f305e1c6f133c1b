import Mathlib.Tactic.FieldSimp
import Mathlib.Tactic.Ring
import Verif.Lemmas.Ieee

/-!
# The binary formats with ties to even round to nearest
-/

namespace EulerKokkos
namespace Spec

theorem roundEven_nearest (y : ℝ) (n : ℤ) : |y - roundEven y| ≤ |y - n| := by
  have h1 := Int.floor_le y
  have h2 := Int.lt_floor_add_one y
  have low : n ≤ ⌊y⌋ → y - ⌊y⌋ ≤ |y - n| := fun h => by
    have : (n : ℝ) ≤ ⌊y⌋ := by exact_mod_cast h
    exact le_trans (by linarith) (le_abs_self _)
  have high : ¬ n ≤ ⌊y⌋ → ⌊y⌋ + 1 - y ≤ |y - n| := fun h => by
    have : (⌊y⌋ : ℝ) + 1 ≤ n := by exact_mod_cast not_le.1 h
    exact le_trans (by linarith) (neg_le_abs _)
  have e0 : |y - (⌊y⌋ : ℝ)| = y - ⌊y⌋ := abs_of_nonneg (by linarith)
  have e1 : |y - ((⌊y⌋ + 1 : ℤ) : ℝ)| = ⌊y⌋ + 1 - y := by
    rw [abs_of_nonpos (by push_cast; linarith)]; push_cast; ring
  unfold roundEven
  by_cases hn : n ≤ ⌊y⌋
  · have := low hn
    split_ifs
    · rw [e0]; linarith
    · rw [e1]; linarith
    · rw [e0]; linarith
    · rw [e1]; linarith
  · have := high hn
    split_ifs
    · rw [e0]; linarith
    · rw [e1]; linarith
    · rw [e0]; linarith
    · rw [e1]; linarith

theorem roundEven_nonneg {y : ℝ} (h : 0 ≤ y) : 0 ≤ roundEven y := by
  have := Int.floor_nonneg.2 h
  unfold roundEven
  split_ifs <;> omega

theorem roundEven_le {y : ℝ} {n : ℤ} (h : y < n) : roundEven y ≤ n := by
  have : ⌊y⌋ < n := Int.floor_lt.2 h
  unfold roundEven
  split_ifs <;> omega

section
variable {p : ℕ} {emin : ℤ}

theorem lt_ulp (x : ℝ) (hx : 0 ≤ x) : x / (2 : ℝ) ^ ulpExp p emin x < (2 : ℝ) ^ p := by
  have h2 : (0 : ℝ) < 2 := two_pos
  rw [div_lt_iff₀ (zpow_pos h2 _)]
  rcases hx.eq_or_lt with rfl | hx
  · exact mul_pos (pow_pos h2 _) (zpow_pos h2 _)
  · have h := Int.lt_zpow_succ_log_self (b := 2) (by norm_num) x
    rw [← zpow_natCast, ← zpow_add₀ h2.ne']
    refine lt_of_lt_of_le (by exact_mod_cast h) (zpow_le_zpow_right₀ (by norm_num) ?_)
    have := le_max_right emin (Int.log 2 x + 1 - p)
    unfold ulpExp
    omega

theorem binary_mem (hp : 1 ≤ p) (x : ℝ) (hx : 0 ≤ x) : binaryRound p emin x ∈ binaryGrid p emin := by
  have h2 : (0 : ℝ) < 2 := two_pos
  have hE : emin ≤ ulpExp p emin x := le_max_left _ _
  have hy : 0 ≤ x / (2 : ℝ) ^ ulpExp p emin x := div_nonneg hx (zpow_pos h2 _).le
  have h0 := roundEven_nonneg hy
  have h1 : roundEven (x / (2 : ℝ) ^ ulpExp p emin x) ≤ 2 ^ p :=
    roundEven_le (by push_cast; exact lt_ulp x hx)
  unfold binaryRound
  generalize roundEven (x / (2 : ℝ) ^ ulpExp p emin x) = n at *
  rcases h1.eq_or_lt with e | h
  · refine ⟨2 ^ (p - 1), ulpExp p emin x + 1, by positivity, ?_, by omega, ?_⟩
    · exact pow_lt_pow_right₀ (by norm_num) (by omega)
    · rw [e, zpow_add₀ h2.ne', zpow_one]
      obtain ⟨q, rfl⟩ : ∃ q, p = q + 1 := ⟨p - 1, by omega⟩
      push_cast
      rw [pow_succ]
      ring
  · exact ⟨n, _, h0, h, hE, rfl⟩

theorem binary_nearest (hp : 1 ≤ p) (x f : ℝ) (hx : 0 ≤ x) (hf : f ∈ binaryGrid p emin) :
    |x - binaryRound p emin x| ≤ |x - f| := by
  have h2 : (0 : ℝ) < 2 := two_pos
  have hu : (0 : ℝ) < (2 : ℝ) ^ ulpExp p emin x := zpow_pos h2 _
  -- closest among the multiples of the unit
  have mult : ∀ n : ℤ, |x - binaryRound p emin x| ≤ |x - n * (2 : ℝ) ^ ulpExp p emin x| := fun n => by
    have := roundEven_nearest (x / (2 : ℝ) ^ ulpExp p emin x) n
    have h := mul_le_mul_of_nonneg_right this hu.le
    rw [← abs_of_pos hu, ← abs_mul, ← abs_mul, abs_of_pos hu, sub_mul, sub_mul, div_mul_cancel₀ _ hu.ne'] at h
    exact h
  obtain ⟨m, e, m0, mp, he, rfl⟩ := hf
  by_cases hE : ulpExp p emin x ≤ e
  · have : (m : ℝ) * (2 : ℝ) ^ e = ((m * 2 ^ (e - ulpExp p emin x).toNat : ℤ) : ℝ) * (2 : ℝ) ^ ulpExp p emin x := by
      push_cast
      rw [mul_assoc, ← zpow_natCast, ← zpow_add₀ h2.ne', Int.toNat_of_nonneg (by omega)]
      congr 2
      omega
    rw [this]
    exact mult _
  · have hE := not_le.1 hE
    have hl : ulpExp p emin x = Int.log 2 x + 1 - p := by
      unfold ulpExp at hE ⊢
      rcases max_cases emin (Int.log 2 x + 1 - p) with ⟨q, _⟩ | ⟨q, _⟩
      · rw [q] at hE; omega
      · exact q
    rcases hx.eq_or_lt with rfl | hx
    · have : binaryRound p emin 0 = 0 := by
        unfold binaryRound roundEven
        simp
      rw [this, sub_self, abs_zero]
      exact abs_nonneg _
    · have h3 : (2 : ℝ) ^ Int.log 2 x ≤ x := by exact_mod_cast Int.zpow_log_le_self (b := 2) (by norm_num) hx
      have h4 : (m : ℝ) * (2 : ℝ) ^ e ≤ (2 : ℝ) ^ Int.log 2 x := by
        have : (m : ℝ) ≤ (2 : ℝ) ^ p := by exact_mod_cast mp.le
        refine (mul_le_mul_of_nonneg_right this (zpow_pos h2 _).le).trans ?_
        rw [← zpow_natCast, ← zpow_add₀ h2.ne']
        exact zpow_le_zpow_right₀ (by norm_num) (by omega)
      have h5 : (2 : ℝ) ^ Int.log 2 x = ((2 ^ (p - 1) : ℤ) : ℝ) * (2 : ℝ) ^ ulpExp p emin x := by
        push_cast
        rw [← zpow_natCast, ← zpow_add₀ h2.ne']
        congr 1
        omega
      refine (mult (2 ^ (p - 1))).trans ?_
      rw [← h5, abs_of_nonneg (by linarith), abs_of_nonneg (by linarith)]
      linarith

/-- a power of two is in the format -/
theorem pow_mem (hp : 1 ≤ p) {e : ℤ} (he : emin ≤ e) : (2 : ℝ) ^ e ∈ binaryGrid p emin :=
  ⟨1, e, by norm_num, by exact_mod_cast Nat.one_lt_two_pow (by omega), he, by push_cast; ring⟩

end

/-- The binary format with `p ≥ 2` digits, smallest exponent `emin` of the last place, largest exponent `q` of the last place
(IEEE 754 binary interchange formats: binary64 is `binary 53 (-1074) 971`), rounding to nearest, ties to even. -/
noncomputable def binary (p : ℕ) (emin q : ℤ) (hp : 2 ≤ p) (he : emin ≤ -14) (hq : 0 ≤ q) : Rounding where
  grid := binaryGrid p emin
  rnd := binaryRound p emin
  top := ((2 : ℝ) ^ p - 1) * (2 : ℝ) ^ q
  nonneg x hx := by
    obtain ⟨m, e, m0, _, _, rfl⟩ := hx
    exact mul_nonneg (by exact_mod_cast m0) (zpow_pos two_pos _).le
  mem := binary_mem (by omega)
  nearest x f := binary_nearest (by omega) x f
  zero_mem := ⟨0, emin, le_rfl, by positivity, le_rfl, by simp⟩
  one_mem := by simpa using pow_mem (p := p) (emin := emin) (by omega) (e := 0) (by omega)
  two_mem := by simpa using pow_mem (p := p) (emin := emin) (by omega) (e := 1) (by omega)
  top_mem := ⟨2 ^ p - 1, q, by have : (1 : ℤ) ≤ 2 ^ p := one_le_pow₀ (by norm_num); omega, by omega, by omega, by push_cast; ring⟩
  two_le_top := by
    have h1 : (4 : ℝ) ≤ (2 : ℝ) ^ p := by
      calc (4 : ℝ) = 2 ^ 2 := by norm_num
        _ ≤ 2 ^ p := pow_le_pow_right₀ (by norm_num) hp
    have h2 : (1 : ℝ) ≤ (2 : ℝ) ^ q := one_le_zpow₀ (by norm_num) hq
    nlinarith
  eps_pos := by
    have hm := binary_mem (p := p) (emin := emin) (by omega) (1 / 10000) (by norm_num)
    have hn := binary_nearest (p := p) (emin := emin) (by omega) (1 / 10000) _ (by norm_num)
      (pow_mem (by omega) he)
    have h0 : 0 ≤ binaryRound p emin (1 / 10000) := by
      obtain ⟨m, e, m0, _, _, h⟩ := hm
      rw [h]
      exact mul_nonneg (by exact_mod_cast m0) (zpow_pos two_pos _).le
    refine lt_of_le_of_ne h0 fun h => ?_
    rw [← h] at hn
    norm_num [abs_of_pos] at hn

/-- `double` -/
noncomputable def binary64 : Rounding := binary 53 (-1074) 971 (by norm_num) (by norm_num) (by norm_num)
/-- `float` -/
noncomputable def binary32 : Rounding := binary 24 (-149) 104 (by norm_num) (by norm_num) (by norm_num)

/-- the arithmetic of the default build -/
abbrev Double : Type := Ieee binary64

end Spec
end EulerKokkos
