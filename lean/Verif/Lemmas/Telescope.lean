import Mathlib.Algebra.BigOperators.Intervals
import Mathlib.Algebra.BigOperators.Ring.Finset
import Mathlib.Data.Int.Interval
import Mathlib.Algebra.Order.Group.Int
import Mathlib.Tactic.Ring
import Mathlib.Tactic.Linarith
import Mathlib.Data.Real.Basic

/-! Telescoping sums over integer intervals. -/

namespace EulerKokkos

theorem sum_Ico_succ_top (f : Int → ℝ) {a b : Int} (h : a ≤ b) :
    ∑ i ∈ Finset.Ico a (b + 1), f i = ∑ i ∈ Finset.Ico a b, f i + f b := by
  have : Finset.Ico a (b + 1) = insert b (Finset.Ico a b) := by
    ext x; simp only [Finset.mem_Ico, Finset.mem_insert]; omega
  rw [this, Finset.sum_insert (by simp), add_comm]

theorem sum_Ico_telescope (f : Int → ℝ) {a b : Int} (h : a ≤ b) :
    ∑ i ∈ Finset.Ico a b, (f i - f (i + 1)) = f a - f b := by
  induction b, h using Int.leInduction with
  | base => simp
  | succ n hn ih => rw [sum_Ico_succ_top _ hn, ih]; ring

/-- shift of the summation window -/
theorem sum_Ico_shift (f : Int → ℝ) (a b c : Int) :
    ∑ i ∈ Finset.Ico (a + c) (b + c), f i = ∑ i ∈ Finset.Ico a b, f (i + c) := by
  refine Finset.sum_bij' (fun i _ => i - c) (fun i _ => i + c) ?_ ?_ ?_ ?_ ?_
  all_goals simp only [Finset.mem_Ico]
  · intro i hi; omega
  · intro i hi; omega
  · intro i hi; omega
  · intro i hi; omega
  · intro i hi; congr 1; omega

end EulerKokkos
