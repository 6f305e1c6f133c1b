import Verif.Model.Int32
import Mathlib.Tactic.Ring
import Mathlib.Tactic.Linarith

/-!
# Lemmas: the 32-bit computations agree with the unbounded ones when the loop bounds fit
-/

set_option linter.unusedSectionVars false
set_option linter.unusedSimpArgs false

namespace EulerKokkos

variable {R : Type} [RealOps R]

theorem bind_some' {α β : Type} (a : α) (f : α → Option β) : (some a >>= f) = f a := rfl

/-- quotient and remainder of a non-negative number -/
theorem tdiv_facts {a b : Int} (ha : 0 ≤ a) (hb : 0 < b) :
    0 ≤ a.tdiv b ∧ 0 ≤ a.tdiv b * b ∧ a.tdiv b * b ≤ a ∧ a - a.tdiv b * b < b := by
  have h1 : 0 ≤ a.tdiv b := Int.tdiv_nonneg ha hb.le
  refine ⟨h1, by positivity, ?_, ?_⟩
  · rw [Int.tdiv_eq_ediv_of_nonneg ha]
    exact Int.ediv_mul_le a hb.ne'
  · rw [Int.tdiv_eq_ediv_of_nonneg ha]
    have := Int.lt_ediv_add_one_mul_self a hb
    linarith

theorem initSize32_some {n gw : Int} (hn : 1 ≤ n) (hg : 0 ≤ gw) (h : n + 2 * gw ≤ 2147483647) :
    initSize32 n gw = some (n - 1 + 2 * gw, n - 1 + 2 * gw - 0 + 1) := by
  simp (disch := omega) only [initSize32, i32_some, bind_some']
  rfl

theorem initSize32_none {n gw : Int} (h : 2147483647 < n + 2 * gw) : initSize32 n gw = none := by
  unfold initSize32
  cases h1 : i32 (n - 1) with
  | none => rfl
  | some a =>
    cases h2 : i32 (2 * gw) with
    | none => rfl
    | some b =>
      simp only [bind_some']
      unfold i32 at h1 h2
      split at h1 <;> [skip; exact absurd h1 (by simp)]
      split at h2 <;> [skip; exact absurd h2 (by simp)]
      cases h1; cases h2
      cases h3 : i32 (n - 1 + 2 * gw) with
      | none => rfl
      | some c =>
        unfold i32 at h3
        split at h3 <;> [skip; exact absurd h3 (by simp)]
        cases h3
        simp only [bind_some']
        cases h4 : i32 (n - 1 + 2 * gw - 0) with
        | none => rfl
        | some d =>
          unfold i32 at h4
          split at h4 <;> [skip; exact absurd h4 (by simp)]
          cases h4
          simp only [bind_some']
          rw [i32_none (by omega)]
          rfl

theorem decode2I_some {gw index : Int} (h0 : 0 ≤ index) (h1 : index ≤ 2147483647) (hg : 0 < gw) :
    decode2I gw index = some (index - index.tdiv gw * gw, index.tdiv gw) := by
  obtain ⟨a, b, c, d⟩ := tdiv_facts h0 hg
  unfold decode2I
  rw [div32_some h0 h1 hg]
  simp (disch := omega) only [i32_some, bind_some']
  rfl

theorem decode3I_some {A B index : Int} (h0 : 0 ≤ index) (h1 : index ≤ 2147483647) (hA : 0 < A)
    (hB : 0 < B) (hAB : A * B ≤ 2147483647) :
    decode3I A B index =
      some (index - (index - index.tdiv (A * B) * A * B).tdiv A * A - index.tdiv (A * B) * A * B,
        (index - index.tdiv (A * B) * A * B).tdiv A, index.tdiv (A * B)) := by
  have hAB0 : 0 < A * B := by positivity
  obtain ⟨a, b, c, d⟩ := tdiv_facts h0 hAB0
  have e : index.tdiv (A * B) * A * B = index.tdiv (A * B) * (A * B) := by ring
  have e1 : 0 ≤ index.tdiv (A * B) * A := by positivity
  have e2 : index.tdiv (A * B) * A ≤ index.tdiv (A * B) * A * B := by nlinarith
  have hk : index.tdiv (A * B) ≤ 2147483647 := by nlinarith
  have hb0 : 0 ≤ index - index.tdiv (A * B) * A * B := by omega
  obtain ⟨a', b', c', d'⟩ := tdiv_facts hb0 hA
  unfold decode3I
  simp (disch := omega) only [i32_some, div32_some, bind_some']
  rfl

/-- the decoded coordinates -/
theorem decode3_range {A B index : Int} (h0 : 0 ≤ index) (hA : 0 < A) (hB : 0 < B) :
    0 ≤ index.tdiv (A * B) ∧ 0 ≤ (index - index.tdiv (A * B) * A * B).tdiv A ∧
    (index - index.tdiv (A * B) * A * B).tdiv A < B ∧
    0 ≤ index - (index - index.tdiv (A * B) * A * B).tdiv A * A - index.tdiv (A * B) * A * B ∧
    index - (index - index.tdiv (A * B) * A * B).tdiv A * A - index.tdiv (A * B) * A * B < A := by
  have hAB0 : 0 < A * B := by positivity
  obtain ⟨a, b, c, d⟩ := tdiv_facts h0 hAB0
  have e : index.tdiv (A * B) * A * B = index.tdiv (A * B) * (A * B) := by ring
  have hb0 : 0 ≤ index - index.tdiv (A * B) * A * B := by omega
  obtain ⟨a', b', c', d'⟩ := tdiv_facts hb0 hA
  refine ⟨a, a', ?_, by omega, by omega⟩
  by_contra hc
  push Not at hc
  have : B * A ≤ (index - index.tdiv (A * B) * A * B).tdiv A * A := by nlinarith
  have : A * B = B * A := by ring
  omega

theorem maxFaceI_some {n gw i : Int} (hn : 0 ≤ n) (hg : 0 ≤ gw) (hi : 0 ≤ i)
    (h : n + gw + i ≤ 2147483647) (h' : n + 2 * gw ≤ 2147483647) :
    maxFaceI n gw i = some (i + (n + gw),
      decide (i + (n + gw) ≥ n + gw ∧ i + (n + gw) ≤ n + 2 * gw - 1)) := by
  simp (disch := omega) only [maxFaceI, i32_some, bind_some']
  rfl

theorem bcSrcMinI_some {n gw i : Int} (bc : BC) (hn : 0 ≤ n) (hi : 0 ≤ i) (hi' : i < gw)
    (h : n + 2 * gw ≤ 2147483647) : bcSrcMinI bc n gw i = some (bcSrcMin bc n gw i) := by
  unfold bcSrcMinI bcSrcMin
  split
  · simp (disch := omega) only [i32_some, bind_some']
  · split
    · rfl
    · rw [i32_some (by omega) (by omega)]

theorem bcSrcMaxI_some {n gw i : Int} (bc : BC) (hn : 0 ≤ n) (hg : 0 ≤ gw) (hi : n + gw ≤ i)
    (hi' : i ≤ n + 2 * gw - 1) (h : 2 * (n + gw) ≤ 2147483647) (h' : n + 2 * gw ≤ 2147483647) :
    bcSrcMaxI bc n gw i = some (bcSrcMax bc n gw i) := by
  unfold bcSrcMaxI bcSrcMax
  split
  · simp (disch := omega) only [i32_some, bind_some']
  · split
    · simp (disch := omega) only [i32_some, bind_some']
    · rw [i32_some (by omega) (by omega)]

theorem nbIter2I_eq (p : Params R) (w : p.WF) : nbIter2I p =
    if p.ghostWidth * max p.isize p.jsize ≤ 2147483647 then some (nbIter2 p) else none := by
  have h1 := w.gw_pos
  have h2 := w.isize_eq
  have h3 := w.nx_pos
  have h4 : 0 < max p.isize p.jsize := lt_max_of_lt_left (by omega)
  have : 0 < p.ghostWidth * max p.isize p.jsize := by positivity
  unfold nbIter2I nbIter2
  split
  · rw [i32_some (by omega) (by omega)]
  · rw [i32_none (by omega)]

theorem nbIter3I_eq (p : Params R) (w : p.WF) : nbIter3I p =
    if p.ghostWidth * (max (max p.isize p.jsize) p.ksize) ^ 2 ≤ 2147483647 then some (nbIter3 p)
    else none := by
  have h1 := w.gw_pos
  have h2 := w.isize_eq
  have h3 := w.nx_pos
  have h4 : 0 < max (max p.isize p.jsize) p.ksize :=
    lt_max_of_lt_left (lt_max_of_lt_left (by omega))
  unfold nbIter3I nbIter3
  dsimp only
  generalize max (max p.isize p.jsize) p.ksize = s at *
  have h5 : 0 < p.ghostWidth * s := by positivity
  have h6 : p.ghostWidth * s ≤ p.ghostWidth * s * s := by nlinarith
  have e : p.ghostWidth * s ^ 2 = p.ghostWidth * s * s := by ring
  rw [e]
  split
  · simp (disch := omega) only [i32_some, bind_some']
  · cases h7 : i32 (p.ghostWidth * s) with
    | none => rfl
    | some a =>
      unfold i32 at h7
      split at h7 <;> [skip; exact absurd h7 (by simp)]
      cases h7
      rw [bind_some', i32_none (by omega)]

end EulerKokkos
