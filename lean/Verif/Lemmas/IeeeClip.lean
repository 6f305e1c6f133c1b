import Verif.Spec.IeeeRest
import Verif.Lemmas.DistShadowOps

/-!
# Shortened time steps and uniform rates in double precision
-/

set_option linter.constructorNameAsVariable false

namespace EulerKokkos
open Spec
namespace Ieee64

/-- rounding a smaller magnitude gives a smaller magnitude -/
theorem round_below {s σ : Bool} {a b : ℝ} {m : binary64.Mag} (h0 : 0 ≤ b) (h : b ≤ a)
    (hm : (Spec.Ieee.round s a : Double) = .fin s m) : ∃ n : binary64.Mag, n.1 ≤ m.1 ∧ (Spec.Ieee.round σ b : Double) = .fin σ n := by
  have hr : binary64.rnd b ≤ binary64.rnd a := binary64.rnd_mono h0 h
  by_cases ht : binary64.rnd a ≤ binary64.top
  · rw [Ieee.round_fin (h0.trans h) ht] at hm
    have hm' := (Spec.Ieee.fin.inj hm).2
    refine ⟨⟨binary64.rnd b, binary64.mem b h0, hr.trans ht⟩, ?_, Ieee.round_fin h0 (hr.trans ht)⟩
    rw [← hm']
    exact hr
  · rw [Ieee.round_inf (not_le.1 ht)] at hm
    cases hm

theorem round_under {σ : Bool} {b : ℝ} {m : binary64.Mag} (h0 : 0 ≤ b) (h : b ≤ m.1) :
    ∃ n : binary64.Mag, n.1 ≤ m.1 ∧ (Spec.Ieee.round σ b : Double) = .fin σ n := round_below h0 h (Ieee.round_mag (s := σ) m)

/-- a sum that is exactly at most `τ` is not computed above `τ` -/
theorem add_under {s t : Bool} {a b τ : binary64.Mag} (h : Spec.Ieee.real s a + Spec.Ieee.real t b ≤ τ.1) :
    ((.fin s a + .fin t b : Double)).isNan = false ∧ ((.fin s a + .fin t b : Double)).key ≤ ((τ.1 : ℝ) : EReal) := by
  have hτ : 0 ≤ τ.1 := binary64.nonneg _ τ.2.1
  show (Spec.Ieee.add (.fin s a) (.fin t b) : Double).isNan = false ∧ _
  show (Spec.Ieee.add (.fin s a) (.fin t b) : Double).isNan = false ∧
    (Spec.Ieee.add (.fin s a) (.fin t b) : Double).key ≤ _
  unfold Spec.Ieee.add
  dsimp only
  generalize hv : Spec.Ieee.real s a + Spec.Ieee.real t b = v at h
  split
  · obtain ⟨n, hn, e⟩ := round_under (σ := s && t) (m := τ) (b := 0) le_rfl hτ
    rw [e]
    refine ⟨rfl, EReal.coe_le_coe_iff.2 ?_⟩
    have := binary64.nonneg _ n.2.1
    unfold Spec.Ieee.real
    split <;> linarith
  · by_cases hn : v < 0
    · rw [decide_eq_true hn]
      rcases Ieee.round_cases (Φ := binary64) true |v| with ⟨n, e⟩ | e <;> rw [e]
      · refine ⟨rfl, EReal.coe_le_coe_iff.2 ?_⟩
        have := binary64.nonneg _ n.2.1
        show -n.1 ≤ τ.1
        linarith
      · exact ⟨rfl, bot_le⟩
    · rw [decide_eq_false hn, abs_of_nonneg (not_lt.1 hn)]
      obtain ⟨n, hn', e⟩ := round_under (σ := false) (m := τ) (not_lt.1 hn) h
      rw [e]
      exact ⟨rfl, EReal.coe_le_coe_iff.2 hn'⟩

/-- a small positive literal -/
theorem lit_small {q : ℚ} (h0 : 0 ≤ q) (h1 : q ≤ 1) : ∃ n : binary64.Mag, (lit q : Double) = .fin false n := by
  rw [Ieee.lit_eq q h0]
  obtain ⟨n, -, e⟩ := round_under (σ := false) (m := (⟨1, binary64.one_mem, by
    have := binary64.two_le_top; linarith⟩ : binary64.Mag)) (b := (q : ℝ)) (by exact_mod_cast h0)
    (show (q : ℝ) ≤ 1 by exact_mod_cast h1)
  exact ⟨n, e⟩

/-- **The last step is shortened, never stretched**: while the run is not finished, the step is the computed one or a number
between zero and it. -/
theorem clip_below {p : Params Double} (hT : FinitePos p.tEnd) {t : Double} {δ : binary64.Mag}
    (hf : RealOps.le (p.tEnd - lit (1 / 100000000000000)) t = false) :
    ∃ n : binary64.Mag, n.1 ≤ δ.1 ∧ clipDt p t (.fin false δ) = .fin false n := by
  obtain ⟨τ, hτ, eT⟩ := hT
  unfold clipDt
  rw [eT] at hf ⊢
  split
  · rename_i hc
    obtain ⟨ε, hε⟩ := lit_small (q := 1 / 100000000000000) (by norm_num) (by norm_num)
    rw [hε] at hf
    have hε0 := binary64.nonneg _ ε.2.1
    have he := add_under (s := false) (a := τ) (t := true) (b := ε) (τ := τ) (by
      show τ.1 + -ε.1 ≤ τ.1
      linarith)
    have hle : ∀ x : Double, x.isNan = false → ((τ.1 : ℝ) : EReal) ≤ x.key →
        RealOps.le (.fin false τ - .fin false ε : Double) x = true := by
      intro x hx hk
      show (!(.fin false τ + .fin true ε : Double).isNan && !x.isNan && decide _) = true
      rw [he.1, hx]
      exact decide_eq_true (he.2.trans hk)
    obtain ⟨-, hn, hk⟩ := Ieee.lt_iff.1 hc
    cases t with
    | nan => cases hn
    | inf b =>
      cases b with
      | false => rw [hle _ rfl le_top] at hf; cases hf
      | true =>
        have : ((.inf true + .fin false δ : Double)).key = ⊥ := rfl
        rw [this] at hk
        exact absurd hk not_lt_bot
    | fin s a =>
      have h1 : Spec.Ieee.real s a < τ.1 := by
        by_contra h
        rw [hle (.fin s a) rfl (EReal.coe_le_coe_iff.2 (not_lt.1 h))] at hf
        cases hf
      have h2 : τ.1 < Spec.Ieee.real s a + δ.1 := by
        by_contra h
        have h3 := (add_under (s := s) (a := a) (t := false) (b := δ) (τ := τ) (not_lt.1 h)).2
        exact absurd hk (not_lt.2 h3)
      have e : Spec.Ieee.real false τ + Spec.Ieee.real (!s) a = τ.1 - Spec.Ieee.real s a := by
        cases s <;> simp [Spec.Ieee.real] <;> ring
      show ∃ n : binary64.Mag, n.1 ≤ δ.1 ∧ Spec.Ieee.add (.fin false τ) (.fin (!s) a) = .fin false n
      unfold Spec.Ieee.add
      dsimp only
      rw [e, if_neg (by linarith), decide_eq_false (by linarith), abs_of_nonneg (by linarith)]
      exact round_under (by linarith) (by linarith)
  · exact ⟨δ, le_rfl, rfl⟩

theorem fin_round {s : Bool} {a : ℝ} (h : IsFin (Spec.Ieee.round s a)) : ∃ m : binary64.Mag, (Spec.Ieee.round s a : Double) = .fin s m := by
  rcases Ieee.round_cases (Φ := binary64) s a with e | e
  · exact e
  · obtain ⟨_, _, e'⟩ := h
    rw [e] at e'
    cases e'

theorem div_below {n δ : binary64.Mag} (h : n.1 ≤ δ.1) {x : Double} (hx : FinitePos x) (hf : IsFin (.fin false δ / x)) :
    ∃ a b : binary64.Mag, a.1 ≤ b.1 ∧ (.fin false n / x : Double) = .fin false a ∧ (.fin false δ / x : Double) = .fin false b := by
  obtain ⟨m, hm, rfl⟩ := hx
  have e : ∀ k : binary64.Mag, (.fin false k / .fin false m : Double) = Spec.Ieee.round false (k.1 / m.1) := fun k => by
    show Spec.Ieee.div _ _ = _
    unfold Spec.Ieee.div
    dsimp only
    rw [if_neg hm.ne']
    rfl
  rw [e] at hf
  obtain ⟨b, hb⟩ := fin_round hf
  obtain ⟨a, ha, hh⟩ := round_below (σ := false) (div_nonneg (binary64.nonneg _ n.2.1) hm.le)
    ((div_le_div_iff_of_pos_right hm).2 h) hb
  exact ⟨a, b, ha, (e n).trans hh, (e δ).trans hb⟩

theorem mul_below {a b : binary64.Mag} (h : a.1 ≤ b.1) {x : Double} (hx : FinitePos x) (hf : IsFin (x * .fin false b)) :
    IsFin (x * .fin false a) := by
  obtain ⟨m, hm, rfl⟩ := hx
  have e : ∀ k : binary64.Mag, (.fin false m * .fin false k : Double) = Spec.Ieee.round false (m.1 * k.1) := fun k => rfl
  rw [e] at hf ⊢
  obtain ⟨c, hc⟩ := fin_round hf
  obtain ⟨d, -, hd⟩ := round_below (σ := false) (mul_nonneg hm.le (binary64.nonneg _ a.2.1))
    (mul_le_mul_of_nonneg_left h hm.le) hc
  exact ⟨_, _, hd⟩

/-- a shorter step than a calm one is calm -/
theorem calm_below {p : Params Double} {d e : Double} (h : CalmGas p.riemannSolverType p.settings d e) (hx : FinitePos p.dx)
    (hy : FinitePos p.dy) {n δ : binary64.Mag} (hn : n.1 ≤ δ.1) (hd : CalmStep p d e (.fin false δ)) :
    CalmStep p d e (.fin false n) := by
  obtain ⟨a, b, hab, ea, eb⟩ := div_below hn hx hd.ratio_x
  obtain ⟨a', b', hab', ea', eb'⟩ := div_below hn hy hd.ratio_y
  refine ⟨by rw [ea]; exact ⟨_, _, rfl⟩, by rw [ea']; exact ⟨_, _, rfl⟩, ?_, ?_⟩
  · have := hd.kick_x
    rw [eb] at this
    rw [ea]
    exact mul_below hab h.pressure this
  · have := hd.kick_y
    rw [eb'] at this
    rw [ea']
    exact mul_below hab' h.pressure this

theorem lowest_lt {w : Double} (h : FinitePos w) : RealOps.lt Spec.Ieee.lowest w = true := by
  obtain ⟨m, hm, rfl⟩ := h
  refine Ieee.lt_iff.2 ⟨rfl, rfl, EReal.coe_lt_coe_iff.2 ?_⟩
  show -binary64.top < m.1
  have := binary64.two_le_top
  linarith

/-- a maximum over bodies that all give `w`, in any schedule -/
theorem reduce_same {ι : Type} {f : ι → Double → Prog Arr Double Double} {m : Mem Arr Double} {w : Double}
    (hw : FinitePos w) (G : ι → Prop) (hG : ∀ i a, G i → ((f i a).run m).1 = RealOps.fmax a w)
    (hN : ∀ i a, ¬ G i → ((f i a).run m).1 = a) {l : List ι} {r : Double}
    (h : Reduce f kokkosMaxJoin Spec.Ieee.lowest m l r) : (r = Spec.Ieee.lowest ∨ r = w) ∧ ((∃ i ∈ l, G i) → r = w) := by
  have hlt := lowest_lt hw
  have hww : RealOps.lt w w = false := by
    rw [Bool.eq_false_iff]; intro hc
    exact absurd (Ieee.lt_iff.1 hc).2.2 (lt_irrefl _)
  have hwl : RealOps.lt w Spec.Ieee.lowest = false := by
    rw [Bool.eq_false_iff]; intro hc
    exact absurd ((Ieee.lt_iff.1 hc).2.2.trans (Ieee.lt_iff.1 hlt).2.2) (lt_irrefl _)
  have hll : RealOps.lt (Spec.Ieee.lowest : Double) Spec.Ieee.lowest = false := by
    rw [Bool.eq_false_iff]; intro hc
    exact absurd (Ieee.lt_iff.1 hc).2.2 (lt_irrefl _)
  induction h with
  | init => exact ⟨.inl rfl, fun ⟨_, hi, _⟩ => absurd hi List.not_mem_nil⟩
  | @iter l a i h ih =>
    by_cases g : G i
    · rw [hG i a g]
      have : RealOps.fmax a w = w := by
        rcases ih.1 with rfl | rfl
        · exact fmax_right hlt
        · exact fmax_same _
      exact ⟨.inr this, fun _ => this⟩
    · rw [hN i a g]
      refine ⟨ih.1, fun ⟨j, hj, gj⟩ => ih.2 ?_⟩
      rcases List.mem_cons.1 hj with rfl | hj
      · exact absurd gj g
      · exact ⟨j, hj, gj⟩
  | @join l l' a b _ _ ih ih' =>
    obtain ⟨h1, h2⟩ := ih
    obtain ⟨h1', h2'⟩ := ih'
    have hj : (a = w ∨ b = w) → kokkosMaxJoin a b = w := by
      unfold kokkosMaxJoin
      rcases h1 with rfl | rfl <;> rcases h1' with rfl | rfl <;> intro h <;> simp only [hlt, hww, hwl, hll] <;> simp_all
    have hi : kokkosMaxJoin a b = Spec.Ieee.lowest ∨ kokkosMaxJoin a b = w := by
      unfold kokkosMaxJoin; split
      · exact h1'
      · exact h1
    refine ⟨hi, fun ⟨i, hi, gi⟩ => hj ?_⟩
    rcases List.mem_append.1 hi with hi | hi
    · exact .inl (h2 ⟨i, hi, gi⟩)
    · exact .inr (h2' ⟨i, hi, gi⟩)

end Ieee64
end EulerKokkos
