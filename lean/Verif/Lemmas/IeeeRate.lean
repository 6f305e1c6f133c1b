import Verif.Spec.IeeeRun
import Verif.Spec.DtRate
import Verif.Lemmas.FloatMax

/-!
# The inverse time step of a gas cell in IEEE 754 arithmetic is not a NaN
-/

set_option linter.constructorNameAsVariable false

namespace EulerKokkos
open Spec
namespace Ieee
open Spec.Ieee
variable {Φ : Rounding}

theorem notBelow_round (a : ℝ) : NotBelow (round false a : Ieee Φ) := by
  rcases round_cases (Φ := Φ) false a with ⟨m, e⟩ | e <;> rw [e]
  · exact ⟨rfl, EReal.coe_le_coe_iff.2 (Φ.nonneg _ m.2.1)⟩
  · exact ⟨rfl, le_top⟩

theorem notBelow_round_zero (s : Bool) : NotBelow (round s 0 : Ieee Φ) := by
  have e : (round s 0 : Ieee Φ) = .fin s ⟨0, Φ.zero_mem, Φ.zero_le_top⟩ :=
    round_mag (⟨0, Φ.zero_mem, Φ.zero_le_top⟩ : Φ.Mag)
  rw [e]
  refine ⟨rfl, EReal.coe_le_coe_iff.2 ?_⟩
  unfold real
  cases s <;> simp

/-- what is not below zero: `+inf`, a number with a clear sign bit, or a zero -/
theorem notBelow_cases {x : Ieee Φ} (h : NotBelow x) : x = .inf false ∨ (∃ m, x = .fin false m) ∨
    ∃ m : Φ.Mag, m.1 = 0 ∧ x = .fin true m := by
  obtain ⟨h1, h2⟩ := h
  cases x with
  | nan => cases h1
  | inf s =>
    cases s
    · exact .inl rfl
    · exact absurd h2 (by simp [key])
  | fin s m =>
    cases s
    · exact .inr (.inl ⟨m, rfl⟩)
    · have h2 : (0 : ℝ) ≤ real true m := EReal.coe_le_coe_iff.1 h2
      rw [real_true] at h2
      exact .inr (.inr ⟨m, le_antisymm (by linarith) (Φ.nonneg _ m.2.1), rfl⟩)

/-- the floor of the density -/
theorem fmax_finitePos {a b : Ieee Φ} (hb : FinitePos b) (ha : a ≠ .inf false) : FinitePos (RealOps.fmax a b) := by
  show FinitePos (Spec.Ieee.fmax a b)
  unfold Spec.Ieee.fmax
  split
  · exact hb
  · obtain ⟨m, hm, rfl⟩ := hb
    rw [if_neg (by simp [isNan])]
    split
    · exact ⟨m, hm, rfl⟩
    · rename_i h1 h2
      have h1 : a.isNan = false := by simpa using h1
      have h2 : ¬ a.key < (.fin false m : Ieee Φ).key := fun e => h2 (lt_iff.2 ⟨h1, rfl, e⟩)
      have h2 := not_lt.1 h2
      cases a with
      | nan => cases h1
      | inf s =>
        cases s
        · exact absurd rfl ha
        · exact absurd h2 (by simp [key])
      | fin s n =>
        have h2 : m.1 ≤ real s n := EReal.coe_le_coe_iff.1 h2
        cases s
        · exact ⟨n, hm.trans_le h2, rfl⟩
        · rw [real_true] at h2
          have := Φ.nonneg _ n.2.1
          linarith

theorem notBelow_fmax {a b : Ieee Φ} (hb : NotBelow b) : NotBelow (RealOps.fmax a b) := by
  show NotBelow (Spec.Ieee.fmax a b)
  unfold Spec.Ieee.fmax
  split
  · exact hb
  · rw [if_neg (by simp [hb.1])]
    split
    · exact hb
    · rename_i h1 h2
      have h1 : a.isNan = false := by simpa using h1
      have h2 : ¬ a.key < b.key := fun e => h2 (lt_iff.2 ⟨h1, hb.1, e⟩)
      exact ⟨h1, hb.2.trans (not_lt.1 h2)⟩

theorem notNan_div {x d : Ieee Φ} (hx : x.isNan = false) (hd : FinitePos d) : (x / d).isNan = false := by
  obtain ⟨m, hm, rfl⟩ := hd
  show (div x _).isNan = false
  cases x with
  | nan => cases hx
  | inf s => rfl
  | fin s n =>
    unfold div; dsimp only
    rw [if_neg hm.ne']
    exact notNan_round _ _

theorem notBelow_div {x d : Ieee Φ} (hx : NotBelow x) (hd : FinitePos d) : NotBelow (x / d) := by
  obtain ⟨m, hm, rfl⟩ := hd
  show NotBelow (div x _)
  rcases notBelow_cases hx with rfl | ⟨n, rfl⟩ | ⟨n, hn, rfl⟩
  · exact ⟨rfl, le_top⟩
  · unfold div; dsimp only
    rw [if_neg hm.ne']
    exact notBelow_round _
  · unfold div; dsimp only
    rw [if_neg hm.ne', hn, zero_div]
    exact notBelow_round_zero _

theorem notBelow_mul {d x : Ieee Φ} (hd : FinitePos d) (hx : NotBelow x) : NotBelow (d * x) := by
  obtain ⟨m, hm, rfl⟩ := hd
  show NotBelow (mul _ x)
  rcases notBelow_cases hx with rfl | ⟨n, rfl⟩ | ⟨n, hn, rfl⟩
  · unfold mul; dsimp only
    rw [if_neg hm.ne']
    exact ⟨rfl, le_top⟩
  · exact notBelow_round _
  · unfold mul; dsimp only
    rw [hn, mul_zero]
    exact notBelow_round_zero _

theorem notBelow_sqrt {x : Ieee Φ} (hx : NotBelow x) : NotBelow (RealOps.sqrt x) := by
  show NotBelow (sqrt x)
  rcases notBelow_cases hx with rfl | ⟨n, rfl⟩ | ⟨n, hn, rfl⟩
  · exact ⟨rfl, le_top⟩
  · unfold sqrt; dsimp only
    split
    · exact hx
    · rw [if_neg (by decide)]
      exact notBelow_round _
  · unfold sqrt; dsimp only
    rw [if_pos hn]
    exact hx

theorem notNan_add {x y : Ieee Φ} (hx : NotBelow x) (hy : NotBelow y) : (x + y).isNan = false := by
  show (add x y).isNan = false
  have hf : ∀ (s t : Bool) (a b : Φ.Mag), (add (.fin s a) (.fin t b) : Ieee Φ).isNan = false := fun s t a b => by
    unfold add; dsimp only
    split <;> exact notNan_round _ _
  rcases notBelow_cases hx with rfl | ⟨m, rfl⟩ | ⟨m, _, rfl⟩ <;>
    rcases notBelow_cases hy with rfl | ⟨n, rfl⟩ | ⟨n, _, rfl⟩ <;> first | rfl | exact hf _ _ _ _

theorem notBelow_add {x y : Ieee Φ} (hx : NotBelow x) (hy : NotBelow y) : NotBelow (x + y) := by
  have hf : ∀ (s t : Bool) (a b : Φ.Mag), NotBelow (.fin s a : Ieee Φ) → NotBelow (.fin t b : Ieee Φ) →
      NotBelow (Spec.Ieee.add (.fin s a) (.fin t b) : Ieee Φ) := fun s t a b ha hb => by
    have ha : (0 : ℝ) ≤ Spec.Ieee.real s a := EReal.coe_le_coe_iff.1 ha.2
    have hb : (0 : ℝ) ≤ Spec.Ieee.real t b := EReal.coe_le_coe_iff.1 hb.2
    unfold Spec.Ieee.add; dsimp only
    split
    · exact notBelow_round_zero _
    · rw [decide_eq_false (not_lt.2 (add_nonneg ha hb))]
      exact notBelow_round _
  cases x with
  | nan => cases hx.1
  | inf s =>
    cases s
    · cases y with
      | nan => cases hy.1
      | inf t =>
        cases t
        · exact ⟨rfl, le_top⟩
        · exact absurd hy.2 (by simp [Spec.Ieee.key])
      | fin t b => exact ⟨rfl, le_top⟩
    · exact absurd hx.2 (by simp [Spec.Ieee.key])
  | fin s a =>
    cases y with
    | nan => cases hy.1
    | inf t =>
      cases t
      · exact ⟨rfl, le_top⟩
      · exact absurd hy.2 (by simp [Spec.Ieee.key])
    | fin t b => exact hf s t a b hx hy

theorem notBelow_fabs {x : Ieee Φ} (hx : x.isNan = false) : NotBelow (fabs x) := by
  show NotBelow (withSign false x)
  cases x with
  | nan => cases hx
  | inf s => exact ⟨rfl, le_top⟩
  | fin s m => exact ⟨rfl, EReal.coe_le_coe_iff.2 (Φ.nonneg _ m.2.1)⟩

theorem rate_of_sg {x : Ieee Φ} (h : x.isNan = false) (hs : Sg x) : Rate x :=
  ⟨h, hs.elim (fun e => by rw [h] at e; cases e) id⟩

theorem rate_notBelow {x : Ieee Φ} (h : Rate x) : NotBelow x := ⟨h.1, rate_key h⟩

theorem rate_add {x y : Ieee Φ} (hx : Rate x) (hy : Rate y) : Rate (x + y) :=
  rate_of_sg (notNan_add (rate_notBelow hx) (rate_notBelow hy)) (sg_add _ _ (.inr hx.2) (.inr hy.2))

/-- sound speed plus flow speed over cell size -/
theorem rate_dir {γ p d u h : Ieee Φ} (hγ : FinitePos γ) (hp : NotBelow p) (hd : FinitePos d) (hu : u.isNan = false)
    (hh : FinitePos h) : Rate ((RealOps.sqrt (γ * p / d) + fabs (u / d)) / h) := by
  have h1 := notBelow_sqrt (notBelow_div (notBelow_mul hγ hp) hd)
  have h2 := notBelow_fabs (notNan_div hu hd)
  have hs : Sg h := by obtain ⟨m, _, rfl⟩ := hh; exact .inr rfl
  exact rate_of_sg (notNan_div (notNan_add h1 h2) hh) (sg_div _ _ (sg_speed _ _) hs)

theorem rate_cell2 {p : Params (Ieee Φ)} (hs : GasIeee p.settings) (hx : FinitePos p.dx) (hy : FinitePos p.dy)
    {g : GravityParams} (hg : g.enabled = false) {u : HS (Ieee Φ)} (hu : Alive u) (a : Ieee Φ × Ieee Φ) :
    Rate (cellRate2 p g u a) := by
  obtain ⟨h1, h2, h3, -⟩ := hu
  have hd := fmax_finitePos hs.smallr h1
  unfold cellRate2
  rw [hg, if_neg (by decide)]
  have hp : NotBelow (computePrimitives2 p.settings u).1.p := notBelow_fmax (notBelow_mul hd hs.smallp)
  exact rate_add (rate_dir hs.gamma0 hp hd h2 hx) (rate_dir hs.gamma0 hp hd h3 hy)

theorem rate_cell3 {p : Params (Ieee Φ)} (hs : GasIeee p.settings) (hx : FinitePos p.dx) (hy : FinitePos p.dy)
    (hz : FinitePos p.dz) {g : GravityParams} (hg : g.enabled = false) {u : HS (Ieee Φ)} (hu : Alive u)
    (a : Ieee Φ × Ieee Φ × Ieee Φ) : Rate (cellRate3 p g u a) := by
  obtain ⟨h1, h2, h3, h4⟩ := hu
  have hd := fmax_finitePos hs.smallr h1
  unfold cellRate3
  rw [hg, if_neg (by decide)]
  have hp : NotBelow (computePrimitives3 p.settings u).1.p := notBelow_fmax (notBelow_mul hd hs.smallp)
  exact rate_add (rate_add (rate_dir hs.gamma0 hp hd h2 hx) (rate_dir hs.gamma0 hp hd h3 hy))
    (rate_dir hs.gamma0 hp hd h4 hz)

end Ieee
end EulerKokkos
