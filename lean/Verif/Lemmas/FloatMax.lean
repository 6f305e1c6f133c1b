import Verif.Spec.FloatMax
import Verif.Model.DriverMhd
import Verif.Props.C24

/-!
# The maximum reduction has one result, in any arithmetic satisfying `MaxLaws`
-/

set_option linter.constructorNameAsVariable false
set_option linter.unusedSectionVars false
set_option linter.unusedSimpArgs false

namespace EulerKokkos
open Spec Prog

theorem maxLaws_real : MaxLaws ℝ (fun _ => True) (fun x => 0 ≤ x) where
  max_num a x _ _ := by
    simp only [RealOps.fmax_real, RealOps.lt_real, decide_eq_true_eq]
    split_ifs with h
    · exact max_eq_right h.le
    · exact max_eq_left (not_lt.1 h)
  max_nan _ _ _ h := absurd trivial h
  asymm a b _ _ h := by
    have h : a < b := by simpa using h
    rw [← Bool.not_eq_true]
    simpa using h.le
  trans a b c _ _ _ h h' := by
    have h : a < b := by simpa using h
    have h' : b < c := by simpa using h'
    simpa using h.trans h'
  total a b _ _ h h' := by
    rw [← Bool.not_eq_true] at h h'
    have h : b ≤ a := by simpa using h
    have h' : a ≤ b := by simpa using h'
    exact le_antisymm h' h
  sg_zero := by simp
  sg_speed x y := by
    simp only [RealOps.sqrt_real, RealOps.fabs_real]
    positivity
  sg_add x y := add_nonneg
  sg_mul x y := mul_nonneg
  sg_div x y := div_nonneg
  sg_min x y h h' := by
    simp only [RealOps.fmin_real]
    exact le_min h h'
  sg_floor x := by
    simp only [RealOps.fmax_real, RealOps.lit_real]
    exact le_max_of_le_right (by norm_num)
  sg_grav x := by
    simp only [RealOps.fmax_real, RealOps.lit_real, RealOps.sqrt_real]
    have h : (0:ℝ) ≤ max x ((1 / 10000 : ℚ) : ℝ) := le_max_of_le_right (by norm_num)
    have : (1:ℝ) ≤ Real.sqrt (((1:ℚ):ℝ) + ((2:ℚ):ℝ) * max x ((1 / 10000 : ℚ) : ℝ)) := by
      rw [Real.one_le_sqrt]
      push_cast at h ⊢
      linarith
    push_cast at this ⊢
    linarith

variable {R : Type} [RealOps R] {num sg : R → Prop}

/-- every iteration is a guarded `fmax` with a value whose sign bit is clear -/
def IsMax {ι : Type} (sg : R → Prop) (body : ι → R → Prog Arr R R) (m : Mem Arr R) : Prop :=
  ∀ i, (∀ a, ((body i a).run m).1 = a) ∨ ∃ x, sg x ∧ ∀ a, ((body i a).run m).1 = fmax a x

theorem reduce_fmax {ι : Type} (hL : MaxLaws R num sg) {body : ι → R → Prog Arr R R} {m : Mem Arr R}
    (hb : IsMax sg body m) {ident : R} (hi : num ident) {l : List ι} {r : R}
    (h : Reduce body kokkosMaxJoin ident m l r) :
    num r ∧ (r = ident ∨ ∃ i ∈ l, ∃ x, num x ∧ (∀ a, ((body i a).run m).1 = fmax a x) ∧ r = x) ∧
      RealOps.lt r ident = false ∧
      ∀ i ∈ l, ∀ x, num x → (∀ a, ((body i a).run m).1 = fmax a x) → RealOps.lt r x = false := by
  have irr : ∀ a, num a → RealOps.lt a a = false := fun a ha => by
    by_contra hc
    have hc : RealOps.lt a a = true := by simpa using hc
    rw [hL.asymm a a ha ha hc] at hc
    cases hc
  -- `lt` is negatively transitive on numbers
  have ntr : ∀ a b c, num a → num b → num c → RealOps.lt a b = false → RealOps.lt b c = false →
      RealOps.lt a c = false := fun a b c ha hb hc h1 h2 => by
    by_contra hn
    have hn : RealOps.lt a c = true := by simpa using hn
    cases hba : RealOps.lt b a with
    | true =>
      have := hL.trans b a c hb ha hc hba hn
      rw [this] at h2; cases h2
    | false =>
      obtain rfl := hL.total a b ha hb h1 hba
      rw [hn] at h2; cases h2
  induction h with
  | init => exact ⟨hi, .inl rfl, irr _ hi, fun i hm => by simp at hm⟩
  | @iter l a i _ ih =>
    obtain ⟨h1, h2, h3, h4⟩ := ih
    have keep : ((body i a).run m).1 = a → (∀ x, num x → (∀ a, ((body i a).run m).1 = fmax a x) →
        RealOps.lt a x = false) →
        num ((body i a).run m).1 ∧ (((body i a).run m).1 = ident ∨ ∃ j ∈ i :: l, ∃ x, num x ∧
          (∀ a, ((body j a).run m).1 = fmax a x) ∧ ((body i a).run m).1 = x) ∧
        RealOps.lt ((body i a).run m).1 ident = false ∧
        ∀ j ∈ i :: l, ∀ x, num x → (∀ a, ((body j a).run m).1 = fmax a x) →
          RealOps.lt ((body i a).run m).1 x = false := fun e hx => by
      rw [e]
      refine ⟨h1, h2.imp id (fun ⟨j, hj, x, hx⟩ => ⟨j, List.mem_cons_of_mem _ hj, x, hx⟩), h3,
        fun j hj x hn hx' => ?_⟩
      rcases List.mem_cons.1 hj with rfl | hj
      · exact hx x hn hx'
      · exact h4 j hj x hn hx'
    -- a value the iteration compares with is not larger than an unchanged accumulator
    have ge : ((body i a).run m).1 = a → ∀ x, num x → (∀ a, ((body i a).run m).1 = fmax a x) →
        RealOps.lt a x = false := fun e x hn hx => by
      by_contra hc
      have hc : RealOps.lt a x = true := by simpa using hc
      have := hx a
      rw [e, hL.max_num a x h1 hn, if_pos hc] at this
      rw [← this, irr _ h1] at hc
      cases hc
    rcases hb i with h0 | ⟨x, hs, hx⟩
    · exact keep (h0 a) (ge (h0 a))
    by_cases hn : num x
    swap
    · have e : ((body i a).run m).1 = a := (hx a).trans (hL.max_nan a x h1 hn hs)
      exact keep e (ge e)
    cases hlt : RealOps.lt a x with
    | false =>
      have e : ((body i a).run m).1 = a := by rw [hx a, hL.max_num a x h1 hn, hlt]; rfl
      exact keep e (ge e)
    | true =>
      have e : ((body i a).run m).1 = x := by rw [hx a, hL.max_num a x h1 hn, hlt]; rfl
      have hxa := hL.asymm a x h1 hn hlt
      rw [e]
      refine ⟨hn, .inr ⟨i, List.mem_cons_self .., x, hn, hx, rfl⟩, ntr x a ident hn h1 hi hxa h3,
        fun j hj y hy hy' => ?_⟩
      rcases List.mem_cons.1 hj with rfl | hj
      · by_contra hc
        have hc : RealOps.lt x y = true := by simpa using hc
        have := (hx x).symm.trans (hy' x)
        rw [hL.max_num x x hn hn, hL.max_num x y hn hy, if_pos hc, ite_self] at this
        rw [← this, irr _ hn] at hc
        cases hc
      · exact ntr x a y hn h1 hy hxa (h4 j hj y hy hy')
  | @join l l' a b _ _ iha ihb =>
    obtain ⟨h1, h2, h3, h4⟩ := iha
    obtain ⟨g1, g2, g3, g4⟩ := ihb
    unfold kokkosMaxJoin
    cases hlt : RealOps.lt a b with
    | true =>
      rw [if_pos rfl]
      have hba := hL.asymm a b h1 g1 hlt
      refine ⟨g1, g2.imp id (fun ⟨j, hj, x, hx⟩ => ⟨j, List.mem_append_right _ hj, x, hx⟩), g3,
        fun j hj x hn hx => ?_⟩
      rcases List.mem_append.1 hj with hj | hj
      · exact ntr b a x g1 h1 hn hba (h4 j hj x hn hx)
      · exact g4 j hj x hn hx
    | false =>
      rw [if_neg (by decide)]
      refine ⟨h1, h2.imp id (fun ⟨j, hj, x, hx⟩ => ⟨j, List.mem_append_left _ hj, x, hx⟩), h3,
        fun j hj x hn hx => ?_⟩
      rcases List.mem_append.1 hj with hj | hj
      · exact h4 j hj x hn hx
      · exact ntr a b x h1 g1 hn hlt (g4 j hj x hn hx)

/-- **The reduction has one result**, whatever the partition among threads, their order and the order of the
joins. -/
theorem parReduce_max_unique {ι : Type} (hL : MaxLaws R num sg) {body : ι → R → Prog Arr R R}
    {m : Mem Arr R} (hb : IsMax sg body m) {ident : R} (hi : num ident) {S : Finset ι} {r r' : R}
    (h : ParReduce S body kokkosMaxJoin ident m r) (h' : ParReduce S body kokkosMaxJoin ident m r') :
    r = r' := by
  obtain ⟨l, _, hl, h⟩ := h
  obtain ⟨l', _, hl', h'⟩ := h'
  obtain ⟨a1, a2, a3, a4⟩ := reduce_fmax hL hb hi h
  obtain ⟨b1, b2, b3, b4⟩ := reduce_fmax hL hb hi h'
  refine hL.total r r' a1 b1 ?_ ?_
  · rcases b2 with rfl | ⟨i, him, x, hx, hx', rfl⟩
    · exact a3
    · exact a4 i ((hl i).2 ((hl' i).1 him)) _ hx hx'
  · rcases a2 with rfl | ⟨i, him, x, hx, hx', rfl⟩
    · exact b3
    · exact b4 i ((hl' i).2 ((hl i).1 him)) _ hx hx'

/-! ### The four reductions of the code -/

theorem isMax_hydro2 (hL : MaxLaws R num sg) {p : Params R} (hx : sg p.dx) (hy : sg p.dy) (U : Arr)
    (m : Mem Arr R) : IsMax sg (computeDt2 p U) m := by
  intro t
  unfold computeDt2
  split_ifs with h
  · refine .inr ⟨?x, ?_, fun a => ?_⟩
    rotate_right
    · simp only [run_bind, run_getHS2', run_pure]
      rfl
    · exact hL.sg_add _ _ (hL.sg_div _ _ (hL.sg_speed _ _) hx) (hL.sg_div _ _ (hL.sg_speed _ _) hy)
  · exact .inl fun a => rfl

theorem isMax_hydro3 (hL : MaxLaws R num sg) {p : Params R} (hx : sg p.dx) (hy : sg p.dy) (hz : sg p.dz)
    (U : Arr) (m : Mem Arr R) : IsMax sg (computeDt3 p U) m := by
  intro t
  unfold computeDt3
  split_ifs with h
  · refine .inr ⟨?x, ?_, fun a => ?_⟩
    rotate_right
    · simp only [run_bind, run_getHS3', run_pure]
      rfl
    · exact hL.sg_add _ _ (hL.sg_add _ _ (hL.sg_div _ _ (hL.sg_speed _ _) hx)
        (hL.sg_div _ _ (hL.sg_speed _ _) hy)) (hL.sg_div _ _ (hL.sg_speed _ _) hz)
  · exact .inl fun a => rfl

theorem isMax_gravity2 (hL : MaxLaws R num sg) {p : Params R} (hx : sg p.dx) (hy : sg p.dy) (cfl : R)
    (G U : Arr) (m : Mem Arr R) : IsMax sg (computeDtGravity2 p cfl G U) m := by
  intro t
  unfold computeDtGravity2
  dsimp only
  split_ifs with h
  · refine .inr ⟨?x, ?_, fun a => ?_⟩
    rotate_right
    · simp only [run_bind, run_getHS2', run_pure, run_rd]
      rfl
    · exact hL.sg_div _ _ (hL.sg_mul _ _ (hL.sg_add _ _ (hL.sg_add _ _ hL.sg_zero (hL.sg_speed _ _))
        (hL.sg_speed _ _)) (hL.sg_div _ _ (hL.sg_floor _) (hL.sg_grav _))) (hL.sg_min _ _ hx hy)
  · exact .inl fun a => rfl

theorem isMax_gravity3 (hL : MaxLaws R num sg) {p : Params R} (hx : sg p.dx) (hy : sg p.dy) (hz : sg p.dz)
    (cfl : R) (G U : Arr) (m : Mem Arr R) : IsMax sg (computeDtGravity3 p cfl G U) m := by
  intro t
  unfold computeDtGravity3
  dsimp only
  split_ifs with h
  · refine .inr ⟨?x, ?_, fun a => ?_⟩
    rotate_right
    · simp only [run_bind, run_getHS3', run_pure, run_rd]
      rfl
    · exact hL.sg_div _ _ (hL.sg_mul _ _ (hL.sg_add _ _ (hL.sg_add _ _ (hL.sg_add _ _ hL.sg_zero
        (hL.sg_speed _ _)) (hL.sg_speed _ _)) (hL.sg_speed _ _)) (hL.sg_div _ _ (hL.sg_floor _) (hL.sg_grav _)))
        (hL.sg_min _ _ (hL.sg_min _ _ hx hy) hz)
  · exact .inl fun a => rfl

theorem isMax_mhd2 (hL : MaxLaws R num sg) {p : Params R} (hx : sg p.dx) (hy : sg p.dy) (Q : Arr)
    (m : Mem Arr R) : IsMax sg (computeDtMhd2 p Q) m := by
  intro t
  unfold computeDtMhd2
  split_ifs with h
  · refine .inr ⟨?x, ?_, fun a => ?_⟩
    rotate_right
    · simp only [run_bind, run_getMS, run_pure]
      rfl
    · exact hL.sg_add _ _ (hL.sg_div _ _ (hL.sg_speed _ _) hx) (hL.sg_div _ _ (hL.sg_speed _ _) hy)
  · exact .inl fun a => rfl

theorem isMax_mhd3 (hL : MaxLaws R num sg) {p : Params R} (hx : sg p.dx) (hy : sg p.dy) (hz : sg p.dz)
    (Q : Arr) (m : Mem Arr R) : IsMax sg (computeDtMhd3 p Q) m := by
  intro t
  unfold computeDtMhd3
  split_ifs with h
  · refine .inr ⟨?x, ?_, fun a => ?_⟩
    rotate_right
    · simp only [run_bind, run_getMS, run_pure]
      rfl
    · exact hL.sg_add _ _ (hL.sg_add _ _ (hL.sg_div _ _ (hL.sg_speed _ _) hx)
        (hL.sg_div _ _ (hL.sg_speed _ _) hy)) (hL.sg_div _ _ (hL.sg_speed _ _) hz)
  · exact .inl fun a => rfl

end EulerKokkos
