import Verif.Spec.FloatDiv
import Verif.Lemmas.FloatMax
import Verif.Model.MpiRun

/-!
# The minimum of the processes' time steps is the time step of the whole grid
-/

set_option linter.constructorNameAsVariable false
set_option linter.unusedSectionVars false

namespace EulerKokkos
open Spec Prog

variable {R : Type} [RealOps R] {num sg pos : R → Prop}

theorem Spec.MaxLaws.irr (hL : MaxLaws R num sg) {a : R} (ha : num a) : RealOps.lt a a = false := by
  by_contra hc
  have hc : RealOps.lt a a = true := by simpa using hc
  rw [hL.asymm a a ha ha hc] at hc
  cases hc

/-- `<` is negatively transitive on numbers -/
theorem Spec.MaxLaws.ntr (hL : MaxLaws R num sg) {a b c : R} (ha : num a) (hb : num b) (hc : num c)
    (h1 : RealOps.lt a b = false) (h2 : RealOps.lt b c = false) : RealOps.lt a c = false := by
  by_contra hn
  have hn : RealOps.lt a c = true := by simpa using hn
  cases h3 : RealOps.lt b a with
  | true =>
    rw [hL.trans b a c hb ha hc h3 hn] at h2
    cases h2
  | false =>
    obtain rfl := hL.total a b ha hb h1 h3
    rw [hn] at h2
    cases h2

theorem foldl_fmin (hL : MaxLaws R num sg) {c : R} (hD : DivLaws R num pos c) (l : List R) (a : R) (ha : num a)
    (hl : ∀ x ∈ l, num x) :
    num (l.foldl fmin a) ∧ l.foldl fmin a ∈ a :: l ∧ ∀ x ∈ a :: l, RealOps.lt x (l.foldl fmin a) = false := by
  induction l generalizing a with
  | nil => exact ⟨ha, List.mem_singleton_self _, fun x hx => by
      rw [List.mem_singleton.1 hx]; exact hL.irr ha⟩
  | cons b l ih =>
    have hb : num b := hl b (List.mem_cons_self ..)
    have hl' : ∀ x ∈ l, num x := fun x hx => hl x (List.mem_cons_of_mem _ hx)
    rw [List.foldl_cons, hD.min_num a b ha hb]
    cases hlt : RealOps.lt b a with
    | true =>
      rw [if_pos rfl]
      obtain ⟨h1, h2, h3⟩ := ih b hb hl'
      refine ⟨h1, List.mem_cons_of_mem _ h2, fun x hx => ?_⟩
      rcases List.mem_cons.1 hx with rfl | hx
      · exact hL.ntr ha hb h1 (hL.asymm _ _ hb ha hlt) (h3 b (List.mem_cons_self ..))
      · exact h3 x hx
    | false =>
      rw [if_neg (by decide)]
      obtain ⟨h1, h2, h3⟩ := ih a ha hl'
      refine ⟨h1, ?_, fun x hx => ?_⟩
      · rcases List.mem_cons.1 h2 with h | h
        · rw [h]; exact List.mem_cons_self ..
        · exact List.mem_cons_of_mem _ (List.mem_cons_of_mem _ h)
      · rcases List.mem_cons.1 hx with rfl | hx
        · exact h3 _ (List.mem_cons_self ..)
        · rcases List.mem_cons.1 hx with rfl | hx
          · exact hL.ntr hb ha h1 hlt (h3 a (List.mem_cons_self ..))
          · exact h3 x (List.mem_cons_of_mem _ hx)

/-- the minimum of numbers is one of them and no other is smaller -/
theorem minOver_unique (hL : MaxLaws R num sg) {c : R} (hD : DivLaws R num pos c) {n : Nat} {v : Fin n → R} {x : R} (hx : num x)
    (hv : ∀ r, num (v r)) (hle : ∀ r, RealOps.lt (v r) x = false) (hex : ∃ r, v r = x) : minOver v = x := by
  obtain ⟨r, hr⟩ := hex
  have hmem : ∀ r, v r ∈ (List.finRange n).map v := fun r => List.mem_map_of_mem (List.mem_finRange r)
  have hall : ∀ y ∈ (List.finRange n).map v, ∃ r, v r = y := fun y hy => by
    obtain ⟨r, _, h⟩ := List.mem_map.1 hy
    exact ⟨r, h⟩
  unfold minOver
  cases e : (List.finRange n).map v with
  | nil => have := hmem r; rw [e] at this; cases this
  | cons a l =>
    rw [e] at hmem hall
    have hnum : ∀ y ∈ a :: l, num y := fun y hy => by
      obtain ⟨r, rfl⟩ := hall y hy
      exact hv r
    obtain ⟨h1, h2, h3⟩ := foldl_fmin hL hD l a (hnum a (List.mem_cons_self ..))
      (fun y hy => hnum y (List.mem_cons_of_mem _ hy))
    show l.foldl fmin a = x
    refine hL.total _ _ h1 hx ?_ ?_
    · obtain ⟨r', h'⟩ := hall _ h2
      exact h' ▸ hle r'
    · rw [← hr]
      exact h3 _ (hmem r)

/-- a cell contributes a number `x` with `pos x` to the reduction -/
def Contributes {ι : Type} (pos : R → Prop) (body : ι → R → Prog Arr R R) (m : Mem Arr R) (i : ι) : Prop :=
  ∃ x, pos x ∧ ∀ a, ((body i a).run m).1 = fmax a x

/-- a reduction in which a cell contributes a rate gives a rate, which some iteration
contributes, and no iteration contributes a larger one -/
theorem parReduce_pos {ι : Type} (hL : MaxLaws R num sg) {c : R} (hD : DivLaws R num pos c) {body : ι → R → Prog Arr R R}
    {m : Mem Arr R} (hb : IsMax sg body m) {ident : R} (hi : num ident)
    (hneg : ¬ pos ident) {S : Finset ι} {r : R}
    (h : ParReduce S body kokkosMaxJoin ident m r) (hc : ∃ i ∈ S, Contributes pos body m i) :
    num r ∧ pos r ∧
      (∃ i ∈ S, ¬ (∀ a, ((body i a).run m).1 = a) ∧ ∀ a, ((body i a).run m).1 = fmax a r) ∧
      ∀ i ∈ S, ∀ x, num x → (∀ a, ((body i a).run m).1 = fmax a x) → RealOps.lt r x = false := by
  obtain ⟨l, _, hl, h⟩ := h
  obtain ⟨h1, h2, h3, h4⟩ := reduce_fmax hL hb hi h
  obtain ⟨i, hiS, x, hx, hxx⟩ := hc
  have h0 : pos r := hD.pos_up x r hx h1 (h4 i ((hl i).2 hiS) x (hD.pos_num x hx) hxx)
  refine ⟨h1, h0, ?_, fun j hj y => h4 j ((hl j).2 hj) y⟩
  rcases h2 with rfl | ⟨j, hj, y, hy, hyy, rfl⟩
  · exact absurd h0 hneg
  · refine ⟨j, (hl j).1 hj, fun hs => ?_, hyy⟩
    have := (hs ident).symm.trans (hyy ident)
    rw [hL.max_num _ _ hi hy] at this
    cases hlt : RealOps.lt ident r with
    | true =>
      rw [hlt, if_pos rfl] at this
      rw [this, hL.irr hy] at hlt
      cases hlt
    | false => exact absurd (hD.pos_up r ident h0 hi hlt) hneg

/-- **the minimum of the time steps of the blocks is the time step of the grid** -/
theorem minOver_blocks {ι : Type} (hL : MaxLaws R num sg) {c : R} (hD : DivLaws R num pos c) {n : Nat}
    {body lbody : ι → R → Prog Arr R R} {m : Fin n → Mem Arr R} {G : Mem Arr R}
    (hb : IsMax sg body G) (hlb : ∀ r, IsMax sg lbody (m r)) {ident ident' : R} (hi : num ident) (hi' : num ident')
    (hneg : ¬ pos ident) (hneg' : ¬ pos ident') {S S' : Finset ι}
    {f : Fin n → ι → ι}
    (h1 : ∀ r, ∀ i ∈ S', (∀ a, ((lbody i a).run (m r)).1 = a) ∨
      f r i ∈ S ∧ ∀ a, ((lbody i a).run (m r)).1 = ((body (f r i) a).run G).1)
    (h2 : ∀ j ∈ S, (∀ a, ((body j a).run G).1 = a) ∨
      ∃ r, ∃ i ∈ S', ∀ a, ((lbody i a).run (m r)).1 = ((body j a).run G).1)
    (h3 : ∀ r, ∃ i ∈ S', f r i ∈ S ∧ Contributes pos body G (f r i) ∧
      ∀ a, ((lbody i a).run (m r)).1 = ((body (f r i) a).run G).1) (r₀ : Fin n)
    {inv : R} {linv : Fin n → R}
    (h : ParReduce S body kokkosMaxJoin ident' G inv)
    (hl : ∀ r, ParReduce S' lbody kokkosMaxJoin ident (m r) (linv r)) :
    minOver (fun r => c / linv r) = c / inv := by
  have hloc : ∀ r, ∃ i ∈ S', Contributes pos lbody (m r) i := fun r => by
    obtain ⟨i, hi, _, ⟨x, hx, hxx⟩, e⟩ := h3 r
    exact ⟨i, hi, x, hx, fun a => (e a).trans (hxx a)⟩
  have hglob : ∃ i ∈ S, Contributes pos body G i := by
    obtain ⟨i, _, hf, hcn, _⟩ := h3 r₀
    exact ⟨_, hf, hcn⟩
  obtain ⟨a1, a2, ⟨j, hj, hjn, hjj⟩, a4⟩ := parReduce_pos hL hD hb hi' hneg' h hglob
  have hr := fun r => parReduce_pos hL hD (hlb r) hi hneg (hl r) (hloc r)
  have hle : ∀ r, RealOps.lt inv (linv r) = false := fun r => by
    obtain ⟨b1, b2, ⟨i, hi, hin, hii⟩, b4⟩ := hr r
    rcases h1 r i hi with h | ⟨hf, e⟩
    · exact absurd h hin
    · exact a4 _ hf _ b1 (fun a => (e a).symm.trans (hii a))
  refine minOver_unique hL hD (hD.div_num inv a2)
    (fun r => hD.div_num _ (hr r).2.1)
    (fun r => hD.div_anti _ _ a2 (hr r).2.1 (hle r)) ?_
  rcases h2 j hj with h | ⟨r, i, hi, e⟩
  · exact absurd h hjn
  · refine ⟨r, congrArg (c / ·) (hL.total _ _ (hr r).1 a1 ?_ (hle r))⟩
    exact (hr r).2.2.2 i hi _ a1 (fun a => (e a).trans (hjj a))

end EulerKokkos
