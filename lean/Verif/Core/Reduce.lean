import Verif.Core.Kernel

/-!
# `Kokkos::parallel_reduce`

A reduction gives each worker a private accumulator, initialised with the identity of the reducer;
a worker applies the body to the indices it is given, in any order, and partial accumulators are
joined pairwise in any order and association.  `Reduce` is the set of all values obtainable that
way.  (The previous content of the result variable is not used: Kokkos reducers overwrite it.)
-/

namespace EulerKokkos

variable {A R ι : Type} [DecidableEq A] [Add R]

/-- `Reduce body join ident m l r`: some worker (or group of workers) that processed exactly the
indices `l` (in some order) holds the accumulator `r`. -/
inductive Reduce (body : ι → R → Prog A R R) (join : R → R → R) (ident : R) (m : Mem A R) :
    List ι → R → Prop
  /-- a fresh accumulator -/
  | init : Reduce body join ident m [] ident
  /-- one more iteration on a private accumulator -/
  | iter {l : List ι} {a : R} (i : ι) : Reduce body join ident m l a →
      Reduce body join ident m (i :: l) ((body i a).run m).1
  /-- join two accumulators -/
  | join {l l' : List ι} {a b : R} : Reduce body join ident m l a →
      Reduce body join ident m l' b → Reduce body join ident m (l ++ l') (join a b)

/-- `Kokkos::parallel_reduce` over the index set `F`: every index is processed exactly once. -/
def ParReduce (F : Finset ι) (body : ι → R → Prog A R R) (join : R → R → R) (ident : R)
    (m : Mem A R) (r : R) : Prop :=
  ∃ l : List ι, l.Nodup ∧ (∀ i, i ∈ l ↔ i ∈ F) ∧ Reduce body join ident m l r

/-- there is at least one execution -/
theorem parReduce_exists (F : Finset ι) (body : ι → R → Prog A R R) (join : R → R → R) (ident : R)
    (m : Mem A R) : ∃ r, ParReduce F body join ident m r := by
  have : ∀ l : List ι, ∃ r, Reduce body join ident m l r := by
    intro l
    induction l with
    | nil => exact ⟨_, .init⟩
    | cons i l ih => obtain ⟨r, hr⟩ := ih; exact ⟨_, .iter i hr⟩
  obtain ⟨r, hr⟩ := this F.toList
  exact ⟨r, F.toList, F.nodup_toList, fun i => by simp, hr⟩

end EulerKokkos
