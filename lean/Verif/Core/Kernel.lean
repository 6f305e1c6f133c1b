import Verif.Core.Prog
import Mathlib.Order.Interval.Finset.Defs
import Mathlib.Algebra.Order.Group.Int
import Mathlib.Data.Int.Interval
import Mathlib.Data.Finset.Prod

/-!
# Kernels as relations on memory, and the owner-computes theorem

`Kern` is a step of the host program: a relation between the memory before and after.  A
`Kokkos::parallel_for` gives `forRange F body`: the memories reachable by *some* interleaving.
`kseq` runs kernels one after the other (kernels launched on one execution-space instance are
executed in launch order).
-/

namespace EulerKokkos

/-- A host-level step: memory before, memory after. -/
abbrev Kern (A R : Type) := Mem A R → Mem A R → Prop

namespace Kern
variable {A R : Type}

/-- deterministic step -/
def ofFun (f : Mem A R → Mem A R) : Kern A R := fun m m' => m' = f m

/-- no-op -/
def skip : Kern A R := fun m m' => m' = m

/-- `k₁; k₂` -/
def seq (k₁ k₂ : Kern A R) : Kern A R := fun m m' => ∃ mid, k₁ m mid ∧ k₂ mid m'

/-- run a list of steps in order -/
def seqs : List (Kern A R) → Kern A R
  | [] => skip
  | k :: ks => seq k (seqs ks)

/-- `k` is deterministic and total with result function `f` -/
def Is (k : Kern A R) (f : Mem A R → Mem A R) : Prop := ∀ m m', k m m' ↔ m' = f m

theorem Is.seq {k₁ k₂ : Kern A R} {f₁ f₂ : Mem A R → Mem A R} (h₁ : k₁.Is f₁) (h₂ : k₂.Is f₂) :
    (seq k₁ k₂).Is (f₂ ∘ f₁) := by
  intro m m'
  simp only [Kern.seq, h₁ m, h₂ _ m', exists_eq_left, Function.comp]

theorem Is.skip : (skip : Kern A R).Is id := fun _ _ => Iff.rfl

theorem seq_assoc (a b c : Kern A R) : seq (seq a b) c = seq a (seq b c) := by
  funext m m'
  simp only [Kern.seq, eq_iff_iff]
  constructor
  · rintro ⟨x, ⟨y, h1, h2⟩, h3⟩; exact ⟨y, h1, x, h2, h3⟩
  · rintro ⟨y, h1, x, h2, h3⟩; exact ⟨x, ⟨y, h1, h2⟩, h3⟩

@[simp] theorem skip_seq (a : Kern A R) : seq Kern.skip a = a := by
  funext m m'; simp [Kern.seq, Kern.skip]

@[simp] theorem seq_skip (a : Kern A R) : seq a Kern.skip = a := by
  funext m m'; simp [Kern.seq, Kern.skip]

theorem seqs_append (a b : List (Kern A R)) : seqs (a ++ b) = seq (seqs a) (seqs b) := by
  induction a with
  | nil => simp [seqs]
  | cons x a ih => simp [seqs, ih, seq_assoc]

theorem is_ofFun (f : Mem A R → Mem A R) : (ofFun f).Is f := fun _ _ => Iff.rfl

end Kern

namespace Prog
variable {A R : Type} [DecidableEq A]

/-- `Kokkos::parallel_for` over a finite index range. -/
def forRange [Add R] {ι : Type} [DecidableEq ι] (F : Finset ι) (body : ι → Prog A R Unit) :
    Kern A R :=
  fun m m' => ParFor (F : Set ι) body m m'

open Classical in
/-- **Owner computes.**  If each iteration `t` writes only elements of class `W` that it owns
(`own l = t`) and reads only elements outside `W` or that it owns, every interleaving ends in the
memory where each owned element has the value its owner computes when run alone. -/
theorem forRange_owner [Add R] {ι : Type} [DecidableEq ι] (F : Finset ι)
    (body : ι → Prog A R Unit)
    (own : Loc A → ι) (W : Loc A → Prop)
    (hf : ∀ t ∈ F, (body t).Foot (fun l => ¬ W l ∨ own l = t) (fun l => W l ∧ own l = t)
      (fun _ => False)) :
    (forRange F body).Is
      (fun m l => if W l ∧ own l ∈ F then ((body (own l)).run m).2 l else m l) := by
  intro m mf
  refine parFor_iff (F.finite_toSet) (fun t l => ¬ W l ∨ own l = t) (fun t l => W l ∧ own l = t)
    ?_ ?_ m _ ?_ ?_ mf
  · intro t ht
    exact foot_mono (fun l h => Or.inl h) (fun l h => h) (fun l h => h) (hf t (by simpa using ht))
  · rintro s hs t ht hst l ⟨hw, rfl⟩
    refine ⟨?_, ?_⟩
    · rintro (h | h)
      · exact h hw
      · exact hst h.symm
    · rintro ⟨_, h⟩; exact hst h.symm
  · rintro t ht l ⟨hw, rfl⟩
    simp only [Finset.mem_coe] at ht
    simp [hw, ht]
  · intro l hl
    beta_reduce
    rw [if_neg]
    rintro ⟨hw, ht⟩
    exact hl (own l) (by simpa using ht) ⟨hw, rfl⟩

omit [DecidableEq A] in
theorem foot_ite {α : Type} {Rd Wr Ad : Loc A → Prop} {c : Prop} [Decidable c]
    {p q : Prog A R α} (hp : c → p.Foot Rd Wr Ad) (hq : ¬ c → q.Foot Rd Wr Ad) :
    (if c then p else q).Foot Rd Wr Ad := by
  split
  · exact hp ‹_›
  · exact hq ‹_›

/-- `if (c) { p }` -/
def pif (c : Prop) [Decidable c] (p : Prog A R Unit) : Prog A R Unit := if c then p else pure ()

omit [DecidableEq A] in
theorem foot_pif {Rd Wr Ad : Loc A → Prop} {c : Prop} [Decidable c]
    {p : Prog A R Unit} (hp : c → p.Foot Rd Wr Ad) : (pif c p).Foot Rd Wr Ad :=
  foot_ite hp (fun _ => foot_pure _ _ _ _)

/-- `for (int v = 0; v < n; v++) f(v)` -/
def forN (n : Nat) (f : Nat → Prog A R Unit) : Prog A R Unit :=
  match n with
  | 0 => pure ()
  | n + 1 => do forN n f; f n

omit [DecidableEq A] in
theorem foot_forN {Rd Wr Ad : Loc A → Prop} {n : Nat} {f : Nat → Prog A R Unit}
    (h : ∀ v < n, (f v).Foot Rd Wr Ad) : (forN n f).Foot Rd Wr Ad := by
  induction n with
  | zero => simp [forN]
  | succ n ih =>
    exact foot_bind (ih (fun v hv => h v (by omega))) (fun _ => h n (by omega))

end Prog

/-- One operation the host enqueues on the device: a `parallel_for` (with any index type), or a
`deep_copy` between two views. -/
inductive Launch (A R : Type) : Type 1
  | par {ι : Type} [DecidableEq ι] (F : Finset ι) (body : ι → Prog A R Unit)
  | copy (dst src : A)

/-- effect of a launch: any interleaving of its iterations -/
def Launch.kern {A R : Type} [DecidableEq A] [Add R] : Launch A R → Kern A R
  | @Launch.par _ _ _ inst F body => @Prog.forRange _ _ _ _ _ inst F body
  | .copy dst src => Kern.ofFun (fun m l => if l.arr = dst then m { l with arr := src } else m l)

/-- every access of every iteration is to an allocated element; a deep copy needs views of the same
extents -/
def Launch.Safe {A R : Type} (ok : Loc A → Prop) : Launch A R → Prop
  | @Launch.par _ _ _ _ F body => ∀ t ∈ F, (body t).Safe ok
  | .copy dst src => ∀ l : Loc A, ok { l with arr := dst } ↔ ok { l with arr := src }

/-- 2D `MDRangePolicy({0,0},{ni,nj})` -/
def range2 (ni nj : Int) : Finset (Int × Int) := Finset.Ico 0 ni ×ˢ Finset.Ico 0 nj

@[simp] theorem mem_range2 {ni nj : Int} {t : Int × Int} :
    t ∈ range2 ni nj ↔ (0 ≤ t.1 ∧ t.1 < ni) ∧ (0 ≤ t.2 ∧ t.2 < nj) := by
  simp [range2]

/-- 3D `MDRangePolicy({0,0,0},{ni,nj,nk})` -/
def range3 (ni nj nk : Int) : Finset (Int × Int × Int) :=
  Finset.Ico 0 ni ×ˢ (Finset.Ico 0 nj ×ˢ Finset.Ico 0 nk)

@[simp] theorem mem_range3 {ni nj nk : Int} {t : Int × Int × Int} :
    t ∈ range3 ni nj nk ↔
      (0 ≤ t.1 ∧ t.1 < ni) ∧ (0 ≤ t.2.1 ∧ t.2.1 < nj) ∧ (0 ≤ t.2.2 ∧ t.2.2 < nk) := by
  simp [range3]

/-- `RangePolicy<>(0, n)` -/
def range1 (n : Int) : Finset Int := Finset.Ico 0 n

@[simp] theorem mem_range1 {n t : Int} : t ∈ range1 n ↔ 0 ≤ t ∧ t < n := by simp [range1]

end EulerKokkos
