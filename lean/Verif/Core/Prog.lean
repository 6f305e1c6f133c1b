import Mathlib.Data.Set.Finite.Basic
import Mathlib.Data.Finset.Basic
import Mathlib.Algebra.BigOperators.Group.Finset.Basic
import Mathlib.Algebra.BigOperators.Finprod

/-!
# Kernels as programs over a shared memory, and `parallel_for` as all interleavings

A functor body (`operator()` of the classes in `/repo/src/muscl/*RunFunctors*.h`,
`/repo/src/shared/BoundariesFunctors.h`, `/repo/src/shared/mpiBorderUtils.h`) is a `Prog`:
a sequence of single-word reads, writes and atomic additions on Kokkos views.
`Kokkos::parallel_for` (`Interleave`/`ParFor`) executes one program per index, in **any**
interleaving of the single memory operations.  (Simplification: interleavings are sequentially
consistent; for data-race-free loops this is what the C++ memory model guarantees, and the
theorems below prove the loops are race-free.)
-/

namespace EulerKokkos

/-- One element of a Kokkos view: `A` is the type of view handles, `i j k` the space indices
(2D views use `k = 0`), `v` the variable index (last view index; 0 for scalar views). -/
structure Loc (A : Type) where
  arr : A
  i : Int
  j : Int
  k : Int
  v : Nat
deriving DecidableEq

/-- Memory: contents of every view element. -/
abbrev Mem (A R : Type) := Loc A → R

/-- A functor body: a sequence of memory operations on views. -/
inductive Prog (A R : Type) (α : Type) where
  | pure (a : α)
  | read (l : Loc A) (k : R → Prog A R α)
  | write (l : Loc A) (x : R) (k : Prog A R α)
  /-- `Kokkos::atomic_add(&l, x)`; `atomic_sub(&l, x)` is `aadd l (-x)` (bitwise equal in IEEE). -/
  | aadd (l : Loc A) (x : R) (k : Prog A R α)

namespace Prog

variable {A R α β : Type}

/-- sequencing -/
protected def bind : Prog A R α → (α → Prog A R β) → Prog A R β
  | .pure a, f => f a
  | .read l k, f => .read l (fun x => (k x).bind f)
  | .write l x k, f => .write l x (k.bind f)
  | .aadd l x k, f => .aadd l x (k.bind f)

instance : Monad (Prog A R) where
  pure := .pure
  bind := Prog.bind

/-- read one element -/
def rd (l : Loc A) : Prog A R R := .read l .pure
/-- write one element -/
def wr (l : Loc A) (x : R) : Prog A R Unit := .write l x (.pure ())
/-- atomic add -/
def add (l : Loc A) (x : R) : Prog A R Unit := .aadd l x (.pure ())

variable [DecidableEq A] [Add R]

/-- Overwrite one memory element. -/
def upd (m : Mem A R) (l : Loc A) (x : R) : Mem A R := fun l' => if l' = l then x else m l'

omit [Add R] in
@[simp] theorem upd_same (m : Mem A R) (l : Loc A) (x : R) : upd m l x l = x := by simp [upd]
omit [Add R] in
theorem upd_ne (m : Mem A R) {l l' : Loc A} (x : R) (h : l' ≠ l) : upd m l x l' = m l' := by
  simp [upd, h]

/-- Run a body alone from a memory. -/
def run : Prog A R α → Mem A R → α × Mem A R
  | .pure a, m => (a, m)
  | .read l k, m => (k (m l)).run m
  | .write l x k, m => k.run (upd m l x)
  | .aadd l x k, m => k.run (upd m l (m l + x))

@[simp] theorem run_pure (a : α) (m : Mem A R) : (Pure.pure a : Prog A R α).run m = (a, m) := rfl
@[simp] theorem run_pure' (a : α) (m : Mem A R) : (Prog.pure a : Prog A R α).run m = (a, m) := rfl
@[simp] theorem run_rd (l : Loc A) (m : Mem A R) : (rd l).run m = (m l, m) := rfl
@[simp] theorem run_wr (l : Loc A) (x : R) (m : Mem A R) : (wr l x).run m = ((), upd m l x) := rfl
@[simp] theorem run_add (l : Loc A) (x : R) (m : Mem A R) :
    (add l x).run m = ((), upd m l (m l + x)) := rfl

theorem run_bind' (p : Prog A R α) (f : α → Prog A R β) (m : Mem A R) :
    (p.bind f).run m = (f (p.run m).1).run (p.run m).2 := by
  induction p generalizing m with
  | pure a => rfl
  | read l k ih => simp only [Prog.bind, run]; exact ih _ _
  | write l x k ih => simp only [Prog.bind, run]; exact ih _
  | aadd l x k ih => simp only [Prog.bind, run]; exact ih _

@[simp] theorem run_bind (p : Prog A R α) (f : α → Prog A R β) (m : Mem A R) :
    (p >>= f).run m = (f (p.run m).1).run (p.run m).2 := run_bind' p f m

/-- Footprint: every execution path reads only in `Rd`, writes only in `Wr`, atomically adds only
in `Ad`. -/
def Foot (Rd Wr Ad : Loc A → Prop) : Prog A R α → Prop
  | .pure _ => True
  | .read l k => Rd l ∧ ∀ x, (k x).Foot Rd Wr Ad
  | .write l _ k => Wr l ∧ k.Foot Rd Wr Ad
  | .aadd l _ k => Ad l ∧ k.Foot Rd Wr Ad

/-- Every access, on every execution path, is to an element satisfying `ok` (inside extents). -/
def Safe (ok : Loc A → Prop) (p : Prog A R α) : Prop := p.Foot ok ok ok

omit [DecidableEq A] [Add R] in
@[simp] theorem foot_pure (Rd Wr Ad : Loc A → Prop) (a : α) :
    (Pure.pure a : Prog A R α).Foot Rd Wr Ad := trivial
omit [DecidableEq A] [Add R] in
@[simp] theorem foot_pure' (Rd Wr Ad : Loc A → Prop) (a : α) :
    (Prog.pure a : Prog A R α).Foot Rd Wr Ad := trivial
omit [DecidableEq A] [Add R] in
@[simp] theorem foot_rd (Rd Wr Ad : Loc A → Prop) (l : Loc A) :
    (rd l : Prog A R R).Foot Rd Wr Ad ↔ Rd l := by simp [rd, Foot]
omit [DecidableEq A] [Add R] in
@[simp] theorem foot_wr (Rd Wr Ad : Loc A → Prop) (l : Loc A) (x : R) :
    (wr l x : Prog A R Unit).Foot Rd Wr Ad ↔ Wr l := by simp [wr, Foot]
omit [DecidableEq A] [Add R] in
@[simp] theorem foot_add (Rd Wr Ad : Loc A → Prop) (l : Loc A) (x : R) :
    (add l x : Prog A R Unit).Foot Rd Wr Ad ↔ Ad l := by simp [add, Foot]

omit [DecidableEq A] [Add R] in
theorem foot_bind {Rd Wr Ad : Loc A → Prop} {p : Prog A R α} {f : α → Prog A R β}
    (hp : p.Foot Rd Wr Ad) (hf : ∀ a, (f a).Foot Rd Wr Ad) : (p >>= f).Foot Rd Wr Ad := by
  show (p.bind f).Foot Rd Wr Ad
  induction p with
  | pure a => exact hf a
  | read l k ih => exact ⟨hp.1, fun x => ih x (hp.2 x)⟩
  | write l x k ih => exact ⟨hp.1, ih hp.2⟩
  | aadd l x k ih => exact ⟨hp.1, ih hp.2⟩

omit [DecidableEq A] [Add R] in
theorem foot_mono {Rd Wr Ad Rd' Wr' Ad' : Loc A → Prop} {p : Prog A R α}
    (hr : ∀ l, Rd l → Rd' l) (hw : ∀ l, Wr l → Wr' l) (ha : ∀ l, Ad l → Ad' l)
    (hp : p.Foot Rd Wr Ad) : p.Foot Rd' Wr' Ad' := by
  induction p with
  | pure a => trivial
  | read l k ih => exact ⟨hr _ hp.1, fun x => ih x (hp.2 x)⟩
  | write l x k ih => exact ⟨hw _ hp.1, ih hp.2⟩
  | aadd l x k ih => exact ⟨ha _ hp.1, ih hp.2⟩

/-- One memory operation of a thread. -/
def step : Prog A R Unit → Mem A R → Option (Prog A R Unit × Mem A R)
  | .pure _, _ => none
  | .read l k, m => some (k (m l), m)
  | .write l x k, m => some (k, upd m l x)
  | .aadd l x k, m => some (k, upd m l (m l + x))

theorem run_step {p p' : Prog A R Unit} {m m' : Mem A R} (h : p.step m = some (p', m')) :
    p'.run m' = p.run m := by
  cases p <;> simp [step] at h <;> obtain ⟨rfl, rfl⟩ := h <;> rfl

theorem foot_step {Rd Wr Ad : Loc A → Prop} {p p' : Prog A R Unit} {m m' : Mem A R}
    (hf : p.Foot Rd Wr Ad) (h : p.step m = some (p', m')) : p'.Foot Rd Wr Ad := by
  cases p <;> simp [step] at h <;> obtain ⟨rfl, rfl⟩ := h
  · exact hf.2 _
  · exact hf.2
  · exact hf.2

theorem mem_step {Rd Wr Ad : Loc A → Prop} {p p' : Prog A R Unit} {m m' : Mem A R}
    (hf : p.Foot Rd Wr Ad) (h : p.step m = some (p', m')) (l : Loc A) (hw : ¬ Wr l) (ha : ¬ Ad l) :
    m' l = m l := by
  cases p <;> simp [step] at h <;> obtain ⟨rfl, rfl⟩ := h
  · rfl
  · exact upd_ne _ _ (fun e => hw (e ▸ hf.1))
  · exact upd_ne _ _ (fun e => ha (e ▸ hf.1))

/-- `Interleave pool m m'`: some complete interleaving of the threads in `pool` takes memory `m`
to `m'`. -/
inductive Interleave {ι : Type} [DecidableEq ι] :
    (ι → Prog A R Unit) → Mem A R → Mem A R → Prop
  | done {pool m} : (∀ t, pool t = .pure ()) → Interleave pool m m
  | step {pool m} (t : ι) {p' m' mf} : (pool t).step m = some (p', m') →
      Interleave (Function.update pool t p') m' mf → Interleave pool m mf

open Classical in
/-- `Kokkos::parallel_for` over the index set `S`: any interleaving of the bodies. -/
def ParFor {ι : Type} [DecidableEq ι] (S : Set ι) (body : ι → Prog A R Unit)
    (m m' : Mem A R) : Prop :=
  Interleave (fun t => if t ∈ S then body t else .pure ()) m m'

/-! ## Race freedom implies determinism -/

/-- A body only depends on the memory it may access. -/
theorem run_congr {Rd Wr Ad : Loc A → Prop} {p : Prog A R α} (hf : p.Foot Rd Wr Ad)
    {m m' : Mem A R} (P : Loc A → Prop)
    (hRd : ∀ l, Rd l → P l) (hAd : ∀ l, Ad l → P l)
    (h : ∀ l, P l → m l = m' l) :
    (p.run m).1 = (p.run m').1 ∧ ∀ l, P l → (p.run m).2 l = (p.run m').2 l := by
  induction p generalizing m m' with
  | pure a => exact ⟨rfl, h⟩
  | read l k ih =>
    simp only [run]; rw [h l (hRd l hf.1)]
    exact ih _ (hf.2 _) h
  | write l x k ih =>
    simp only [run]
    refine ih hf.2 (fun l' hl' => ?_)
    by_cases e : l' = l
    · simp [e]
    · rw [upd_ne _ _ e, upd_ne _ _ e]; exact h _ hl'
  | aadd l x k ih =>
    simp only [run]
    refine ih hf.2 (fun l' hl' => ?_)
    by_cases e : l' = l
    · simp [e, h l (hAd l hf.1)]
    · rw [upd_ne _ _ e, upd_ne _ _ e]; exact h _ hl'

/-- A body leaves elements outside its write set unchanged. -/
theorem run_frame {Rd Wr Ad : Loc A → Prop} {p : Prog A R α} (hf : p.Foot Rd Wr Ad)
    (m : Mem A R) (l : Loc A) (hw : ¬ Wr l) (ha : ¬ Ad l) : (p.run m).2 l = m l := by
  induction p generalizing m with
  | pure a => rfl
  | read l' k ih => simp only [run]; exact ih _ (hf.2 _) _
  | write l' x k ih =>
    have hne : l ≠ l' := fun e => hw (by rw [e]; exact hf.1)
    simp only [run]; rw [ih hf.2 _, upd_ne _ _ hne]
  | aadd l' x k ih =>
    have hne : l ≠ l' := fun e => ha (by rw [e]; exact hf.1)
    simp only [run]; rw [ih hf.2 _, upd_ne _ _ hne]

/-- Core of the race-freedom theorem, for an arbitrary pool. -/
theorem interleave_drf {ι : Type} [DecidableEq ι] (Rd Wr : ι → Loc A → Prop)
    (hdis : ∀ s t, s ≠ t → ∀ l, Wr t l → ¬ Rd s l ∧ ¬ Wr s l)
    {pool : ι → Prog A R Unit} {m mf : Mem A R}
    (hf : ∀ t, (pool t).Foot (fun l => Rd t l ∨ Wr t l) (Wr t) (fun _ => False))
    (g : Mem A R)
    (hg : ∀ t l, Wr t l → ((pool t).run m).2 l = g l)
    (hg0 : ∀ l, (∀ t, ¬ Wr t l) → m l = g l)
    (h : Interleave pool m mf) : mf = g := by
  induction h with
  | @done pool m hd =>
    funext l
    by_cases hl : ∃ t, Wr t l
    · obtain ⟨t, ht⟩ := hl
      have := hg t l ht
      rwa [hd t] at this
    · exact hg0 l (fun t ht => hl ⟨t, ht⟩)
  | @step pool m t p' m' mf hs _ ih =>
    have hm : ∀ l, ¬ Wr t l → m' l = m l := fun l hl => mem_step (hf t) hs l hl id
    apply ih
    · intro s
      by_cases e : s = t
      · subst e; simp only [Function.update_self]; exact foot_step (hf s) hs
      · simp only [Function.update_of_ne e]; exact hf s
    · intro s l hl
      by_cases e : s = t
      · subst e; simp only [Function.update_self]; rw [run_step hs]; exact hg s l hl
      · simp only [Function.update_of_ne e]; rw [← hg s l hl]
        refine (run_congr (hf s) (fun l => Rd s l ∨ Wr s l) (fun _ h => h)
          (fun _ h => h.elim) (fun l hl => ?_)).2 l (Or.inr hl)
        refine hm l (fun hw => ?_)
        have := hdis s t e l hw
        tauto
    · intro l hl
      rw [hm l (hl t)]; exact hg0 l hl

/-- **Race freedom ⇒ determinism.**  If the write set of each iteration is disjoint from
everything the other iterations access, every interleaving of `parallel_for` ends in the memory
that each iteration alone would produce on its own write set. -/
theorem parFor_drf {ι : Type} [DecidableEq ι] {S : Set ι} {body : ι → Prog A R Unit}
    (Rd Wr : ι → Loc A → Prop)
    (hf : ∀ t ∈ S, (body t).Foot (fun l => Rd t l ∨ Wr t l) (Wr t) (fun _ => False))
    (hdis : ∀ s ∈ S, ∀ t ∈ S, s ≠ t → ∀ l, Wr t l → ¬ Rd s l ∧ ¬ Wr s l)
    (m g : Mem A R)
    (hg : ∀ t ∈ S, ∀ l, Wr t l → ((body t).run m).2 l = g l)
    (hg0 : ∀ l, (∀ t ∈ S, ¬ Wr t l) → g l = m l)
    {mf : Mem A R} (h : ParFor S body m mf) : mf = g := by
  classical
  unfold ParFor at h
  refine interleave_drf (fun t l => t ∈ S ∧ Rd t l) (fun t l => t ∈ S ∧ Wr t l) ?_ ?_ g ?_ ?_ h
  · rintro s t hst l ⟨ht, hw⟩
    constructor
    · rintro ⟨hs, hr⟩; exact (hdis s hs t ht hst l hw).1 hr
    · rintro ⟨hs, hr⟩; exact (hdis s hs t ht hst l hw).2 hr
  · intro t
    by_cases ht : t ∈ S
    · simpa [ht] using hf t ht
    · simp [ht]
  · rintro t l ⟨ht, hw⟩
    simpa [ht] using hg t ht l hw
  · intro l hl
    exact (hg0 l (fun t ht hw => hl t ⟨ht, hw⟩)).symm

/-! ## Existence of a complete interleaving -/

/-- Run one thread of the pool to completion, then continue. -/
theorem interleave_thread {ι : Type} [DecidableEq ι] {pool : ι → Prog A R Unit} (t : ι)
    {m mf : Mem A R}
    (h : Interleave (Function.update pool t (.pure ())) ((pool t).run m).2 mf) :
    Interleave pool m mf := by
  generalize hp : pool t = p at h
  induction p generalizing pool m with
  | pure a =>
    have : Function.update pool t (.pure ()) = pool := by
      funext s; by_cases e : s = t
      · subst e; simp [hp]
      · simp [e]
    rw [this] at h; exact h
  | read l k ih =>
    refine .step t (by rw [hp]; rfl) ?_
    refine ih (m l) (pool := Function.update pool t (k (m l))) (by simp) ?_
    simpa [run] using h
  | write l x k ih =>
    refine .step t (by rw [hp]; rfl) ?_
    refine ih (pool := Function.update pool t k) (by simp) ?_
    simpa [run] using h
  | aadd l x k ih =>
    refine .step t (by rw [hp]; rfl) ?_
    refine ih (pool := Function.update pool t k) (by simp) ?_
    simpa [run] using h

theorem interleave_exists {ι : Type} [DecidableEq ι] (F : Finset ι) {pool : ι → Prog A R Unit}
    (hF : ∀ t, t ∉ F → pool t = .pure ()) (m : Mem A R) : ∃ mf, Interleave pool m mf := by
  induction F using Finset.induction_on generalizing pool m with
  | empty => exact ⟨m, .done (fun t => hF t (by simp))⟩
  | insert a F ha ih =>
    obtain ⟨mf, h⟩ := ih (pool := Function.update pool a (.pure ())) (by
      intro t ht
      by_cases e : t = a
      · subst e; simp
      · simp only [Function.update_of_ne e]; exact hF t (by simp [e, ht])) ((pool a).run m).2
    exact ⟨mf, interleave_thread a h⟩

/-- A `parallel_for` over a finite index set has a complete execution. -/
theorem parFor_exists {ι : Type} [DecidableEq ι] {S : Set ι} (hS : S.Finite)
    (body : ι → Prog A R Unit) (m : Mem A R) : ∃ mf, ParFor S body m mf := by
  classical
  obtain ⟨F, rfl⟩ := hS.exists_finset_coe
  exact interleave_exists F (fun t ht => by simp [show t ∉ (F : Set ι) from by simpa using ht]) m

/-- Race-free loops are deterministic and total: the executions end exactly in `g`. -/
theorem parFor_iff {ι : Type} [DecidableEq ι] {S : Set ι} (hS : S.Finite)
    {body : ι → Prog A R Unit}
    (Rd Wr : ι → Loc A → Prop)
    (hf : ∀ t ∈ S, (body t).Foot (fun l => Rd t l ∨ Wr t l) (Wr t) (fun _ => False))
    (hdis : ∀ s ∈ S, ∀ t ∈ S, s ≠ t → ∀ l, Wr t l → ¬ Rd s l ∧ ¬ Wr s l)
    (m g : Mem A R)
    (hg : ∀ t ∈ S, ∀ l, Wr t l → ((body t).run m).2 l = g l)
    (hg0 : ∀ l, (∀ t ∈ S, ¬ Wr t l) → g l = m l) (mf : Mem A R) :
    ParFor S body m mf ↔ mf = g := by
  constructor
  · exact parFor_drf Rd Wr hf hdis m g hg hg0
  · rintro rfl
    obtain ⟨mf', h⟩ := parFor_exists hS body m
    have := parFor_drf Rd Wr hf hdis m mf hg hg0 h
    rwa [← this]

/-! ## Atomic accumulation -/

/-- What a body that only reads and atomically adds contributes to element `l`
(as a list of addends, in program order), its reads being served from `m`. -/
def addends : Prog A R α → Mem A R → Loc A → List R
  | .pure _, _, _ => []
  | .read l k, m, l' => (k (m l)).addends m l'
  | .write _ _ k, m, l' => k.addends m l'
  | .aadd l x k, m, l' => if l' = l then x :: k.addends m l' else k.addends m l'

/-- Result of a body whose reads are served from `m`. -/
def valR : Prog A R α → Mem A R → α
  | .pure a, _ => a
  | .read l k, m => (k (m l)).valR m
  | .write _ _ k, m => k.valR m
  | .aadd _ _ k, m => k.valR m

omit [Add R] in
theorem addends_bind (p : Prog A R α) (f : α → Prog A R β) (m : Mem A R) (l : Loc A) :
    (p >>= f).addends m l = p.addends m l ++ (f (p.valR m)).addends m l := by
  show (p.bind f).addends m l = _
  induction p with
  | pure a => rfl
  | read l' k ih => simp only [Prog.bind, addends, valR]; exact ih _
  | write l' x k ih => simp only [Prog.bind, addends, valR]; exact ih
  | aadd l' x k ih =>
    simp only [Prog.bind, addends, valR, ih]
    split <;> simp

omit [Add R] in
@[simp] theorem addends_pure (a : α) (m : Mem A R) (l : Loc A) :
    (Pure.pure a : Prog A R α).addends m l = [] := rfl
omit [Add R] in
@[simp] theorem addends_add (l' : Loc A) (x : R) (m : Mem A R) (l : Loc A) :
    (add l' x).addends m l = if l = l' then [x] else [] := rfl

omit [Add R] in
theorem addends_nil {p : Prog A R α} {Rd Wr Ad : Loc A → Prop}
    (h : p.Foot Rd Wr Ad) (m : Mem A R) (l : Loc A) (hl : ¬ Ad l) : p.addends m l = [] := by
  induction p with
  | pure a => rfl
  | read l' k ih => exact ih _ (h.2 _)
  | write l' x k ih => exact ih h.2
  | aadd l' x k ih =>
    have hne : l ≠ l' := fun e => hl (by rw [e]; exact h.1)
    simp only [addends, hne, if_false]; exact ih h.2

/-- A read-only body contributes nothing and its value is that of `run`. -/
theorem readOnly_addends {p : Prog A R α} {Rd : Loc A → Prop}
    (h : p.Foot Rd (fun _ => False) (fun _ => False)) (m : Mem A R) (l : Loc A) :
    p.addends m l = [] ∧ p.valR m = (p.run m).1 ∧ (p.run m).2 = m := by
  induction p with
  | pure a => exact ⟨rfl, rfl, rfl⟩
  | read l' k ih => exact ih _ (h.2 _)
  | write l' x k ih => exact h.1.elim
  | aadd l' x k ih => exact h.1.elim

end Prog

namespace Prog
variable {A R : Type} [DecidableEq A] [AddCommMonoid R]

omit [AddCommMonoid R] in
theorem addends_congr {Rd Ad : Loc A → Prop} {p : Prog A R Unit}
    (hf : p.Foot Rd (fun _ => False) Ad) {m m' : Mem A R} (h : ∀ l, Rd l → m l = m' l) (l : Loc A) :
    p.addends m l = p.addends m' l := by
  induction p with
  | pure a => rfl
  | read l' k ih => simp only [addends]; rw [h l' hf.1]; exact ih _ (hf.2 _)
  | write l' x k ih => exact hf.1.elim
  | aadd l' x k ih => simp only [addends, ih hf.2]

open scoped Classical in
theorem interleave_atomic {ι : Type} [DecidableEq ι] (F : Finset ι) (Rd Ad : Loc A → Prop)
    (hdis : ∀ l, Ad l → ¬ Rd l)
    {pool : ι → Prog A R Unit} {m mf : Mem A R}
    (hF : ∀ t, t ∉ F → pool t = .pure ())
    (hf : ∀ t, (pool t).Foot Rd (fun _ => False) Ad)
    (h : Interleave pool m mf) :
    ∀ l, mf l = m l + ∑ t ∈ F, ((pool t).addends m l).sum := by
  induction h with
  | @done pool m hd =>
    intro l
    rw [Finset.sum_eq_zero]
    · simp
    · intro t _; rw [hd t]; rfl
  | @step pool m t p' m' mf hs _ ih =>
    intro l
    have htF : t ∈ F := by
      by_contra ht; rw [hF t ht] at hs; simp [Prog.step] at hs
    have hm : ∀ l, Rd l → m' l = m l := fun l hl =>
      mem_step (hf t) hs l id (fun ha => hdis l ha hl)
    have h1 : ∀ s, (Function.update pool t p' s).Foot Rd (fun _ => False) Ad := by
      intro s
      by_cases e : s = t
      · subst e; simp only [Function.update_self]; exact foot_step (hf s) hs
      · simp only [Function.update_of_ne e]; exact hf s
    rw [ih (by
      intro s hs'
      have e : s ≠ t := fun e => hs' (e ▸ htF)
      simp only [Function.update_of_ne e]; exact hF s hs') h1 l]
    rw [← Finset.add_sum_erase _ _ htF, ← Finset.add_sum_erase _ _ htF, ← add_assoc, ← add_assoc]
    congr 1
    · simp only [Function.update_self]
      have hft := hf t
      rw [addends_congr (foot_step hft hs) hm]
      generalize pool t = p at hs hft
      cases p with
      | pure a => simp [Prog.step] at hs
      | read l' k => simp [Prog.step] at hs; obtain ⟨rfl, rfl⟩ := hs; rfl
      | write l' x k => exact hft.1.elim
      | aadd l' x k =>
        simp [Prog.step] at hs; obtain ⟨rfl, rfl⟩ := hs
        by_cases e : l = l'
        · subst e; simp [addends, add_assoc]
        · simp [addends, e, upd_ne]
    · refine Finset.sum_congr rfl (fun s hs' => ?_)
      have e : s ≠ t := Finset.ne_of_mem_erase hs'
      simp only [Function.update_of_ne e]
      rw [addends_congr (hf s) hm]

open scoped Classical in
/-- **Atomic accumulation is schedule independent** (exact addition).  If the iterations only read
elements that no iteration modifies and modify memory only by atomic additions, every
interleaving ends in `initial value + sum of all addends`. -/
theorem parFor_atomic {ι : Type} [DecidableEq ι] (F : Finset ι) {body : ι → Prog A R Unit}
    (Rd Ad : Loc A → Prop) (hdis : ∀ l, Ad l → ¬ Rd l)
    (hf : ∀ t ∈ F, (body t).Foot Rd (fun _ => False) Ad)
    (m : Mem A R) (mf : Mem A R) :
    ParFor (F : Set ι) body m mf ↔
      mf = fun l => m l + ∑ t ∈ F, ((body t).addends m l).sum := by
  have key : ∀ mf, ParFor (F : Set ι) body m mf →
      mf = fun l => m l + ∑ t ∈ F, ((body t).addends m l).sum := by
    intro mf h
    unfold ParFor at h
    funext l
    rw [interleave_atomic F Rd Ad hdis (fun t ht => by simp [ht]) (fun t => ?_) h l]
    · congr 1
      exact Finset.sum_congr rfl (fun t ht => by simp [ht])
    · by_cases ht : t ∈ F
      · simpa [ht] using hf t ht
      · simp [ht]
  constructor
  · exact key mf
  · intro e
    obtain ⟨mf', h⟩ := parFor_exists (S := (F : Set ι)) F.finite_toSet body m
    rw [e, ← key mf' h]; exact h

end Prog
end EulerKokkos
