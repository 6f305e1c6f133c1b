import Verif.Lemmas.Scheme2D
import Verif.Model.MhdState

/-! # Helper lemmas on MHD state access -/

set_option linter.constructorNameAsVariable false
set_option linter.unusedSectionVars false
set_option linter.unusedSimpArgs false

namespace EulerKokkos

open Prog (rd wr add upd run_bind run_rd run_wr run_pure foot_bind foot_rd foot_wr foot_add
  foot_pure foot_ite foot_pif foot_mono Foot forRange)

section generic
variable {R : Type} [RealOps R]

theorem mem_of_ms (m : Mem Arr R) (a : Arr) (i j k : Int) (v : Nat) (hv : v < 8) :
    m ⟨a, i, j, k, v⟩ = (ms m a i j k).get v := by
  match v, hv with
  | 0, _ => rfl
  | 1, _ => rfl
  | 2, _ => rfl
  | 3, _ => rfl
  | 4, _ => rfl
  | 5, _ => rfl
  | 6, _ => rfl
  | 7, _ => rfl

@[simp] theorem run_getMS (a : Arr) (i j k : Int) (m : Mem Arr R) :
    (getMS a i j k).run m = (ms m a i j k, m) := rfl

@[simp] theorem run_getBF (a : Arr) (i j k : Int) (m : Mem Arr R) :
    (getBF a i j k).run m = (bf m a i j k, m) := rfl

theorem upd8 (m : Mem Arr R) (a : Arr) (i j k : Int) (s : MS R) :
    upd (upd (upd (upd (upd (upd (upd (upd m ⟨a, i, j, k, ID⟩ s.d) ⟨a, i, j, k, IP⟩ s.p)
      ⟨a, i, j, k, IU⟩ s.u) ⟨a, i, j, k, IV⟩ s.v) ⟨a, i, j, k, IW⟩ s.w) ⟨a, i, j, k, IA⟩ s.a)
      ⟨a, i, j, k, IB⟩ s.b) ⟨a, i, j, k, IC⟩ s.c = setMemM m a i j k s := by
  funext l
  obtain ⟨la, li, lj, lk, lv⟩ := l
  simp only [upd, setMemM, Loc.mk.injEq, ID, IP, IU, IV, IW, IA, IB, IC]
  by_cases h : la = a ∧ li = i ∧ lj = j ∧ lk = k
  · obtain ⟨rfl, rfl, rfl, rfl⟩ := h
    match lv with
    | 0 => simp [MS.get]
    | 1 => simp [MS.get]
    | 2 => simp [MS.get]
    | 3 => simp [MS.get]
    | 4 => simp [MS.get]
    | 5 => simp [MS.get]
    | 6 => simp [MS.get]
    | 7 => simp [MS.get]
    | n + 8 =>
      simp only [true_and]
      rw [if_neg (by omega), if_neg (by omega), if_neg (by omega), if_neg (by omega),
        if_neg (by omega), if_neg (by omega), if_neg (by omega), if_neg (by omega),
        if_neg (by omega)]
  · rw [if_neg (by tauto), if_neg (by tauto), if_neg (by tauto), if_neg (by tauto),
      if_neg (by tauto), if_neg (by tauto), if_neg (by tauto), if_neg (by tauto),
      if_neg (by tauto)]

@[simp] theorem run_putMS (a : Arr) (i j k : Int) (s : MS R) (m : Mem Arr R) :
    (putMS a i j k s).run m = ((), setMemM m a i j k s) := by
  rw [← upd8]; rfl

theorem ms_setMemM_same (m : Mem Arr R) (a : Arr) (i j k : Int) (s : MS R) :
    ms (setMemM m a i j k s) a i j k = s := by
  simp [ms, setMemM, MS.get, ID, IP, IU, IV, IW, IA, IB, IC]

theorem ms_setMemM_ne (m : Mem Arr R) (a a' : Arr) (i j k i' j' k' : Int) (s : MS R)
    (h : a' ≠ a ∨ i' ≠ i ∨ j' ≠ j ∨ k' ≠ k) :
    ms (setMemM m a i j k s) a' i' j' k' = ms m a' i' j' k' := by
  simp only [ms, setMemM]
  rw [if_neg (by tauto), if_neg (by tauto), if_neg (by tauto), if_neg (by tauto),
    if_neg (by tauto), if_neg (by tauto), if_neg (by tauto), if_neg (by tauto)]

/-- another view is not affected -/
theorem ms_setMemM_arr (m : Mem Arr R) {a a' : Arr} (i j k : Int) (s : MS R) (h : a' ≠ a) :
    ms (setMemM m a i j k s) a' = ms m a' := by
  funext x y z; exact ms_setMemM_ne _ _ _ _ _ _ _ _ _ _ (Or.inl h)

theorem setMemM_arr (m : Mem Arr R) {a : Arr} (i j k : Int) (s : MS R) {l : Loc Arr}
    (h : l.arr ≠ a) : setMemM m a i j k s l = m l := by
  simp [setMemM, h]

theorem bf_eq (m : Mem Arr R) (a : Arr) (i j k : Int) :
    bf m a i j k = ⟨(ms m a i j k).a, (ms m a i j k).b, (ms m a i j k).c⟩ := rfl

/-! ## `gather` -/

theorem run_gather {ι α : Type} [DecidableEq ι] (f : ι → Prog Arr R α) (v : ι → α) (m : Mem Arr R)
    (hf : ∀ x, (f x).run m = (v x, m)) (xs : List ι) (acc : ι → α) :
    (gather f xs acc).run m = (fun x => if x ∈ xs then v x else acc x, m) := by
  induction xs generalizing acc with
  | nil => simp [gather]
  | cons x xs ih =>
    simp only [gather, run_bind, hf, ih]
    congr 1
    funext y
    by_cases h : y ∈ xs
    · simp [h]
    · by_cases e : y = x
      · subst e; simp [h]
      · simp [h, e]

theorem foot_gather {ι α : Type} [DecidableEq ι] {Rd Wr Ad : Loc Arr → Prop}
    {f : ι → Prog Arr R α} {xs : List ι} {acc : ι → α} (h : ∀ x ∈ xs, (f x).Foot Rd Wr Ad) :
    (gather f xs acc).Foot Rd Wr Ad := by
  induction xs generalizing acc with
  | nil => exact foot_pure _ _ _ _
  | cons x xs ih =>
    exact foot_bind (h x (by simp)) (fun _ => ih (fun y hy => h y (by simp [hy])))

/-! ## Footprints -/

section Foot
variable {Rd Wr Ad : Loc Arr → Prop}

theorem foot_getMS {a : Arr} {i j k : Int} (h : ∀ v < 8, Rd ⟨a, i, j, k, v⟩) :
    (getMS a i j k : Prog Arr R (MS R)).Foot Rd Wr Ad :=
  ⟨h 0 (by omega), fun _ => ⟨h 1 (by omega), fun _ => ⟨h 2 (by omega), fun _ =>
    ⟨h 3 (by omega), fun _ => ⟨h 4 (by omega), fun _ => ⟨h 5 (by omega), fun _ =>
      ⟨h 6 (by omega), fun _ => ⟨h 7 (by omega), fun _ => trivial⟩⟩⟩⟩⟩⟩⟩⟩

theorem foot_getBF {a : Arr} {i j k : Int} (h : ∀ v < 8, Rd ⟨a, i, j, k, v⟩) :
    (getBF a i j k : Prog Arr R (BF R)).Foot Rd Wr Ad :=
  ⟨h 5 (by omega), fun _ => ⟨h 6 (by omega), fun _ => ⟨h 7 (by omega), fun _ => trivial⟩⟩⟩

theorem foot_putMS {a : Arr} {i j k : Int} {s : MS R} (h : ∀ v < 8, Wr ⟨a, i, j, k, v⟩) :
    (putMS a i j k s).Foot Rd Wr Ad :=
  ⟨h 0 (by omega), h 1 (by omega), h 2 (by omega), h 3 (by omega), h 4 (by omega), h 5 (by omega),
    h 6 (by omega), h 7 (by omega), trivial⟩

theorem foot_atomicAddM6 {a : Arr} {i j k : Int} {s : MS R} {c : R}
    (h : ∀ v < 8, Ad ⟨a, i, j, k, v⟩) : (atomicAddM6 a i j k s c).Foot Rd Wr Ad :=
  ⟨h 0 (by omega), h 1 (by omega), h 2 (by omega), h 3 (by omega), h 4 (by omega), h 7 (by omega),
    trivial⟩

theorem foot_atomicSubM6 {a : Arr} {i j k : Int} {s : MS R} {c : R}
    (h : ∀ v < 8, Ad ⟨a, i, j, k, v⟩) : (atomicSubM6 a i j k s c).Foot Rd Wr Ad :=
  ⟨h 0 (by omega), h 1 (by omega), h 2 (by omega), h 3 (by omega), h 4 (by omega), h 7 (by omega),
    trivial⟩

end Foot

/-! ## Loops -/

theorem SameOff.ms {outs : Arr → Prop} {m m' : Mem Arr R} (h : SameOff outs m m') {a : Arr}
    (ha : ¬ outs a) : EulerKokkos.ms m' a = EulerKokkos.ms m a := by
  funext i j k
  unfold EulerKokkos.ms
  rw [h ⟨a, i, j, k, ID⟩ ha, h ⟨a, i, j, k, IP⟩ ha, h ⟨a, i, j, k, IU⟩ ha, h ⟨a, i, j, k, IV⟩ ha,
    h ⟨a, i, j, k, IW⟩ ha, h ⟨a, i, j, k, IA⟩ ha, h ⟨a, i, j, k, IB⟩ ha, h ⟨a, i, j, k, IC⟩ ha]

theorem ms_congr {m m' : Mem Arr R} {a b : Arr} {i j k i' j' k' : Int}
    (h : ∀ v < 8, m ⟨a, i, j, k, v⟩ = m' ⟨b, i', j', k', v⟩) : ms m a i j k = ms m' b i' j' k' := by
  unfold ms
  rw [h ID (by decide), h IP (by decide), h IU (by decide), h IV (by decide), h IW (by decide),
    h IA (by decide), h IB (by decide), h IC (by decide)]

theorem forRange2_ms_out {outs : Arr → Prop} {body : Int × Int → Prog Arr R Unit}
    (h : Own2 outs body) {F : Finset (Int × Int)} {m m' : Mem Arr R} (hm : forRange F body m m')
    {a : Arr} {i j k : Int} (ho : outs a) (hij : (i, j) ∈ F) :
    ms m' a i j k = ms ((body (i, j)).run m).2 a i j k :=
  ms_congr (fun v _ => forRange2_out h hm (l := ⟨a, i, j, k, v⟩) ho hij)

theorem forRange2_ms_else {outs : Arr → Prop} {body : Int × Int → Prog Arr R Unit}
    (h : Own2 outs body) {F : Finset (Int × Int)} {m m' : Mem Arr R} (hm : forRange F body m m')
    {a : Arr} {i j k : Int} (ho : ¬ (outs a ∧ (i, j) ∈ F)) :
    ms m' a i j k = ms m a i j k :=
  ms_congr (fun v _ => forRange2_else h hm (l := ⟨a, i, j, k, v⟩) ho)

theorem deepCopy_ms {dst src : Arr} {m m' : Mem Arr R} (h : deepCopy dst src m m') :
    ms m' dst = ms m src := by
  funext i j k
  exact ms_congr (fun v _ => (deepCopy_result h).2 _ rfl)

end generic

section atomic
variable {R : Type} [RealOps R] [ExactAdd R]
attribute [local instance 10] ExactAdd.monoid

/-- amount added to variable `v` by a six-variable flux scaled by `c` -/
def MS.get6 (f : MS R) (c : R) : Nat → R
  | 0 => f.d * c
  | 1 => f.p * c
  | 2 => f.u * c
  | 3 => f.v * c
  | 4 => f.w * c
  | 7 => f.c * c
  | _ => 0

theorem addends_atomicAddM6 (U : Arr) (a b c : Int) (s : MS R) (x : R) (m : Mem Arr R)
    (i j k : Int) (v : Nat) (hv : v < 8) :
    ((atomicAddM6 U a b c s x).addends m ⟨U, i, j, k, v⟩).sum =
      if (a, b, c) = (i, j, k) then s.get6 x v else 0 := by
  simp only [atomicAddM6, Prog.addends_bind, Prog.addends_add, Loc.mk.injEq, true_and,
    List.sum_append, ID, IP, IU, IV, IW, IC]
  by_cases h : (a, b, c) = (i, j, k)
  · simp only [Prod.mk.injEq] at h
    obtain ⟨rfl, rfl, rfl⟩ := h
    match v, hv with
    | 0, _ => simp [MS.get6]
    | 1, _ => simp [MS.get6]
    | 2, _ => simp [MS.get6]
    | 3, _ => simp [MS.get6]
    | 4, _ => simp [MS.get6]
    | 5, _ => simp [MS.get6]
    | 6, _ => simp [MS.get6]
    | 7, _ => simp [MS.get6]
  · have h' : ¬ (i = a ∧ j = b ∧ k = c) := fun e => h (by rw [e.1, e.2.1, e.2.2])
    rw [if_neg h]
    rw [if_neg (by tauto), if_neg (by tauto), if_neg (by tauto), if_neg (by tauto),
      if_neg (by tauto), if_neg (by tauto)]
    simp

theorem addends_atomicSubM6 (U : Arr) (a b c : Int) (s : MS R) (x : R) (m : Mem Arr R)
    (i j k : Int) (v : Nat) (hv : v < 8) :
    ((atomicSubM6 U a b c s x).addends m ⟨U, i, j, k, v⟩).sum =
      if (a, b, c) = (i, j, k) then -(s.get6 x v) else 0 := by
  simp only [atomicSubM6, Prog.addends_bind, Prog.addends_add, Loc.mk.injEq, true_and,
    List.sum_append, ID, IP, IU, IV, IW, IC]
  by_cases h : (a, b, c) = (i, j, k)
  · simp only [Prod.mk.injEq] at h
    obtain ⟨rfl, rfl, rfl⟩ := h
    match v, hv with
    | 0, _ => simp [MS.get6]
    | 1, _ => simp [MS.get6]
    | 2, _ => simp [MS.get6]
    | 3, _ => simp [MS.get6]
    | 4, _ => simp [MS.get6]
    | 5, _ => simp [MS.get6]
    | 6, _ => simp [MS.get6]
    | 7, _ => simp [MS.get6]
  · have h' : ¬ (i = a ∧ j = b ∧ k = c) := fun e => h (by rw [e.1, e.2.1, e.2.2])
    rw [if_neg h]
    rw [if_neg (by tauto), if_neg (by tauto), if_neg (by tauto), if_neg (by tauto),
      if_neg (by tauto), if_neg (by tauto)]
    simp

end atomic

end EulerKokkos
