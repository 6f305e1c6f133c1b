import Verif.Model.Arrays

/-! # Helper lemmas on state access -/

set_option linter.unusedSectionVars false

namespace EulerKokkos

open Prog (rd wr add upd run_bind run_rd run_wr run_pure foot_bind foot_rd foot_wr foot_add)

variable {R : Type} [RealOps R]

theorem hs2_w (m : Mem Arr R) (a : Arr) (i j : Int) : (hs2 m a i j).w = lit 0 := rfl

@[simp] theorem trunc_hs2 (m : Mem Arr R) (a : Arr) (i j : Int) :
    (hs2 m a i j).trunc = hs2 m a i j := rfl

theorem mem_of_hs2 (m : Mem Arr R) (a : Arr) (i j : Int) (v : Nat) (hv : v < 4) :
    m ⟨a, i, j, 0, v⟩ = (hs2 m a i j).get v := by
  match v, hv with
  | 0, _ => rfl
  | 1, _ => rfl
  | 2, _ => rfl
  | 3, _ => rfl

theorem mem_of_hs3 (m : Mem Arr R) (a : Arr) (i j k : Int) (v : Nat) (hv : v < 5) :
    m ⟨a, i, j, k, v⟩ = (hs3 m a i j k).get v := by
  match v, hv with
  | 0, _ => rfl
  | 1, _ => rfl
  | 2, _ => rfl
  | 3, _ => rfl
  | 4, _ => rfl

@[simp] theorem run_getHS2 (a : Arr) (i j : Int) (m : Mem Arr R) :
    (getHS2 a i j).run m = (hs2 m a i j, m) := rfl

@[simp] theorem run_getHS3 (a : Arr) (i j k : Int) (m : Mem Arr R) :
    (getHS3 a i j k).run m = (hs3 m a i j k, m) := rfl

theorem upd4 (m : Mem Arr R) (a : Arr) (i j : Int) (s : HS R) :
    upd (upd (upd (upd m ⟨a, i, j, 0, ID⟩ s.d) ⟨a, i, j, 0, IP⟩ s.p) ⟨a, i, j, 0, IU⟩ s.u)
      ⟨a, i, j, 0, IV⟩ s.v = setMem2 m a i j s := by
  funext l
  obtain ⟨la, li, lj, lk, lv⟩ := l
  simp only [upd, setMem2, Loc.mk.injEq, ID, IP, IU, IV]
  by_cases h : la = a ∧ li = i ∧ lj = j ∧ lk = 0
  · obtain ⟨rfl, rfl, rfl, rfl⟩ := h
    match lv with
    | 0 => simp [HS.get]
    | 1 => simp [HS.get]
    | 2 => simp [HS.get]
    | 3 => simp [HS.get]
    | n + 4 =>
      simp only [true_and]
      rw [if_neg (by omega), if_neg (by omega), if_neg (by omega), if_neg (by omega),
        if_neg (by omega)]
  · rw [if_neg (by tauto), if_neg (by tauto), if_neg (by tauto), if_neg (by tauto),
      if_neg (by tauto)]

theorem upd5 (m : Mem Arr R) (a : Arr) (i j k : Int) (s : HS R) :
    upd (upd (upd (upd (upd m ⟨a, i, j, k, ID⟩ s.d) ⟨a, i, j, k, IP⟩ s.p) ⟨a, i, j, k, IU⟩ s.u)
      ⟨a, i, j, k, IV⟩ s.v) ⟨a, i, j, k, IW⟩ s.w = setMem3 m a i j k s := by
  funext l
  obtain ⟨la, li, lj, lk, lv⟩ := l
  simp only [upd, setMem3, Loc.mk.injEq, ID, IP, IU, IV, IW]
  by_cases h : la = a ∧ li = i ∧ lj = j ∧ lk = k
  · obtain ⟨rfl, rfl, rfl, rfl⟩ := h
    match lv with
    | 0 => simp [HS.get]
    | 1 => simp [HS.get]
    | 2 => simp [HS.get]
    | 3 => simp [HS.get]
    | 4 => simp [HS.get]
    | n + 5 =>
      simp only [true_and]
      rw [if_neg (by omega), if_neg (by omega), if_neg (by omega), if_neg (by omega),
        if_neg (by omega), if_neg (by omega)]
  · rw [if_neg (by tauto), if_neg (by tauto), if_neg (by tauto), if_neg (by tauto),
      if_neg (by tauto), if_neg (by tauto)]

@[simp] theorem run_putHS2 (a : Arr) (i j : Int) (s : HS R) (m : Mem Arr R) :
    (putHS2 a i j s).run m = ((), setMem2 m a i j s) := by
  rw [← upd4]; rfl

@[simp] theorem run_putHS3 (a : Arr) (i j k : Int) (s : HS R) (m : Mem Arr R) :
    (putHS3 a i j k s).run m = ((), setMem3 m a i j k s) := by
  rw [← upd5]; rfl

theorem run_plusEq2 {a f : Arr} (h : f ≠ a) (i j i' j' : Int) (m : Mem Arr R) :
    (plusEq2 a i j f i' j').run m =
      ((), setMem2 m a i j ((hs2 m a i j).add (hs2 m f i' j'))) := by
  rw [← upd4]
  simp only [plusEq2, run_bind, run_rd, run_wr]
  simp [upd, Loc.mk.injEq, h, hs2, HS.add]

theorem run_minusEq2 {a f : Arr} (h : f ≠ a) (i j i' j' : Int) (m : Mem Arr R) :
    (minusEq2 a i j f i' j').run m =
      ((), setMem2 m a i j ((hs2 m a i j).sub (hs2 m f i' j'))) := by
  rw [← upd4]
  simp only [minusEq2, run_bind, run_rd, run_wr]
  simp [upd, Loc.mk.injEq, h, hs2, HS.sub]

theorem run_plusEq3 {a f : Arr} (h : f ≠ a) (i j k i' j' k' : Int) (m : Mem Arr R) :
    (plusEq3 a i j k f i' j' k').run m =
      ((), setMem3 m a i j k ((hs3 m a i j k).add (hs3 m f i' j' k'))) := by
  rw [← upd5]
  simp only [plusEq3, run_bind, run_rd, run_wr]
  simp [upd, Loc.mk.injEq, h, hs3, HS.add]

theorem run_minusEq3 {a f : Arr} (h : f ≠ a) (i j k i' j' k' : Int) (m : Mem Arr R) :
    (minusEq3 a i j k f i' j' k').run m =
      ((), setMem3 m a i j k ((hs3 m a i j k).sub (hs3 m f i' j' k'))) := by
  rw [← upd5]
  simp only [minusEq3, run_bind, run_rd, run_wr]
  simp [upd, Loc.mk.injEq, h, hs3, HS.sub]

theorem hs2_setMem2_same (m : Mem Arr R) (a : Arr) (i j : Int) (s : HS R) :
    hs2 (setMem2 m a i j s) a i j = s.trunc := by
  simp [hs2, setMem2, HS.get, HS.trunc, IU, IV]

theorem hs2_setMem2_ne (m : Mem Arr R) (a a' : Arr) (i j i' j' : Int) (s : HS R)
    (h : a' ≠ a ∨ i' ≠ i ∨ j' ≠ j) :
    hs2 (setMem2 m a i j s) a' i' j' = hs2 m a' i' j' := by
  simp only [hs2, setMem2]
  rw [if_neg (by tauto), if_neg (by tauto), if_neg (by tauto), if_neg (by tauto)]

theorem hs3_setMem3_same (m : Mem Arr R) (a : Arr) (i j k : Int) (s : HS R) :
    hs3 (setMem3 m a i j k s) a i j k = s := by
  simp [hs3, setMem3, HS.get, IU, IV]

theorem hs3_setMem3_ne (m : Mem Arr R) (a a' : Arr) (i j k i' j' k' : Int) (s : HS R)
    (h : a' ≠ a ∨ i' ≠ i ∨ j' ≠ j ∨ k' ≠ k) :
    hs3 (setMem3 m a i j k s) a' i' j' k' = hs3 m a' i' j' k' := by
  simp only [hs3, setMem3]
  rw [if_neg (by tauto), if_neg (by tauto), if_neg (by tauto), if_neg (by tauto),
    if_neg (by tauto)]

section Foot
variable {Rd Wr Ad : Loc Arr → Prop}

theorem foot_getHS2 {a : Arr} {i j : Int} (h : ∀ v < 4, Rd ⟨a, i, j, 0, v⟩) :
    (getHS2 a i j : Prog Arr R (HS R)).Foot Rd Wr Ad :=
  ⟨h 0 (by omega), fun _ => ⟨h 1 (by omega), fun _ => ⟨h 2 (by omega), fun _ =>
    ⟨h 3 (by omega), fun _ => trivial⟩⟩⟩⟩

theorem foot_getHS3 {a : Arr} {i j k : Int} (h : ∀ v < 5, Rd ⟨a, i, j, k, v⟩) :
    (getHS3 a i j k : Prog Arr R (HS R)).Foot Rd Wr Ad :=
  ⟨h 0 (by omega), fun _ => ⟨h 1 (by omega), fun _ => ⟨h 2 (by omega), fun _ =>
    ⟨h 3 (by omega), fun _ => ⟨h 4 (by omega), fun _ => trivial⟩⟩⟩⟩⟩

theorem foot_putHS2 {a : Arr} {i j : Int} {s : HS R} (h : ∀ v < 4, Wr ⟨a, i, j, 0, v⟩) :
    (putHS2 a i j s).Foot Rd Wr Ad :=
  ⟨h 0 (by omega), h 1 (by omega), h 2 (by omega), h 3 (by omega), trivial⟩

theorem foot_putHS3 {a : Arr} {i j k : Int} {s : HS R} (h : ∀ v < 5, Wr ⟨a, i, j, k, v⟩) :
    (putHS3 a i j k s).Foot Rd Wr Ad :=
  ⟨h 0 (by omega), h 1 (by omega), h 2 (by omega), h 3 (by omega), h 4 (by omega), trivial⟩

theorem foot_atomicAdd2 {a : Arr} {i j : Int} {s : HS R} (h : ∀ v < 4, Ad ⟨a, i, j, 0, v⟩) :
    (atomicAdd2 a i j s).Foot Rd Wr Ad :=
  ⟨h 0 (by omega), h 1 (by omega), h 2 (by omega), h 3 (by omega), trivial⟩

theorem foot_atomicSub2 {a : Arr} {i j : Int} {s : HS R} (h : ∀ v < 4, Ad ⟨a, i, j, 0, v⟩) :
    (atomicSub2 a i j s).Foot Rd Wr Ad :=
  ⟨h 0 (by omega), h 1 (by omega), h 2 (by omega), h 3 (by omega), trivial⟩

theorem foot_atomicAdd3 {a : Arr} {i j k : Int} {s : HS R} (h : ∀ v < 5, Ad ⟨a, i, j, k, v⟩) :
    (atomicAdd3 a i j k s).Foot Rd Wr Ad :=
  ⟨h 0 (by omega), h 1 (by omega), h 2 (by omega), h 3 (by omega), h 4 (by omega), trivial⟩

theorem foot_atomicSub3 {a : Arr} {i j k : Int} {s : HS R} (h : ∀ v < 5, Ad ⟨a, i, j, k, v⟩) :
    (atomicSub3 a i j k s).Foot Rd Wr Ad :=
  ⟨h 0 (by omega), h 1 (by omega), h 2 (by omega), h 3 (by omega), h 4 (by omega), trivial⟩

theorem foot_plusEq2 {a f : Arr} {i j i' j' : Int} (h : ∀ v < 4, Rd ⟨a, i, j, 0, v⟩)
    (h' : ∀ v < 4, Rd ⟨f, i', j', 0, v⟩) (hw : ∀ v < 4, Wr ⟨a, i, j, 0, v⟩) :
    (plusEq2 a i j f i' j' : Prog Arr R Unit).Foot Rd Wr Ad := by
  unfold plusEq2
  repeat' (first | apply foot_bind | intro)
  all_goals simp only [foot_rd, foot_wr]
  all_goals first
    | exact h _ (by decide)
    | exact h' _ (by decide)
    | exact hw _ (by decide)

theorem foot_minusEq2 {a f : Arr} {i j i' j' : Int} (h : ∀ v < 4, Rd ⟨a, i, j, 0, v⟩)
    (h' : ∀ v < 4, Rd ⟨f, i', j', 0, v⟩) (hw : ∀ v < 4, Wr ⟨a, i, j, 0, v⟩) :
    (minusEq2 a i j f i' j' : Prog Arr R Unit).Foot Rd Wr Ad := by
  unfold minusEq2
  repeat' (first | apply foot_bind | intro)
  all_goals simp only [foot_rd, foot_wr]
  all_goals first
    | exact h _ (by decide)
    | exact h' _ (by decide)
    | exact hw _ (by decide)

theorem foot_plusEq3 {a f : Arr} {i j k i' j' k' : Int} (h : ∀ v < 5, Rd ⟨a, i, j, k, v⟩)
    (h' : ∀ v < 5, Rd ⟨f, i', j', k', v⟩) (hw : ∀ v < 5, Wr ⟨a, i, j, k, v⟩) :
    (plusEq3 a i j k f i' j' k' : Prog Arr R Unit).Foot Rd Wr Ad := by
  unfold plusEq3
  repeat' (first | apply foot_bind | intro)
  all_goals simp only [foot_rd, foot_wr]
  all_goals first
    | exact h _ (by decide)
    | exact h' _ (by decide)
    | exact hw _ (by decide)

theorem foot_minusEq3 {a f : Arr} {i j k i' j' k' : Int} (h : ∀ v < 5, Rd ⟨a, i, j, k, v⟩)
    (h' : ∀ v < 5, Rd ⟨f, i', j', k', v⟩) (hw : ∀ v < 5, Wr ⟨a, i, j, k, v⟩) :
    (minusEq3 a i j k f i' j' k' : Prog Arr R Unit).Foot Rd Wr Ad := by
  unfold minusEq3
  repeat' (first | apply foot_bind | intro)
  all_goals simp only [foot_rd, foot_wr]
  all_goals first
    | exact h _ (by decide)
    | exact h' _ (by decide)
    | exact hw _ (by decide)

end Foot

end EulerKokkos
