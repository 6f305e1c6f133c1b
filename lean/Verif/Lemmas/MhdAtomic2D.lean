import Verif.Lemmas.MhdStep2D

/-! # The 2D MHD kernels with atomic updates, exact arithmetic -/

set_option linter.constructorNameAsVariable false
set_option linter.unusedSectionVars false
set_option linter.unusedSimpArgs false
set_option linter.unnecessarySeqFocus false

namespace EulerKokkos

open Prog (rd wr add upd run_bind run_rd run_wr run_pure foot_bind foot_rd foot_wr foot_add
  foot_pure foot_ite foot_pif foot_mono Foot forRange pif)
open Spec

variable {R : Type} [RealOps R] [ExactAdd R]
attribute [local instance 10] ExactAdd.monoid

/-- schedule-independent result of a kernel that only reads and atomically adds -/
theorem AddFootM2.iff {G : Int × Int → Prop} {ins outs : List Arr} {lo hi : Int}
    {body : Int × Int → Prog Arr R Unit} (h : AddFootM2 G ins outs lo hi body)
    (hd : ∀ a ∈ outs, a ∉ ins) (F : Finset (Int × Int)) (m m' : Mem Arr R) :
    forRange F body m m' ↔ m' = fun l => m l + ∑ t ∈ F, ((body t).addends m l).sum := by
  classical
  exact Prog.parFor_atomic F (fun l => l.arr ∈ ins) (fun l => l.arr ∈ outs)
    (fun l h => hd _ h)
    (fun t _ => foot_mono (fun l h => h.2.1) (fun _ h => h) (fun l h => h.2.1) (h t)) m m'

theorem AddFootM2.sameOff {G : Int × Int → Prop} {ins outs : List Arr} {lo hi : Int}
    {body : Int × Int → Prog Arr R Unit} (h : AddFootM2 G ins outs lo hi body)
    (hd : ∀ a ∈ outs, a ∉ ins) {F : Finset (Int × Int)} {m m' : Mem Arr R}
    (hm : forRange F body m m') : SameOff (· ∈ outs) m m' := by
  intro l hl
  rw [(h.iff hd F m m').1 hm]
  beta_reduce
  rw [Finset.sum_eq_zero, add_zero]
  intro t _
  rw [Prog.addends_nil (h t) m l (fun hh => hl hh.2.1)]; rfl

/-! ## Sums of the flux addends -/

theorem addends_atomicX2 (p : Params R) (U : Arr) (a b : Int) (f : MS R) (c : R) (m : Mem Arr R)
    (i j : Int) (v : Nat) (hv : v < 8) :
    ((atomicX2 p U a b f c).addends m ⟨U, i, j, 0, v⟩).sum =
      (if (b < p.jsize - p.ghostWidth ∧ a < p.isize - p.ghostWidth) ∧ (a, b) = (i, j) then
        f.get6 c v else 0) -
      (if (b < p.jsize - p.ghostWidth ∧ a > p.ghostWidth) ∧ (a, b) = (i + 1, j) then
        f.get6 c v else 0) := by
  unfold atomicX2
  simp only [Prog.addends_bind, List.sum_append, addends_pif, addends_atomicAddM6 _ _ _ _ _ _ _ _ _ _ _ hv,
    addends_atomicSubM6 _ _ _ _ _ _ _ _ _ _ _ hv, Prod.mk.injEq, and_true]
  have e : (a - 1 = i ∧ b = j) ↔ (a = i + 1 ∧ b = j) := by omega
  simp only [e, ite_and]
  split_ifs <;> first | exact_add | (simp; done) | (simp; exact_add)

theorem addends_atomicY2 (p : Params R) (U : Arr) (a b : Int) (f : MS R) (c : R) (m : Mem Arr R)
    (i j : Int) (v : Nat) (hv : v < 8) :
    ((atomicY2 p U a b f c).addends m ⟨U, i, j, 0, v⟩).sum =
      (if (b < p.jsize - p.ghostWidth ∧ a < p.isize - p.ghostWidth) ∧ (a, b) = (i, j) then
        f.get6 c v else 0) -
      (if (b > p.ghostWidth ∧ a < p.isize - p.ghostWidth) ∧ (a, b) = (i, j + 1) then
        f.get6 c v else 0) := by
  unfold atomicY2
  simp only [Prog.addends_bind, List.sum_append, addends_pif, addends_atomicAddM6 _ _ _ _ _ _ _ _ _ _ _ hv,
    addends_atomicSubM6 _ _ _ _ _ _ _ _ _ _ _ hv, Prod.mk.injEq, and_true]
  have e : (a = i ∧ b - 1 = j) ↔ (a = i ∧ b = j + 1) := by omega
  simp only [e, ite_and]
  split_ifs <;> first | exact_add | (simp; done) | (simp; exact_add)

/-- sum of the addends of a family of x interfaces -/
theorem sum_atomicX2 {p : Params R} (hw : p.WF) (U : Arr) (f : Int → Int → MS R) (c : R)
    (m : Mem Arr R) (i j : Int) (v : Nat) (hv : v < 8) :
    ∑ t ∈ range2 p.isize p.jsize, (if faceGuardM2 p t then
        ((atomicX2 p U t.1 t.2 (f t.1 t.2) c).addends m ⟨U, i, j, 0, v⟩).sum else 0) =
      if cellGuard2 p (i, j) then (f i j).get6 c v - (f (i + 1) j).get6 c v else 0 := by
  have hs : ∀ t ∈ range2 p.isize p.jsize, (if faceGuardM2 p t then
        ((atomicX2 p U t.1 t.2 (f t.1 t.2) c).addends m ⟨U, i, j, 0, v⟩).sum else 0) =
      (if t = (i, j) then (if cellGuard2 p (i, j) then (f i j).get6 c v else 0) else 0) -
      (if t = (i + 1, j) then (if cellGuard2 p (i, j) then (f (i + 1) j).get6 c v else 0)
        else 0) := by
    rintro ⟨a, b⟩ _
    rw [addends_atomicX2 _ _ _ _ _ _ _ _ _ _ hv]
    have g1 : (faceGuardM2 p (a, b) ∧ (b < p.jsize - p.ghostWidth ∧ a < p.isize - p.ghostWidth) ∧
        (a, b) = (i, j)) ↔ ((a, b) = (i, j) ∧ cellGuard2 p (i, j)) := by
      simp only [faceGuardM2, cellGuard2, Prod.mk.injEq]; omega
    have g2 : (faceGuardM2 p (a, b) ∧ (b < p.jsize - p.ghostWidth ∧ a > p.ghostWidth) ∧
        (a, b) = (i + 1, j)) ↔ ((a, b) = (i + 1, j) ∧ cellGuard2 p (i, j)) := by
      simp only [faceGuardM2, cellGuard2, Prod.mk.injEq]; omega
    have e : ∀ (P Q S : Prop) [Decidable P] [Decidable Q] [Decidable S] (x y : R),
        (if P then (if Q then x else 0) - (if S then y else 0) else 0) =
        (if P ∧ Q then x else 0) - (if P ∧ S then y else 0) := by
      intro P Q S _ _ _ x y
      by_cases P <;> simp [*]
    rw [e]
    simp only [g1, g2, ite_and]
    congr 1
    · split_ifs with h1
      · obtain ⟨rfl, rfl⟩ := Prod.mk.inj h1; rfl
      · rfl
      · rfl
    · split_ifs with h1
      · obtain ⟨rfl, rfl⟩ := Prod.mk.inj h1; rfl
      · rfl
      · rfl
  rw [Finset.sum_congr rfl hs, Finset.sum_sub_distrib, Finset.sum_ite_eq', Finset.sum_ite_eq']
  by_cases hc : cellGuard2 p (i, j)
  · have h1 := faceGuardM2_in hw (cell_faces hc).1
    have h2 := faceGuardM2_in hw (cell_faces hc).2.1
    simp only [hc, h1, h2, if_true]
  · simp only [hc, if_false, ite_self, sub_zero]

/-- sum of the addends of a family of y interfaces -/
theorem sum_atomicY2 {p : Params R} (hw : p.WF) (U : Arr) (f : Int → Int → MS R) (c : R)
    (m : Mem Arr R) (i j : Int) (v : Nat) (hv : v < 8) :
    ∑ t ∈ range2 p.isize p.jsize, (if faceGuardM2 p t then
        ((atomicY2 p U t.1 t.2 (f t.1 t.2) c).addends m ⟨U, i, j, 0, v⟩).sum else 0) =
      if cellGuard2 p (i, j) then (f i j).get6 c v - (f i (j + 1)).get6 c v else 0 := by
  have hs : ∀ t ∈ range2 p.isize p.jsize, (if faceGuardM2 p t then
        ((atomicY2 p U t.1 t.2 (f t.1 t.2) c).addends m ⟨U, i, j, 0, v⟩).sum else 0) =
      (if t = (i, j) then (if cellGuard2 p (i, j) then (f i j).get6 c v else 0) else 0) -
      (if t = (i, j + 1) then (if cellGuard2 p (i, j) then (f i (j + 1)).get6 c v else 0)
        else 0) := by
    rintro ⟨a, b⟩ _
    rw [addends_atomicY2 _ _ _ _ _ _ _ _ _ _ hv]
    have g1 : (faceGuardM2 p (a, b) ∧ (b < p.jsize - p.ghostWidth ∧ a < p.isize - p.ghostWidth) ∧
        (a, b) = (i, j)) ↔ ((a, b) = (i, j) ∧ cellGuard2 p (i, j)) := by
      simp only [faceGuardM2, cellGuard2, Prod.mk.injEq]; omega
    have g2 : (faceGuardM2 p (a, b) ∧ (b > p.ghostWidth ∧ a < p.isize - p.ghostWidth) ∧
        (a, b) = (i, j + 1)) ↔ ((a, b) = (i, j + 1) ∧ cellGuard2 p (i, j)) := by
      simp only [faceGuardM2, cellGuard2, Prod.mk.injEq]; omega
    have e : ∀ (P Q S : Prop) [Decidable P] [Decidable Q] [Decidable S] (x y : R),
        (if P then (if Q then x else 0) - (if S then y else 0) else 0) =
        (if P ∧ Q then x else 0) - (if P ∧ S then y else 0) := by
      intro P Q S _ _ _ x y
      by_cases P <;> simp [*]
    rw [e]
    simp only [g1, g2, ite_and]
    congr 1
    · split_ifs with h1
      · obtain ⟨rfl, rfl⟩ := Prod.mk.inj h1; rfl
      · rfl
      · rfl
    · split_ifs with h1
      · obtain ⟨rfl, rfl⟩ := Prod.mk.inj h1; rfl
      · rfl
      · rfl
  rw [Finset.sum_congr rfl hs, Finset.sum_sub_distrib, Finset.sum_ite_eq', Finset.sum_ite_eq']
  by_cases hc : cellGuard2 p (i, j)
  · have h1 := faceGuardM2_in hw (cell_faces hc).1
    have h2 := faceGuardM2_in hw (cell_faces hc).2.2
    simp only [hc, h1, h2, if_true]
  · simp only [hc, if_false, ite_self, sub_zero]

/-- an emf field restricted to the edges the kernels visit -/
def maskE (p : Params R) (E : Int → Int → R) : Int → Int → R :=
  fun i j => if faceGuardM2 p (i, j) then E i j else 0

theorem addends_atomicEmf2 (U : Arr) (a b : Int) (e dtdx dtdy : R) (m : Mem Arr R)
    (i j : Int) (v : Nat) :
    ((atomicEmf2 U a b e dtdx dtdy).addends m ⟨U, i, j, 0, v⟩).sum =
      (if v = IA then (if (a, b) = (i, j + 1) then e * dtdy else 0) -
          (if (a, b) = (i, j) then e * dtdy else 0)
        else if v = IB then (if (a, b) = (i, j) then e * dtdx else 0) -
          (if (a, b) = (i + 1, j) then e * dtdx else 0)
        else 0) := by
  unfold atomicEmf2
  simp only [Prog.addends_bind, Prog.addends_add, List.sum_append, Loc.mk.injEq, true_and,
    Prod.mk.injEq]
  by_cases hA : v = IA
  · subst hA
    have : ¬ IA = IB := by decide
    simp only [this, and_false, if_false, and_true, if_true, List.sum_nil, add_zero, zero_add]
    have e1 : (i = a ∧ j = b) ↔ (a = i ∧ b = j) := by omega
    have e2 : (i = a ∧ j = b - 1) ↔ (a = i ∧ b = j + 1) := by omega
    simp only [e1, e2]
    split_ifs <;> first | exact_add | (simp; done) | (simp; exact_add)
  · by_cases hB : v = IB
    · subst hB
      have : ¬ IB = IA := by decide
      simp only [this, and_false, if_false, and_true, if_true, List.sum_nil, add_zero, zero_add]
      have e1 : (i = a ∧ j = b) ↔ (a = i ∧ b = j) := by omega
      have e2 : (i = a - 1 ∧ j = b) ↔ (a = i + 1 ∧ b = j) := by omega
      simp only [e1, e2]
      split_ifs <;> first | exact_add | (simp; done) | (simp; exact_add)
    · simp [hA, hB]

theorem sum_atomicEmf2 {p : Params R} (hw : p.WF) (U : Arr) (E : Int → Int → R) {dtdx dtdy : R}
    (hx : ZeroMul dtdx) (hy : ZeroMul dtdy) (m : Mem Arr R) (i j : Int) (v : Nat) :
    ∑ t ∈ range2 p.isize p.jsize, (if faceGuardM2 p t then
        ((atomicEmf2 U t.1 t.2 (E t.1 t.2) dtdx dtdy).addends m ⟨U, i, j, 0, v⟩).sum else 0) =
      if v = IA then (maskE p E i (j + 1) - maskE p E i j) * dtdy
      else if v = IB then (maskE p E i j - maskE p E (i + 1) j) * dtdx else 0 := by
  have pick : ∀ (x y : Int) (c : R), ZeroMul c → ∑ t ∈ range2 p.isize p.jsize, (if t = (x, y) then
      (if faceGuardM2 p (x, y) then E x y * c else 0) else 0) = maskE p E x y * c := by
    intro x y c hc
    rw [Finset.sum_ite_eq']
    unfold maskE
    by_cases h : faceGuardM2 p (x, y)
    · rw [if_pos (faceGuardM2_in hw h), if_pos h, if_pos h]
    · rw [if_neg h, if_neg h, ite_self]; exact hc.symm
  have sub : ∀ (x y x' y' : Int) (c : R), ZeroMul c → ∑ t ∈ range2 p.isize p.jsize, (if faceGuardM2 p t then
      ((if t = (x, y) then E t.1 t.2 * c else 0) - (if t = (x', y') then E t.1 t.2 * c else 0))
      else 0) = maskE p E x y * c - maskE p E x' y' * c := by
    intro x y x' y' c hc
    rw [← pick _ _ _ hc, ← pick _ _ _ hc, ← Finset.sum_sub_distrib]
    refine Finset.sum_congr rfl (fun t _ => ?_)
    by_cases e1 : t = (x, y)
    · by_cases e2 : t = (x', y')
      · rw [e1] at e2
        obtain ⟨rfl, rfl⟩ := Prod.mk.inj e2
        simp only [e1, if_true]
        split_ifs <;> simp
      · subst e1; simp [e2]
    · by_cases e2 : t = (x', y')
      · subst e2; simp only [e1, if_false, if_true, zero_sub]; split_ifs <;> first | exact_add | (simp; done) | (simp; exact_add)
      · simp [e1, e2]
  simp only [addends_atomicEmf2]
  by_cases hA : v = IA
  · simp only [hA, if_true]
    rw [sub _ _ _ _ _ hy]; exact_add
  · by_cases hB : v = IB
    · have : ¬ IB = IA := by decide
      simp only [hB, this, if_true, if_false]
      rw [sub _ _ _ _ _ hx]; exact_add
    · simp only [hA, hB, if_false, ite_self, Finset.sum_const_zero]

/-! ## Version 1 -/

theorem ms_ext_get6 {m' : Mem Arr R} {U : Arr} {i j : Int} {f : MS R}
    (h : ∀ v < 8, m' ⟨U, i, j, 0, v⟩ = f.get v) : ms2 m' U i j = f := by
  unfold ms2 ms
  rw [h ID (by decide), h IP (by decide), h IU (by decide), h IV (by decide), h IW (by decide),
    h IA (by decide), h IB (by decide), h IC (by decide)]
  rfl

theorem fluxUpdate_get (fx fy : FldM2 R) (dtdx dtdy : R) (u : MS R) (i j : Int) (v : Nat)
    (hv : v < 8) : (fluxUpdateM2 fx fy dtdx dtdy u i j).get v = u.get v +
      (((fx i j).get6 dtdx v - (fx (i + 1) j).get6 dtdx v) +
       ((fy i j).get6 dtdy v - (fy i (j + 1)).get6 dtdy v)) := by
  unfold fluxUpdateM2 MS.plus6 MS.minus6
  match v, hv with
  | 0, _ => simp only [MS.get, MS.get6]; exact_add
  | 1, _ => simp only [MS.get, MS.get6]; exact_add
  | 2, _ => simp only [MS.get, MS.get6]; exact_add
  | 3, _ => simp only [MS.get, MS.get6]; exact_add
  | 4, _ => simp only [MS.get, MS.get6]; exact_add
  | 5, _ => simp only [MS.get, MS.get6]; exact_add
  | 6, _ => simp only [MS.get, MS.get6]; exact_add
  | 7, _ => simp only [MS.get, MS.get6]; exact_add

theorem addends_getMS (a : Arr) (i j k : Int) (m : Mem Arr R) (l : Loc Arr) :
    (getMS a i j k).addends m l = [] := rfl

theorem valR_getMS (a : Arr) (i j k : Int) (m : Mem Arr R) :
    (getMS a i j k).valR m = ms m a i j k := rfl

theorem fluxesAndUpdateMhd2_result {p : Params R} (hw : p.WF) (hv : ValidM p) {U : Arr}
    (hU : nvM2 U = 8) (hn : U ∉ ([.Qm_x, .Qp_x, .Qm_y, .Qp_y] : List Arr)) {dtdx dtdy : R}
    {jk : JunkM R} {T : Int → Int → TraceM2 R} {m m' : Mem Arr R}
    (hT : ∀ i j, traceGuardM2 p (i, j) → TracesOf m T i j)
    (hm : forRange (range2 p.isize p.jsize) (fluxesAndUpdateMhd2 p U dtdx dtdy jk) m m') :
    SameOff (· ∈ [U]) m m' ∧ ∀ i j, ms2 m' U i j =
      if cellGuard2 p (i, j) then
        fluxUpdateM2 (fluxXM2 p T) (fluxYM2 p T) dtdx dtdy (ms2 m U i j) i j
      else ms2 m U i j := by
  have hf := foot_fluxesAndUpdateMhd2 p hU dtdx dtdy jk
  have hd : ∀ a ∈ [U], a ∉ ([.Qm_x, .Qp_x, .Qm_y, .Qp_y] : List Arr) := by simpa using hn
  refine ⟨hf.sameOff hd hm, fun i j => ?_⟩
  have hm' := (hf.iff hd _ m m').1 hm
  have hs : ∀ v < 8, ∀ t ∈ range2 p.isize p.jsize,
      ((fluxesAndUpdateMhd2 p U dtdx dtdy jk t).addends m ⟨U, i, j, 0, v⟩).sum =
      (if faceGuardM2 p t then
        ((atomicX2 p U t.1 t.2 (fluxXM2 p T t.1 t.2) dtdx).addends m ⟨U, i, j, 0, v⟩).sum else 0) +
      (if faceGuardM2 p t then
        ((atomicY2 p U t.1 t.2 (fluxYM2 p T t.1 t.2) dtdy).addends m ⟨U, i, j, 0, v⟩).sum
        else 0) := by
    rintro v hvv ⟨a, b⟩ _
    unfold fluxesAndUpdateMhd2
    by_cases hg : faceGuardM2 p (a, b)
    · rw [if_pos hg, if_pos hg, if_pos hg]
      have t0 := hT a b (traceGuard_near hg (by omega) (by omega))
      have t1 := hT (a - 1) b (traceGuard_near hg (by omega) (by omega))
      have t2 := hT a (b - 1) (traceGuard_near hg (by omega) (by omega))
      have a1 := t1.qmx
      have a2 := t0.qpx
      have a3 := t2.qmy
      have a4 := t0.qpy
      unfold ms2 at a1 a2 a3 a4
      simp only [Prog.addends_bind, addends_getMS, valR_getMS,
        List.nil_append, List.sum_append]
      rw [riemannMhd_valid hv _ _ (jk 4 a b 0) MS.zero,
        riemannMhd_valid hv _ _ (riemannMhd _ _ _ _ _) MS.zero, a1, a2, a3, a4]
      rfl
    · rw [if_neg hg, if_neg hg, if_neg hg]; simp
  have key : ∀ v < 8, m' ⟨U, i, j, 0, v⟩ = (if cellGuard2 p (i, j) then
        fluxUpdateM2 (fluxXM2 p T) (fluxYM2 p T) dtdx dtdy (ms2 m U i j) i j
      else ms2 m U i j).get v := by
    intro v hvv
    rw [hm']
    beta_reduce
    rw [Finset.sum_congr rfl (hs v hvv), Finset.sum_add_distrib, sum_atomicX2 hw _ _ _ _ _ _ _ hvv,
      sum_atomicY2 hw _ _ _ _ _ _ _ hvv, mem_of_ms m U i j 0 v hvv]
    split_ifs with hc
    · rw [fluxUpdate_get _ _ _ _ _ _ _ _ hvv]; rfl
    · rw [add_zero, add_zero]; rfl
  exact ms_ext_get6 key

theorem ctUpdate_get (E : Int → Int → R) (dtdx dtdy : R) (u : MS R) (i j : Int) (v : Nat)
    (hv : v < 8) : (ctUpdate2 E dtdx dtdy u i j).get v = u.get v +
      (if v = IA then (E i (j + 1) - E i j) * dtdy
        else if v = IB then (E i j - E (i + 1) j) * dtdx else 0) := by
  unfold ctUpdate2
  match v, hv with
  | 0, _ => simp [MS.get, IA, IB]
  | 1, _ => simp [MS.get, IA, IB]
  | 2, _ => simp [MS.get, IA, IB]
  | 3, _ => simp [MS.get, IA, IB]
  | 4, _ => simp [MS.get, IA, IB]
  | 5, _ => simp [MS.get, IA, IB]
  | 6, _ => simp [MS.get, IA, IB]; exact_add
  | 7, _ => simp [MS.get, IA, IB]

theorem emf_result_aux {p : Params R} (hw : p.WF) {U : Arr} {ins : List Arr} {lo hi : Int}
    {body : Int × Int → Prog Arr R Unit} (hf : AddFootM2 (faceGuardM2 p) ins [U] lo hi body)
    (hn : U ∉ ins) {dtdx dtdy : R} (hx : ZeroMul dtdx) (hy : ZeroMul dtdy) {E : Int → Int → R}
    {m m' : Mem Arr R}
    (hb : ∀ t, faceGuardM2 p t → ∀ l, (body t).addends m l =
      (atomicEmf2 U t.1 t.2 (E t.1 t.2) dtdx dtdy).addends m l)
    (hm : forRange (range2 p.isize p.jsize) body m m') :
    SameOff (· ∈ [U]) m m' ∧ ∀ i j, ms2 m' U i j =
      ctUpdate2 (maskE p E) dtdx dtdy (ms2 m U i j) i j := by
  have hd : ∀ a ∈ [U], a ∉ ins := by simpa using hn
  refine ⟨hf.sameOff hd hm, fun i j => ms_ext_get6 (fun v hvv => ?_)⟩
  rw [(hf.iff hd _ m m').1 hm]
  beta_reduce
  have hs : ∀ t ∈ range2 p.isize p.jsize, ((body t).addends m ⟨U, i, j, 0, v⟩).sum =
      (if faceGuardM2 p t then
        ((atomicEmf2 U t.1 t.2 (E t.1 t.2) dtdx dtdy).addends m ⟨U, i, j, 0, v⟩).sum else 0) := by
    intro t _
    by_cases hg : faceGuardM2 p t
    · rw [if_pos hg, hb t hg]
    · rw [if_neg hg, Prog.addends_nil (hf t) m _ (fun h => hg h.1)]; rfl
  rw [Finset.sum_congr rfl hs, sum_atomicEmf2 hw _ _ hx hy, ctUpdate_get _ _ _ _ _ _ _ hvv,
    mem_of_ms m U i j 0 v hvv]
  rfl

theorem emfAndUpdateMhd2_result {p : Params R} (hw : p.WF) {U : Arr} (hU : nvM2 U = 8)
    (hn : U ∉ ([.QEdge 0, .QEdge 1, .QEdge 2, .QEdge 3] : List Arr)) {dtdx dtdy : R}
    (hx : ZeroMul dtdx) (hy : ZeroMul dtdy)
    {T : Int → Int → TraceM2 R} {m m' : Mem Arr R}
    (hT : ∀ i j, traceGuardM2 p (i, j) → TracesOf m T i j)
    (hm : forRange (range2 p.isize p.jsize) (emfAndUpdateMhd2 p U dtdx dtdy) m m') :
    SameOff (· ∈ [U]) m m' ∧ ∀ i j, ms2 m' U i j =
      ctUpdate2 (maskE p (emfM2 p T)) dtdx dtdy (ms2 m U i j) i j := by
  refine emf_result_aux hw (foot_emfAndUpdateMhd2 p hU dtdx dtdy) hn hx hy ?_ hm
  rintro ⟨a, b⟩ hg l
  unfold emfAndUpdateMhd2
  rw [if_pos hg]
  have hr := Prog.readOnly_addends (foot_getEdge4 (R := R) (Wr := fun _ => False)
    (Ad := fun _ => False) (outs := []) True trivial (a, b)) m l
  rw [Prog.addends_bind, hr.1, hr.2.1, List.nil_append]
  simp only
  rw [edge4_traces hT hg]

/-- What versions 1 and 2 compute: interior cells as `stepM2`, and the emf of every edge of an interior
cell also moves the two outer faces it touches. -/
noncomputable def stepM2x (p : Params R) (dt : R) (u : FldM2 R) : FldM2 R := fun i j =>
  ctUpdate2 (maskE p (emfM2 p (tracesM2 p dt u))) (dt / p.dx) (dt / p.dy)
    (if cellGuard2 p (i, j) then
      fluxUpdateM2 (fluxXM2 p (tracesM2 p dt u)) (fluxYM2 p (tracesM2 p dt u))
        (dt / p.dx) (dt / p.dy) (u i j) i j else u i j) i j

theorem stepM2x_key {p : Params R} {dt : R} {u : FldM2 R} (fx fy : FldM2 R) (E : Int → Int → R)
    (h : ∀ i j, faceGuardM2 p (i, j) → fx i j = fluxXM2 p (tracesM2 p dt u) i j ∧
      fy i j = fluxYM2 p (tracesM2 p dt u) i j ∧ E i j = emfM2 p (tracesM2 p dt u) i j)
    (i j : Int) :
    ctUpdate2 (maskE p E) (dt / p.dx) (dt / p.dy)
      (if cellGuard2 p (i, j) then
        fluxUpdateM2 fx fy (dt / p.dx) (dt / p.dy) (u i j) i j else u i j) i j =
      stepM2x p dt u i j := by
  have hE : maskE p E = maskE p (emfM2 p (tracesM2 p dt u)) := by
    funext a b; unfold maskE; split
    · rw [(h _ _ ‹_›).2.2]
    · rfl
  unfold stepM2x
  rw [hE]
  by_cases hc : cellGuard2 p (i, j)
  · obtain ⟨f1, f2, f3⟩ := cell_faces hc
    simp only [hc, if_true]
    unfold fluxUpdateM2
    rw [(h _ _ f1).1, (h _ _ f1).2.1, (h _ _ f2).1, (h _ _ f3).2.1]
  · simp only [hc, if_false]

theorem stepM2x_interior {p : Params R} (hw : p.WF) (dt : R) (u : FldM2 R) {i j : Int}
    (h : interior2 p i j) : stepM2x p dt u i j = stepM2 p dt u i j := by
  have hc := (cellGuard2_iff hw i j).2 h
  obtain ⟨f1, f2, f3⟩ := cell_faces hc
  unfold stepM2x stepM2
  simp only [hc, h, if_true]
  unfold ctUpdate2 maskE
  simp only [f1, f2, f3, if_true]

theorem stored_congr {p : Params R} (hp : Mhd2 p) {dt : R} {q u : FldM2 R}
    (hq : ∀ i j, 0 ≤ i → i < p.isize - 1 → 0 ≤ j → j < p.jsize - 1 → q i j = primM2 p u i j)
    (a b : Int) (h : faceGuardM2 p (a, b)) :
    fluxXM2 p (traceM2 p dt q u) a b = fluxXM2 p (tracesM2 p dt u) a b ∧
    fluxYM2 p (traceM2 p dt q u) a b = fluxYM2 p (tracesM2 p dt u) a b ∧
    emfM2 p (traceM2 p dt q u) a b = emfM2 p (tracesM2 p dt u) a b := by
  have hT : ∀ x y, a - 1 ≤ x ∧ x ≤ a → b - 1 ≤ y ∧ y ≤ b →
      traceM2 p dt q u x y = tracesM2 p dt u x y := fun x y h1 h2 =>
    tracesM2_stored hp.gw hp.valid hq (traceGuard_near h h1 h2)
  have T1 := hT (a - 1) (b - 1) (by omega) (by omega)
  have T2 := hT (a - 1) b (by omega) (by omega)
  have T3 := hT a (b - 1) (by omega) (by omega)
  have T4 := hT a b (by omega) (by omega)
  exact ⟨fluxXM2_congr T2 T4, fluxYM2_congr T3 T4, emfM2_congr T1 T2 T3 T4⟩

/-- **Version 1**, every schedule, exact arithmetic. -/
theorem postMhd2_result1 {p : Params R} (hp : Mhd2 p) (hi : p.implementationVersion = 1)
    {dt : R} (hx : ZeroMul (dt / p.dx)) (hy : ZeroMul (dt / p.dy))
    {jk : JunkM R} {inA outA : Arr} (hpp : PingPong inA outA) {m m' : Mem Arr R}
    (hq : ∀ i j, 0 ≤ i → i < p.isize - 1 → 0 ≤ j → j < p.jsize - 1 →
      ms2 m .Q i j = primM2 p (ms2 m inA) i j)
    (hc : ms2 m outA = ms2 m inA)
    (hm : runLaunches (postMhd2 p dt jk inA outA) m m') :
    SameOff (MhdOuts2 outA) m m' ∧
    ∀ i j, ms2 m' outA i j = stepM2x p dt (ms2 m inA) i j := by
  obtain ⟨v1, v2⟩ := nvM2_ping hpp
  have n1 : inA ∉ traceOuts := by rcases hpp with ⟨rfl, rfl⟩ | ⟨rfl, rfl⟩ <;> decide
  have n2 : outA ∉ traceOuts := by rcases hpp with ⟨rfl, rfl⟩ | ⟨rfl, rfl⟩ <;> decide
  have n3 : ∀ a ∈ traceOuts, a ≠ outA := fun a ha e => n2 (e ▸ ha)
  unfold runLaunches postMhd2 at hm
  simp only [hi, one_ne_zero, if_false, if_true, List.map_cons, List.map_nil] at hm
  obtain ⟨m1, k1, m2, k2, m3, k3, rfl⟩ := hm
  obtain ⟨s1, f1⟩ := traceMhd2_result hp.wf hp.gw hp.valid v1 n1 k1
  obtain ⟨s2, f2⟩ := fluxesAndUpdateMhd2_result hp.wf hp.valid v2
    (fun h => n2 (by simp [traceOuts] at h ⊢; tauto)) f1 k2
  have f1' : ∀ i j, traceGuardM2 p (i, j) →
      TracesOf m2 (traceM2 p dt (ms2 m .Q) (ms2 m inA)) i j := by
    intro i j h
    have t := f1 i j h
    constructor <;> rw [s2.ms2 (by simpa using n3 _ (by decide))]
    exacts [t.qmx, t.qpx, t.qmy, t.qpy, t.rt, t.rb, t.lt, t.lb]
  obtain ⟨s3, f3⟩ := emfAndUpdateMhd2_result hp.wf v2
    (fun h => n2 (by simp [traceOuts] at h ⊢; tauto)) hx hy f1' k3
  refine ⟨?_, fun i j => ?_⟩
  · refine (s1.mono ?_).trans ((s2.mono ?_).trans (s3.mono ?_))
    all_goals intro a ha
    · exact Or.inr (by simp [ha])
    · exact Or.inl (by simpa using ha)
    · exact Or.inl (by simpa using ha)
  have e1 : ms2 m1 outA = ms2 m inA := (s1.ms2 n2).trans hc
  rw [f3 i j, f2 i j, e1]
  exact stepM2x_key _ _ _ (stored_congr hp hq) i j

end EulerKokkos
