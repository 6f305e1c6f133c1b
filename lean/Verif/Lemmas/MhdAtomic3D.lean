import Verif.Lemmas.MhdStep3D
import Verif.Lemmas.MhdAtomic2D

/-! # The 3D MHD kernels with atomic updates, exact arithmetic -/

set_option linter.constructorNameAsVariable false
set_option linter.unusedSectionVars false
set_option linter.unusedSimpArgs false
set_option linter.unnecessarySeqFocus false
set_option linter.unusedTactic false
set_option linter.unreachableTactic false

namespace EulerKokkos

open Prog (rd wr add upd run_bind run_rd run_wr run_pure foot_bind foot_rd foot_wr foot_add
  foot_pure foot_ite foot_pif foot_mono Foot forRange pif)
open Spec

variable {R : Type} [RealOps R] [ExactAdd R]
attribute [local instance 10] ExactAdd.monoid

/-- schedule-independent result of a kernel that only reads and atomically adds -/
theorem AddFootM3.iff {G : Int × Int × Int → Prop} {ins outs : List Arr} {lo hi : Int}
    {body : Int × Int × Int → Prog Arr R Unit} (h : AddFootM3 G ins outs lo hi body)
    (hd : ∀ a ∈ outs, a ∉ ins) (F : Finset (Int × Int × Int)) (m m' : Mem Arr R) :
    forRange F body m m' ↔ m' = fun l => m l + ∑ t ∈ F, ((body t).addends m l).sum := by
  classical
  exact Prog.parFor_atomic F (fun l => l.arr ∈ ins) (fun l => l.arr ∈ outs)
    (fun l h => hd _ h)
    (fun t _ => foot_mono (fun l h => h.2.1) (fun _ h => h) (fun l h => h.2.1) (h t)) m m'

theorem AddFootM3.sameOff {G : Int × Int × Int → Prop} {ins outs : List Arr} {lo hi : Int}
    {body : Int × Int × Int → Prog Arr R Unit} (h : AddFootM3 G ins outs lo hi body)
    (hd : ∀ a ∈ outs, a ∉ ins) {F : Finset (Int × Int × Int)} {m m' : Mem Arr R}
    (hm : forRange F body m m') : SameOff (· ∈ outs) m m' := by
  intro l hl
  rw [(h.iff hd F m m').1 hm]
  beta_reduce
  rw [Finset.sum_eq_zero, add_zero]
  intro t _
  rw [Prog.addends_nil (h t) m l (fun hh => hl hh.2.1)]; rfl

/-- value added by a five-variable flux to variable `v` -/
def MS.get5 (f : MS R) (c : R) : Nat → R
  | 0 => f.d * c
  | 1 => f.p * c
  | 2 => f.u * c
  | 3 => f.v * c
  | 4 => f.w * c
  | _ => 0

theorem addends_atomicAddM5 (U : Arr) (a b c : Int) (s : MS R) (x : R) (m : Mem Arr R)
    (i j k : Int) (v : Nat) :
    ((atomicAddM5 U a b c s x).addends m ⟨U, i, j, k, v⟩).sum =
      if (a, b, c) = (i, j, k) then s.get5 x v else 0 := by
  simp only [atomicAddM5, Prog.addends_bind, Prog.addends_add, Loc.mk.injEq, true_and,
    List.sum_append, ID, IP, IU, IV, IW]
  by_cases h : (a, b, c) = (i, j, k)
  · simp only [Prod.mk.injEq] at h
    obtain ⟨rfl, rfl, rfl⟩ := h
    match v with
    | 0 => simp [MS.get5]
    | 1 => simp [MS.get5]
    | 2 => simp [MS.get5]
    | 3 => simp [MS.get5]
    | 4 => simp [MS.get5]
    | n + 5 =>
      rw [if_neg (by omega), if_neg (by omega), if_neg (by omega), if_neg (by omega),
        if_neg (by omega)]
      simp [MS.get5]
  · have h' : ¬ (i = a ∧ j = b ∧ k = c) := fun e => h (by rw [e.1, e.2.1, e.2.2])
    rw [if_neg h]
    rw [if_neg (by tauto), if_neg (by tauto), if_neg (by tauto), if_neg (by tauto),
      if_neg (by tauto)]
    simp

theorem addends_atomicSubM5 (U : Arr) (a b c : Int) (s : MS R) (x : R) (m : Mem Arr R)
    (i j k : Int) (v : Nat) :
    ((atomicSubM5 U a b c s x).addends m ⟨U, i, j, k, v⟩).sum =
      if (a, b, c) = (i, j, k) then -(s.get5 x v) else 0 := by
  simp only [atomicSubM5, Prog.addends_bind, Prog.addends_add, Loc.mk.injEq, true_and,
    List.sum_append, ID, IP, IU, IV, IW]
  by_cases h : (a, b, c) = (i, j, k)
  · simp only [Prod.mk.injEq] at h
    obtain ⟨rfl, rfl, rfl⟩ := h
    match v with
    | 0 => simp [MS.get5]
    | 1 => simp [MS.get5]
    | 2 => simp [MS.get5]
    | 3 => simp [MS.get5]
    | 4 => simp [MS.get5]
    | n + 5 =>
      rw [if_neg (by omega), if_neg (by omega), if_neg (by omega), if_neg (by omega),
        if_neg (by omega)]
      simp [MS.get5]
  · have h' : ¬ (i = a ∧ j = b ∧ k = c) := fun e => h (by rw [e.1, e.2.1, e.2.2])
    rw [if_neg h]
    rw [if_neg (by tauto), if_neg (by tauto), if_neg (by tauto), if_neg (by tauto),
      if_neg (by tauto)]
    simp

/-- what an interface or edge value `x`, visited at `t`, adds to cell `c` -/
noncomputable def contrib (p : Params R) (δ t c : Int × Int × Int) (x : R) : R :=
  (if t = c ∧ cellGuard3 p c then x else 0) -
  (if t = (c.1 + δ.1, c.2.1 + δ.2.1, c.2.2 + δ.2.2) ∧ cellGuard3 p c then x else 0)

theorem ite_merge0 (P Q : Prop) [Decidable P] [Decidable Q] (x : R) :
    (if P then (if Q then x else 0) else 0) = if P ∧ Q then x else 0 := by
  by_cases P <;> simp [*]

theorem ite_neg0 (P : Prop) [Decidable P] (x : R) :
    (if P then -x else 0) = -(if P then x else 0) := by
  by_cases P <;> simp [*]

theorem addends_atomicFlux3 {p : Params R} (d : Dir) (U : Arr) {t : Int × Int × Int}
    (ht : faceGuardM3 p t) (f : MS R) (c : R) (m : Mem Arr R) (i j k : Int) (v : Nat) :
    ((atomicFlux3 d p U t.1 t.2.1 t.2.2 f c).addends m ⟨U, i, j, k, v⟩).sum =
      contrib p d.delta t (i, j, k) (f.get5 c v) := by
  obtain ⟨a, b, e⟩ := t
  obtain ⟨h1, h2, h3, h4, h5, h6⟩ := ht
  simp only at h1 h2 h3 h4 h5 h6
  unfold contrib
  cases d <;> unfold atomicFlux3 <;>
    simp only [Prog.addends_bind, List.sum_append, addends_pif, addends_atomicAddM5,
      addends_atomicSubM5, Prod.mk.injEq, Dir.delta, add_zero, sub_eq_add_neg, ite_merge0, ite_neg0]
  all_goals
    congr 1
    · refine if_congr ?_ rfl rfl
      simp only [cellGuard3]; omega
    · congr 1
      refine if_congr ?_ rfl rfl
      simp only [cellGuard3]; omega

/-- the two neighbouring contributions add up -/
theorem sum_contrib {p : Params R} (hw : p.WF) (d : Dir) (c : Int × Int × Int)
    (x : Int × Int × Int → R) :
    ∑ t ∈ range3 p.isize p.jsize p.ksize, (if faceGuardM3 p t then contrib p d.delta t c (x t) else 0) =
      if cellGuard3 p c then
        x c - x (c.1 + d.delta.1, c.2.1 + d.delta.2.1, c.2.2 + d.delta.2.2) else 0 := by
  obtain ⟨i, j, k⟩ := c
  by_cases hc : cellGuard3 p (i, j, k)
  · obtain ⟨f1, f2, f3, f4⟩ := cell_faces3 hc
    have hs : ∀ t ∈ range3 p.isize p.jsize p.ksize,
        (if faceGuardM3 p t then contrib p d.delta t (i, j, k) (x t) else 0) =
        (if t = (i, j, k) then x (i, j, k) else 0) -
        (if t = (i + d.delta.1, j + d.delta.2.1, k + d.delta.2.2) then
          x (i + d.delta.1, j + d.delta.2.1, k + d.delta.2.2) else 0) := by
      intro t _
      have fd : faceGuardM3 p (i + d.delta.1, j + d.delta.2.1, k + d.delta.2.2) := by
        cases d <;> simp only [Dir.delta, add_zero] <;> assumption
      unfold contrib
      simp only [hc, and_true]
      by_cases e1 : t = (i, j, k)
      · subst e1
        rw [if_pos f1]
        simp only [if_true]
        have ne : ¬ ((i, j, k) = (i + d.delta.1, j + d.delta.2.1, k + d.delta.2.2)) := by
          cases d <;> simp [Dir.delta]
        rw [if_neg ne, if_neg ne]
      · by_cases e2 : t = (i + d.delta.1, j + d.delta.2.1, k + d.delta.2.2)
        · subst e2
          rw [if_pos fd, if_neg e1]
          simp only [e1, if_false, if_true]
        · simp only [e1, e2, if_false, sub_zero, ite_self]
    rw [Finset.sum_congr rfl hs, Finset.sum_sub_distrib, Finset.sum_ite_eq', Finset.sum_ite_eq',
      if_pos (faceGuardM3_in hw f1), if_pos hc, if_pos]
    cases d <;> simp only [Dir.delta, add_zero]
    · exact faceGuardM3_in hw f2
    · exact faceGuardM3_in hw f3
    · exact faceGuardM3_in hw f4
  · simp only [hc, if_false, contrib, and_false, sub_zero, ite_self, Finset.sum_const_zero]

/-- net amount the two faces of a cell along `d` add to variable `v` -/
def fluxGain (d : Dir) (f : FldM3 R) (c : R) (i j k : Int) (v : Nat) : R :=
  (f i j k).get5 c v -
    (f (i + d.delta.1) (j + d.delta.2.1) (k + d.delta.2.2)).get5 c v

/-- direction in which an emf along `d` is differenced for variable `v` -/
def emfShift : EmfDir → Nat → Dir
  | .z, v => if v = IA then .y else .x
  | .y, v => if v = IA then .z else .x
  | .x, v => if v = IB then .z else .y

/-- signed amount an emf `e` along `d` adds to variable `v` -/
def emfTerm (d : EmfDir) (v : Nat) (e dtdx dtdy dtdz : R) : R :=
  match d with
  | .z => if v = IA then -(e * dtdy) else if v = IB then e * dtdx else 0
  | .y => if v = IA then e * dtdz else if v = IC then -(e * dtdx) else 0
  | .x => if v = IB then -(e * dtdz) else if v = IC then e * dtdy else 0

/-- net amount the emf along `d` adds to variable `v` of a cell -/
def emfGain (d : EmfDir) (E : Int → Int → Int → R) (dtdx dtdy dtdz : R) (i j k : Int) (v : Nat) : R :=
  emfTerm d v (E i j k) dtdx dtdy dtdz -
    emfTerm d v (E (i + (emfShift d v).delta.1) (j + (emfShift d v).delta.2.1)
      (k + (emfShift d v).delta.2.2)) dtdx dtdy dtdz

theorem addends_atomicEmf3 {p : Params R} (d : EmfDir) (U : Arr) {t : Int × Int × Int}
    (ht : faceGuardM3 p t) (e dtdx dtdy dtdz : R) (m : Mem Arr R) (i j k : Int) (v : Nat) :
    ((atomicEmf3 d p U t.1 t.2.1 t.2.2 e dtdx dtdy dtdz).addends m ⟨U, i, j, k, v⟩).sum =
      contrib p (emfShift d v).delta t (i, j, k) (emfTerm d v e dtdx dtdy dtdz) := by
  obtain ⟨a, b, c⟩ := t
  obtain ⟨h1, h2, h3, h4, h5, h6⟩ := ht
  simp only at h1 h2 h3 h4 h5 h6
  have sum_if : ∀ (P : Prop) [Decidable P] (x : R),
      (if P then [x] else []).sum = if P then x else 0 := by
    intro P _ l; by_cases P <;> simp [*]
  have s0 : ∀ (P : Prop) [Decidable P] (x : R), (if P then (0:R) else 0) = 0 := by simp
  have ba : ¬ IB = IA := by decide
  have ca : ¬ IC = IA := by decide
  have cb : ¬ IC = IB := by decide
  have ab : ¬ IA = IB := by decide
  have ac : ¬ IA = IC := by decide
  have bc : ¬ IB = IC := by decide
  unfold contrib
  cases d <;> unfold atomicEmf3 <;>
    simp only [Prog.addends_bind, List.sum_append, addends_pif, Prog.addends_add, Loc.mk.injEq, true_and,
      Prod.mk.injEq, sum_if]
  all_goals
    by_cases hA : v = IA
    · subst hA
      simp only [emfShift, emfTerm, Dir.delta, add_zero, zero_add, ba, ca, cb, ab, ac, bc, if_true, if_false,
        and_true, and_false, ite_self, mul_zero, ite_merge0, mul_neg, ite_neg0, sub_neg_eq_add,
        neg_add_eq_sub, neg_zero, sub_zero, sub_eq_add_neg, neg_neg]
      try
       refine congrArg₂ (· + ·) ?_ ?_ <;>
        first
          | (refine if_congr ?_ rfl rfl; simp only [cellGuard3]; omega)
          | (refine congrArg Neg.neg (if_congr ?_ rfl rfl); simp only [cellGuard3]; omega)
    · by_cases hB : v = IB
      · subst hB
        simp only [emfShift, emfTerm, Dir.delta, add_zero, zero_add, ba, ca, cb, ab, ac, bc, if_true,
          if_false, and_true, and_false, ite_self, mul_zero, ite_merge0, mul_neg, ite_neg0, sub_neg_eq_add,
          neg_add_eq_sub, neg_zero, sub_zero, sub_eq_add_neg, neg_neg]
        try
       refine congrArg₂ (· + ·) ?_ ?_ <;>
        first
          | (refine if_congr ?_ rfl rfl; simp only [cellGuard3]; omega)
          | (refine congrArg Neg.neg (if_congr ?_ rfl rfl); simp only [cellGuard3]; omega)
      · by_cases hC : v = IC
        · subst hC
          simp only [emfShift, emfTerm, Dir.delta, add_zero, zero_add, ba, ca, cb, ab, ac, bc, if_true,
            if_false, and_true, and_false, ite_self, mul_zero, ite_merge0, mul_neg, ite_neg0, sub_neg_eq_add,
            neg_add_eq_sub, neg_zero, sub_zero, sub_eq_add_neg, neg_neg]
          try
       refine congrArg₂ (· + ·) ?_ ?_ <;>
        first
          | (refine if_congr ?_ rfl rfl; simp only [cellGuard3]; omega)
          | (refine congrArg Neg.neg (if_congr ?_ rfl rfl); simp only [cellGuard3]; omega)
        · simp [emfTerm, hA, hB, hC]

/-- a cell after a step, variable by variable -/
theorem step_get3 (F : FluxM3 R) (dtdx dtdy dtdz : R) (u : MS R) (i j k : Int) (v : Nat) (hv : v < 8) :
    (ctUpdate3 F.e dtdx dtdy dtdz (fluxUpdateM3 F dtdx dtdy dtdz u i j k) i j k).get v = u.get v +
      (fluxGain .x F.x dtdx i j k v + fluxGain .y F.y dtdy i j k v + fluxGain .z F.z dtdz i j k v) +
      (emfGain .z (F.e .z) dtdx dtdy dtdz i j k v + emfGain .y (F.e .y) dtdx dtdy dtdz i j k v +
        emfGain .x (F.e .x) dtdx dtdy dtdz i j k v) := by
  unfold ctUpdate3 fluxUpdateM3 MS.plus5 MS.minus5 fluxGain emfGain
  match v, hv with
  | 0, _ => simp [MS.get, MS.get5, emfTerm, Dir.delta, IA, IB, IC]; exact_add
  | 1, _ => simp [MS.get, MS.get5, emfTerm, Dir.delta, IA, IB, IC]; exact_add
  | 2, _ => simp [MS.get, MS.get5, emfTerm, Dir.delta, IA, IB, IC]; exact_add
  | 3, _ => simp [MS.get, MS.get5, emfTerm, Dir.delta, IA, IB, IC]; exact_add
  | 4, _ => simp [MS.get, MS.get5, emfTerm, Dir.delta, IA, IB, IC]; exact_add
  | 5, _ => simp [MS.get, MS.get5, emfTerm, emfShift, Dir.delta, IA, IB, IC]; exact_add
  | 6, _ => simp [MS.get, MS.get5, emfTerm, emfShift, Dir.delta, IA, IB, IC]; exact_add
  | 7, _ => simp [MS.get, MS.get5, emfTerm, emfShift, Dir.delta, IA, IB, IC]; exact_add

theorem ms_ext_get {m' : Mem Arr R} {U : Arr} {i j k : Int} {f : MS R}
    (h : ∀ v < 8, m' ⟨U, i, j, k, v⟩ = f.get v) : ms m' U i j k = f := by
  unfold ms
  rw [h ID (by decide), h IP (by decide), h IU (by decide), h IV (by decide), h IW (by decide),
    h IA (by decide), h IB (by decide), h IC (by decide)]
  rfl

theorem fluxesAndUpdateMhd3_result {p : Params R} (hw : p.WF) (hv : ValidM p) {U : Arr}
    (hU : nvM3 U = 8) (hn : U ∉ ([.Qm_x, .Qp_x, .Qm_y, .Qp_y, .Qm_z, .Qp_z] : List Arr))
    {dtdx dtdy dtdz : R} {jk : JunkM R} {T : Int → Int → Int → TraceM3 R} {m m' : Mem Arr R}
    (hT : ∀ i j k, traceGuardM3 p (i, j, k) → TracesOf3 m T i j k)
    (hm : forRange (range3 p.isize p.jsize p.ksize) (fluxesAndUpdateMhd3 p U dtdx dtdy dtdz jk) m m') :
    SameOff (· ∈ [U]) m m' ∧ ∀ i j k v, m' ⟨U, i, j, k, v⟩ = m ⟨U, i, j, k, v⟩ +
      (if cellGuard3 p (i, j, k) then fluxGain .x (fluxOfTraces p T).x dtdx i j k v +
        fluxGain .y (fluxOfTraces p T).y dtdy i j k v + fluxGain .z (fluxOfTraces p T).z dtdz i j k v
        else 0) := by
  have hf := foot_fluxesAndUpdateMhd3 p hU dtdx dtdy dtdz jk
  have hd : ∀ a ∈ [U], a ∉ ([.Qm_x, .Qp_x, .Qm_y, .Qp_y, .Qm_z, .Qp_z] : List Arr) := by simpa using hn
  refine ⟨hf.sameOff hd hm, fun i j k v => ?_⟩
  have hm' := (hf.iff hd _ m m').1 hm
  have hs : ∀ t ∈ range3 p.isize p.jsize p.ksize,
      ((fluxesAndUpdateMhd3 p U dtdx dtdy dtdz jk t).addends m ⟨U, i, j, k, v⟩).sum =
      (if faceGuardM3 p t then contrib p Dir.x.delta t (i, j, k)
        (((fluxOfTraces p T).x t.1 t.2.1 t.2.2).get5 dtdx v) else 0) +
      (if faceGuardM3 p t then contrib p Dir.y.delta t (i, j, k)
        (((fluxOfTraces p T).y t.1 t.2.1 t.2.2).get5 dtdy v) else 0) +
      (if faceGuardM3 p t then contrib p Dir.z.delta t (i, j, k)
        (((fluxOfTraces p T).z t.1 t.2.1 t.2.2).get5 dtdz v) else 0) := by
    rintro ⟨a, b, c⟩ _
    unfold fluxesAndUpdateMhd3
    by_cases hg : faceGuardM3 p (a, b, c)
    · rw [if_pos hg, if_pos hg, if_pos hg, if_pos hg]
      have tr := fun x y z h1 h2 h3 => hT x y z (traceGuard_near3 hg h1 h2 h3)
      have t0 := tr a b c (by omega) (by omega) (by omega)
      have t1 := tr (a - 1) b c (by omega) (by omega) (by omega)
      have t2 := tr a (b - 1) c (by omega) (by omega) (by omega)
      have t3 := tr a b (c - 1) (by omega) (by omega) (by omega)
      rw [← addends_atomicFlux3 .x U hg _ _ m, ← addends_atomicFlux3 .y U hg _ _ m,
        ← addends_atomicFlux3 .z U hg _ _ m]
      simp only [Prog.addends_bind, addends_getMS, valR_getMS, List.nil_append, List.sum_append,
        t1.qmx, t0.qpx, t2.qmy, t0.qpy, t3.qmz, t0.qpz]
      rw [riemannMhd_valid hv _ _ (jk 4 a b c) MS.zero,
        riemannMhd_valid hv (T a (b - 1) c).qmy.swapXY _ (riemannMhd _ _ _ _ _) MS.zero,
        riemannMhd_valid hv (T a b (c - 1)).qmz.swapXZ _ (MS.swapXY _) MS.zero, add_assoc]
      rfl
    · rw [if_neg hg, if_neg hg, if_neg hg, if_neg hg]; simp
  rw [hm']
  beta_reduce
  rw [Finset.sum_congr rfl hs, Finset.sum_add_distrib, Finset.sum_add_distrib,
    sum_contrib hw .x (i, j, k) (fun t => ((fluxOfTraces p T).x t.1 t.2.1 t.2.2).get5 dtdx v),
    sum_contrib hw .y (i, j, k) (fun t => ((fluxOfTraces p T).y t.1 t.2.1 t.2.2).get5 dtdy v),
    sum_contrib hw .z (i, j, k) (fun t => ((fluxOfTraces p T).z t.1 t.2.1 t.2.2).get5 dtdz v)]
  split_ifs with hc
  · rfl
  · simp

theorem addends_getEdge4M3 (d : EmfDir) (i j k : Int) (m : Mem Arr R) (l : Loc Arr) :
    (getEdge4M3 d i j k).addends m l = [] := by cases d <;> rfl

theorem valR_getEdge4M3 (d : EmfDir) (i j k : Int) (m : Mem Arr R) :
    (getEdge4M3 d i j k).valR m = ((getEdge4M3 d i j k).run m).1 := by cases d <;> rfl

theorem emfAndUpdateMhd3_result {p : Params R} (hw : p.WF) {U : Arr}
    (hU : nvM3 U = 8) (hn : U ∉ edges3) {dtdx dtdy dtdz : R} {T : Int → Int → Int → TraceM3 R}
    {m m' : Mem Arr R}
    (hT : ∀ i j k, traceGuardM3 p (i, j, k) → TracesOf3 m T i j k)
    (hm : forRange (range3 p.isize p.jsize p.ksize) (emfAndUpdateMhd3 p U dtdx dtdy dtdz) m m') :
    SameOff (· ∈ [U]) m m' ∧ ∀ i j k v, m' ⟨U, i, j, k, v⟩ = m ⟨U, i, j, k, v⟩ +
      (if cellGuard3 p (i, j, k) then
        emfGain .z ((fluxOfTraces p T).e .z) dtdx dtdy dtdz i j k v +
        emfGain .y ((fluxOfTraces p T).e .y) dtdx dtdy dtdz i j k v +
        emfGain .x ((fluxOfTraces p T).e .x) dtdx dtdy dtdz i j k v else 0) := by
  have hf := foot_emfAndUpdateMhd3 p hU dtdx dtdy dtdz
  have hd : ∀ a ∈ [U], a ∉ edges3 := by simpa using hn
  refine ⟨hf.sameOff hd hm, fun i j k v => ?_⟩
  have hm' := (hf.iff hd _ m m').1 hm
  have hs : ∀ t ∈ range3 p.isize p.jsize p.ksize,
      ((emfAndUpdateMhd3 p U dtdx dtdy dtdz t).addends m ⟨U, i, j, k, v⟩).sum =
      (if faceGuardM3 p t then contrib p (emfShift .z v).delta t (i, j, k)
        (emfTerm .z v ((fluxOfTraces p T).e .z t.1 t.2.1 t.2.2) dtdx dtdy dtdz) else 0) +
      (if faceGuardM3 p t then contrib p (emfShift .y v).delta t (i, j, k)
        (emfTerm .y v ((fluxOfTraces p T).e .y t.1 t.2.1 t.2.2) dtdx dtdy dtdz) else 0) +
      (if faceGuardM3 p t then contrib p (emfShift .x v).delta t (i, j, k)
        (emfTerm .x v ((fluxOfTraces p T).e .x t.1 t.2.1 t.2.2) dtdx dtdy dtdz) else 0) := by
    rintro ⟨a, b, c⟩ _
    unfold emfAndUpdateMhd3
    by_cases hg : faceGuardM3 p (a, b, c)
    · rw [if_pos hg, if_pos hg, if_pos hg, if_pos hg]
      rw [← addends_atomicEmf3 .z U hg _ _ _ _ m, ← addends_atomicEmf3 .y U hg _ _ _ _ m,
        ← addends_atomicEmf3 .x U hg _ _ _ _ m]
      simp only [Prog.addends_bind, addends_getEdge4M3, valR_getEdge4M3, List.nil_append, List.sum_append,
        edge4_traces3 hT hg]
      rw [add_assoc]
    · rw [if_neg hg, if_neg hg, if_neg hg, if_neg hg]; simp
  rw [hm']
  beta_reduce
  rw [Finset.sum_congr rfl hs, Finset.sum_add_distrib, Finset.sum_add_distrib,
    sum_contrib hw _ (i, j, k) (fun t => emfTerm .z v ((fluxOfTraces p T).e .z t.1 t.2.1 t.2.2) dtdx dtdy dtdz),
    sum_contrib hw _ (i, j, k) (fun t => emfTerm .y v ((fluxOfTraces p T).e .y t.1 t.2.1 t.2.2) dtdx dtdy dtdz),
    sum_contrib hw _ (i, j, k) (fun t => emfTerm .x v ((fluxOfTraces p T).e .x t.1 t.2.1 t.2.2) dtdx dtdy dtdz)]
  split_ifs with hc
  · rfl
  · simp

/-- adding up the gains gives the step -/
theorem stepOfM3_gain {p : Params R} (hw : p.WF) {dt : R} {m' : Mem Arr R} {U : Arr} {u : FldM3 R}
    (F G : FluxM3 R) (h : ∀ i j k, faceGuardM3 p (i, j, k) → F.EqAt G i j k) (i j k : Int)
    (hg : ∀ v < 8, m' ⟨U, i, j, k, v⟩ = (u i j k).get v + (if cellGuard3 p (i, j, k) then
      (fluxGain .x F.x (dt / p.dx) i j k v + fluxGain .y F.y (dt / p.dy) i j k v +
        fluxGain .z F.z (dt / p.dz) i j k v) +
      (emfGain .z (F.e .z) (dt / p.dx) (dt / p.dy) (dt / p.dz) i j k v +
        emfGain .y (F.e .y) (dt / p.dx) (dt / p.dy) (dt / p.dz) i j k v +
        emfGain .x (F.e .x) (dt / p.dx) (dt / p.dy) (dt / p.dz) i j k v) else 0)) :
    ms m' U i j k = stepOfM3 p dt G u i j k := by
  rw [← stepOfM3_key hw F G h i j k]
  refine ms_ext_get (fun v hv => ?_)
  rw [hg v hv]
  split_ifs with hc
  · rw [step_get3 F _ _ _ _ _ _ _ v hv]; exact_add
  · rw [add_zero]

/-- **Version 1**, every schedule, exact arithmetic. -/
theorem postMhd3_result1 {p : Params R} (hp : Mhd3 p) (hi : p.implementationVersion = 1)
    {dt : R} {jk : JunkM R} {inA outA : Arr} (hpp : PingPong inA outA) {m m' : Mem Arr R}
    (hq : PrimOf3 p (ms m .Q) (ms m inA)) (hc : ms m outA = ms m inA)
    (hm : runLaunches (postMhd3 p dt jk inA outA) m m') :
    SameOff (MhdOuts3 outA) m m' ∧
    ∀ i j k, ms m' outA i j k = stepM3 p dt (ms m inA) i j k := by
  obtain ⟨v1, v2⟩ := nvM3_ping hpp
  have nI : ∀ a ∈ ([.ElecField, .DeltaA, .DeltaB, .DeltaC] ++ traceOuts3 : List Arr),
      a ≠ inA ∧ a ≠ outA := by
    rcases hpp with ⟨rfl, rfl⟩ | ⟨rfl, rfl⟩ <;> decide
  have n1 : inA ∉ traceOuts3 := fun h => (nI _ (List.mem_append_right _ h)).1 rfl
  have n2 : outA ∉ traceOuts3 := fun h => (nI _ (List.mem_append_right _ h)).2 rfl
  have n2' : ∀ a ∈ traceOuts3, ¬ a ∈ [outA] := fun a ha h => n2 (List.mem_singleton.1 h ▸ ha)
  have n3 : inA ≠ .ElecField := (nI .ElecField (by decide)).1.symm
  have n3' : outA ≠ .ElecField := (nI .ElecField (by decide)).2.symm
  have n4 : inA ∉ ([.DeltaA, .DeltaB, .DeltaC] : List Arr) := by
    rcases hpp with ⟨rfl, rfl⟩ | ⟨rfl, rfl⟩ <;> decide
  have n4' : outA ∉ ([.DeltaA, .DeltaB, .DeltaC] : List Arr) := by
    rcases hpp with ⟨rfl, rfl⟩ | ⟨rfl, rfl⟩ <;> decide
  unfold runLaunches postMhd3 at hm
  simp only [hi, one_ne_zero, if_false, if_true, List.map_cons, List.map_nil] at hm
  obtain ⟨m1, k1, m2, k2, m3, k3, m4, k4, m5, k5, rfl⟩ := hm
  obtain ⟨s1, f1⟩ := elecFieldMhd3_result v1 n3 k1
  obtain ⟨s2, f2⟩ := magSlopesMhd3_result v1 n4 k2
  have a1 : ms m1 inA = ms m inA := s1.ms (by simpa using n3)
  have a2 : ms m2 inA = ms m inA := (s2.ms n4).trans a1
  have b2 : ms m2 .Q = ms m .Q := (s2.ms (by decide)).trans (s1.ms (by decide))
  have E2 : ElecOf p m2 (ms m .Q) (ms m2 inA) := by
    intro d i j k h
    rw [s2 _ (by simp), f1 d i j k h, a2]
  have D2 : DeltaOf p m2 (ms m2 inA) := by rw [a2, ← a1]; exact f2
  obtain ⟨s3, f3⟩ := traceMhd3_result hp.gw v1 n1 E2 b2 D2 k3
  rw [a2] at f3
  obtain ⟨s4, f4⟩ := fluxesAndUpdateMhd3_result hp.wf hp.valid v2
    (fun h => n2 ((by decide : ∀ a ∈ ([.Qm_x, .Qp_x, .Qm_y, .Qp_y, .Qm_z, .Qp_z] : List Arr), a ∈ traceOuts3) _ h))
    f3 k4
  have f3' := fun i j k h => (f3 i j k h).mono s4 n2'
  obtain ⟨s5, f5⟩ := emfAndUpdateMhd3_result hp.wf v2
    (fun h => n2 ((by decide : ∀ a ∈ edges3, a ∈ traceOuts3) _ h)) f3' k5
  refine ⟨?_, fun i j k => ?_⟩
  · refine (s1.mono ?_).trans ((s2.mono ?_).trans ((s3.mono ?_).trans ((s4.mono ?_).trans
      (s5.mono ?_))))
    all_goals intro a ha
    · exact Or.inr (mhdOuts3_sub (by decide) a ha)
    · exact Or.inr (mhdOuts3_sub (by decide) a ha)
    · exact Or.inr (List.mem_append_right _ ha)
    · exact Or.inl (by simpa using ha)
    · exact Or.inl (by simpa using ha)
  have e3 : ms m3 outA = ms m inA :=
    (s3.ms n2).trans ((s2.ms n4').trans ((s1.ms (by simpa using n3')).trans hc))
  unfold stepM3
  refine stepOfM3_gain hp.wf (fluxOfTraces p (traceM3 p dt (ms m .Q) (ms m inA))) _
    (fun a b c h => ?_) i j k (fun v hv => ?_)
  · rw [schemeM3_not2 (by omega)]
    exact fluxes_stored3 hp.gw hq h
  · rw [f5, f4, mem_of_ms m3 outA i j k v hv, e3, add_assoc]
    congr 1
    split_ifs
    · rfl
    · simp

end EulerKokkos
