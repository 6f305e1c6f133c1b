import Verif.Lemmas.MhdAtomic2D

/-! # The third implementation of the 2D MHD step (stored slopes), exact arithmetic -/

set_option linter.constructorNameAsVariable false
set_option linter.unusedSectionVars false
set_option linter.unusedSimpArgs false
set_option linter.unnecessarySeqFocus false

namespace EulerKokkos

open Prog (rd wr add upd run_bind run_rd run_wr run_pure foot_bind foot_rd foot_wr foot_add
  foot_pure foot_ite foot_pif foot_mono Foot forRange pif)
open Spec

variable {R : Type} [RealOps R] [ExactAdd R]
attribute [local instance 10] ExactAdd.monoid

/-! ## The reconstructed states are the traced states -/

/-- slope of a primitive field along x -/
noncomputable def slopeXF (p : Params R) (q : FldM2 R) (i j : Int) : MS R :=
  slopeM p.settings (q i j) (q (i + 1) j) (q (i - 1) j) MS.zero

/-- slope of a primitive field along y -/
noncomputable def slopeYF (p : Params R) (q : FldM2 R) (i j : Int) : MS R :=
  slopeM p.settings (q i j) (q i (j + 1)) (q i (j - 1)) MS.zero

/-- electric field at the lower left edge -/
noncomputable def elecF (q u : FldM2 R) (i j : Int) : R :=
  elecZ2 (fun o => q o.1 o.2) (fun o => ⟨(u o.1 o.2).a, (u o.1 o.2).b, (u o.1 o.2).c⟩) i j

theorem elecF_eq (q u : FldM2 R) (i j x y : Int) :
    elecZ2 (fun o => q (i + o.1) (j + o.2))
      (fun o => ⟨(u (i + o.1) (j + o.2)).a, (u (i + o.1) (j + o.2)).b, (u (i + o.1) (j + o.2)).c⟩)
      x y = elecF q u (i + x) (j + y) := by
  unfold elecF elecZ2
  simp only [add_sub_assoc]

/-- half of the source terms -/
noncomputable def srcF (p : Params R) (dt : R) (q u : FldM2 R) (i j : Int) : MS R :=
  sourceM2 p.settings (q i j) (slopeXF p q i j) (slopeYF p q i j)
    ((u (i + 1) j).a - (u i j).a) ((u i (j + 1)).b - (u i j).b) (dt / p.dx) (dt / p.dy)

/-- primitive variables half a time step later -/
noncomputable def q2F (p : Params R) (dt : R) (q u : FldM2 R) (i j : Int) : MS R :=
  let so := srcF p dt q u i j
  let c := q i j
  let h : R := lit (1/2)
  ⟨c.d + h * so.d, c.p + h * so.p, c.u + h * so.u, c.v + h * so.v, c.w + h * so.w, c.a + h * so.a,
    c.b + h * so.b, c.c + h * so.c⟩

section half
local notation "hf" => (lit (1/2) : R)

theorem half_comm (a : R) : a * hf = hf * a := ExactAdd.mul_comm' _ _
theorem half_right (a b : R) : a * (hf * b) = hf * (a * b) := ExactAdd.mul_left_comm' _ _ _
theorem half_left (a b : R) : hf * a * b = hf * (a * b) := ExactAdd.mul_assoc' _ _ _
theorem half_neg (a : R) : -(hf * a) = hf * -a := (ExactAdd.mul_neg' _ _).symm
theorem half_add (a b : R) : hf * a + hf * b = hf * (a + b) := (ExactAdd.mul_add' _ _ _).symm
theorem half_sub (a b : R) : hf * a - hf * b = hf * (a - b) := by
  rw [ExactAdd.sub_eq', ExactAdd.sub_eq', half_neg, half_add]
theorem half_div (a b : R) : hf * a / b = hf * (a / b) := by
  rw [ExactAdd.div_eq', ExactAdd.div_eq' a, ExactAdd.mul_assoc']

end half

theorem source_half (p : Params R) (c x y : MS R) (a b s t : R) :
    sourceM2 p.settings c x.half y.half (lit (1/2) * a) (lit (1/2) * b) s t =
      (let so := sourceM2 p.settings c x y a b s t
       ⟨lit (1/2) * so.d, lit (1/2) * so.p, lit (1/2) * so.u, lit (1/2) * so.v, lit (1/2) * so.w, lit (1/2) * so.a, lit (1/2) * so.b,
        lit (1/2) * so.c⟩) := by
  unfold sourceM2 MS.half
  simp only [MS.mk.injEq]
  refine ⟨?_, ?_, ?_, ?_, ?_, ?_, ?_, ?_⟩ <;>
    simp only [half_comm, half_right, half_left, half_neg, half_add, half_sub, half_div]

/-- The traced states of `traceM2` written with full slopes and `q2F`. -/
theorem traceM2_eq (p : Params R) (dt : R) (q u : FldM2 R) (i j : Int) :
    let X := slopeXF p q i j
    let Y := slopeYF p q i j
    let c := q2F p dt q u i j
    let s := p.settings
    let h : R := lit (1/2)
    let f := slopeScalarDir s.slope_type
    let AL := (u i j).a + (elecF q u i (j + 1) - elecF q u i j) * h * (dt / p.dy)
    let AR := (u (i + 1) j).a + (elecF q u (i + 1) (j + 1) - elecF q u (i + 1) j) * h * (dt / p.dy)
    let BL := (u i j).b + -(elecF q u (i + 1) j - elecF q u i j) * h * (dt / p.dx)
    let BR := (u i (j + 1)).b +
      -(elecF q u (i + 1) (j + 1) - elecF q u i (j + 1)) * h * (dt / p.dx)
    let dAL := f (u i j).a (u i (j + 1)).a (u i (j - 1)).a
    let dAR := f (u (i + 1) j).a (u (i + 1) (j + 1)).a (u (i + 1) (j - 1)).a
    let dBL := f (u i j).b (u (i + 1) j).b (u (i - 1) j).b
    let dBR := f (u i (j + 1)).b (u (i + 1) (j + 1)).b (u (i - 1) (j + 1)).b
    (traceM2 p dt q u i j).qpx = MS.floored s ⟨c.d - h * X.d, c.p - h * X.p, c.u - h * X.u,
      c.v - h * X.v, c.w - h * X.w, AL, c.b - h * X.b, c.c - h * X.c⟩ ∧
    (traceM2 p dt q u i j).qmx = MS.floored s ⟨c.d + h * X.d, c.p + h * X.p, c.u + h * X.u,
      c.v + h * X.v, c.w + h * X.w, AR, c.b + h * X.b, c.c + h * X.c⟩ ∧
    (traceM2 p dt q u i j).qpy = MS.floored s ⟨c.d - h * Y.d, c.p - h * Y.p, c.u - h * Y.u,
      c.v - h * Y.v, c.w - h * Y.w, c.a - h * Y.a, BL, c.c - h * Y.c⟩ ∧
    (traceM2 p dt q u i j).qmy = MS.floored s ⟨c.d + h * Y.d, c.p + h * Y.p, c.u + h * Y.u,
      c.v + h * Y.v, c.w + h * Y.w, c.a + h * Y.a, BR, c.c + h * Y.c⟩ ∧
    (traceM2 p dt q u i j).rt = MS.floored s ⟨c.d + h * (X.d + Y.d), c.p + h * (X.p + Y.p),
      c.u + h * (X.u + Y.u), c.v + h * (X.v + Y.v), c.w + h * (X.w + Y.w), AR + h * dAR,
      BR + h * dBR, c.c + h * (X.c + Y.c)⟩ ∧
    (traceM2 p dt q u i j).rb = MS.floored s ⟨c.d + h * (X.d + -Y.d), c.p + h * (X.p + -Y.p),
      c.u + h * (X.u + -Y.u), c.v + h * (X.v + -Y.v), c.w + h * (X.w + -Y.w), AR + h * -dAR,
      BL + h * dBL, c.c + h * (X.c + -Y.c)⟩ ∧
    (traceM2 p dt q u i j).lt = MS.floored s ⟨c.d + h * (-X.d + Y.d), c.p + h * (-X.p + Y.p),
      c.u + h * (-X.u + Y.u), c.v + h * (-X.v + Y.v), c.w + h * (-X.w + Y.w), AL + h * dAL,
      BR + h * -dBR, c.c + h * (-X.c + Y.c)⟩ ∧
    (traceM2 p dt q u i j).lb = MS.floored s ⟨c.d + h * (-X.d + -Y.d), c.p + h * (-X.p + -Y.p),
      c.u + h * (-X.u + -Y.u), c.v + h * (-X.v + -Y.v), c.w + h * (-X.w + -Y.w), AL + h * -dAL,
      BL + h * -dBL, c.c + h * (-X.c + -Y.c)⟩ := by
  have hs : ∀ z w : Int, z + -w = z - w := fun z w => (sub_eq_add_neg z w).symm
  intro X Y c s h f AL AR BL BR dAL dAR dBL dBR
  unfold traceM2 traceMhd2 
  simp only [elecF_eq, add_zero, hs, source_half] 
  refine ⟨?_, ?_, ?_, ?_, ?_, ?_, ?_, ?_⟩ <;> congr 1 <;>
    simp only [MS.mk.injEq, MS.half] <;>
    refine ⟨?_, ?_, ?_, ?_, ?_, ?_, ?_, ?_⟩ <;>
    simp only [X, Y, c, s, h, f, AL, AR, BL, BR, dAL, dAR, dBL, dBR, q2F, srcF, slopeXF, slopeYF] <;>
    simp only [half_comm, half_neg, half_add, half_sub, ExactAdd.sub_eq', ExactAdd.add_assoc']

/-! ## Kernel results -/

/-- the data prepared by the first four kernels -/
structure V2Data (p : Params R) (dt : R) (q u : FldM2 R) (m : Mem Arr R) : Prop where
  sx : ∀ i j, 1 ≤ i → i < p.isize - 1 → 1 ≤ j → j < p.jsize - 1 →
    ms2 m .Sx i j = { slopeXF p q i j with a := (u (i + 1) j).a - (u i j).a }
  sy : ∀ i j, 1 ≤ i → i < p.isize - 1 → 1 ≤ j → j < p.jsize - 1 →
    ms2 m .Sy i j = { slopeYF p q i j with b := (u i (j + 1)).b - (u i j).b }
  q2 : ∀ i j, traceGuardM2 p (i, j) → ms2 m .Q2 i j = q2F p dt q u i j
  fx : ∀ i j, 1 ≤ i → i < p.isize - 1 → 1 ≤ j → j < p.jsize - 1 →
    m ⟨.sFaceMag, i, j, 0, IX⟩ = (elecF q u i (j + 1) - elecF q u i j) * lit (1/2) * (dt / p.dy)
  fy : ∀ i j, 1 ≤ i → i < p.isize - 1 → 1 ≤ j → j < p.jsize - 1 →
    m ⟨.sFaceMag, i, j, 0, IY⟩ = -(elecF q u (i + 1) j - elecF q u i j) * lit (1/2) * (dt / p.dx)

theorem slopesMhd2_result {p : Params R} (hv : ValidM p) {U : Arr} (hU : nvM2 U = 8)
    (hn : U ∉ ([.Sx, .Sy] : List Arr)) {jk : JunkM R} {m m' : Mem Arr R}
    (hm : forRange (range2 p.isize p.jsize) (computeSlopesMhd2 p U .Q jk) m m') :
    SameOff (· ∈ [Arr.Sx, .Sy]) m m' ∧
    ∀ i j, 1 ≤ i → i < p.isize - 1 → 1 ≤ j → j < p.jsize - 1 →
      ms2 m' .Sx i j = { slopeXF p (ms2 m .Q) i j with a := (ms2 m U (i + 1) j).a - (ms2 m U i j).a } ∧
      ms2 m' .Sy i j = { slopeYF p (ms2 m .Q) i j with b := (ms2 m U i (j + 1)).b - (ms2 m U i j).b } := by
  have ho := (foot_computeSlopesMhd2 p hU jk).own (by
    intro a ha
    simp only [List.mem_cons, List.not_mem_nil, or_false] at ha
    rcases ha with rfl | rfl
    · exact hn
    · decide)
  simp only [List.mem_cons, List.not_mem_nil, or_false, not_or] at hn
  refine ⟨sameOff_forRange2 ho hm, fun i j h1 h2 h3 h4 => ?_⟩
  have hin : (i, j) ∈ range2 p.isize p.jsize := mem_range2_of (by omega)
  unfold ms2
  rw [forRange2_ms_out ho hm (by simp) hin, forRange2_ms_out ho hm (by simp) hin]
  unfold computeSlopesMhd2
  rw [if_pos (by simp only; omega)]
  simp only [run_bind, run_getMS, run_rd, run_wr, run_putMS]
  rw [slopeM_valid hv _ _ _ (jk 0 i j 0) MS.zero, slopeM_valid hv _ _ _ (slopeM _ _ _ _ _) MS.zero]
  constructor
  · simp [ms, upd, setMemM, Loc.mk.injEq, MS.get, hn.1, hn.2, ID, IP, IU, IV, IW, IA, IB, IC,
      slopeXF, ms2]
  · simp [ms, upd, setMemM, Loc.mk.injEq, MS.get, hn.1, hn.2, ID, IP, IU, IV, IW, IA, IB, IC,
      slopeYF, ms2]

theorem updatedPrimVarMhd2_result {p : Params R} (hg : 3 ≤ p.ghostWidth) {U : Arr}
    (hU : nvM2 U = 8) (hn : U ≠ .Q2) {dt : R} {q : FldM2 R}
    {m m' : Mem Arr R}
    (hq : ms2 m .Q = q)
    (hsx : ∀ i j, 1 ≤ i → i < p.isize - 1 → 1 ≤ j → j < p.jsize - 1 →
      ms2 m .Sx i j = { slopeXF p q i j with a := (ms2 m U (i + 1) j).a - (ms2 m U i j).a })
    (hsy : ∀ i j, 1 ≤ i → i < p.isize - 1 → 1 ≤ j → j < p.jsize - 1 →
      ms2 m .Sy i j = { slopeYF p q i j with b := (ms2 m U i (j + 1)).b - (ms2 m U i j).b })
    (hm : forRange (range2 p.isize p.jsize) (updatedPrimVarMhd2 p U .Q .Q2 (dt / p.dx) (dt / p.dy))
      m m') :
    SameOff (· ∈ [Arr.Q2]) m m' ∧ ∀ i j, traceGuardM2 p (i, j) →
      ms2 m' .Q2 i j = q2F p dt q (ms2 m U) i j := by
  have ho := (foot_updatedPrimVarMhd2 p hU (dt / p.dx) (dt / p.dy)).own (by
    intro a ha
    simp only [List.mem_cons, List.not_mem_nil, or_false] at ha
    rcases ha with rfl | rfl | rfl | rfl
    · simpa using hn
    · decide
    · decide
    · decide)
  refine ⟨sameOff_forRange2 ho hm, fun i j hgd => ?_⟩
  have hb : 1 ≤ i ∧ i < p.isize - 1 ∧ 1 ≤ j ∧ j < p.jsize - 1 := by
    obtain ⟨a, b, c, d⟩ := hgd
    simp only at a b c d
    omega
  have hin : (i, j) ∈ range2 p.isize p.jsize := mem_range2_of (by omega)
  have e1 := hsx i j hb.1 hb.2.1 hb.2.2.1 hb.2.2.2
  have e2 := hsy i j hb.1 hb.2.1 hb.2.2.1 hb.2.2.2
  unfold ms2 at e1 e2
  have e3 : ms m .Q i j 0 = q i j := by rw [← hq]; rfl
  unfold ms2
  rw [forRange2_ms_out ho hm (by simp) hin]
  unfold updatedPrimVarMhd2
  rw [if_pos hgd]
  simp only [run_bind, run_getMS, run_rd, run_putMS, ms_setMemM_same, e1, e2, e3]
  unfold q2F srcF sourceM2
  rfl

theorem elecFieldMhd2_result {p : Params R} {U : Arr} (hU : nvM2 U = 8) (hn : U ≠ .ElecField)
    {m m' : Mem Arr R}
    (hm : forRange (range2 p.isize p.jsize) (elecFieldMhd2 p U .Q) m m') :
    SameOff (· ∈ [Arr.ElecField]) m m' ∧ ∀ i j, 0 < i → i < p.isize → 0 < j → j < p.jsize →
      m' ⟨.ElecField, i, j, 0, 0⟩ = elecF (ms2 m .Q) (ms2 m U) i j := by
  have ho := (foot_elecFieldMhd2 p hU).own (by
    intro a ha
    simp only [List.mem_cons, List.not_mem_nil, or_false] at ha
    rcases ha with rfl | rfl
    · simpa using hn
    · decide)
  refine ⟨sameOff_forRange2 ho hm, fun i j h1 h2 h3 h4 => ?_⟩
  have hin : (i, j) ∈ range2 p.isize p.jsize := mem_range2_of (by omega)
  rw [forRange2_out ho hm (l := ⟨.ElecField, i, j, 0, 0⟩) (by simp) hin]
  unfold elecFieldMhd2
  rw [if_pos (by simp only; omega)]
  simp only [run_bind, run_rd, run_wr, upd, if_true]
  rfl

theorem sourceFaceMagMhd2_result {p : Params R} {dt : R} {q u : FldM2 R} {m m' : Mem Arr R}
    (hE : ∀ i j, 0 < i → i < p.isize → 0 < j → j < p.jsize →
      m ⟨.ElecField, i, j, 0, 0⟩ = elecF q u i j)
    (hm : forRange (range2 p.isize p.jsize) (sourceFaceMagMhd2 p (dt / p.dx) (dt / p.dy)) m m') :
    SameOff (· ∈ [Arr.sFaceMag]) m m' ∧
    ∀ i j, 1 ≤ i → i < p.isize - 1 → 1 ≤ j → j < p.jsize - 1 →
      m' ⟨.sFaceMag, i, j, 0, IX⟩ =
        (elecF q u i (j + 1) - elecF q u i j) * lit (1/2) * (dt / p.dy) ∧
      m' ⟨.sFaceMag, i, j, 0, IY⟩ =
        -(elecF q u (i + 1) j - elecF q u i j) * lit (1/2) * (dt / p.dx) := by
  have ho := (foot_sourceFaceMagMhd2 p (dt / p.dx) (dt / p.dy)).own (by decide)
  refine ⟨sameOff_forRange2 ho hm, fun i j h1 h2 h3 h4 => ?_⟩
  have hin : (i, j) ∈ range2 p.isize p.jsize := mem_range2_of (by omega)
  have e1 := hE i j (by omega) (by omega) (by omega) (by omega)
  have e2 := hE (i + 1) j (by omega) (by omega) (by omega) (by omega)
  have e3 := hE i (j + 1) (by omega) (by omega) (by omega) (by omega)
  rw [forRange2_out ho hm (l := ⟨.sFaceMag, i, j, 0, IX⟩) (by simp) hin,
    forRange2_out ho hm (l := ⟨.sFaceMag, i, j, 0, IY⟩) (by simp) hin]
  unfold sourceFaceMagMhd2
  rw [if_pos (by simp only; omega)]
  simp only [run_bind, run_rd, run_wr]
  simp [upd, Loc.mk.injEq, e1, e2, e3, IX, IY]

/-- flux update along x of the six cell-centred variables -/
noncomputable def xUpd (fx : FldM2 R) (c : R) (u : MS R) (i j : Int) : MS R :=
  (u.plus6 (fx i j) c).minus6 (fx (i + 1) j) c

/-- flux update along y of the six cell-centred variables -/
noncomputable def yUpd (fy : FldM2 R) (c : R) (u : MS R) (i j : Int) : MS R :=
  (u.plus6 (fy i j) c).minus6 (fy i (j + 1)) c

theorem upd_get (f g : MS R) (c : R) (u : MS R) (v : Nat)
    (hv : v < 8) : ((u.plus6 f c).minus6 g c).get v = u.get v + (f.get6 c v - g.get6 c v) := by
  unfold MS.plus6 MS.minus6
  match v, hv with
  | 0, _ => simp only [MS.get, MS.get6]; exact_add
  | 1, _ => simp only [MS.get, MS.get6]; exact_add
  | 2, _ => simp only [MS.get, MS.get6]; exact_add
  | 3, _ => simp only [MS.get, MS.get6]; exact_add
  | 4, _ => simp only [MS.get, MS.get6]; exact_add
  | 5, _ => simp only [MS.get, MS.get6]; exact_add
  | 6, _ => simp only [MS.get, MS.get6]; exact_add
  | 7, _ => simp only [MS.get, MS.get6]; exact_add

theorem fluxX_result_aux {p : Params R} (hw : p.WF) {U : Arr} {ins : List Arr} {lo hi : Int}
    {body : Int × Int → Prog Arr R Unit} (hf : AddFootM2 (faceGuardM2 p) ins [U] lo hi body)
    (hn : U ∉ ins) {c : R} {f : FldM2 R} {m m' : Mem Arr R}
    (hb : ∀ t, faceGuardM2 p t → ∀ l, (body t).addends m l =
      (atomicX2 p U t.1 t.2 (f t.1 t.2) c).addends m l)
    (hm : forRange (range2 p.isize p.jsize) body m m') :
    SameOff (· ∈ [U]) m m' ∧ ∀ i j, ms2 m' U i j =
      if cellGuard2 p (i, j) then xUpd f c (ms2 m U i j) i j else ms2 m U i j := by
  have hd : ∀ a ∈ [U], a ∉ ins := by simpa using hn
  refine ⟨hf.sameOff hd hm, fun i j => ms_ext_get6 (fun v hvv => ?_)⟩
  rw [(hf.iff hd _ m m').1 hm]
  beta_reduce
  have hs : ∀ t ∈ range2 p.isize p.jsize, ((body t).addends m ⟨U, i, j, 0, v⟩).sum =
      (if faceGuardM2 p t then
        ((atomicX2 p U t.1 t.2 (f t.1 t.2) c).addends m ⟨U, i, j, 0, v⟩).sum else 0) := by
    intro t _
    by_cases hg : faceGuardM2 p t
    · rw [if_pos hg, hb t hg]
    · rw [if_neg hg, Prog.addends_nil (hf t) m _ (fun h => hg h.1)]; rfl
  rw [Finset.sum_congr rfl hs, sum_atomicX2 hw _ _ _ _ _ _ _ hvv, mem_of_ms m U i j 0 v hvv]
  split_ifs with hc
  · rw [xUpd, upd_get _ _ _ _ _ hvv]; rfl
  · rw [add_zero]; rfl

theorem fluxY_result_aux {p : Params R} (hw : p.WF) {U : Arr} {ins : List Arr} {lo hi : Int}
    {body : Int × Int → Prog Arr R Unit} (hf : AddFootM2 (faceGuardM2 p) ins [U] lo hi body)
    (hn : U ∉ ins) {c : R} {f : FldM2 R} {m m' : Mem Arr R}
    (hb : ∀ t, faceGuardM2 p t → ∀ l, (body t).addends m l =
      (atomicY2 p U t.1 t.2 (f t.1 t.2) c).addends m l)
    (hm : forRange (range2 p.isize p.jsize) body m m') :
    SameOff (· ∈ [U]) m m' ∧ ∀ i j, ms2 m' U i j =
      if cellGuard2 p (i, j) then yUpd f c (ms2 m U i j) i j else ms2 m U i j := by
  have hd : ∀ a ∈ [U], a ∉ ins := by simpa using hn
  refine ⟨hf.sameOff hd hm, fun i j => ms_ext_get6 (fun v hvv => ?_)⟩
  rw [(hf.iff hd _ m m').1 hm]
  beta_reduce
  have hs : ∀ t ∈ range2 p.isize p.jsize, ((body t).addends m ⟨U, i, j, 0, v⟩).sum =
      (if faceGuardM2 p t then
        ((atomicY2 p U t.1 t.2 (f t.1 t.2) c).addends m ⟨U, i, j, 0, v⟩).sum else 0) := by
    intro t _
    by_cases hg : faceGuardM2 p t
    · rw [if_pos hg, hb t hg]
    · rw [if_neg hg, Prog.addends_nil (hf t) m _ (fun h => hg h.1)]; rfl
  rw [Finset.sum_congr rfl hs, sum_atomicY2 hw _ _ _ _ _ _ _ hvv, mem_of_ms m U i j 0 v hvv]
  split_ifs with hc
  · rw [yUpd, upd_get _ _ _ _ _ hvv]; rfl
  · rw [add_zero]; rfl

theorem addends_rd (l' : Loc Arr) (m : Mem Arr R) (l : Loc Arr) :
    (rd l' : Prog Arr R R).addends m l = [] := rfl

theorem valR_rd (l' : Loc Arr) (m : Mem Arr R) : (rd l' : Prog Arr R R).valR m = m l' := rfl

theorem inner_of_face {p : Params R} (hg : 3 ≤ p.ghostWidth) {a b i j : Int}
    (h : faceGuardM2 p (a, b)) (h1 : a - 1 ≤ i ∧ i ≤ a) (h2 : b - 1 ≤ j ∧ j ≤ b) :
    1 ≤ i ∧ i < p.isize - 1 ∧ 1 ≤ j ∧ j < p.jsize - 1 := by
  obtain ⟨a, b, c, d⟩ := h
  simp only at a b c d
  omega

theorem fluxAlongXMhd2_result {p : Params R} (hw : p.WF) (hg3 : 3 ≤ p.ghostWidth) (hv : ValidM p)
    {inA outA : Arr} (hi : nvM2 inA = 8) (ho : nvM2 outA = 8)
    (hn : outA ∉ ([inA, .Sx, .Q2, .sFaceMag] : List Arr)) {dt : R} {jk : JunkM R} {q : FldM2 R}
    {m m' : Mem Arr R} (hd : V2Data p dt q (ms2 m inA) m)
    (hm : forRange (range2 p.isize p.jsize) (fluxAlongXMhd2 p inA outA .Q2 (dt / p.dx) jk) m m') :
    SameOff (· ∈ [outA]) m m' ∧ ∀ i j, ms2 m' outA i j =
      if cellGuard2 p (i, j) then
        xUpd (fluxXM2 p (traceM2 p dt q (ms2 m inA))) (dt / p.dx) (ms2 m outA i j) i j
      else ms2 m outA i j := by
  refine fluxX_result_aux hw (foot_fluxAlongXMhd2 p hi ho (dt / p.dx) jk) hn ?_ hm
  rintro ⟨a, b⟩ hg l
  unfold fluxAlongXMhd2
  rw [if_pos hg]
  simp only [Prog.addends_bind, addends_getMS, valR_getMS, addends_rd, valR_rd, List.nil_append]
  obtain ⟨r1, r2, r3, r4⟩ := inner_of_face hg3 hg (i := a) (j := b) (by omega) (by omega)
  obtain ⟨s1, s2, s3, s4⟩ := inner_of_face hg3 hg (i := a - 1) (j := b) (by omega) (by omega)
  have x0 := hd.sx a b r1 r2 r3 r4
  have x1 := hd.sx (a - 1) b s1 s2 s3 s4
  have c0 := hd.q2 a b (traceGuard_near hg (by omega) (by omega))
  have c1 := hd.q2 (a - 1) b (traceGuard_near hg (by omega) (by omega))
  have f0 := hd.fx a b r1 r2 r3 r4
  unfold ms2 at x0 x1 c0 c1
  rw [riemannMhd_valid hv _ _ (jk 4 a b 0) MS.zero, x0, x1, c0, c1, f0]
  have t0 := (traceM2_eq p dt q (ms2 m inA) a b).1
  have t1 := (traceM2_eq p dt q (ms2 m inA) (a - 1) b).2.1
  unfold fluxXM2
  rw [t0, t1]
  simp only [sub_add_cancel]
  rfl

theorem fluxAlongYMhd2_result {p : Params R} (hw : p.WF) (hg3 : 3 ≤ p.ghostWidth) (hv : ValidM p)
    {inA outA : Arr} (hi : nvM2 inA = 8) (ho : nvM2 outA = 8)
    (hn : outA ∉ ([inA, .Sy, .Q2, .sFaceMag] : List Arr)) {dt : R} {jk : JunkM R} {q : FldM2 R}
    {m m' : Mem Arr R} (hd : V2Data p dt q (ms2 m inA) m)
    (hm : forRange (range2 p.isize p.jsize) (fluxAlongYMhd2 p inA outA .Q2 (dt / p.dy) jk) m m') :
    SameOff (· ∈ [outA]) m m' ∧ ∀ i j, ms2 m' outA i j =
      if cellGuard2 p (i, j) then
        yUpd (fluxYM2 p (traceM2 p dt q (ms2 m inA))) (dt / p.dy) (ms2 m outA i j) i j
      else ms2 m outA i j := by
  refine fluxY_result_aux hw (foot_fluxAlongYMhd2 p hi ho (dt / p.dy) jk) hn ?_ hm
  rintro ⟨a, b⟩ hg l
  unfold fluxAlongYMhd2
  rw [if_pos hg]
  simp only [Prog.addends_bind, addends_getMS, valR_getMS, addends_rd, valR_rd, List.nil_append]
  obtain ⟨r1, r2, r3, r4⟩ := inner_of_face hg3 hg (i := a) (j := b) (by omega) (by omega)
  obtain ⟨s1, s2, s3, s4⟩ := inner_of_face hg3 hg (i := a) (j := b - 1) (by omega) (by omega)
  have x0 := hd.sy a b r1 r2 r3 r4
  have x1 := hd.sy a (b - 1) s1 s2 s3 s4
  have c0 := hd.q2 a b (traceGuard_near hg (by omega) (by omega))
  have c1 := hd.q2 a (b - 1) (traceGuard_near hg (by omega) (by omega))
  have f0 := hd.fy a b r1 r2 r3 r4
  unfold ms2 at x0 x1 c0 c1
  rw [riemannMhd_valid hv _ _ (jk 5 a b 0) MS.zero, x0, x1, c0, c1, f0]
  have t0 := (traceM2_eq p dt q (ms2 m inA) a b).2.2.1
  have t1 := (traceM2_eq p dt q (ms2 m inA) a (b - 1)).2.2.2.1
  unfold fluxYM2
  rw [t0, t1]
  simp only [sub_add_cancel]
  rfl

theorem reconstructEmfMhd2_result {p : Params R} (hw : p.WF) (hg3 : 3 ≤ p.ghostWidth)
    {inA outA : Arr} (hi : nvM2 inA = 8) (ho : nvM2 outA = 8)
    (hn : outA ∉ ([inA, .Sx, .Sy, .Q2, .sFaceMag] : List Arr)) {dt : R} (hx : ZeroMul (dt / p.dx))
    (hy : ZeroMul (dt / p.dy)) {q : FldM2 R}
    {m m' : Mem Arr R} (hd : V2Data p dt q (ms2 m inA) m)
    (hm : forRange (range2 p.isize p.jsize)
      (reconstructEmfMhd2 p inA outA .Q2 (dt / p.dx) (dt / p.dy)) m m') :
    SameOff (· ∈ [outA]) m m' ∧ ∀ i j, ms2 m' outA i j =
      ctUpdate2 (maskE p (emfM2 p (traceM2 p dt q (ms2 m inA)))) (dt / p.dx) (dt / p.dy)
        (ms2 m outA i j) i j := by
  refine emf_result_aux hw (foot_reconstructEmfMhd2 p hi ho (dt / p.dx) (dt / p.dy)) hn hx hy ?_ hm
  rintro ⟨a, b⟩ hg l
  unfold reconstructEmfMhd2 reconstructEdge2 limitedSlope2
  rw [if_pos hg]
  have N : ∀ x y, a - 1 ≤ x ∧ x ≤ a → b - 1 ≤ y ∧ y ≤ b → traceGuardM2 p (x, y) ∧
    1 ≤ x ∧ x < p.isize - 1 ∧ 1 ≤ y ∧ y < p.jsize - 1 := fun x y h1 h2 =>
    ⟨traceGuard_near hg h1 h2, inner_of_face hg3 hg h1 h2⟩
  have K : ∀ x y, a - 1 ≤ x ∧ x ≤ a → b - 1 ≤ y ∧ y ≤ b →
      ms m .Sx x y 0 = { slopeXF p q x y with a := (ms2 m inA (x + 1) y).a - (ms2 m inA x y).a } ∧
      ms m .Sy x y 0 = { slopeYF p q x y with b := (ms2 m inA x (y + 1)).b - (ms2 m inA x y).b } ∧
      ms m .Q2 x y 0 = q2F p dt q (ms2 m inA) x y ∧
      m ⟨.sFaceMag, x, y, 0, IX⟩ =
        (elecF q (ms2 m inA) x (y + 1) - elecF q (ms2 m inA) x y) * lit (1/2) * (dt / p.dy) ∧
      m ⟨.sFaceMag, x, y, 0, IY⟩ =
        -(elecF q (ms2 m inA) (x + 1) y - elecF q (ms2 m inA) x y) * lit (1/2) * (dt / p.dx) := by
    intro x y h1 h2
    obtain ⟨g, k1, k2, k3, k4⟩ := N x y h1 h2
    exact ⟨hd.sx x y k1 k2 k3 k4, hd.sy x y k1 k2 k3 k4, hd.q2 x y g, hd.fx x y k1 k2 k3 k4,
      hd.fy x y k1 k2 k3 k4⟩
  obtain ⟨x1, y1, c1, p1, q1⟩ := K a b (by omega) (by omega)
  obtain ⟨x2, y2, c2, p2, q2⟩ := K (a - 1) b (by omega) (by omega)
  obtain ⟨x3, y3, c3, p3, q3⟩ := K a (b - 1) (by omega) (by omega)
  obtain ⟨x4, y4, c4, p4, q4⟩ := K (a - 1) (b - 1) (by omega) (by omega)
  simp only [Prog.addends_bind, addends_getMS, valR_getMS, addends_rd, valR_rd, List.nil_append,
    Prog.addends_pure, sub_add_cancel]
  have vb : ∀ {α β : Type} (pr : Prog Arr R α) (f : α → Prog Arr R β), (pr >>= f).valR m =
    (f (pr.valR m)).valR m := by
    intro α β pr f
    induction pr with
    | pure a => rfl
    | read l k ih => exact ih _
    | write l x k ih => exact ih
    | aadd l x k ih => exact ih
  simp only [vb, valR_getMS, valR_rd]
  have vp : ∀ {α : Type} (x : α), (pure x : Prog Arr R α).valR m = x := fun _ => rfl
  have st : ∀ x : R, sgnMul true x = x := fun x => ExactAdd.one_mul' x
  have sf : ∀ x : R, sgnMul false x = -x := fun x => ExactAdd.neg_one_mul' x
  have z1 : ∀ n : Int, n + 0 = n := add_zero
  have z2 : ∀ n : Int, n - 0 = n := sub_zero
  simp only [sub_add_cancel] at x1 x2 x3 x4 y1 y2 y3 y4 p1 p2 p3 p4 q1 q2 q3 q4
  simp only [vp, st, sf, z1, z2, x1, x2, x3, x4, y1, y2, y3, y4, c1, c2, c3, c4, p1, p2, p3,
    q1, q2, q3]
  have t4 := (traceM2_eq p dt q (ms2 m inA) (a - 1) (b - 1)).2.2.2.2.1
  have t2 := (traceM2_eq p dt q (ms2 m inA) (a - 1) b).2.2.2.2.2.1
  have t3 := (traceM2_eq p dt q (ms2 m inA) a (b - 1)).2.2.2.2.2.2.1
  have t1 := (traceM2_eq p dt q (ms2 m inA) a b).2.2.2.2.2.2.2
  unfold emfM2
  rw [t4, t2, t3, t1]
  simp only [sub_add_cancel]
  rfl

theorem V2Data.off {p : Params R} {dt : R} {q u : FldM2 R} {m m' : Mem Arr R} {outs : Arr → Prop}
    (h : V2Data p dt q u m) (s : SameOff outs m m')
    (h1 : ¬ outs .Sx) (h2 : ¬ outs .Sy) (h3 : ¬ outs .Q2) (h4 : ¬ outs .sFaceMag) :
    V2Data p dt q u m' where
  sx := by rw [s.ms2 h1]; exact h.sx
  sy := by rw [s.ms2 h2]; exact h.sy
  q2 := by rw [s.ms2 h3]; exact h.q2
  fx := fun i j a b c d => by rw [s _ h4]; exact h.fx i j a b c d
  fy := fun i j a b c d => by rw [s _ h4]; exact h.fy i j a b c d

/-- **Version 2**, every schedule, exact arithmetic. -/
theorem postMhd2_result2 {p : Params R} (hp : Mhd2 p) (hi : p.implementationVersion = 2)
    {dt : R} (hx : ZeroMul (dt / p.dx)) (hy : ZeroMul (dt / p.dy))
    {jk : JunkM R} {inA outA : Arr} (hpp : PingPong inA outA) {m m' : Mem Arr R}
    (hq : ∀ i j, 0 ≤ i → i < p.isize - 1 → 0 ≤ j → j < p.jsize - 1 →
      ms2 m .Q i j = primM2 p (ms2 m inA) i j)
    (hc : ms2 m outA = ms2 m inA)
    (hm : runLaunches (postMhd2 p dt jk inA outA) m m') :
    SameOff (MhdOuts2 outA) m m' ∧
    ∀ i j, ms2 m' outA i j = stepM2x p dt (ms2 m inA) i j := by
  obtain ⟨v1, v2⟩ := nvM2_ping hpp
  have n1 : inA ∉ ([.Sx, .Sy, .Q2, .ElecField, .sFaceMag] : List Arr) := by
    rcases hpp with ⟨rfl, rfl⟩ | ⟨rfl, rfl⟩ <;> decide
  have n2 : outA ∉ ([.Q, .Sx, .Sy, .Q2, .ElecField, .sFaceMag] : List Arr) := by
    rcases hpp with ⟨rfl, rfl⟩ | ⟨rfl, rfl⟩ <;> decide
  have n3 : outA ≠ inA := by rcases hpp with ⟨rfl, rfl⟩ | ⟨rfl, rfl⟩ <;> decide
  simp only [List.mem_cons, List.not_mem_nil, or_false, not_or] at n1 n2
  obtain ⟨a1, a2, a3, a4, a5⟩ := n1
  obtain ⟨b0, b1, b2, b3, b4, b5⟩ := n2
  unfold runLaunches postMhd2 at hm
  simp only [hi, OfNat.ofNat_ne_zero, OfNat.ofNat_ne_one, if_false, if_true, List.map_cons,
    List.map_nil] at hm
  obtain ⟨m1, k1, m2, k2, m3, k3, m4, k4, m5, k5, m6, k6, m7, k7, rfl⟩ := hm
  obtain ⟨s1, f1⟩ := slopesMhd2_result hp.valid v1 (by simp [a1, a2]) k1
  have i1 : ms2 m1 inA = ms2 m inA := s1.ms2 (by simp [a1, a2])
  have j1 : ms2 m1 .Q = ms2 m .Q := s1.ms2 (by decide)
  obtain ⟨s2, f2⟩ := updatedPrimVarMhd2_result hp.gw v1 a3 (q := ms2 m .Q) j1
    (fun i j h1 h2 h3 h4 => by rw [i1]; exact (f1 i j h1 h2 h3 h4).1)
    (fun i j h1 h2 h3 h4 => by rw [i1]; exact (f1 i j h1 h2 h3 h4).2) k2
  have i2 : ms2 m2 inA = ms2 m inA := (s2.ms2 (by simp [a3])).trans i1
  have j2 : ms2 m2 .Q = ms2 m .Q := (s2.ms2 (by decide)).trans j1
  obtain ⟨s3, f3⟩ := elecFieldMhd2_result v1 a4 k3
  rw [i2, j2] at f3
  have i3 : ms2 m3 inA = ms2 m inA := (s3.ms2 (by simp [a4])).trans i2
  obtain ⟨s4, f4⟩ := sourceFaceMagMhd2_result f3 k4
  have i4 : ms2 m4 inA = ms2 m inA := (s4.ms2 (by simp [a5])).trans i3
  rw [i1] at f2
  have d4 : V2Data p dt (ms2 m .Q) (ms2 m inA) m4 := by
    constructor
    · intro i j h1 h2 h3 h4
      rw [s4.ms2 (by decide), s3.ms2 (by decide), s2.ms2 (by decide)]
      exact (f1 i j h1 h2 h3 h4).1
    · intro i j h1 h2 h3 h4
      rw [s4.ms2 (by decide), s3.ms2 (by decide), s2.ms2 (by decide)]
      exact (f1 i j h1 h2 h3 h4).2
    · intro i j h
      rw [s4.ms2 (by decide), s3.ms2 (by decide)]
      exact f2 i j h
    · exact fun i j h1 h2 h3 h4 => (f4 i j h1 h2 h3 h4).1
    · exact fun i j h1 h2 h3 h4 => (f4 i j h1 h2 h3 h4).2
  obtain ⟨s5, f5⟩ := fluxAlongXMhd2_result hp.wf hp.gw hp.valid v1 v2
    (by simp [n3, b1, b3, b5]) (by rw [i4]; exact d4) k5
  have i5 : ms2 m5 inA = ms2 m inA := (s5.ms2 (by simp [n3.symm])).trans i4
  have d5 : V2Data p dt (ms2 m .Q) (ms2 m inA) m5 := d4.off s5 (by simp [b1, Ne.symm b1])
    (by simp [Ne.symm b2]) (by simp [Ne.symm b3]) (by simp [Ne.symm b5])
  obtain ⟨s6, f6⟩ := fluxAlongYMhd2_result hp.wf hp.gw hp.valid v1 v2
    (by simp [n3, b2, b3, b5]) (by rw [i5]; exact d5) k6
  have i6 : ms2 m6 inA = ms2 m inA := (s6.ms2 (by simp [n3.symm])).trans i5
  have d6 : V2Data p dt (ms2 m .Q) (ms2 m inA) m6 := d5.off s6 (by simp [b1, Ne.symm b1])
    (by simp [Ne.symm b2]) (by simp [Ne.symm b3]) (by simp [Ne.symm b5])
  obtain ⟨s7, f7⟩ := reconstructEmfMhd2_result hp.wf hp.gw v1 v2
    (by simp [n3, b1, b2, b3, b5]) hx hy (by rw [i6]; exact d6) k7
  refine ⟨?_, fun i j => ?_⟩
  · refine (s1.mono ?_).trans ((s2.mono ?_).trans ((s3.mono ?_).trans ((s4.mono ?_).trans
      ((s5.mono ?_).trans ((s6.mono ?_).trans (s7.mono ?_))))))
    all_goals intro a ha; simp only [List.mem_cons, List.not_mem_nil, or_false] at ha
    · rcases ha with rfl | rfl <;> exact Or.inr (by simp)
    · subst ha; exact Or.inr (by simp)
    · subst ha; exact Or.inr (by simp)
    · subst ha; exact Or.inr (by simp)
    · exact Or.inl ha
    · exact Or.inl ha
    · exact Or.inl ha
  have e0 : ms2 m4 outA = ms2 m inA := by
    rw [s4.ms2 (by simp [b5]), s3.ms2 (by simp [b4]), s2.ms2 (by simp [b3]),
      s1.ms2 (by simp [b1, b2]), hc]
  rw [f7 i j, f6 i j, f5 i j, e0, i4, i5, i6]
  have := stepM2x_key _ _ _ (stored_congr hp hq (dt := dt)) i j
  rw [← this]
  by_cases hcg : cellGuard2 p (i, j)
  · simp only [hcg, if_true]; rfl
  · simp only [hcg, if_false]

end EulerKokkos
