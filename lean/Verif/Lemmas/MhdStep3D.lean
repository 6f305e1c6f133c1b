import Verif.Lemmas.Mhd3D
import Verif.Lemmas.MhdStep2D
import Verif.Lemmas.Scheme3D

/-! # What the 3D MHD kernels compute -/

set_option linter.constructorNameAsVariable false
set_option linter.unusedSectionVars false
set_option linter.unusedSimpArgs false
set_option linter.unnecessarySeqFocus false

namespace EulerKokkos

open Prog (rd wr add upd run_bind run_rd run_wr run_pure foot_bind foot_rd foot_wr foot_add
  foot_pure foot_ite foot_pif foot_mono Foot forRange pif)
open Spec

section generic
variable {R : Type} [RealOps R]

theorem forRange3_ms_out {outs : Arr → Prop} {body : Int × Int × Int → Prog Arr R Unit}
    (h : Own3 outs body) {F : Finset (Int × Int × Int)} {m m' : Mem Arr R} (hm : forRange F body m m')
    {a : Arr} {i j k : Int} (ho : outs a) (hij : (i, j, k) ∈ F) :
    ms m' a i j k = ms ((body (i, j, k)).run m).2 a i j k :=
  ms_congr (fun v _ => forRange3_out h hm (l := ⟨a, i, j, k, v⟩) ho hij)

theorem forRange3_ms_else {outs : Arr → Prop} {body : Int × Int × Int → Prog Arr R Unit}
    (h : Own3 outs body) {F : Finset (Int × Int × Int)} {m m' : Mem Arr R} (hm : forRange F body m m')
    {a : Arr} {i j k : Int} (ho : ¬ (outs a ∧ (i, j, k) ∈ F)) :
    ms m' a i j k = ms m a i j k :=
  ms_congr (fun v _ => forRange3_else h hm (l := ⟨a, i, j, k, v⟩) ho)

theorem mem_range3_of {p : Params R} {i j k : Int}
    (h : (0 ≤ i ∧ i < p.isize) ∧ (0 ≤ j ∧ j < p.jsize) ∧ (0 ≤ k ∧ k < p.ksize)) :
    (i, j, k) ∈ range3 p.isize p.jsize p.ksize := by simp only [mem_range3]; omega

theorem faceGuardM3_in {p : Params R} (hw : p.WF) {i j k : Int} (h : faceGuardM3 p (i, j, k)) :
    (i, j, k) ∈ range3 p.isize p.jsize p.ksize := by
  obtain ⟨a, b, c, d, e, f⟩ := h
  have := hw.gw_pos
  simp only at a b c d e f
  exact mem_range3_of (by omega)

theorem innerGuardM3_in {p : Params R} {i j k : Int} (h : innerGuardM3 p (i, j, k)) :
    (i, j, k) ∈ range3 p.isize p.jsize p.ksize := by
  obtain ⟨a, b, c, d, e, f⟩ := h
  simp only at a b c d e f
  exact mem_range3_of (by omega)

theorem traceGuardM3_inner {p : Params R} (hg : 3 ≤ p.ghostWidth) {i j k x y z : Int}
    (h : traceGuardM3 p (i, j, k)) (hx : i ≤ x ∧ x ≤ i + 1) (hy : j ≤ y ∧ y ≤ j + 1)
    (hz : k ≤ z ∧ z ≤ k + 1) : innerGuardM3 p (x, y, z) := by
  obtain ⟨a, b, c, d, e, f⟩ := h
  simp only at a b c d e f
  refine ⟨?_, ?_, ?_, ?_, ?_, ?_⟩ <;> simp only <;> omega

theorem traceGuardM3_in {p : Params R} (hg : 3 ≤ p.ghostWidth) {i j k : Int}
    (h : traceGuardM3 p (i, j, k)) : (i, j, k) ∈ range3 p.isize p.jsize p.ksize :=
  innerGuardM3_in (traceGuardM3_inner hg h (by omega) (by omega) (by omega))

/-- the cells whose traces the flux and emf kernels read -/
theorem traceGuard_near3 {p : Params R} {i j k a b c : Int} (h : faceGuardM3 p (i, j, k))
    (ha : i - 1 ≤ a ∧ a ≤ i) (hb : j - 1 ≤ b ∧ b ≤ j) (hc : k - 1 ≤ c ∧ c ≤ k) :
    traceGuardM3 p (a, b, c) := by
  obtain ⟨h1, h2, h3, h4, h5, h6⟩ := h
  simp only at h1 h2 h3 h4 h5 h6
  refine ⟨?_, ?_, ?_, ?_, ?_, ?_⟩ <;> simp only <;> omega

theorem cell_faces3 {p : Params R} {i j k : Int} (h : cellGuard3 p (i, j, k)) :
    faceGuardM3 p (i, j, k) ∧ faceGuardM3 p (i + 1, j, k) ∧ faceGuardM3 p (i, j + 1, k) ∧
      faceGuardM3 p (i, j, k + 1) := by
  obtain ⟨a, b, c, d, e, f⟩ := h
  simp only at a b c d e f
  refine ⟨⟨?_, ?_, ?_, ?_, ?_, ?_⟩, ⟨?_, ?_, ?_, ?_, ?_, ?_⟩, ⟨?_, ?_, ?_, ?_, ?_, ?_⟩,
    ⟨?_, ?_, ?_, ?_, ?_, ?_⟩⟩ <;> simp only <;> omega

/-! ## Locality -/

theorem elecM3_congr {q q' u u' : FldM3 R} {d : Dir} {i j k : Int}
    (hq : ∀ a b c, i - 1 ≤ a → a ≤ i → j - 1 ≤ b → b ≤ j → k - 1 ≤ c → c ≤ k → q a b c = q' a b c)
    (hu : ∀ a b c, i - 1 ≤ a → a ≤ i → j - 1 ≤ b → b ≤ j → k - 1 ≤ c → c ≤ k → u a b c = u' a b c) :
    elecM3 q u d i j k = elecM3 q' u' d i j k := by
  cases d <;> simp (disch := omega) only [elecM3, hq, hu]

theorem faceSlopeM3_congr {p : Params R} {u u' : Int → Int → Int → R} {d : Dir} {i j k : Int}
    (hu : ∀ a b c, i - 1 ≤ a → a ≤ i + 1 → j - 1 ≤ b → b ≤ j + 1 → k - 1 ≤ c → c ≤ k + 1 →
      u a b c = u' a b c) :
    faceSlopeM3 p u d i j k = faceSlopeM3 p u' d i j k := by
  cases d <;> simp only [faceSlopeM3, Dir.delta, add_zero, sub_zero] <;>
    simp (disch := omega) only [hu]

theorem traceInM3_congr {p : Params R} {q q' u u' : FldM3 R} {i j k : Int}
    (hq : ∀ a b c, i - 1 ≤ a → a ≤ i + 1 → j - 1 ≤ b → b ≤ j + 1 → k - 1 ≤ c → c ≤ k + 1 →
      q a b c = q' a b c)
    (hu : ∀ a b c, i - 1 ≤ a → a ≤ i + 2 → j - 1 ≤ b → b ≤ j + 2 → k - 1 ≤ c → c ≤ k + 2 →
      u a b c = u' a b c) :
    traceInM3 p q u i j k = traceInM3 p q' u' i j k := by
  have e : ∀ d x y z, i ≤ x → x ≤ i + 1 → j ≤ y → y ≤ j + 1 → k ≤ z → z ≤ k + 1 →
      elecM3 q u d x y z = elecM3 q' u' d x y z := fun d x y z _ _ _ _ _ _ =>
    elecM3_congr (fun a b c _ _ _ _ _ _ => hq a b c (by omega) (by omega) (by omega) (by omega)
      (by omega) (by omega))
      (fun a b c _ _ _ _ _ _ => hu a b c (by omega) (by omega) (by omega) (by omega)
      (by omega) (by omega))
  have s : ∀ (f : MS R → R) d x y z, i ≤ x → x ≤ i + 1 → j ≤ y → y ≤ j + 1 → k ≤ z → z ≤ k + 1 →
      faceSlopeM3 p (fun a b c => f (u a b c)) d x y z
        = faceSlopeM3 p (fun a b c => f (u' a b c)) d x y z := fun f d x y z _ _ _ _ _ _ =>
    faceSlopeM3_congr (fun a b c _ _ _ _ _ _ => by
      rw [hu a b c (by omega) (by omega) (by omega) (by omega) (by omega) (by omega)])
  have sa := s MS.a
  have sb := s MS.b
  have sc := s MS.c
  simp (disch := omega) only [traceInM3, e, sa, sb, sc, hq, hu]

theorem primM3_congr {p : Params R} {u u' : FldM3 R} {i j k : Int}
    (hu : ∀ a b c, i ≤ a → a ≤ i + 1 → j ≤ b → b ≤ j + 1 → k ≤ c → c ≤ k + 1 → u a b c = u' a b c) :
    primM3 p u i j k = primM3 p u' i j k := by
  simp (disch := omega) only [primM3, hu]

theorem traceM3_congr {p : Params R} {dt : R} {q q' u u' : FldM3 R} {i j k : Int}
    (hq : ∀ a b c, i - 1 ≤ a → a ≤ i + 1 → j - 1 ≤ b → b ≤ j + 1 → k - 1 ≤ c → c ≤ k + 1 →
      q a b c = q' a b c)
    (hu : ∀ a b c, i - 1 ≤ a → a ≤ i + 2 → j - 1 ≤ b → b ≤ j + 2 → k - 1 ≤ c → c ≤ k + 2 →
      u a b c = u' a b c) :
    traceM3 p dt q u i j k = traceM3 p dt q' u' i j k := by
  unfold traceM3; rw [traceInM3_congr hq hu]

/-- two sets of fluxes agree on the faces and edges of a cell -/
def FluxM3.EqAt (F G : FluxM3 R) (i j k : Int) : Prop :=
  F.x i j k = G.x i j k ∧ F.y i j k = G.y i j k ∧ F.z i j k = G.z i j k ∧
    ∀ d, F.e d i j k = G.e d i j k

theorem fluxOfTraces_congr {p : Params R} {T T' : Int → Int → Int → TraceM3 R} {i j k : Int}
    (h : ∀ a b c, i - 1 ≤ a → a ≤ i → j - 1 ≤ b → b ≤ j → k - 1 ≤ c → c ≤ k → T a b c = T' a b c) :
    (fluxOfTraces p T).EqAt (fluxOfTraces p T') i j k := by
  refine ⟨?_, ?_, ?_, fun d => ?_⟩
  · simp (disch := omega) only [fluxOfTraces, h]
  · simp (disch := omega) only [fluxOfTraces, h]
  · simp (disch := omega) only [fluxOfTraces, h]
  · cases d <;> simp (disch := omega) only [fluxOfTraces, h]

/-- the step of a cell depends on the fluxes of its own and next faces -/
theorem stepOf_congr {F G : FluxM3 R} {i j k : Int} {dtdx dtdy dtdz : R} {u : MS R}
    (h0 : F.EqAt G i j k) (hx : F.EqAt G (i + 1) j k) (hy : F.EqAt G i (j + 1) k)
    (hz : F.EqAt G i j (k + 1)) :
    ctUpdate3 F.e dtdx dtdy dtdz (fluxUpdateM3 F dtdx dtdy dtdz u i j k) i j k =
      ctUpdate3 G.e dtdx dtdy dtdz (fluxUpdateM3 G dtdx dtdy dtdz u i j k) i j k := by
  unfold ctUpdate3 fluxUpdateM3
  simp only [h0.1, h0.2.1, h0.2.2.1, h0.2.2.2, hx.1, hx.2.2.2, hy.2.1, hy.2.2.2, hz.2.2.1, hz.2.2.2]

/-! ## Kernel results -/

theorem convertMhd3_result {p : Params R} {U : Arr} (hU : nvM3 U = 8) (h : U ≠ .Q)
    {m m' : Mem Arr R} (hm : forRange (range3 p.isize p.jsize p.ksize) (convertMhd3 p U .Q) m m') :
    SameOff (· ∈ [Arr.Q]) m m' ∧ ∀ i j k, 0 ≤ i → i < p.isize - 1 → 0 ≤ j → j < p.jsize - 1 →
      0 ≤ k → k < p.ksize - 1 → ms m' .Q i j k = primM3 p (ms m U) i j k := by
  have ho := (foot_convertMhd3 p hU).own (by simpa using h)
  refine ⟨sameOff_forRange3 ho hm, fun i j k h1 h2 h3 h4 h5 h6 => ?_⟩
  rw [forRange3_ms_out ho hm (by simp) (mem_range3_of (by omega))]
  unfold convertMhd3
  rw [if_pos (by simp only; omega)]
  simp only [run_bind, run_getMS, run_rd, run_putMS]
  rw [ms_setMemM_same]; rfl

/-- the stored electric field -/
def ElecOf (p : Params R) (m : Mem Arr R) (q u : FldM3 R) : Prop :=
  ∀ d i j k, innerGuardM3 p (i, j, k) → m ⟨.ElecField, i, j, k, Dir.num d⟩ = elecM3 q u d i j k

theorem elecFieldMhd3_result {p : Params R} {U : Arr} (hU : nvM3 U = 8) (h : U ≠ .ElecField)
    {m m' : Mem Arr R} (hm : forRange (range3 p.isize p.jsize p.ksize) (elecFieldMhd3 p U .Q) m m') :
    SameOff (· ∈ [Arr.ElecField]) m m' ∧ ElecOf p m' (ms m .Q) (ms m U) := by
  have ho := (foot_elecFieldMhd3 p hU).own (by
    intro a ha; simp at ha ⊢; rcases ha with rfl | rfl
    · exact h
    · decide)
  refine ⟨sameOff_forRange3 ho hm, fun d i j k hg => ?_⟩
  rw [forRange3_out ho hm (l := ⟨.ElecField, i, j, k, d.num⟩) (by simp) (innerGuardM3_in hg)]
  unfold elecFieldMhd3 mean4 mean2
  rw [if_pos hg]
  simp only [run_bind, run_rd, run_wr, run_pure, IX, IY, IZ]
  cases d <;>
    simp [upd, Loc.mk.injEq, Dir.num, h, elecM3, avg4, avg2, ms]

/-- the stored transverse slopes of the face-centred field -/
def DeltaOf (p : Params R) (m : Mem Arr R) (u : FldM3 R) : Prop :=
  ∀ i j k, innerGuardM3 p (i, j, k) →
    m ⟨.DeltaA, i, j, k, 1⟩ = faceSlopeM3 p (fun i j k => (u i j k).a) .y i j k ∧
    m ⟨.DeltaA, i, j, k, 2⟩ = faceSlopeM3 p (fun i j k => (u i j k).a) .z i j k ∧
    m ⟨.DeltaB, i, j, k, 0⟩ = faceSlopeM3 p (fun i j k => (u i j k).b) .x i j k ∧
    m ⟨.DeltaB, i, j, k, 2⟩ = faceSlopeM3 p (fun i j k => (u i j k).b) .z i j k ∧
    m ⟨.DeltaC, i, j, k, 0⟩ = faceSlopeM3 p (fun i j k => (u i j k).c) .x i j k ∧
    m ⟨.DeltaC, i, j, k, 1⟩ = faceSlopeM3 p (fun i j k => (u i j k).c) .y i j k

theorem magSlopesMhd3_result {p : Params R} {U : Arr} (hU : nvM3 U = 8)
    (h : U ∉ ([.DeltaA, .DeltaB, .DeltaC] : List Arr))
    {m m' : Mem Arr R} (hm : forRange (range3 p.isize p.jsize p.ksize) (magSlopesMhd3 p U) m m') :
    SameOff (· ∈ [Arr.DeltaA, .DeltaB, .DeltaC]) m m' ∧ DeltaOf p m' (ms m U) := by
  have ho := (foot_magSlopesMhd3 p hU).own (by
    intro a ha; simp only [List.mem_singleton] at ha; subst ha; exact h)
  refine ⟨sameOff_forRange3 ho hm, fun i j k hg => ?_⟩
  have hin := innerGuardM3_in hg
  refine ⟨?_, ?_, ?_, ?_, ?_, ?_⟩
  all_goals
    first
      | rw [forRange3_out ho hm (l := ⟨.DeltaA, i, j, k, _⟩) (by simp) hin]
      | rw [forRange3_out ho hm (l := ⟨.DeltaB, i, j, k, _⟩) (by simp) hin]
      | rw [forRange3_out ho hm (l := ⟨.DeltaC, i, j, k, _⟩) (by simp) hin]
    unfold magSlopesMhd3 magSlope3
    rw [if_pos hg]
    simp only [run_bind, run_rd, run_wr, run_pure]
    simp [upd, Loc.mk.injEq, faceSlopeM3, Dir.delta, ms]

/-- the states stored by the trace kernel -/
structure TracesOf3 (m : Mem Arr R) (T : Int → Int → Int → TraceM3 R) (i j k : Int) : Prop where
  qmx : ms m .Qm_x i j k = (T i j k).qmx
  qpx : ms m .Qp_x i j k = (T i j k).qpx
  qmy : ms m .Qm_y i j k = (T i j k).qmy
  qpy : ms m .Qp_y i j k = (T i j k).qpy
  qmz : ms m .Qm_z i j k = (T i j k).qmz
  qpz : ms m .Qp_z i j k = (T i j k).qpz
  xrt : ms m (.QEdge 0) i j k = (T i j k).ex.rt
  xrb : ms m (.QEdge 1) i j k = (T i j k).ex.rb
  xlt : ms m (.QEdge 2) i j k = (T i j k).ex.lt
  xlb : ms m (.QEdge 3) i j k = (T i j k).ex.lb
  yrt : ms m (.QEdge 4) i j k = (T i j k).ey.rt
  yrb : ms m (.QEdge 5) i j k = (T i j k).ey.rb
  ylt : ms m (.QEdge 6) i j k = (T i j k).ey.lt
  ylb : ms m (.QEdge 7) i j k = (T i j k).ey.lb
  zrt : ms m (.QEdge 8) i j k = (T i j k).ez.rt
  zrb : ms m (.QEdge 9) i j k = (T i j k).ez.rb
  zlt : ms m (.QEdge 10) i j k = (T i j k).ez.lt
  zlb : ms m (.QEdge 11) i j k = (T i j k).ez.lb

theorem TracesOf3.mono {m m' : Mem Arr R} {T : Int → Int → Int → TraceM3 R} {i j k : Int}
    (h : TracesOf3 m T i j k) {outs : Arr → Prop} (hs : SameOff outs m m')
    (hn : ∀ a ∈ traceOuts3, ¬ outs a) : TracesOf3 m' T i j k := by
  constructor <;> rw [hs.ms (hn _ (by decide))]
  exacts [h.qmx, h.qpx, h.qmy, h.qpy, h.qmz, h.qpz, h.xrt, h.xrb, h.xlt, h.xlb, h.yrt, h.yrb, h.ylt,
    h.ylb, h.zrt, h.zrb, h.zlt, h.zlb]

theorem run_getTraceIn3 {p : Params R} (hg3 : 3 ≤ p.ghostWidth) {U : Arr} {m : Mem Arr R} {q : FldM3 R}
    (hE : ElecOf p m q (ms m U)) (hQ : ms m .Q = q) (hD : DeltaOf p m (ms m U)) {i j k : Int}
    (hg : traceGuardM3 p (i, j, k)) :
    (getTraceIn3 U .Q i j k).run m = (traceInM3 p q (ms m U) i j k, m) := by
  have g := fun x y z h1 h2 h3 => traceGuardM3_inner (x := x) (y := y) (z := z) hg3 hg h1 h2 h3
  have D0 := hD i j k (g _ _ _ (by omega) (by omega) (by omega))
  have D1 := hD (i + 1) j k (g _ _ _ (by omega) (by omega) (by omega))
  have D2 := hD i (j + 1) k (g _ _ _ (by omega) (by omega) (by omega))
  have D3 := hD i j (k + 1) (g _ _ _ (by omega) (by omega) (by omega))
  have Ex := fun x y z h1 h2 h3 => hE .x x y z (g x y z h1 h2 h3)
  have Ey := fun x y z h1 h2 h3 => hE .y x y z (g x y z h1 h2 h3)
  have Ez := fun x y z h1 h2 h3 => hE .z x y z (g x y z h1 h2 h3)
  simp only [Dir.num] at Ex Ey Ez
  unfold getTraceIn3
  simp only [run_bind, run_getMS, run_rd, run_pure, IX, IY, IZ, D0, D1, D2, D3, hQ]
  simp (disch := omega) only [Ex, Ey, Ez]
  rfl

theorem traceMhd3_result {p : Params R} (hg3 : 3 ≤ p.ghostWidth)
    {U : Arr} (hU : nvM3 U = 8) (hn : U ∉ traceOuts3) {dt : R} {m m' : Mem Arr R} {q : FldM3 R}
    (hE : ElecOf p m q (ms m U)) (hQ : ms m .Q = q) (hD : DeltaOf p m (ms m U))
    (hm : forRange (range3 p.isize p.jsize p.ksize)
      (computeTraceMhd3 p U .Q (dt / p.dx) (dt / p.dy) (dt / p.dz)) m m') :
    SameOff (· ∈ traceOuts3) m m' ∧ ∀ i j k, traceGuardM3 p (i, j, k) →
      TracesOf3 m' (traceM3 p dt q (ms m U)) i j k := by
  have ho := (foot_computeTraceMhd3 p hU (dt / p.dx) (dt / p.dy) (dt / p.dz)).own (by
    intro a ha
    simp only [List.mem_cons, List.not_mem_nil, or_false] at ha
    rcases ha with rfl | rfl | rfl | rfl | rfl | rfl
    · exact hn
    all_goals decide)
  refine ⟨sameOff_forRange3 ho hm, fun i j k hg => ?_⟩
  have hin := traceGuardM3_in hg3 hg
  have key : ∀ a, a ∈ traceOuts3 → ms m' a i j k =
      ms ((computeTraceMhd3 p U .Q (dt / p.dx) (dt / p.dy) (dt / p.dz) (i, j, k)).run m).2 a i j k :=
    fun a ha => forRange3_ms_out ho hm ha hin
  have hrun : ∃ T : TraceM3 R, T = traceM3 p dt q (ms m U) i j k ∧
      ((computeTraceMhd3 p U .Q (dt / p.dx) (dt / p.dy) (dt / p.dz) (i, j, k)).run m).2 =
      setMemM (setMemM (setMemM (setMemM (setMemM (setMemM (setMemM (setMemM (setMemM (setMemM
        (setMemM (setMemM (setMemM (setMemM (setMemM (setMemM (setMemM (setMemM m
        .Qm_x i j k T.qmx) .Qp_x i j k T.qpx) .Qm_y i j k T.qmy) .Qp_y i j k T.qpy)
        .Qm_z i j k T.qmz) .Qp_z i j k T.qpz)
        (.QEdge 0) i j k T.ex.rt) (.QEdge 1) i j k T.ex.rb) (.QEdge 2) i j k T.ex.lt)
        (.QEdge 3) i j k T.ex.lb)
        (.QEdge 4) i j k T.ey.rt) (.QEdge 5) i j k T.ey.rb) (.QEdge 6) i j k T.ey.lt)
        (.QEdge 7) i j k T.ey.lb)
        (.QEdge 8) i j k T.ez.rt) (.QEdge 9) i j k T.ez.rb) (.QEdge 10) i j k T.ez.lt)
        (.QEdge 11) i j k T.ez.lb := by
    refine ⟨_, rfl, ?_⟩
    unfold computeTraceMhd3
    rw [if_pos hg]
    simp only [run_bind, run_putMS]
    rw [run_getTraceIn3 hg3 hE hQ hD hg]
    rfl
  obtain ⟨T, hT, hrun⟩ := hrun
  constructor <;> rw [key _ (by decide), hrun, ← hT] <;>
    simp only [ms_setMemM_same, ms_setMemM_arr, ne_eq, reduceCtorEq, not_false_eq_true, Arr.QEdge.injEq,
      Nat.reduceEqDiff, zero_ne_one, one_ne_zero, OfNat.zero_ne_ofNat, OfNat.one_ne_ofNat]

theorem MS.swapXZ_swapXZ (q : MS R) : q.swapXZ.swapXZ = q := rfl

theorem fluxesAndStoreMhd3_result {p : Params R} (hw : p.WF) (hv : ValidM p) {jk : JunkM R}
    {T : Int → Int → Int → TraceM3 R} {m m' : Mem Arr R}
    (hT : ∀ i j k, traceGuardM3 p (i, j, k) → TracesOf3 m T i j k)
    (hm : forRange (range3 p.isize p.jsize p.ksize) (fluxesAndStoreMhd3 p .Fx .Fy .Fz jk) m m') :
    SameOff (· ∈ [Arr.Fx, .Fy, .Fz]) m m' ∧ ∀ i j k, faceGuardM3 p (i, j, k) →
      ms m' .Fx i j k = (fluxOfTraces p T).x i j k ∧
      ms m' .Fy i j k = ((fluxOfTraces p T).y i j k).swapXY ∧
      ms m' .Fz i j k = ((fluxOfTraces p T).z i j k).swapXZ := by
  have ho := (foot_fluxesAndStoreMhd3 p jk).own (by decide)
  refine ⟨sameOff_forRange3 ho hm, fun i j k hg => ?_⟩
  have hin := faceGuardM3_in hw hg
  have tr := fun x y z h1 h2 h3 => hT x y z (traceGuard_near3 hg h1 h2 h3)
  have t0 := tr i j k (by omega) (by omega) (by omega)
  have t1 := tr (i - 1) j k (by omega) (by omega) (by omega)
  have t2 := tr i (j - 1) k (by omega) (by omega) (by omega)
  have t3 := tr i j (k - 1) (by omega) (by omega) (by omega)
  have hrun : ((fluxesAndStoreMhd3 p .Fx .Fy .Fz jk (i, j, k)).run m).2 =
      setMemM (setMemM (setMemM m .Fx i j k ((fluxOfTraces p T).x i j k)) .Fy i j k
        ((fluxOfTraces p T).y i j k).swapXY) .Fz i j k ((fluxOfTraces p T).z i j k).swapXZ := by
    unfold fluxesAndStoreMhd3
    rw [if_pos hg]
    simp only [run_bind, run_getMS, run_putMS]
    simp only [ms_setMemM_arr, ne_eq, reduceCtorEq, not_false_eq_true, t1.qmx, t0.qpx, t2.qmy, t0.qpy,
      t3.qmz, t0.qpz]
    rw [riemannMhd_valid hv _ _ (jk 4 i j k) MS.zero,
      riemannMhd_valid hv (T i (j - 1) k).qmy.swapXY _ (riemannMhd _ _ _ _ _) MS.zero,
      riemannMhd_valid hv (T i j (k - 1)).qmz.swapXZ _ (riemannMhd _ _ _ _ _) MS.zero]
    rfl
  refine ⟨?_, ?_, ?_⟩ <;> rw [forRange3_ms_out ho hm (by simp) hin, hrun]
  · rw [ms_setMemM_arr _ _ _ _ _ (by decide), ms_setMemM_arr _ _ _ _ _ (by decide), ms_setMemM_same]
  · rw [ms_setMemM_arr _ _ _ _ _ (by decide), ms_setMemM_same]
  · rw [ms_setMemM_same]

/-- the electromotive force computed from the stored edge states -/
theorem edge4_traces3 {p : Params R} {T : Int → Int → Int → TraceM3 R} {m : Mem Arr R}
    (hT : ∀ i j k, traceGuardM3 p (i, j, k) → TracesOf3 m T i j k) {i j k : Int}
    (hg : faceGuardM3 p (i, j, k)) (d : EmfDir) :
    computeEmf p.settings d ((getEdge4M3 d i j k).run m).1 = (fluxOfTraces p T).e d i j k := by
  have tr := fun x y z h1 h2 h3 => hT x y z (traceGuard_near3 hg h1 h2 h3)
  have t0 := tr i j k (by omega) (by omega) (by omega)
  have t1 := tr (i - 1) j k (by omega) (by omega) (by omega)
  have t2 := tr i (j - 1) k (by omega) (by omega) (by omega)
  have t3 := tr i j (k - 1) (by omega) (by omega) (by omega)
  have t4 := tr (i - 1) (j - 1) k (by omega) (by omega) (by omega)
  have t5 := tr (i - 1) j (k - 1) (by omega) (by omega) (by omega)
  have t6 := tr i (j - 1) (k - 1) (by omega) (by omega) (by omega)
  cases d <;> unfold getEdge4M3 fluxOfTraces <;> simp only [run_bind, run_getMS, run_pure]
  · rw [t6.xrt, t2.xrb, t3.xlt, t0.xlb]
  · rw [t5.yrt, t3.ylt, t1.yrb, t0.ylb]
  · rw [t4.zrt, t1.zrb, t2.zlt, t0.zlb]

theorem run_getEdge4M3_mem (d : EmfDir) (i j k : Int) (m : Mem Arr R) :
    ((getEdge4M3 d i j k).run m).2 = m := by cases d <;> rfl

theorem run_getEdge4M3_upd (d : EmfDir) (i j k : Int) (m : Mem Arr R) {l : Loc Arr} {x : R}
    (h : l.arr = .Emf) : ((getEdge4M3 d i j k).run (upd m l x)).1 = ((getEdge4M3 d i j k).run m).1 := by
  have e : ∀ n a b c, ms (upd m l x) (.QEdge n) a b c = ms m (.QEdge n) a b c := by
    intro n a b c
    obtain ⟨la, l1, l2, l3, l4⟩ := l
    simp only at h; subst h
    simp [ms, upd, Loc.mk.injEq]
  cases d <;> unfold getEdge4M3 <;> simp only [run_bind, run_getMS, run_pure, e]

theorem emfAndStoreMhd3_result {p : Params R} (hw : p.WF)
    {T : Int → Int → Int → TraceM3 R} {m m' : Mem Arr R}
    (hT : ∀ i j k, traceGuardM3 p (i, j, k) → TracesOf3 m T i j k)
    (hm : forRange (range3 p.isize p.jsize p.ksize) (emfAndStoreMhd3 p .Emf) m m') :
    SameOff (· ∈ [Arr.Emf]) m m' ∧ ∀ d i j k, faceGuardM3 p (i, j, k) →
      m' ⟨.Emf, i, j, k, EmfDir.slot d⟩ = (fluxOfTraces p T).e d i j k := by
  have ho := (foot_emfAndStoreMhd3 p).own (by decide)
  refine ⟨sameOff_forRange3 ho hm, fun d i j k hg => ?_⟩
  rw [forRange3_out ho hm (l := ⟨.Emf, i, j, k, d.slot⟩) (by simp) (faceGuardM3_in hw hg)]
  unfold emfAndStoreMhd3
  rw [if_pos hg]
  simp only [run_bind, run_wr, run_getEdge4M3_mem, run_getEdge4M3_upd, edge4_traces3 hT hg]
  cases d <;> simp [upd, Loc.mk.injEq, EmfDir.slot]

theorem cellGuard3_in {p : Params R} (hw : p.WF) {i j k : Int} (h : cellGuard3 p (i, j, k)) :
    (i, j, k) ∈ range3 p.isize p.jsize p.ksize := faceGuardM3_in hw (cell_faces3 h).1

theorem updateMhd3_result {p : Params R} (hw : p.WF) {U : Arr} (hU : nvM3 U = 8)
    (hn : U ∉ ([.Fx, .Fy, .Fz] : List Arr)) {dtdx dtdy dtdz : R} {m m' : Mem Arr R}
    (hm : forRange (range3 p.isize p.jsize p.ksize) (updateMhd3 p U .Fx .Fy .Fz dtdx dtdy dtdz) m m')
    (e : EmfDir → Int → Int → Int → R) :
    SameOff (· ∈ [U]) m m' ∧ ∀ i j k, ms m' U i j k =
      if cellGuard3 p (i, j, k) then
        fluxUpdateM3 ⟨ms m .Fx, fun i j k => (ms m .Fy i j k).swapXY,
          fun i j k => (ms m .Fz i j k).swapXZ, e⟩ dtdx dtdy dtdz (ms m U i j k) i j k
      else ms m U i j k := by
  have ho := (foot_updateMhd3 p hU dtdx dtdy dtdz).own (by
    intro a ha h; simp only [List.mem_singleton] at h; subst h; exact hn ha)
  refine ⟨sameOff_forRange3 ho hm, fun i j k => ?_⟩
  by_cases hin : (i, j, k) ∈ range3 p.isize p.jsize p.ksize
  · rw [forRange3_ms_out ho hm (by simp) hin]
    unfold updateMhd3
    split
    · simp only [run_bind, run_getMS, run_putMS, ms_setMemM_same]
      rfl
    · rfl
  · rw [forRange3_ms_else ho hm (fun hh => hin hh.2), if_neg (fun h => hin (cellGuard3_in hw h))]

theorem updateEmfMhd3_result {p : Params R} (hw : p.WF) {U : Arr} (hU : nvM3 U = 8)
    (h1 : U ≠ .Emf) {dtdx dtdy dtdz : R} {m m' : Mem Arr R}
    (hm : forRange (range3 p.isize p.jsize p.ksize) (updateEmfMhd3 p U .Emf dtdx dtdy dtdz) m m') :
    SameOff (· ∈ [U]) m m' ∧ ∀ i j k, ms m' U i j k =
      if cellGuard3 p (i, j, k) then
        ctUpdate3 (fun d i j k => m ⟨.Emf, i, j, k, d.slot⟩) dtdx dtdy dtdz (ms m U i j k) i j k
      else ms m U i j k := by
  have ho := (foot_updateEmfMhd3 p hU dtdx dtdy dtdz).own (by
    intro a ha; simp at ha ⊢; subst ha; exact h1.symm)
  refine ⟨sameOff_forRange3 ho hm, fun i j k => ?_⟩
  by_cases hin : (i, j, k) ∈ range3 p.isize p.jsize p.ksize
  · rw [forRange3_ms_out ho hm (by simp) hin]
    unfold updateEmfMhd3 diffRd
    split
    · simp only [run_bind, run_rd, run_wr, run_getMS, run_pure]
      simp [upd, ms, ctUpdate3, Loc.mk.injEq, h1.symm, ID, IP, IU, IV, IW, IA, IB, IC]
    · rfl
  · rw [forRange3_ms_else ho hm (fun hh => hin hh.2), if_neg (fun h => hin (cellGuard3_in hw h))]

/-! ## Version 0 -/

/-- views written after the ghost fill -/
def MhdOuts3 (outA a : Arr) : Prop :=
  a = outA ∨ a ∈ ([.Q, .Fx, .Fy, .Fz, .Emf, .Q2, .Sx, .Sy, .Sz, .sFaceMag, .ElecField, .DeltaA, .DeltaB,
    .DeltaC] ++ traceOuts3 : List Arr)

theorem mhdOuts3_sub {l : List Arr} (h : ∀ a ∈ l, a ∈ ([.Q, .Fx, .Fy, .Fz, .Emf, .Q2, .Sx, .Sy, .Sz,
    .sFaceMag, .ElecField, .DeltaA, .DeltaB, .DeltaC] ++ traceOuts3 : List Arr)) (a : Arr) (ha : a ∈ l) :
    a ∈ ([.Q, .Fx, .Fy, .Fz, .Emf, .Q2, .Sx, .Sy, .Sz, .sFaceMag, .ElecField, .DeltaA, .DeltaB,
    .DeltaC] ++ traceOuts3 : List Arr) := h a ha

/-- a 3D MHD run -/
structure Mhd3 (p : Params R) : Prop where
  wf : p.WF
  gw : 3 ≤ p.ghostWidth
  nbvar : p.nbvar = 8
  valid : ValidM p
  faces : Faces3Ok p

/-- the primitive field is stored -/
def PrimOf3 (p : Params R) (q u : FldM3 R) : Prop :=
  ∀ i j k, 0 ≤ i → i < p.isize - 1 → 0 ≤ j → j < p.jsize - 1 → 0 ≤ k → k < p.ksize - 1 →
    q i j k = primM3 p u i j k

/-- the traces of the stored primitive field are those of the conservative field -/
theorem tracesM3_stored {p : Params R} (hg : 3 ≤ p.ghostWidth) {dt : R} {q u : FldM3 R}
    (hq : PrimOf3 p q u) {i j k : Int} (h : traceGuardM3 p (i, j, k)) :
    traceM3 p dt q u i j k = traceM3 p dt (primM3 p u) u i j k := by
  obtain ⟨h1, h2, h3, h4, h5, h6⟩ := h
  simp only at h1 h2 h3 h4 h5 h6
  exact traceM3_congr (fun a b c _ _ _ _ _ _ => hq a b c (by omega) (by omega) (by omega) (by omega)
    (by omega) (by omega)) (fun _ _ _ _ _ _ _ _ _ => rfl)

theorem fluxes_stored3 {p : Params R} (hg : 3 ≤ p.ghostWidth) {dt : R} {q u : FldM3 R}
    (hq : PrimOf3 p q u) {i j k : Int} (h : faceGuardM3 p (i, j, k)) :
    (fluxOfTraces p (traceM3 p dt q u)).EqAt (fluxesM3 p dt u) i j k :=
  fluxOfTraces_congr (fun _ _ _ _ _ _ _ _ _ =>
    tracesM3_stored hg hq (traceGuard_near3 h (by omega) (by omega) (by omega)))

theorem cellGuard3_inner {p : Params R} (hw : p.WF) (i j k : Int) :
    cellGuard3 p (i, j, k) ↔ interior3 p i j k := cellGuard3_iff hw i j k

theorem stepOfM3_key {p : Params R} (hw : p.WF) {dt : R} {u : FldM3 R} (F G : FluxM3 R)
    (h : ∀ i j k, faceGuardM3 p (i, j, k) → F.EqAt G i j k) (i j k : Int) :
    (if cellGuard3 p (i, j, k) then
      ctUpdate3 F.e (dt / p.dx) (dt / p.dy) (dt / p.dz)
        (if cellGuard3 p (i, j, k) then
          fluxUpdateM3 F (dt / p.dx) (dt / p.dy) (dt / p.dz) (u i j k) i j k else u i j k) i j k
     else (if cellGuard3 p (i, j, k) then
          fluxUpdateM3 F (dt / p.dx) (dt / p.dy) (dt / p.dz) (u i j k) i j k else u i j k))
      = stepOfM3 p dt G u i j k := by
  unfold stepOfM3
  by_cases hc : cellGuard3 p (i, j, k)
  · have hc' := (cellGuard3_inner hw i j k).1 hc
    obtain ⟨f1, f2, f3, f4⟩ := cell_faces3 hc
    simp only [hc, hc', if_true]
    exact stepOf_congr (h _ _ _ f1) (h _ _ _ f2) (h _ _ _ f3) (h _ _ _ f4)
  · have hc' : ¬ interior3 p i j k := fun h => hc ((cellGuard3_inner hw i j k).2 h)
    simp only [hc, hc', if_false]

theorem schemeM3_not2 {p : Params R} (h : p.implementationVersion ≠ 2) (dt : R) (u : FldM3 R) :
    schemeM3 p dt u = fluxesM3 p dt u := if_neg h

/-- **Version 0**, every schedule, any arithmetic. -/
theorem postMhd3_result0 {p : Params R} (hp : Mhd3 p) (hi : p.implementationVersion = 0)
    {dt : R} {jk : JunkM R} {inA outA : Arr} (hpp : PingPong inA outA) {m m' : Mem Arr R}
    (hq : PrimOf3 p (ms m .Q) (ms m inA)) (hc : ms m outA = ms m inA)
    (hm : runLaunches (postMhd3 p dt jk inA outA) m m') :
    SameOff (MhdOuts3 outA) m m' ∧
    ∀ i j k, ms m' outA i j k = stepM3 p dt (ms m inA) i j k := by
  obtain ⟨v1, v2⟩ := nvM3_ping hpp
  have nI : ∀ a ∈ ([.ElecField, .DeltaA, .DeltaB, .DeltaC, .Fx, .Fy, .Fz, .Emf] ++ traceOuts3 : List Arr),
      a ≠ inA ∧ a ≠ outA := by
    rcases hpp with ⟨rfl, rfl⟩ | ⟨rfl, rfl⟩ <;> decide
  have n1 : inA ∉ traceOuts3 := fun h => (nI _ (List.mem_append_right _ h)).1 rfl
  have n2 : outA ∉ traceOuts3 := fun h => (nI _ (List.mem_append_right _ h)).2 rfl
  have n3 : inA ≠ .ElecField := (nI .ElecField (by decide)).1.symm
  have n3' : outA ≠ .ElecField := (nI .ElecField (by decide)).2.symm
  have n4 : inA ∉ ([.DeltaA, .DeltaB, .DeltaC] : List Arr) := by
    rcases hpp with ⟨rfl, rfl⟩ | ⟨rfl, rfl⟩ <;> decide
  have n4' : outA ∉ ([.DeltaA, .DeltaB, .DeltaC] : List Arr) := by
    rcases hpp with ⟨rfl, rfl⟩ | ⟨rfl, rfl⟩ <;> decide
  have n5 : outA ∉ ([.Fx, .Fy, .Fz] : List Arr) := by
    rcases hpp with ⟨rfl, rfl⟩ | ⟨rfl, rfl⟩ <;> decide
  have n6 : outA ≠ .Emf := (nI .Emf (by decide)).2.symm
  have n6' : ¬ outA ∈ ([.Emf] : List Arr) := by simpa using n6
  unfold runLaunches postMhd3 at hm
  simp only [hi, if_true, List.map_cons, List.map_nil] at hm
  obtain ⟨m1, k1, m2, k2, m3, k3, m4, k4, m5, k5, m6, k6, m7, k7, rfl⟩ := hm
  obtain ⟨s1, f1⟩ := elecFieldMhd3_result v1 n3 k1
  obtain ⟨s2, f2⟩ := magSlopesMhd3_result v1 n4 k2
  have a1 : ms m1 inA = ms m inA := s1.ms (by simpa using n3)
  have a2 : ms m2 inA = ms m inA := (s2.ms n4).trans a1
  have b2 : ms m2 .Q = ms m .Q := (s2.ms (by decide)).trans (s1.ms (by decide))
  have E2 : ElecOf p m2 (ms m .Q) (ms m2 inA) := by
    intro d i j k h
    rw [s2 _ (by simp), f1 d i j k h, a2]
  have D2 : DeltaOf p m2 (ms m2 inA) := by rw [a2, ← a1]; exact f2
  obtain ⟨s3, f3⟩ := traceMhd3_result hp.gw v1 n1 E2 b2 D2 k3
  rw [a2] at f3
  obtain ⟨s4, f4⟩ := fluxesAndStoreMhd3_result hp.wf hp.valid f3 k4
  have f3' := fun i j k h => (f3 i j k h).mono s4 (by decide)
  obtain ⟨s5, f5⟩ := emfAndStoreMhd3_result hp.wf f3' k5
  obtain ⟨s6, f6⟩ := updateMhd3_result hp.wf v2 n5 k6 (fun d i j k => m6 ⟨.Emf, i, j, k, d.slot⟩)
  obtain ⟨s7, f7⟩ := updateEmfMhd3_result hp.wf v2 n6 k7
  refine ⟨?_, fun i j k => ?_⟩
  · refine (s1.mono ?_).trans ((s2.mono ?_).trans ((s3.mono ?_).trans ((s4.mono ?_).trans
      ((s5.mono ?_).trans ((s6.mono ?_).trans (s7.mono ?_))))))
    all_goals intro a ha
    · exact Or.inr (mhdOuts3_sub (by decide) a ha)
    · exact Or.inr (mhdOuts3_sub (by decide) a ha)
    · exact Or.inr (List.mem_append_right _ ha)
    · exact Or.inr (mhdOuts3_sub (by decide) a ha)
    · exact Or.inr (mhdOuts3_sub (by decide) a ha)
    · exact Or.inl (by simpa using ha)
    · exact Or.inl (by simpa using ha)
  have e3 : ms m5 outA = ms m inA :=
    (s5.ms n6').trans ((s4.ms n5).trans ((s3.ms n2).trans ((s2.ms n4').trans
      ((s1.ms (by simpa using n3')).trans hc))))
  have gx : ms m5 .Fx = ms m4 .Fx := s5.ms (by decide)
  have gy : ms m5 .Fy = ms m4 .Fy := s5.ms (by decide)
  have gz : ms m5 .Fz = ms m4 .Fz := s5.ms (by decide)
  rw [f7 i j k, f6 i j k, e3, gx, gy, gz]
  refine (stepOfM3_key hp.wf (dt := dt) (u := ms m inA) ⟨ms m4 .Fx, fun i j k => (ms m4 .Fy i j k).swapXY,
    fun i j k => (ms m4 .Fz i j k).swapXZ, fun d i j k => m6 ⟨.Emf, i, j, k, d.slot⟩⟩
    (schemeM3 p dt (ms m inA)) (fun a b c h => ?_) i j k)
  rw [schemeM3_not2 (by omega)]
  have hF := fluxes_stored3 (dt := dt) hp.gw hq h
  refine ⟨?_, ?_, ?_, fun d => ?_⟩
  · rw [← hF.1]; exact (f4 a b c h).1
  · rw [← hF.2.1]; simp only [(f4 a b c h).2.1, MS.swapXY_swapXY]
  · rw [← hF.2.2.1]; simp only [(f4 a b c h).2.2, MS.swapXZ_swapXZ]
  · rw [← hF.2.2.2 d, ← f5 d a b c h]
    exact s6 _ (by simpa using n6.symm)

end generic

end EulerKokkos
