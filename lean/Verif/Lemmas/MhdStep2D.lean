import Verif.Lemmas.Mhd2D
import Verif.Lemmas.GhostFill

/-! # What the 2D MHD kernels compute -/

set_option linter.constructorNameAsVariable false
set_option linter.unusedSectionVars false
set_option linter.unusedSimpArgs false
set_option linter.unnecessarySeqFocus false

namespace EulerKokkos

open Prog (rd wr add upd run_bind run_rd run_wr run_pure foot_bind foot_rd foot_wr foot_add
  foot_pure foot_ite foot_pif foot_mono Foot forRange pif)
open Spec

section generic
variable {R : Type} [RealOps R]

/-- the 2D field stored in a view -/
def ms2 (m : Mem Arr R) (a : Arr) : FldM2 R := fun i j => ms m a i j 0

theorem SameOff.ms2 {outs : Arr → Prop} {m m' : Mem Arr R} (h : SameOff outs m m') {a : Arr}
    (ha : ¬ outs a) : EulerKokkos.ms2 m' a = EulerKokkos.ms2 m a := by
  funext i j; unfold EulerKokkos.ms2; rw [h.ms ha]

/-! ## Settings -/

theorem slopeM_valid {p : Params R} (hv : ValidM p) (q a b x y : MS R) :
    slopeM p.settings q a b x = slopeM p.settings q a b y := by
  unfold slopeM
  rcases hv.slope with h | h <;> simp [h]

theorem riemannMhd_valid {p : Params R} (hv : ValidM p) (a b x y : MS R) :
    riemannMhd p.settings p.riemannSolverType a b x
      = riemannMhd p.settings p.riemannSolverType a b y := by
  rcases hv.riemann with h | h | h <;> rw [h] <;> rfl

/-! ## Locality of the trace -/

theorem elecZ2_congr {q q' : Int × Int → MS R} {b b' : Int × Int → BF R} {x y : Int}
    (h1 : q (x - 1, y - 1) = q' (x - 1, y - 1)) (h2 : q (x - 1, y) = q' (x - 1, y))
    (h3 : q (x, y - 1) = q' (x, y - 1)) (h4 : q (x, y) = q' (x, y))
    (h5 : b (x, y - 1) = b' (x, y - 1)) (h6 : b (x, y) = b' (x, y))
    (h7 : b (x - 1, y) = b' (x - 1, y)) : elecZ2 q b x y = elecZ2 q' b' x y := by
  unfold elecZ2
  rw [h1, h2, h3, h4, h5, h6, h7]

theorem traceMhd2_congr {p : Params R} (hv : ValidM p) {q q' : Int × Int → MS R}
    {b b' : Int × Int → BF R} {dtdx dtdy : R} {x y x' y' : MS R}
    (hq : ∀ o ∈ offs3, q o = q' o) (hb : ∀ o ∈ offs4, b o = b' o) :
    traceMhd2 p.settings q b dtdx dtdy x y = traceMhd2 p.settings q' b' dtdx dtdy x' y' := by
  have e1 : elecZ2 q b 0 0 = elecZ2 q' b' 0 0 := elecZ2_congr (hq _ (by decide)) (hq _ (by decide))
    (hq _ (by decide)) (hq _ (by decide)) (hb _ (by decide)) (hb _ (by decide)) (hb _ (by decide))
  have e2 : elecZ2 q b 0 1 = elecZ2 q' b' 0 1 := elecZ2_congr (hq _ (by decide)) (hq _ (by decide))
    (hq _ (by decide)) (hq _ (by decide)) (hb _ (by decide)) (hb _ (by decide)) (hb _ (by decide))
  have e3 : elecZ2 q b 1 0 = elecZ2 q' b' 1 0 := elecZ2_congr (hq _ (by decide)) (hq _ (by decide))
    (hq _ (by decide)) (hq _ (by decide)) (hb _ (by decide)) (hb _ (by decide)) (hb _ (by decide))
  have e4 : elecZ2 q b 1 1 = elecZ2 q' b' 1 1 := elecZ2_congr (hq _ (by decide)) (hq _ (by decide))
    (hq _ (by decide)) (hq _ (by decide)) (hb _ (by decide)) (hb _ (by decide)) (hb _ (by decide))
  unfold traceMhd2
  simp only [slopeM_valid hv _ _ _ x x', slopeM_valid hv _ _ _ y y']
  rw [e1, e2, e3, e4,
    hq (0, 0) (by decide), hq (1, 0) (by decide), hq (-1, 0) (by decide), hq (0, 1) (by decide),
    hq (0, -1) (by decide), hb (0, 0) (by decide), hb (1, 0) (by decide), hb (0, 1) (by decide),
    hb (0, -1) (by decide), hb (-1, 0) (by decide), hb (1, 1) (by decide), hb (1, -1) (by decide),
    hb (-1, 1) (by decide)]

theorem traceM2_congr {p : Params R} (hv : ValidM p) {dt : R} {q q' u u' : FldM2 R} {i j : Int}
    (hq : ∀ a b, i - 1 ≤ a → a ≤ i + 1 → j - 1 ≤ b → b ≤ j + 1 → q a b = q' a b)
    (hu : ∀ a b, i - 1 ≤ a → a ≤ i + 2 → j - 1 ≤ b → b ≤ j + 2 → u a b = u' a b) :
    traceM2 p dt q u i j = traceM2 p dt q' u' i j := by
  unfold traceM2
  refine traceMhd2_congr hv (fun o ho => ?_) (fun o ho => ?_)
  · have := offs3_bd ho
    exact hq _ _ (by omega) (by omega) (by omega) (by omega)
  · have := offs4_bd ho
    rw [hu _ _ (by omega) (by omega) (by omega) (by omega)]

theorem primM2_congr {p : Params R} {u u' : FldM2 R} {i j : Int}
    (hu : ∀ a b, i ≤ a → a ≤ i + 1 → j ≤ b → b ≤ j + 1 → u a b = u' a b) :
    primM2 p u i j = primM2 p u' i j := by
  unfold primM2
  rw [hu i j (by omega) (by omega) (by omega) (by omega),
    hu (i + 1) j (by omega) (by omega) (by omega) (by omega),
    hu i (j + 1) (by omega) (by omega) (by omega) (by omega)]

theorem tracesM2_congr {p : Params R} (hv : ValidM p) {dt : R} {u u' : FldM2 R} {i j : Int}
    (hu : ∀ a b, i - 1 ≤ a → a ≤ i + 2 → j - 1 ≤ b → b ≤ j + 2 → u a b = u' a b) :
    tracesM2 p dt u i j = tracesM2 p dt u' i j := by
  refine traceM2_congr hv (fun a b h1 h2 h3 h4 => primM2_congr (fun c d h5 h6 h7 h8 => ?_)) hu
  exact hu _ _ (by omega) (by omega) (by omega) (by omega)

theorem fluxXM2_congr {p : Params R} {T T' : Int → Int → TraceM2 R} {i j : Int}
    (h1 : T (i - 1) j = T' (i - 1) j) (h2 : T i j = T' i j) :
    fluxXM2 p T i j = fluxXM2 p T' i j := by
  unfold fluxXM2; rw [h1, h2]

theorem fluxYM2_congr {p : Params R} {T T' : Int → Int → TraceM2 R} {i j : Int}
    (h1 : T i (j - 1) = T' i (j - 1)) (h2 : T i j = T' i j) :
    fluxYM2 p T i j = fluxYM2 p T' i j := by
  unfold fluxYM2; rw [h1, h2]

theorem emfM2_congr {p : Params R} {T T' : Int → Int → TraceM2 R} {i j : Int}
    (h1 : T (i - 1) (j - 1) = T' (i - 1) (j - 1)) (h2 : T (i - 1) j = T' (i - 1) j)
    (h3 : T i (j - 1) = T' i (j - 1)) (h4 : T i j = T' i j) :
    emfM2 p T i j = emfM2 p T' i j := by
  unfold emfM2; rw [h1, h2, h3, h4]

theorem stepM2_congr {p : Params R} (hv : ValidM p) {dt : R} {u u' : FldM2 R} {i j : Int}
    (hu : ∀ a b, i - 2 ≤ a → a ≤ i + 3 → j - 2 ≤ b → b ≤ j + 3 → u a b = u' a b) :
    stepM2 p dt u i j = stepM2 p dt u' i j := by
  have hT : ∀ a b, i - 1 ≤ a → a ≤ i + 1 → j - 1 ≤ b → b ≤ j + 1 →
      tracesM2 p dt u a b = tracesM2 p dt u' a b := fun a b h1 h2 h3 h4 =>
    tracesM2_congr hv (fun c d h5 h6 h7 h8 =>
      hu c d (by omega) (by omega) (by omega) (by omega))
  have hF : ∀ a b, i ≤ a → a ≤ i + 1 → j ≤ b → b ≤ j + 1 →
      fluxXM2 p (tracesM2 p dt u) a b = fluxXM2 p (tracesM2 p dt u') a b ∧
      fluxYM2 p (tracesM2 p dt u) a b = fluxYM2 p (tracesM2 p dt u') a b ∧
      emfM2 p (tracesM2 p dt u) a b = emfM2 p (tracesM2 p dt u') a b := fun a b h1 h2 h3 h4 =>
    have e1 := hT (a - 1) (b - 1) (by omega) (by omega) (by omega) (by omega)
    have e2 := hT (a - 1) b (by omega) (by omega) (by omega) (by omega)
    have e3 := hT a (b - 1) (by omega) (by omega) (by omega) (by omega)
    have e4 := hT a b (by omega) (by omega) (by omega) (by omega)
    ⟨fluxXM2_congr e2 e4, fluxYM2_congr e3 e4, emfM2_congr e1 e2 e3 e4⟩
  have g1 := hF i j (by omega) (by omega) (by omega) (by omega)
  have g2 := hF (i + 1) j (by omega) (by omega) (by omega) (by omega)
  have g3 := hF i (j + 1) (by omega) (by omega) (by omega) (by omega)
  unfold stepM2 ctUpdate2 fluxUpdateM2
  rw [hu i j (by omega) (by omega) (by omega) (by omega), g1.1, g1.2.1, g1.2.2, g2.1, g2.2.2, g3.2.1,
    g3.2.2]

/-! ## Kernel results -/

theorem mem_range2_of {p : Params R} {i j : Int} (h : 0 ≤ i ∧ i < p.isize ∧ 0 ≤ j ∧ j < p.jsize) :
    (i, j) ∈ range2 p.isize p.jsize := by simp only [mem_range2]; omega

theorem convertMhd2_result {p : Params R} {U : Arr} (hU : nvM2 U = 8) (h : U ≠ .Q)
    {m m' : Mem Arr R} (hm : forRange (range2 p.isize p.jsize) (convertMhd2 p U .Q) m m') :
    SameOff (· ∈ [Arr.Q]) m m' ∧ ∀ i j, 0 ≤ i → i < p.isize - 1 → 0 ≤ j → j < p.jsize - 1 →
      ms2 m' .Q i j = primM2 p (ms2 m U) i j := by
  have ho := (foot_convertMhd2 p hU).own (by simpa using h)
  refine ⟨sameOff_forRange2 ho hm, fun i j h1 h2 h3 h4 => ?_⟩
  unfold ms2
  rw [forRange2_ms_out ho hm (by simp) (mem_range2_of (by omega))]
  unfold convertMhd2
  rw [if_pos (by simp only; omega)]
  simp only [run_bind, run_getMS, run_rd, run_putMS]
  rw [ms_setMemM_same]; rfl

/-- the states stored by the trace kernel -/
structure TracesOf (m : Mem Arr R) (T : Int → Int → TraceM2 R) (i j : Int) : Prop where
  qmx : ms2 m .Qm_x i j = (T i j).qmx
  qpx : ms2 m .Qp_x i j = (T i j).qpx
  qmy : ms2 m .Qm_y i j = (T i j).qmy
  qpy : ms2 m .Qp_y i j = (T i j).qpy
  rt : ms2 m (.QEdge 0) i j = (T i j).rt
  rb : ms2 m (.QEdge 1) i j = (T i j).rb
  lt : ms2 m (.QEdge 2) i j = (T i j).lt
  lb : ms2 m (.QEdge 3) i j = (T i j).lb

/-- views written by the trace kernel -/
def traceOuts : List Arr :=
  [.Qm_x, .Qp_x, .Qm_y, .Qp_y, .QEdge 0, .QEdge 1, .QEdge 2, .QEdge 3]

theorem traceMhd2_result {p : Params R} (hw : p.WF) (hg3 : 3 ≤ p.ghostWidth) (hv : ValidM p)
    {U : Arr} (hU : nvM2 U = 8)
    (hn : U ∉ traceOuts) {dt : R} {jk : JunkM R} {m m' : Mem Arr R}
    (hm : forRange (range2 p.isize p.jsize)
      (computeTraceMhd2 p U .Q (dt / p.dx) (dt / p.dy) jk) m m') :
    SameOff (· ∈ traceOuts) m m' ∧ ∀ i j, traceGuardM2 p (i, j) →
      TracesOf m' (traceM2 p dt (ms2 m .Q) (ms2 m U)) i j := by
  have ho := (foot_computeTraceMhd2 p hU (dt / p.dx) (dt / p.dy) jk).own (by
    intro a ha
    simp only [List.mem_cons, List.not_mem_nil, or_false] at ha
    rcases ha with rfl | rfl
    · exact hn
    · decide)
  refine ⟨sameOff_forRange2 ho hm, fun i j hg => ?_⟩
  have hin : (i, j) ∈ range2 p.isize p.jsize := by
    obtain ⟨a, b, c, d⟩ := hg
    have := hw.gw_pos
    simp only at a b c d
    simp only [mem_range2]; omega
  have key : ∀ a, a ∈ traceOuts → ms2 m' a i j =
      ms2 ((computeTraceMhd2 p U .Q (dt / p.dx) (dt / p.dy) jk (i, j)).run m).2 a i j := fun a ha =>
    forRange2_ms_out ho hm ha hin
  have hrun : ∃ T : TraceM2 R, T = traceM2 p dt (ms2 m .Q) (ms2 m U) i j ∧
      ((computeTraceMhd2 p U .Q (dt / p.dx) (dt / p.dy) jk (i, j)).run m).2 =
      setMemM (setMemM (setMemM (setMemM (setMemM (setMemM (setMemM (setMemM m
        .Qm_x i j 0 T.qmx) .Qp_x i j 0 T.qpx) .Qm_y i j 0 T.qmy) .Qp_y i j 0 T.qpy)
        (.QEdge 0) i j 0 T.rt) (.QEdge 1) i j 0 T.rb) (.QEdge 2) i j 0 T.lt)
        (.QEdge 3) i j 0 T.lb := by
    refine ⟨_, rfl, ?_⟩
    unfold computeTraceMhd2
    rw [if_pos hg]
    simp only [run_bind, run_putMS]
    rw [run_gather _ (fun o => ms m .Q (i + o.1) (j + o.2) 0) m (fun o => rfl)]
    simp only
    rw [run_gather _ (fun o => bf m U (i + o.1) (j + o.2) 0) m (fun o => rfl)]
    simp only
    rw [traceMhd2_congr hv (q' := fun o => ms2 m .Q (i + o.1) (j + o.2))
      (b' := fun o => ⟨(ms2 m U (i + o.1) (j + o.2)).a, (ms2 m U (i + o.1) (j + o.2)).b,
        (ms2 m U (i + o.1) (j + o.2)).c⟩) (x' := MS.zero) (y' := MS.zero)
      (fun o h => by simp only [h, if_true]; rfl) (fun o h => by simp only [h, if_true]; rfl)]
    rfl
  obtain ⟨T, hT, hrun⟩ := hrun
  constructor <;> rw [key _ (by decide), hrun, ← hT] <;> unfold ms2 <;>
    simp only [ms_setMemM_same, ms_setMemM_arr, ne_eq, reduceCtorEq, not_false_eq_true, Arr.QEdge.injEq,
      Nat.reduceEqDiff, zero_ne_one, one_ne_zero, OfNat.zero_ne_ofNat, OfNat.one_ne_ofNat]


theorem MS.swapXY_swapXY (q : MS R) : q.swapXY.swapXY = q := rfl

theorem faceGuardM2_in {p : Params R} (hw : p.WF) {i j : Int} (h : faceGuardM2 p (i, j)) :
    (i, j) ∈ range2 p.isize p.jsize := by
  obtain ⟨a, b, c, d⟩ := h
  have := hw.gw_pos
  simp only at a b c d
  simp only [mem_range2]; omega

theorem cellGuard2_in {p : Params R} (hw : p.WF) {i j : Int} (h : cellGuard2 p (i, j)) :
    (i, j) ∈ range2 p.isize p.jsize := by
  obtain ⟨a, b, c, d⟩ := h
  have := hw.gw_pos
  simp only at a b c d
  simp only [mem_range2]; omega

/-- the cells whose traces the flux and emf kernels read -/
theorem traceGuard_near {p : Params R} {i j a b : Int} (h : faceGuardM2 p (i, j))
    (ha : i - 1 ≤ a ∧ a ≤ i) (hb : j - 1 ≤ b ∧ b ≤ j) : traceGuardM2 p (a, b) := by
  obtain ⟨h1, h2, h3, h4⟩ := h
  simp only at h1 h2 h3 h4
  refine ⟨?_, ?_, ?_, ?_⟩ <;> simp only <;> omega

theorem fluxesAndStoreMhd2_result {p : Params R} (hw : p.WF) (hv : ValidM p) {jk : JunkM R}
    {T : Int → Int → TraceM2 R} {m m' : Mem Arr R}
    (hT : ∀ i j, traceGuardM2 p (i, j) → TracesOf m T i j)
    (hm : forRange (range2 p.isize p.jsize) (fluxesAndStoreMhd2 p .Fx .Fy jk) m m') :
    SameOff (· ∈ [Arr.Fx, .Fy]) m m' ∧ ∀ i j, faceGuardM2 p (i, j) →
      ms2 m' .Fx i j = fluxXM2 p T i j ∧ ms2 m' .Fy i j = (fluxYM2 p T i j).swapXY := by
  have ho := (foot_fluxesAndStoreMhd2 p jk).own (by decide)
  refine ⟨sameOff_forRange2 ho hm, fun i j hg => ?_⟩
  have hin := faceGuardM2_in hw hg
  have t0 := hT i j (traceGuard_near hg (by omega) (by omega))
  have t1 := hT (i - 1) j (traceGuard_near hg (by omega) (by omega))
  have t2 := hT i (j - 1) (traceGuard_near hg (by omega) (by omega))
  have hrun : ((fluxesAndStoreMhd2 p .Fx .Fy jk (i, j)).run m).2 =
      setMemM (setMemM m .Fx i j 0 (fluxXM2 p T i j)) .Fy i j 0 (fluxYM2 p T i j).swapXY := by
    unfold fluxesAndStoreMhd2
    rw [if_pos hg]
    simp only [run_bind, run_getMS, run_putMS]
    rw [riemannMhd_valid hv _ _ (jk 4 i j 0) MS.zero, riemannMhd_valid hv _ _ (riemannMhd _ _ _ _ _) MS.zero]
    have a1 := t1.qmx
    have a2 := t0.qpx
    have a3 := t2.qmy
    have a4 := t0.qpy
    unfold ms2 at a1 a2 a3 a4
    rw [ms_setMemM_arr _ _ _ _ _ (by decide), ms_setMemM_arr _ _ _ _ _ (by decide), a1, a2, a3, a4]
    rfl
  unfold ms2
  rw [forRange2_ms_out ho hm (by simp) hin, forRange2_ms_out ho hm (by simp) hin, hrun,
    ms_setMemM_ne _ _ _ _ _ _ _ _ _ _ (Or.inl (by decide)), ms_setMemM_same, ms_setMemM_same]
  exact ⟨rfl, rfl⟩

theorem run_getEdge4 (i j : Int) (m : Mem Arr R) :
    (getEdge4 i j).run m = (⟨ms2 m (.QEdge 0) (i - 1) (j - 1), ms2 m (.QEdge 1) (i - 1) j,
      ms2 m (.QEdge 2) i (j - 1), ms2 m (.QEdge 3) i j⟩, m) := rfl

theorem edge4_traces {p : Params R} {T : Int → Int → TraceM2 R} {m : Mem Arr R}
    (hT : ∀ i j, traceGuardM2 p (i, j) → TracesOf m T i j) {i j : Int}
    (hg : faceGuardM2 p (i, j)) :
    computeEmf p.settings .z ((getEdge4 i j).run m).1 = emfM2 p T i j := by
  have t0 := hT i j (traceGuard_near hg (by omega) (by omega))
  have t1 := hT (i - 1) j (traceGuard_near hg (by omega) (by omega))
  have t2 := hT i (j - 1) (traceGuard_near hg (by omega) (by omega))
  have t3 := hT (i - 1) (j - 1) (traceGuard_near hg (by omega) (by omega))
  rw [run_getEdge4]
  simp only [t3.rt, t1.rb, t2.lt, t0.lb]
  rfl

theorem emfAndStoreMhd2_result {p : Params R} (hw : p.WF)
    {T : Int → Int → TraceM2 R} {m m' : Mem Arr R}
    (hT : ∀ i j, traceGuardM2 p (i, j) → TracesOf m T i j)
    (hm : forRange (range2 p.isize p.jsize) (emfAndStoreMhd2 p .Emf) m m') :
    SameOff (· ∈ [Arr.Emf]) m m' ∧ ∀ i j, faceGuardM2 p (i, j) →
      m' ⟨.Emf, i, j, 0, 0⟩ = emfM2 p T i j := by
  have ho := (foot_emfAndStoreMhd2 p).own (by decide)
  refine ⟨sameOff_forRange2 ho hm, fun i j hg => ?_⟩
  rw [forRange2_out ho hm (l := ⟨.Emf, i, j, 0, 0⟩) (by simp) (faceGuardM2_in hw hg)]
  unfold emfAndStoreMhd2
  rw [if_pos hg]
  simp only [run_bind, run_wr]
  rw [edge4_traces hT hg]
  simp [upd]

theorem updateMhd2_result {p : Params R} (hw : p.WF) {U : Arr} (hU : nvM2 U = 8)
    (h1 : U ≠ .Fx) (h2 : U ≠ .Fy) {dtdx dtdy : R} {m m' : Mem Arr R}
    (hm : forRange (range2 p.isize p.jsize) (updateMhd2 p U .Fx .Fy dtdx dtdy) m m') :
    SameOff (· ∈ [U]) m m' ∧ ∀ i j, ms2 m' U i j =
      if cellGuard2 p (i, j) then
        fluxUpdateM2 (ms2 m .Fx) (fun i j => (ms2 m .Fy i j).swapXY) dtdx dtdy (ms2 m U i j) i j
      else ms2 m U i j := by
  have ho := (foot_updateMhd2 p hU dtdx dtdy).own (by
    intro a ha; simp at ha ⊢; rcases ha with rfl | rfl
    · exact h1.symm
    · exact h2.symm)
  refine ⟨sameOff_forRange2 ho hm, fun i j => ?_⟩
  unfold ms2
  by_cases hin : (i, j) ∈ range2 p.isize p.jsize
  · rw [forRange2_ms_out ho hm (by simp) hin]
    unfold updateMhd2
    split
    · simp only [run_bind, run_getMS, run_putMS, ms_setMemM_same]
      rfl
    · rfl
  · rw [forRange2_ms_else ho hm (fun hh => hin hh.2), if_neg (fun h => hin (cellGuard2_in hw h))]

theorem updateEmfMhd2_result {p : Params R} (hw : p.WF) {U : Arr} (hU : nvM2 U = 8)
    (h1 : U ≠ .Emf) {dtdx dtdy : R} {m m' : Mem Arr R}
    (hm : forRange (range2 p.isize p.jsize) (updateEmfMhd2 p U .Emf dtdx dtdy) m m') :
    SameOff (· ∈ [U]) m m' ∧ ∀ i j, ms2 m' U i j =
      if cellGuard2 p (i, j) then
        ctUpdate2 (fun i j => m ⟨.Emf, i, j, 0, 0⟩) dtdx dtdy (ms2 m U i j) i j
      else ms2 m U i j := by
  have ho := (foot_updateEmfMhd2 p hU dtdx dtdy).own (by
    intro a ha; simp at ha ⊢; subst ha; exact h1.symm)
  refine ⟨sameOff_forRange2 ho hm, fun i j => ?_⟩
  unfold ms2
  by_cases hin : (i, j) ∈ range2 p.isize p.jsize
  · rw [forRange2_ms_out ho hm (by simp) hin]
    unfold updateEmfMhd2
    split
    · simp only [run_bind, run_rd, run_wr]
      simp [upd, ms, ctUpdate2, Loc.mk.injEq, h1.symm, ID, IP, IU, IV, IW, IA, IB, IC]
    · rfl
  · rw [forRange2_ms_else ho hm (fun hh => hin hh.2), if_neg (fun h => hin (cellGuard2_in hw h))]

/-! ## Version 0 -/

/-- views written after the ghost fill -/
def MhdOuts2 (outA a : Arr) : Prop :=
  a = outA ∨ a ∈ ([.Q, .Fx, .Fy, .Emf, .Q2, .Sx, .Sy, .sFaceMag, .ElecField] ++ traceOuts : List Arr)

/-- a 2D MHD run -/
structure Mhd2 (p : Params R) : Prop where
  wf : p.WF
  gw : 3 ≤ p.ghostWidth
  nbvar : p.nbvar = 8
  valid : ValidM p
  faces : Faces2Ok p

/-- the traces of the stored primitive field are those of the conservative field -/
theorem tracesM2_stored {p : Params R} (hg : 3 ≤ p.ghostWidth) (hv : ValidM p) {dt : R}
    {q u : FldM2 R}
    (hq : ∀ i j, 0 ≤ i → i < p.isize - 1 → 0 ≤ j → j < p.jsize - 1 → q i j = primM2 p u i j)
    {i j : Int} (h : traceGuardM2 p (i, j)) : traceM2 p dt q u i j = tracesM2 p dt u i j := by
  obtain ⟨h1, h2, h3, h4⟩ := h
  simp only at h1 h2 h3 h4
  exact traceM2_congr hv (fun a b h1 h2 h3 h4 => hq a b (by omega) (by omega) (by omega) (by omega))
    (fun _ _ _ _ _ _ => rfl)

theorem cell_faces {p : Params R} {i j : Int} (h : cellGuard2 p (i, j)) :
    faceGuardM2 p (i, j) ∧ faceGuardM2 p (i + 1, j) ∧ faceGuardM2 p (i, j + 1) := by
  obtain ⟨a, b, c, d⟩ := h
  simp only at a b c d
  refine ⟨⟨?_, ?_, ?_, ?_⟩, ⟨?_, ?_, ?_, ?_⟩, ⟨?_, ?_, ?_, ?_⟩⟩ <;> simp only <;> omega

theorem stepM2_key {p : Params R} (hw : p.WF) {dt : R} {u : FldM2 R} (fx fy : FldM2 R)
    (E : Int → Int → R)
    (h : ∀ i j, faceGuardM2 p (i, j) → fx i j = fluxXM2 p (tracesM2 p dt u) i j ∧
      fy i j = fluxYM2 p (tracesM2 p dt u) i j ∧ E i j = emfM2 p (tracesM2 p dt u) i j)
    (i j : Int) :
    (if cellGuard2 p (i, j) then
      ctUpdate2 E (dt / p.dx) (dt / p.dy)
        (if cellGuard2 p (i, j) then fluxUpdateM2 fx fy (dt / p.dx) (dt / p.dy) (u i j) i j
          else u i j) i j
     else (if cellGuard2 p (i, j) then fluxUpdateM2 fx fy (dt / p.dx) (dt / p.dy) (u i j) i j
          else u i j)) = stepM2 p dt u i j := by
  unfold stepM2
  by_cases hc : cellGuard2 p (i, j)
  · have hc' := (cellGuard2_iff hw i j).1 hc
    obtain ⟨f1, f2, f3⟩ := cell_faces hc
    simp only [hc, hc', if_true]
    unfold ctUpdate2 fluxUpdateM2
    rw [(h _ _ f1).1, (h _ _ f1).2.1, (h _ _ f1).2.2, (h _ _ f2).1, (h _ _ f2).2.2, (h _ _ f3).2.1,
      (h _ _ f3).2.2]
  · have hc' : ¬ interior2 p i j := fun h => hc ((cellGuard2_iff hw i j).2 h)
    simp only [hc, hc', if_false]

/-- **Version 0**, every schedule, any arithmetic. -/
theorem postMhd2_result0 {p : Params R} (hp : Mhd2 p) (hi : p.implementationVersion = 0)
    {dt : R} {jk : JunkM R} {inA outA : Arr} (hpp : PingPong inA outA) {m m' : Mem Arr R}
    (hq : ∀ i j, 0 ≤ i → i < p.isize - 1 → 0 ≤ j → j < p.jsize - 1 →
      ms2 m .Q i j = primM2 p (ms2 m inA) i j)
    (hc : ms2 m outA = ms2 m inA)
    (hm : runLaunches (postMhd2 p dt jk inA outA) m m') :
    SameOff (MhdOuts2 outA) m m' ∧
    ∀ i j, ms2 m' outA i j = stepM2 p dt (ms2 m inA) i j := by
  obtain ⟨v1, v2⟩ := nvM2_ping hpp
  have n1 : inA ∉ traceOuts := by rcases hpp with ⟨rfl, rfl⟩ | ⟨rfl, rfl⟩ <;> decide
  have n2 : outA ∉ traceOuts := by rcases hpp with ⟨rfl, rfl⟩ | ⟨rfl, rfl⟩ <;> decide
  have n3 : outA ∉ ([.Fx, .Fy] : List Arr) := by
    rcases hpp with ⟨rfl, rfl⟩ | ⟨rfl, rfl⟩ <;> decide
  have n4 : outA ∉ ([.Emf] : List Arr) := by rcases hpp with ⟨rfl, rfl⟩ | ⟨rfl, rfl⟩ <;> decide
  have n5 : outA ≠ .Fx ∧ outA ≠ .Fy ∧ outA ≠ .Emf := by
    rcases hpp with ⟨rfl, rfl⟩ | ⟨rfl, rfl⟩ <;> decide
  unfold runLaunches postMhd2 at hm
  simp only [hi, if_true, List.map_cons, List.map_nil] at hm
  obtain ⟨m1, k1, m2, k2, m3, k3, m4, k4, m5, k5, rfl⟩ := hm
  obtain ⟨s1, f1⟩ := traceMhd2_result hp.wf hp.gw hp.valid v1 n1 k1
  obtain ⟨s2, f2⟩ := fluxesAndStoreMhd2_result hp.wf hp.valid f1 k2
  have f1' : ∀ i j, traceGuardM2 p (i, j) →
      TracesOf m2 (traceM2 p dt (ms2 m .Q) (ms2 m inA)) i j := by
    intro i j h
    have t := f1 i j h
    constructor <;> rw [s2.ms2 (by decide)]
    exacts [t.qmx, t.qpx, t.qmy, t.qpy, t.rt, t.rb, t.lt, t.lb]
  obtain ⟨s3, f3⟩ := emfAndStoreMhd2_result hp.wf f1' k3
  obtain ⟨s4, f4⟩ := updateMhd2_result hp.wf v2 n5.1 n5.2.1 k4
  obtain ⟨s5, f5⟩ := updateEmfMhd2_result hp.wf v2 n5.2.2 k5
  refine ⟨?_, fun i j => ?_⟩
  · refine (s1.mono ?_).trans ((s2.mono ?_).trans ((s3.mono ?_).trans ((s4.mono ?_).trans
      (s5.mono ?_))))
    all_goals intro a ha
    · exact Or.inr (by simp [ha])
    · exact Or.inr (by simp at ha ⊢; tauto)
    · exact Or.inr (by simp at ha ⊢; tauto)
    · exact Or.inl (by simpa using ha)
    · exact Or.inl (by simpa using ha)
  have e3 : ms2 m3 outA = ms2 m inA :=
    (s3.ms2 n4).trans ((s2.ms2 n3).trans ((s1.ms2 n2).trans hc))
  have gx : ms2 m3 .Fx = ms2 m2 .Fx := s3.ms2 (by decide)
  have gy : ms2 m3 .Fy = ms2 m2 .Fy := s3.ms2 (by decide)
  rw [f5 i j, f4 i j, e3, gx, gy]
  refine stepM2_key hp.wf _ _ _ (fun a b h => ?_) i j
  have hT : ∀ x y, a - 1 ≤ x ∧ x ≤ a → b - 1 ≤ y ∧ y ≤ b →
      traceM2 p dt (ms2 m .Q) (ms2 m inA) x y = tracesM2 p dt (ms2 m inA) x y := fun x y h1 h2 =>
    tracesM2_stored hp.gw hp.valid hq (traceGuard_near h h1 h2)
  have T1 := hT (a - 1) (b - 1) (by omega) (by omega)
  have T2 := hT (a - 1) b (by omega) (by omega)
  have T3 := hT a (b - 1) (by omega) (by omega)
  have T4 := hT a b (by omega) (by omega)
  refine ⟨?_, ?_, ?_⟩
  · rw [(f2 a b h).1, fluxXM2_congr T2 T4]
  · rw [(f2 a b h).2, MS.swapXY_swapXY, fluxYM2_congr T3 T4]
  · rw [s4 _ (by simpa using n5.2.2.symm), f3 a b h, emfM2_congr T1 T2 T3 T4]

end generic

end EulerKokkos
