import Verif.Lemmas.MhdV2_2D
import Verif.Lemmas.HydroStep2D

/-! # The complete 2D MHD time step and runs -/

set_option linter.constructorNameAsVariable false
set_option linter.unusedSectionVars false
set_option linter.unusedSimpArgs false
set_option linter.unnecessarySeqFocus false

namespace EulerKokkos

open Prog (rd wr add upd run_bind run_rd run_wr run_pure foot_bind foot_rd foot_wr foot_add
  foot_pure foot_ite foot_pif foot_mono Foot forRange pif)
open Spec

section generic
variable {R : Type} [RealOps R]

theorem makeBoundaries2_ms2 {p : Params R} (hp : Mhd2 p) (hS : SignLaws R) {U : Arr}
    {m m' : Mem Arr R} (hm : makeBoundaries2 true p U m m') :
    SameOff (· = U) m m' ∧ (∀ i j, inGrid2 p i j → ms2 m' U i j = fillM2 p (ms2 m U) i j) ∧
    (∀ i j, interior2 p i j → ms2 m' U i j = ms2 m U i j) := by
  obtain ⟨F, hF, hh⟩ := makeBoundaries2_is hp.wf hp.faces true U
  obtain rfl := (hF m m').1 hm
  refine ⟨fun l hl => (hh m).1 l (fun h => hl h.1), fun i j hij => ?_, fun i j hij => ?_⟩
  · have hv := hp.nbvar
    have e := fun v (h : v < 8) => (hh m).2 hS i j v hij (by omega)
    have e' : ∀ v < 8, F m ⟨U, i, j, 0, v⟩ =
        ghost2 true p (fun i j v => (ms2 m U i j).get v) i j v := by
      intro v h
      rw [e v h]
      unfold ghost2
      beta_reduce
      rw [mem_of_ms m U _ _ 0 v h]; rfl
    have : ms2 (F m) U i j = ⟨F m ⟨U, i, j, 0, ID⟩, F m ⟨U, i, j, 0, IP⟩, F m ⟨U, i, j, 0, IU⟩,
      F m ⟨U, i, j, 0, IV⟩, F m ⟨U, i, j, 0, IW⟩, F m ⟨U, i, j, 0, IA⟩, F m ⟨U, i, j, 0, IB⟩,
      F m ⟨U, i, j, 0, IC⟩⟩ := rfl
    rw [this, e' ID (by decide), e' IP (by decide), e' IU (by decide), e' IV (by decide),
      e' IW (by decide), e' IA (by decide), e' IB (by decide), e' IC (by decide)]
    rfl
  · exact ms_congr (fun v _ => (hh m).1 _ (fun h => h.2.2.2.1 hij))

/-- What precedes the time-step computation: ghost cells, copy, primitive variables. -/
theorem preMhd2_result {p : Params R} (hp : Mhd2 p) (hS : SignLaws R)
    {inA outA : Arr} (hpp : PingPong inA outA) {m m' : Mem Arr R}
    (hm : runLaunches (preMhd2 p inA outA) m m') :
    SameOff (fun a => a = inA ∨ a = outA ∨ a = .Q) m m' ∧
    (∀ i j, inGrid2 p i j → ms2 m' inA i j = fillM2 p (ms2 m inA) i j) ∧
    (∀ i j, interior2 p i j → ms2 m' inA i j = ms2 m inA i j) ∧
    ms2 m' outA = ms2 m' inA ∧
    (∀ i j, 0 ≤ i → i < p.isize - 1 → 0 ≤ j → j < p.jsize - 1 →
      ms2 m' .Q i j = primM2 p (ms2 m' inA) i j) := by
  obtain ⟨v1, v2⟩ := nvM2_ping hpp
  have n1 : inA ≠ .Q := by rcases hpp with ⟨rfl, rfl⟩ | ⟨rfl, rfl⟩ <;> decide
  have n2 : outA ≠ .Q := by rcases hpp with ⟨rfl, rfl⟩ | ⟨rfl, rfl⟩ <;> decide
  have n3 : inA ≠ outA := by rcases hpp with ⟨rfl, rfl⟩ | ⟨rfl, rfl⟩ <;> decide
  obtain ⟨m1, k1, m2, k2, m3, k3, m4, k4, m5, k5, m6, k6, rfl⟩ := hm
  obtain ⟨b1, b2, b3⟩ := makeBoundaries2_ms2 hp hS (U := inA) (m := m) (m' := m4)
    ⟨m1, k1, m2, k2, m3, k3, m4, k4, rfl⟩
  have c1 : ms2 m5 outA = ms2 m4 inA := by
    funext i j; unfold ms2; rw [deepCopy_ms k5]
  have c0 : SameOff (· = outA) m4 m5 := (deepCopy_result k5).1
  obtain ⟨d1, d2⟩ := convertMhd2_result v1 n1 k6
  have e1 : ms2 m' inA = ms2 m4 inA := (d1.ms2 (by simpa using n1)).trans (c0.ms2 n3)
  have e2 : ms2 m' outA = ms2 m4 inA := (d1.ms2 (by simpa using n2)).trans c1
  refine ⟨?_, ?_, ?_, ?_, ?_⟩
  · refine (b1.mono ?_).trans ((c0.mono ?_).trans (d1.mono ?_))
    · exact fun a h => Or.inl h
    · exact fun a h => Or.inr (Or.inl h)
    · exact fun a h => Or.inr (Or.inr (by simpa using h))
  · rw [e1]; exact b2
  · rw [e1]; exact b3
  · rw [e1, e2]
  · rw [e1, ← c0.ms2 n3]; exact d2

theorem fillM2_congr {p : Params R} (hw : p.WF) (hf : Faces2Ok p) {u u' : FldM2 R}
    (h : ∀ i j, interior2 p i j → u i j = u' i j) (i j : Int) (hij : inGrid2 p i j) :
    fillM2 p u i j = fillM2 p u' i j := by
  obtain ⟨f1, f2, f3, f4⟩ := hf
  obtain ⟨h3, h4, h5, h6⟩ := hij
  have hgw := hw.gw_pos
  have sx := srcCoord_interior hw.nx_pos f1 f2 h3 h4
  have sy := srcCoord_interior hw.ny_pos f3 f4 h5 h6
  unfold fillM2 ghost2
  simp only
  rw [h _ _ ⟨by omega, by omega, by omega, by omega⟩]

theorem stepM2_interior_congr {p : Params R} (hp : Mhd2 p) {dt : R} {u u' : FldM2 R}
    (h : ∀ i j, inGrid2 p i j → u i j = u' i j) (i j : Int) (hij : interior2 p i j) :
    stepM2 p dt u i j = stepM2 p dt u' i j := by
  have := hp.gw
  obtain ⟨a, b, c, d⟩ := hij
  exact stepM2_congr hp.valid
    (fun x y h1 h2 h3 h4 => h x y ⟨by omega, by omega, by omega, by omega⟩)

theorem fullStepM2_congr {p : Params R} (hp : Mhd2 p) {dt : R} {u u' : FldM2 R}
    (h : ∀ i j, interior2 p i j → u i j = u' i j) (i j : Int) (hij : interior2 p i j) :
    fullStepM2 p dt u i j = fullStepM2 p dt u' i j :=
  stepM2_interior_congr hp (fillM2_congr hp.wf hp.faces h) i j hij

/-- interior result of the last part of the step, for the versions whose result is determined in `R` -/
def MhdOK2At (p : Params R) (dt : R) : Prop :=
  ∀ (jk : JunkM R) (inA outA : Arr), PingPong inA outA → ∀ m m',
    (∀ i j, 0 ≤ i → i < p.isize - 1 → 0 ≤ j → j < p.jsize - 1 →
      ms2 m .Q i j = primM2 p (ms2 m inA) i j) → ms2 m outA = ms2 m inA →
    runLaunches (postMhd2 p dt jk inA outA) m m' →
      SameOff (MhdOuts2 outA) m m' ∧ ∀ i j, interior2 p i j →
        ms2 m' outA i j = stepM2 p dt (ms2 m inA) i j

/-- the same for every time step -/
def MhdOK2 (p : Params R) : Prop := ∀ dt : R, MhdOK2At p dt

theorem mhdOK2_0 {p : Params R} (hp : Mhd2 p) (hi : p.implementationVersion = 0) : MhdOK2 p :=
  fun _ _ _ _ hpp _ _ hq hc hm =>
    have h := postMhd2_result0 hp hi hpp hq hc hm
    ⟨h.1, fun i j _ => h.2 i j⟩

theorem mhdOK2_exact [ExactAdd R] {p : Params R} (hp : Mhd2 p)
    (hi : p.implementationVersion = 0 ∨ p.implementationVersion = 1 ∨
      p.implementationVersion = 2) {dt : R} (hx : ZeroMul (dt / p.dx)) (hy : ZeroMul (dt / p.dy)) :
    MhdOK2At p dt := by
  rcases hi with h | h | h
  · exact mhdOK2_0 hp h dt
  · intro jk inA outA hpp m m' hq hc hm
    have r := postMhd2_result1 hp h hx hy hpp hq hc hm
    exact ⟨r.1, fun i j hij => (r.2 i j).trans (stepM2x_interior hp.wf _ _ hij)⟩
  · intro jk inA outA hpp m m' hq hc hm
    have r := postMhd2_result2 hp h hx hy hpp hq hc hm
    exact ⟨r.1, fun i j hij => (r.2 i j).trans (stepM2x_interior hp.wf _ _ hij)⟩

theorem mhdOK2_real {p : Params ℝ} (hp : Mhd2 p)
    (hi : p.implementationVersion = 0 ∨ p.implementationVersion = 1 ∨
      p.implementationVersion = 2) : MhdOK2 p :=
  fun _ => mhdOK2_exact hp hi (zeroMul_real _) (zeroMul_real _)

theorem mhdOuts2_in {inA outA : Arr} (hpp : PingPong inA outA) : ¬ MhdOuts2 outA inA := by
  rcases hpp with ⟨rfl, rfl⟩ | ⟨rfl, rfl⟩ <;> simp [MhdOuts2, traceOuts]

/-- **One full MHD step**, for one time step. -/
theorem godunovMhd2_resultAt {p : Params R} (hp : Mhd2 p) (hS : SignLaws R)
    {dt : R} (hK : MhdOK2At p dt) {jk : JunkM R} {inA outA : Arr} (hpp : PingPong inA outA)
    {m m' : Mem Arr R} (hm : godunovMhd2 p dt jk inA outA m m') :
    (∀ i j, interior2 p i j → ms2 m' inA i j = ms2 m inA i j) ∧
    ∀ i j, interior2 p i j → ms2 m' outA i j = fullStepM2 p dt (ms2 m inA) i j := by
  obtain ⟨mb, hb, hs⟩ := hm
  obtain ⟨b1, b2, b3, b4, b5⟩ := preMhd2_result hp hS hpp hb
  obtain ⟨s1, s2⟩ := hK jk inA outA hpp mb m' b5 b4 hs
  refine ⟨fun i j hij => ?_, fun i j hij => ?_⟩
  · rw [s1.ms2 (mhdOuts2_in hpp)]; exact b3 i j hij
  · rw [s2 i j hij]; exact stepM2_interior_congr hp b2 i j hij

/-- **One full MHD step.** -/
theorem godunovMhd2_result {p : Params R} (hp : Mhd2 p) (hS : SignLaws R) (hK : MhdOK2 p)
    {dt : R} {jk : JunkM R} {inA outA : Arr} (hpp : PingPong inA outA)
    {m m' : Mem Arr R} (hm : godunovMhd2 p dt jk inA outA m m') :
    (∀ i j, interior2 p i j → ms2 m' inA i j = ms2 m inA i j) ∧
    ∀ i j, interior2 p i j → ms2 m' outA i j = fullStepM2 p dt (ms2 m inA) i j :=
  godunovMhd2_resultAt hp hS (hK dt) hpp hm

/-- field after a list of steps -/
def Spec.iterStepM2 (p : Params R) : List R → FldM2 R → FldM2 R
  | [], u => u
  | dt :: dts, u => iterStepM2 p dts (fullStepM2 p dt u)

theorem iterStepM2_congr {p : Params R} (hp : Mhd2 p) (dts : List R) {u u' : FldM2 R}
    (h : ∀ i j, interior2 p i j → u i j = u' i j) (i j : Int)
    (hij : interior2 p i j) : iterStepM2 p dts u i j = iterStepM2 p dts u' i j := by
  induction dts generalizing u u' with
  | nil => exact h i j hij
  | cons dt dts ih => exact ih (fullStepM2_congr hp h)

/-- **Any number of MHD steps** -/
theorem mhdRun2_result {p : Params R} (hp : Mhd2 p) (hS : SignLaws R) (hK : MhdOK2 p)
    {jk : JunkM R} (dts : List R) (n : Nat) {m m' : Mem Arr R} (hm : mhdRun2 p jk n dts m m') :
    ∀ i j, interior2 p i j →
      ms2 m' (pingIn (n + dts.length)) i j = iterStepM2 p dts (ms2 m (pingIn n)) i j := by
  induction dts generalizing n m with
  | nil => cases hm; exact fun _ _ _ => rfl
  | cons dt dts ih =>
    obtain ⟨m1, h1, h2⟩ := hm
    obtain ⟨_, s2⟩ := godunovMhd2_result hp hS hK (pingPong n) h1
    intro i j hij
    have e : n + (dt :: dts).length = n + 1 + dts.length := by simp; omega
    rw [e, ih (n + 1) h2 i j hij]
    exact iterStepM2_congr hp dts (fun i j hij => by rw [← pingOut_succ]; exact s2 i j hij) i j hij

/-! ## Periodic domains -/

theorem traceM2_shift (p : Params R) (dt : R) (q u : FldM2 R) (a b i j : Int) :
    traceM2 p dt (fun i j => q (i + a) (j + b)) (fun i j => u (i + a) (j + b)) i j =
      traceM2 p dt q u (i + a) (j + b) := by
  unfold traceM2
  congr 1
  · funext o
    beta_reduce
    rw [show i + o.1 + a = i + a + o.1 by ring, show j + o.2 + b = j + b + o.2 by ring]
  · funext o
    beta_reduce
    rw [show i + o.1 + a = i + a + o.1 by ring, show j + o.2 + b = j + b + o.2 by ring]

theorem tracesM2_shift (p : Params R) (dt : R) (u : FldM2 R) (a b i j : Int) :
    tracesM2 p dt (fun i j => u (i + a) (j + b)) i j = tracesM2 p dt u (i + a) (j + b) := by
  unfold tracesM2
  rw [← traceM2_shift]
  congr 1
  funext i j
  unfold primM2
  beta_reduce
  rw [show i + 1 + a = i + a + 1 by ring, show j + 1 + b = j + b + 1 by ring]

/-- all four sides are periodic and the grid is at least as thick as the ghost layer -/
structure PeriodicBox2 (p : Params R) : Prop where
  xmin : p.boundary_type_xmin = .periodic
  xmax : p.boundary_type_xmax = .periodic
  ymin : p.boundary_type_ymin = .periodic
  ymax : p.boundary_type_ymax = .periodic

theorem PeriodicBox2.thick {p : Params R} (hP : PeriodicBox2 p) (hf : Faces2Ok p) :
    p.ghostWidth ≤ p.nx ∧ p.ghostWidth ≤ p.ny := by
  obtain ⟨a, b, c, d⟩ := hf
  constructor
  · rcases a with h | h
    · rw [hP.xmin] at h; cases h
    · exact h
  · rcases c with h | h
    · rw [hP.ymin] at h; cases h
    · exact h

theorem srcCoord_per {n gw c : Int} (hn : gw ≤ n) (h0 : 0 ≤ c) (h1 : c < 2 * gw) :
    srcCoord .periodic .periodic n gw (c + n) = srcCoord .periodic .periodic n gw c := by
  unfold srcCoord
  simp only
  split_ifs <;> omega

theorem fillM2_periodic_x {p : Params R} (hP : PeriodicBox2 p) (hn : p.ghostWidth ≤ p.nx)
    (u : FldM2 R) {i : Int} (j : Int) (h0 : 0 ≤ i) (h1 : i < 2 * p.ghostWidth) :
    fillM2 p u (i + p.nx) j = fillM2 p u i j := by
  obtain ⟨e1, e2, e3, e4⟩ := hP
  unfold fillM2 ghost2
  simp [e1, e2, e3, e4, srcCoord_per hn h0 h1, flips, signed]

theorem fillM2_periodic_y {p : Params R} (hP : PeriodicBox2 p) (hn : p.ghostWidth ≤ p.ny)
    (u : FldM2 R) (i : Int) {j : Int} (h0 : 0 ≤ j) (h1 : j < 2 * p.ghostWidth) :
    fillM2 p u i (j + p.ny) = fillM2 p u i j := by
  obtain ⟨e1, e2, e3, e4⟩ := hP
  unfold fillM2 ghost2
  simp [e1, e2, e3, e4, srcCoord_per hn h0 h1, flips, signed]

theorem fillM2_interior (p : Params R) (u : FldM2 R) {i j : Int} (h : interior2 p i j) :
    fillM2 p u i j = u i j := by
  obtain ⟨a, b, c, d⟩ := h
  have e : ∀ {bm bM : BC} {n gw c : Int}, gw ≤ c → c < gw + n →
      srcCoord bm bM n gw c = c ∧ ¬ flips bm bM n gw c := by
    intro bm bM n gw c h h'
    unfold srcCoord flips
    rw [if_neg (by omega), if_neg (by omega)]
    exact ⟨rfl, by omega⟩
  unfold fillM2 ghost2
  simp only [(e a b).1, (e c d).1, signed, (e a b).2, (e c d).2, and_false, if_false]
  rfl

theorem tracesM2_periodic_x {p : Params R} (hp : Mhd2 p) (hP : PeriodicBox2 p) (dt : R)
    (u : FldM2 R) {i : Int} (j : Int) (h0 : 1 ≤ i) (h1 : i + 2 < 2 * p.ghostWidth) :
    tracesM2 p dt (fillM2 p u) (i + p.nx) j = tracesM2 p dt (fillM2 p u) i j := by
  have := tracesM2_shift p dt (fillM2 p u) p.nx 0 i j
  rw [add_zero] at this
  rw [← this]
  refine tracesM2_congr hp.valid (fun a b h3 h4 _ _ => ?_)
  rw [add_zero, fillM2_periodic_x hP (hP.thick hp.faces).1 u b (by omega) (by omega)]

theorem tracesM2_periodic_y {p : Params R} (hp : Mhd2 p) (hP : PeriodicBox2 p) (dt : R)
    (u : FldM2 R) (i : Int) {j : Int} (h0 : 1 ≤ j) (h1 : j + 2 < 2 * p.ghostWidth) :
    tracesM2 p dt (fillM2 p u) i (j + p.ny) = tracesM2 p dt (fillM2 p u) i j := by
  have := tracesM2_shift p dt (fillM2 p u) 0 p.ny i j
  rw [add_zero] at this
  rw [← this]
  refine tracesM2_congr hp.valid (fun a b _ _ h3 h4 => ?_)
  rw [add_zero, fillM2_periodic_y hP (hP.thick hp.faces).2 u a (by omega) (by omega)]

/-- fluxes and emf on opposite sides of a periodic domain are equal -/
theorem periodic_x {p : Params R} (hp : Mhd2 p) (hP : PeriodicBox2 p) (dt : R) (u : FldM2 R)
    (j : Int) :
    fluxXM2 p (tracesM2 p dt (fillM2 p u)) (p.ghostWidth + p.nx) j =
      fluxXM2 p (tracesM2 p dt (fillM2 p u)) p.ghostWidth j ∧
    emfM2 p (tracesM2 p dt (fillM2 p u)) (p.ghostWidth + p.nx) j =
      emfM2 p (tracesM2 p dt (fillM2 p u)) p.ghostWidth j := by
  have hg := hp.gw
  have T := fun i j h0 h1 => tracesM2_periodic_x hp hP dt u (i := i) j h0 h1
  have e1 := fun j => T p.ghostWidth j (by omega) (by omega)
  have e2 := fun j => T (p.ghostWidth - 1) j (by omega) (by omega)
  have e3 : p.ghostWidth + p.nx - 1 = p.ghostWidth - 1 + p.nx := by ring
  unfold fluxXM2 emfM2
  rw [e3, e1, e2, e1, e2]
  exact ⟨rfl, rfl⟩

theorem periodic_y {p : Params R} (hp : Mhd2 p) (hP : PeriodicBox2 p) (dt : R) (u : FldM2 R)
    (i : Int) :
    fluxYM2 p (tracesM2 p dt (fillM2 p u)) i (p.ghostWidth + p.ny) =
      fluxYM2 p (tracesM2 p dt (fillM2 p u)) i p.ghostWidth ∧
    emfM2 p (tracesM2 p dt (fillM2 p u)) i (p.ghostWidth + p.ny) =
      emfM2 p (tracesM2 p dt (fillM2 p u)) i p.ghostWidth := by
  have hg := hp.gw
  have T := fun i j h0 h1 => tracesM2_periodic_y hp hP dt u i (j := j) h0 h1
  have e1 := fun i => T i p.ghostWidth (by omega) (by omega)
  have e2 := fun i => T i (p.ghostWidth - 1) (by omega) (by omega)
  have e3 : p.ghostWidth + p.ny - 1 = p.ghostWidth - 1 + p.ny := by ring
  unfold fluxYM2 emfM2
  rw [e3, e1, e2, e1, e2]
  exact ⟨rfl, rfl⟩

end generic
end EulerKokkos
