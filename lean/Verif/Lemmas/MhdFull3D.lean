import Verif.Lemmas.MhdV2_3D
import Verif.Lemmas.MhdFull2D
import Verif.Lemmas.HydroStep3D

/-! # The complete 3D MHD time step and runs -/

set_option linter.constructorNameAsVariable false
set_option linter.unusedSectionVars false
set_option linter.unusedSimpArgs false
set_option linter.unnecessarySeqFocus false

namespace EulerKokkos

open Prog (rd wr add upd run_bind run_rd run_wr run_pure foot_bind foot_rd foot_wr foot_add
  foot_pure foot_ite foot_pif foot_mono Foot forRange pif)
open Spec

section generic
variable {R : Type} [RealOps R]

theorem makeBoundaries3_ms {p : Params R} (hp : Mhd3 p) (hS : SignLaws R) {U : Arr}
    {m m' : Mem Arr R} (hm : makeBoundaries3 true p U m m') :
    SameOff (· = U) m m' ∧
    (∀ i j k, inGrid3 p i j k → ms m' U i j k = fillM3 p (ms m U) i j k) ∧
    (∀ i j k, interior3 p i j k → ms m' U i j k = ms m U i j k) := by
  obtain ⟨F, hF, hh⟩ := makeBoundaries3_is hp.wf hp.faces true U
  obtain rfl := (hF m m').1 hm
  refine ⟨fun l hl => (hh m).1 l (fun h => hl h.1), fun i j k hij => ?_, fun i j k hij => ?_⟩
  · have hv := hp.nbvar
    have e := fun v (h : v < 8) => (hh m).2 hS i j k v hij (by omega)
    have e' : ∀ v < 8, F m ⟨U, i, j, k, v⟩ =
        ghost3 true p (fun i j k v => (ms m U i j k).get v) i j k v := by
      intro v h
      rw [e v h]
      unfold ghost3
      beta_reduce
      rw [mem_of_ms m U _ _ _ v h]
    have : ms (F m) U i j k = ⟨F m ⟨U, i, j, k, ID⟩, F m ⟨U, i, j, k, IP⟩, F m ⟨U, i, j, k, IU⟩,
      F m ⟨U, i, j, k, IV⟩, F m ⟨U, i, j, k, IW⟩, F m ⟨U, i, j, k, IA⟩, F m ⟨U, i, j, k, IB⟩,
      F m ⟨U, i, j, k, IC⟩⟩ := rfl
    rw [this, e' ID (by decide), e' IP (by decide), e' IU (by decide), e' IV (by decide),
      e' IW (by decide), e' IA (by decide), e' IB (by decide), e' IC (by decide)]
    rfl
  · exact ms_congr (fun v _ => (hh m).1 _ (fun h => h.2.2.1 hij))

/-- What precedes the time-step computation: ghost cells, copy, primitive variables. -/
theorem preMhd3_result {p : Params R} (hp : Mhd3 p) (hS : SignLaws R)
    {inA outA : Arr} (hpp : PingPong inA outA) {m m' : Mem Arr R}
    (hm : runLaunches (preMhd3 p inA outA) m m') :
    SameOff (fun a => a = inA ∨ a = outA ∨ a = .Q) m m' ∧
    (∀ i j k, inGrid3 p i j k → ms m' inA i j k = fillM3 p (ms m inA) i j k) ∧
    (∀ i j k, interior3 p i j k → ms m' inA i j k = ms m inA i j k) ∧
    ms m' outA = ms m' inA ∧ PrimOf3 p (ms m' .Q) (ms m' inA) := by
  obtain ⟨v1, v2⟩ := nvM3_ping hpp
  have n1 : inA ≠ .Q := by rcases hpp with ⟨rfl, rfl⟩ | ⟨rfl, rfl⟩ <;> decide
  have n2 : outA ≠ .Q := by rcases hpp with ⟨rfl, rfl⟩ | ⟨rfl, rfl⟩ <;> decide
  have n3 : inA ≠ outA := by rcases hpp with ⟨rfl, rfl⟩ | ⟨rfl, rfl⟩ <;> decide
  obtain ⟨m1, k1, m2, k2, m3, k3, m4, k4, m5, k5, m6, k6, m7, k7, m8, k8, rfl⟩ := hm
  obtain ⟨b1, b2, b3⟩ := makeBoundaries3_ms hp hS (U := inA) (m := m) (m' := m6)
    ⟨m1, k1, m2, k2, m3, k3, m4, k4, m5, k5, m6, k6, rfl⟩
  have c1 : ms m7 outA = ms m6 inA := by
    funext i j k; rw [deepCopy_ms k7]
  have c0 : SameOff (· = outA) m6 m7 := (deepCopy_result k7).1
  obtain ⟨d1, d2⟩ := convertMhd3_result v1 n1 k8
  have e1 : ms m' inA = ms m6 inA := (d1.ms (by simpa using n1)).trans (c0.ms n3)
  have e2 : ms m' outA = ms m6 inA := (d1.ms (by simpa using n2)).trans c1
  refine ⟨?_, ?_, ?_, ?_, ?_⟩
  · refine (b1.mono ?_).trans ((c0.mono ?_).trans (d1.mono ?_))
    · exact fun a h => Or.inl h
    · exact fun a h => Or.inr (Or.inl h)
    · exact fun a h => Or.inr (Or.inr (by simpa using h))
  · rw [e1]; exact b2
  · rw [e1]; exact b3
  · rw [e1, e2]
  · rw [e1, ← c0.ms n3]; exact d2

theorem fillM3_congr {p : Params R} (hw : p.WF) (hf : Faces3Ok p) {u u' : FldM3 R}
    (h : ∀ i j k, interior3 p i j k → u i j k = u' i j k) (i j k : Int) (hij : inGrid3 p i j k) :
    fillM3 p u i j k = fillM3 p u' i j k := by
  obtain ⟨⟨f1, f2, f3, f4⟩, f5, f6⟩ := hf
  obtain ⟨⟨h3, h4⟩, ⟨h5, h6⟩, h7, h8⟩ := hij
  have hgw := hw.gw_pos
  have sx := srcCoord_interior hw.nx_pos f1 f2 h3 h4
  have sy := srcCoord_interior hw.ny_pos f3 f4 h5 h6
  have sz := srcCoord_interior hw.nz_pos f5 f6 h7 h8
  unfold fillM3 ghost3
  simp only
  rw [h _ _ _ ⟨⟨by omega, by omega⟩, ⟨by omega, by omega⟩, by omega, by omega⟩]

/-! ## Locality of the step -/

theorem primM3_box {p : Params R} {u u' : FldM3 R} {lo hi i j k : Int}
    (h : BoxEq u u' lo (hi + 1) i j k) : BoxEq (primM3 p u) (primM3 p u') lo hi i j k :=
  fun a b c _ _ _ _ _ _ => primM3_congr (fun x y z _ _ _ _ _ _ =>
    h x y z (by omega) (by omega) (by omega) (by omega) (by omega) (by omega))

theorem schemeM3_congr {p : Params R} {dt : R} {u u' : FldM3 R} {i j k : Int}
    (h : BoxEq u u' 2 2 i j k) : (schemeM3 p dt u).EqAt (schemeM3 p dt u') i j k := by
  have hq : BoxEq (primM3 p u) (primM3 p u') 2 1 i j k := primM3_box h
  unfold schemeM3
  split_ifs
  · have h1 : BoxEq u u' 2 1 i j k := h.sub (by omega)
    have h2 : BoxEq u u' 1 1 i j k := h.sub (by omega)
    exact ⟨fluxV2_congr (d := .x) hq h2, fluxV2_congr (d := .y) hq h2, fluxV2_congr (d := .z) hq h2,
      fun d => emfV2_congr hq h1⟩
  · refine fluxOfTraces_congr (fun a b c _ _ _ _ _ _ => traceM3_congr ?_ ?_)
    · exact fun x y z _ _ _ _ _ _ =>
        hq x y z (by omega) (by omega) (by omega) (by omega) (by omega) (by omega)
    · exact fun x y z _ _ _ _ _ _ =>
        h x y z (by omega) (by omega) (by omega) (by omega) (by omega) (by omega)

theorem stepM3_congr {p : Params R} {dt : R} {u u' : FldM3 R} {i j k : Int}
    (h : BoxEq u u' 2 3 i j k) : stepM3 p dt u i j k = stepM3 p dt u' i j k := by
  unfold stepM3 stepOfM3
  rw [h.at (a := i) (b := j) (c := k) (by omega)]
  split_ifs
  · exact stepOf_congr (schemeM3_congr (h.sub (by omega))) (schemeM3_congr (h.sub (by omega)))
      (schemeM3_congr (h.sub (by omega))) (schemeM3_congr (h.sub (by omega)))
  · rfl

theorem stepM3_interior_congr {p : Params R} (hp : Mhd3 p) {dt : R} {u u' : FldM3 R}
    (h : ∀ i j k, inGrid3 p i j k → u i j k = u' i j k) (i j k : Int) (hij : interior3 p i j k) :
    stepM3 p dt u i j k = stepM3 p dt u' i j k := by
  have := hp.gw
  obtain ⟨⟨a, b⟩, ⟨c, d⟩, e, f⟩ := hij
  exact stepM3_congr (fun x y z _ _ _ _ _ _ =>
    h x y z ⟨⟨by omega, by omega⟩, ⟨by omega, by omega⟩, by omega, by omega⟩)

theorem fullStepM3_congr {p : Params R} (hp : Mhd3 p) {dt : R} {u u' : FldM3 R}
    (h : ∀ i j k, interior3 p i j k → u i j k = u' i j k) (i j k : Int) (hij : interior3 p i j k) :
    fullStepM3 p dt u i j k = fullStepM3 p dt u' i j k :=
  stepM3_interior_congr hp (fillM3_congr hp.wf hp.faces h) i j k hij

/-- result of the last part of the step, for the versions whose result is determined in `R` -/
def MhdOK3 (p : Params R) : Prop :=
  ∀ (dt : R) (jk : JunkM R) (inA outA : Arr), PingPong inA outA → ∀ m m',
    PrimOf3 p (ms m .Q) (ms m inA) → ms m outA = ms m inA →
    runLaunches (postMhd3 p dt jk inA outA) m m' →
      SameOff (MhdOuts3 outA) m m' ∧ ∀ i j k, ms m' outA i j k = stepM3 p dt (ms m inA) i j k

theorem mhdOK3_0 {p : Params R} (hp : Mhd3 p) (hi : p.implementationVersion = 0) : MhdOK3 p :=
  fun _ _ _ _ hpp _ _ hq hc hm => postMhd3_result0 hp hi hpp hq hc hm

theorem mhdOK3_exact [ExactAdd R] {p : Params R} (hp : Mhd3 p)
    (hi : p.implementationVersion = 0 ∨ p.implementationVersion = 1 ∨
      p.implementationVersion = 2) : MhdOK3 p := by
  rcases hi with h | h | h
  · exact mhdOK3_0 hp h
  · exact fun _ _ _ _ hpp _ _ hq hc hm => postMhd3_result1 hp h hpp hq hc hm
  · exact fun _ _ _ _ hpp _ _ hq hc hm => postMhd3_result2 hp h hpp hq hc hm

theorem mhdOK3_real {p : Params ℝ} (hp : Mhd3 p)
    (hi : p.implementationVersion = 0 ∨ p.implementationVersion = 1 ∨
      p.implementationVersion = 2) : MhdOK3 p := mhdOK3_exact hp hi

theorem mhdOuts3_in {inA outA : Arr} (hpp : PingPong inA outA) : ¬ MhdOuts3 outA inA := by
  rcases hpp with ⟨rfl, rfl⟩ | ⟨rfl, rfl⟩ <;> simp [MhdOuts3, traceOuts3]

/-- **One full MHD step.** -/
theorem godunovMhd3_result {p : Params R} (hp : Mhd3 p) (hS : SignLaws R) (hK : MhdOK3 p)
    {dt : R} {jk : JunkM R} {inA outA : Arr} (hpp : PingPong inA outA)
    {m m' : Mem Arr R} (hm : godunovMhd3 p dt jk inA outA m m') :
    (∀ i j k, interior3 p i j k → ms m' inA i j k = ms m inA i j k) ∧
    ∀ i j k, interior3 p i j k → ms m' outA i j k = fullStepM3 p dt (ms m inA) i j k := by
  obtain ⟨mb, hb, hs⟩ := hm
  obtain ⟨b1, b2, b3, b4, b5⟩ := preMhd3_result hp hS hpp hb
  obtain ⟨s1, s2⟩ := hK dt jk inA outA hpp mb m' b5 b4 hs
  refine ⟨fun i j k hij => ?_, fun i j k hij => ?_⟩
  · rw [s1.ms (mhdOuts3_in hpp)]; exact b3 i j k hij
  · rw [s2 i j k]; exact stepM3_interior_congr hp b2 i j k hij

/-- field after a list of steps -/
def Spec.iterStepM3 (p : Params R) : List R → FldM3 R → FldM3 R
  | [], u => u
  | dt :: dts, u => iterStepM3 p dts (fullStepM3 p dt u)

theorem iterStepM3_congr {p : Params R} (hp : Mhd3 p) (dts : List R) {u u' : FldM3 R}
    (h : ∀ i j k, interior3 p i j k → u i j k = u' i j k) (i j k : Int)
    (hij : interior3 p i j k) : iterStepM3 p dts u i j k = iterStepM3 p dts u' i j k := by
  induction dts generalizing u u' with
  | nil => exact h i j k hij
  | cons dt dts ih => exact ih (fullStepM3_congr hp h)

/-- **Any number of MHD steps** -/
theorem mhdRun3_result {p : Params R} (hp : Mhd3 p) (hS : SignLaws R) (hK : MhdOK3 p)
    {jk : JunkM R} (dts : List R) (n : Nat) {m m' : Mem Arr R} (hm : mhdRun3 p jk n dts m m') :
    ∀ i j k, interior3 p i j k →
      ms m' (pingIn (n + dts.length)) i j k = iterStepM3 p dts (ms m (pingIn n)) i j k := by
  induction dts generalizing n m with
  | nil => cases hm; exact fun _ _ _ _ => rfl
  | cons dt dts ih =>
    obtain ⟨m1, h1, h2⟩ := hm
    obtain ⟨_, s2⟩ := godunovMhd3_result hp hS hK (pingPong n) h1
    intro i j k hij
    have e : n + (dt :: dts).length = n + 1 + dts.length := by simp; omega
    rw [e, ih (n + 1) h2 i j k hij]
    exact iterStepM3_congr hp dts (fun i j k hij => by rw [← pingOut_succ]; exact s2 i j k hij) i j k hij

/-! ## Translations -/

/-- a field seen from another origin -/
def shiftM3 (u : FldM3 R) (a b c : Int) : FldM3 R := fun i j k => u (i + a) (j + b) (k + c)

theorem shift_comm (x e a : Int) : x + e + a = x + a + e := by omega
theorem shift_sub (x e a : Int) : x - e + a = x + a - e := by omega

theorem primM3_shift (p : Params R) (u : FldM3 R) (a b c : Int) :
    primM3 p (shiftM3 u a b c) = shiftM3 (primM3 p u) a b c := by
  funext i j k
  simp only [primM3, shiftM3, shift_comm _ 1]

theorem elecM3_shift (q u : FldM3 R) (d : Dir) (a b c i j k : Int) :
    elecM3 (shiftM3 q a b c) (shiftM3 u a b c) d i j k = elecM3 q u d (i + a) (j + b) (k + c) := by
  cases d <;> simp only [elecM3, shiftM3, shift_sub]

theorem faceSlopeM3_shift (p : Params R) (f : MS R → R) (u : FldM3 R) (d : Dir) (a b c i j k : Int) :
    faceSlopeM3 p (fun i j k => f (shiftM3 u a b c i j k)) d i j k =
      faceSlopeM3 p (fun i j k => f (u i j k)) d (i + a) (j + b) (k + c) := by
  simp only [faceSlopeM3, shiftM3, shift_sub]
  rw [shift_comm i, shift_comm j, shift_comm k]

theorem traceM3_shift (p : Params R) (dt : R) (q u : FldM3 R) (a b c i j k : Int) :
    traceM3 p dt (shiftM3 q a b c) (shiftM3 u a b c) i j k = traceM3 p dt q u (i + a) (j + b) (k + c) := by
  unfold traceM3
  congr 1
  unfold traceInM3
  simp only [elecM3_shift]
  simp only [faceSlopeM3_shift p MS.a, faceSlopeM3_shift p MS.b, faceSlopeM3_shift p MS.c]
  simp only [shiftM3, shift_comm _ 1, shift_sub]

theorem slopeV2_shift (p : Params R) (q u : FldM3 R) (d : Dir) (a b c i j k : Int) :
    slopeV2 p (shiftM3 q a b c) (shiftM3 u a b c) d i j k = slopeV2 p q u d (i + a) (j + b) (k + c) := by
  simp only [slopeV2, shiftM3, shift_sub]
  rw [shift_comm i, shift_comm j, shift_comm k]

theorem q2V2_shift (p : Params R) (dt : R) (q u : FldM3 R) (a b c i j k : Int) :
    q2V2 p dt (shiftM3 q a b c) (shiftM3 u a b c) i j k = q2V2 p dt q u (i + a) (j + b) (k + c) := by
  simp only [q2V2, slopeV2_shift]
  simp only [shiftM3, shift_comm _ 1]

theorem sFaceV2_shift (p : Params R) (dt : R) (q u : FldM3 R) (d : Dir) (a b c i j k : Int) :
    sFaceV2 p dt (shiftM3 q a b c) (shiftM3 u a b c) d i j k =
      sFaceV2 p dt q u d (i + a) (j + b) (k + c) := by
  cases d <;> simp only [sFaceV2, elecM3_shift, shift_comm _ 1]

theorem fluxV2_shift (p : Params R) (dt : R) (q u : FldM3 R) (d : Dir) (a b c i j k : Int) :
    fluxV2 p dt (shiftM3 q a b c) (shiftM3 u a b c) d i j k =
      fluxV2 p dt q u d (i + a) (j + b) (k + c) := by
  simp only [fluxV2, q2V2_shift, slopeV2_shift, sFaceV2_shift, shift_sub]
  rfl

theorem limSlopeV2_shift (p : Params R) (f : MS R → R) (u : FldM3 R) (d : Dir) (a b c i j k : Int) :
    limSlopeV2 p (fun i j k => f (shiftM3 u a b c i j k)) d i j k =
      limSlopeV2 p (fun i j k => f (u i j k)) d (i + a) (j + b) (k + c) := by
  simp only [limSlopeV2, shiftM3, shift_sub]
  rw [shift_comm i, shift_comm j, shift_comm k]

theorem edgeV2_shift (p : Params R) (dt : R) (q u : FldM3 R) (d0 d1 : Dir) (a b c i j k : Int)
    (e : EdgeLoc) :
    edgeV2 p dt (shiftM3 q a b c) (shiftM3 u a b c) d0 d1 i j k e =
      edgeV2 p dt q u d0 d1 (i + a) (j + b) (k + c) e := by
  unfold edgeV2
  simp only [q2V2_shift, slopeV2_shift, sFaceV2_shift, limSlopeV2_shift p (MS.mag d0),
    limSlopeV2_shift p (MS.mag d1)]
  simp only [shiftM3]
  generalize (if e.right = true then (1 : Int) else 0) = r
  generalize (if e.top = true then (1 : Int) else 0) = t
  rw [shift_comm i (r * _), shift_comm j (r * _), shift_comm k (r * _), shift_comm i (t * _),
    shift_comm j (t * _), shift_comm k (t * _)]

theorem emfV2_shift (p : Params R) (dt : R) (q u : FldM3 R) (d : EmfDir) (a b c i j k : Int) :
    emfV2 p dt (shiftM3 q a b c) (shiftM3 u a b c) d i j k =
      emfV2 p dt q u d (i + a) (j + b) (k + c) := by
  cases d <;> simp only [emfV2, edgeV2_shift, shift_sub]

/-- the scheme does not know where it is -/
theorem schemeM3_shift (p : Params R) (dt : R) (u : FldM3 R) (a b c i j k : Int) :
    (schemeM3 p dt (shiftM3 u a b c)).x i j k = (schemeM3 p dt u).x (i + a) (j + b) (k + c) ∧
    (schemeM3 p dt (shiftM3 u a b c)).y i j k = (schemeM3 p dt u).y (i + a) (j + b) (k + c) ∧
    (schemeM3 p dt (shiftM3 u a b c)).z i j k = (schemeM3 p dt u).z (i + a) (j + b) (k + c) ∧
    ∀ d, (schemeM3 p dt (shiftM3 u a b c)).e d i j k = (schemeM3 p dt u).e d (i + a) (j + b) (k + c) := by
  unfold schemeM3
  split_ifs
  · simp only [fluxesV2M3, primM3_shift, fluxV2_shift, emfV2_shift, and_self, implies_true]
  · simp only [fluxesM3, fluxOfTraces, primM3_shift, traceM3_shift, shift_sub, true_and]
    exact fun _ => trivial

/-! ## Periodic domains -/

/-- all six sides are periodic -/
structure PeriodicBox3 (p : Params R) : Prop where
  xmin : p.boundary_type_xmin = .periodic
  xmax : p.boundary_type_xmax = .periodic
  ymin : p.boundary_type_ymin = .periodic
  ymax : p.boundary_type_ymax = .periodic
  zmin : p.boundary_type_zmin = .periodic
  zmax : p.boundary_type_zmax = .periodic

theorem PeriodicBox3.thick {p : Params R} (hP : PeriodicBox3 p) (hf : Faces3Ok p) :
    p.ghostWidth ≤ p.nx ∧ p.ghostWidth ≤ p.ny ∧ p.ghostWidth ≤ p.nz := by
  obtain ⟨⟨a, b, c, d⟩, e, f⟩ := hf
  refine ⟨?_, ?_, ?_⟩
  · rcases a with h | h
    · rw [hP.xmin] at h; cases h
    · exact h
  · rcases c with h | h
    · rw [hP.ymin] at h; cases h
    · exact h
  · rcases e with h | h
    · rw [hP.zmin] at h; cases h
    · exact h

theorem fillM3_periodic_x {p : Params R} (hP : PeriodicBox3 p) (hn : p.ghostWidth ≤ p.nx)
    (u : FldM3 R) {i : Int} (j k : Int) (h0 : 0 ≤ i) (h1 : i < 2 * p.ghostWidth) :
    fillM3 p u (i + p.nx) j k = fillM3 p u i j k := by
  obtain ⟨e1, e2, e3, e4, e5, e6⟩ := hP
  unfold fillM3 ghost3
  simp [e1, e2, e3, e4, e5, e6, srcCoord_per hn h0 h1, flips, signed]

theorem fillM3_periodic_y {p : Params R} (hP : PeriodicBox3 p) (hn : p.ghostWidth ≤ p.ny)
    (u : FldM3 R) (i : Int) {j : Int} (k : Int) (h0 : 0 ≤ j) (h1 : j < 2 * p.ghostWidth) :
    fillM3 p u i (j + p.ny) k = fillM3 p u i j k := by
  obtain ⟨e1, e2, e3, e4, e5, e6⟩ := hP
  unfold fillM3 ghost3
  simp [e1, e2, e3, e4, e5, e6, srcCoord_per hn h0 h1, flips, signed]

theorem fillM3_periodic_z {p : Params R} (hP : PeriodicBox3 p) (hn : p.ghostWidth ≤ p.nz)
    (u : FldM3 R) (i j : Int) {k : Int} (h0 : 0 ≤ k) (h1 : k < 2 * p.ghostWidth) :
    fillM3 p u i j (k + p.nz) = fillM3 p u i j k := by
  obtain ⟨e1, e2, e3, e4, e5, e6⟩ := hP
  unfold fillM3 ghost3
  simp [e1, e2, e3, e4, e5, e6, srcCoord_per hn h0 h1, flips, signed]

theorem fillM3_interior (p : Params R) (u : FldM3 R) {i j k : Int} (h : interior3 p i j k) :
    fillM3 p u i j k = u i j k := by
  obtain ⟨⟨a, b⟩, ⟨c, d⟩, e', f⟩ := h
  have e : ∀ {bm bM : BC} {n gw c : Int}, gw ≤ c → c < gw + n →
      srcCoord bm bM n gw c = c ∧ ¬ flips bm bM n gw c := by
    intro bm bM n gw c h h'
    unfold srcCoord flips
    rw [if_neg (by omega), if_neg (by omega)]
    exact ⟨rfl, by omega⟩
  unfold fillM3 ghost3
  simp only [(e a b).1, (e c d).1, (e e' f).1, signed, (e a b).2, (e c d).2, (e e' f).2, and_false, if_false]
  rfl

/-- fluxes and emf on opposite sides of a periodic domain are equal -/
theorem periodic3_x {p : Params R} (hp : Mhd3 p) (hP : PeriodicBox3 p) (dt : R) (u : FldM3 R)
    (j k : Int) :
    (schemeM3 p dt (fillM3 p u)).x (p.ghostWidth + p.nx) j k =
      (schemeM3 p dt (fillM3 p u)).x p.ghostWidth j k ∧
    ∀ d, (schemeM3 p dt (fillM3 p u)).e d (p.ghostWidth + p.nx) j k =
      (schemeM3 p dt (fillM3 p u)).e d p.ghostWidth j k := by
  have hg := hp.gw
  have s := schemeM3_shift p dt (fillM3 p u) p.nx 0 0 p.ghostWidth j k
  rw [add_zero, add_zero] at s
  have b : BoxEq (shiftM3 (fillM3 p u) p.nx 0 0) (fillM3 p u) 2 2 p.ghostWidth j k := by
    intro a b c _ _ _ _ _ _
    simp only [shiftM3, add_zero]
    exact fillM3_periodic_x hP (hP.thick hp.faces).1 u b c (by omega) (by omega)
  have c := schemeM3_congr (p := p) (dt := dt) b
  exact ⟨s.1.symm.trans c.1, fun d => (s.2.2.2 d).symm.trans (c.2.2.2 d)⟩

theorem periodic3_y {p : Params R} (hp : Mhd3 p) (hP : PeriodicBox3 p) (dt : R) (u : FldM3 R)
    (i k : Int) :
    (schemeM3 p dt (fillM3 p u)).y i (p.ghostWidth + p.ny) k =
      (schemeM3 p dt (fillM3 p u)).y i p.ghostWidth k ∧
    ∀ d, (schemeM3 p dt (fillM3 p u)).e d i (p.ghostWidth + p.ny) k =
      (schemeM3 p dt (fillM3 p u)).e d i p.ghostWidth k := by
  have hg := hp.gw
  have s := schemeM3_shift p dt (fillM3 p u) 0 p.ny 0 i p.ghostWidth k
  rw [add_zero, add_zero] at s
  have b : BoxEq (shiftM3 (fillM3 p u) 0 p.ny 0) (fillM3 p u) 2 2 i p.ghostWidth k := by
    intro a b c _ _ _ _ _ _
    simp only [shiftM3, add_zero]
    exact fillM3_periodic_y hP (hP.thick hp.faces).2.1 u a c (by omega) (by omega)
  have c := schemeM3_congr (p := p) (dt := dt) b
  exact ⟨s.2.1.symm.trans c.2.1, fun d => (s.2.2.2 d).symm.trans (c.2.2.2 d)⟩

theorem periodic3_z {p : Params R} (hp : Mhd3 p) (hP : PeriodicBox3 p) (dt : R) (u : FldM3 R)
    (i j : Int) :
    (schemeM3 p dt (fillM3 p u)).z i j (p.ghostWidth + p.nz) =
      (schemeM3 p dt (fillM3 p u)).z i j p.ghostWidth ∧
    ∀ d, (schemeM3 p dt (fillM3 p u)).e d i j (p.ghostWidth + p.nz) =
      (schemeM3 p dt (fillM3 p u)).e d i j p.ghostWidth := by
  have hg := hp.gw
  have s := schemeM3_shift p dt (fillM3 p u) 0 0 p.nz i j p.ghostWidth
  rw [add_zero, add_zero] at s
  have b : BoxEq (shiftM3 (fillM3 p u) 0 0 p.nz) (fillM3 p u) 2 2 i j p.ghostWidth := by
    intro a b c _ _ _ _ _ _
    simp only [shiftM3, add_zero]
    exact fillM3_periodic_z hP (hP.thick hp.faces).2.2 u a b (by omega) (by omega)
  have c := schemeM3_congr (p := p) (dt := dt) b
  exact ⟨s.2.2.1.symm.trans c.2.2.1, fun d => (s.2.2.2 d).symm.trans (c.2.2.2 d)⟩

end generic
end EulerKokkos
