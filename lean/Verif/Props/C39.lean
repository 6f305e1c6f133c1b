import Verif.Lemmas.MhdFull2D
import Verif.Props.C02

/-!
# C39, C40, C41 — the 2D MHD time step: schedules, versions, memory accesses
-/

set_option linter.constructorNameAsVariable false
set_option linter.unusedSectionVars false
set_option linter.unusedSimpArgs false

namespace EulerKokkos

open Spec
open Prog (forRange)
variable {R : Type} [RealOps R]

theorem det_preMhd2 {p : Params R} (hw : p.WF) (hf : Faces2Ok p) {inA outA : Arr}
    (hpp : PingPong inA outA) :
    ∀ L ∈ preMhd2 p inA outA, Deterministic L.kern := by
  obtain ⟨v1, v2⟩ := nvM2_ping hpp
  obtain ⟨f1, f2, f3, f4⟩ := hf
  intro L hL
  unfold preMhd2 at hL
  simp only [List.mem_cons, List.not_mem_nil, or_false] at hL
  rcases hL with rfl | rfl | rfl | rfl | rfl | rfl
  · exact (makeBoundaryK2_is true inA hw .xmin f1).det
  · exact (makeBoundaryK2_is true inA hw .xmax f2).det
  · exact (makeBoundaryK2_is true inA hw .ymin f3).det
  · exact (makeBoundaryK2_is true inA hw .ymax f4).det
  · exact fun m => ⟨_, rfl, fun y h => h⟩
  · refine det_forRange2 ((foot_convertMhd2 p v1).own ?_) _
    rcases hpp with ⟨rfl, rfl⟩ | ⟨rfl, rfl⟩ <;> decide

/-- the kernels without atomic updates are schedule independent in any arithmetic -/
theorem det_postMhd2_0 (p : Params R) (hi : p.implementationVersion = 0) (dt : R) (jk : JunkM R)
    {inA outA : Arr} (hpp : PingPong inA outA) :
    ∀ L ∈ postMhd2 p dt jk inA outA, Deterministic L.kern := by
  obtain ⟨v1, v2⟩ := nvM2_ping hpp
  intro L hL
  unfold postMhd2 at hL
  simp only [hi, if_true, List.mem_cons, List.not_mem_nil, or_false] at hL
  rcases hL with rfl | rfl | rfl | rfl | rfl
  · refine det_forRange2 ((foot_computeTraceMhd2 p v1 _ _ _).own ?_) _
    rcases hpp with ⟨rfl, rfl⟩ | ⟨rfl, rfl⟩ <;> decide
  · exact det_forRange2 ((foot_fluxesAndStoreMhd2 p _).own (by decide)) _
  · exact det_forRange2 ((foot_emfAndStoreMhd2 p).own (by decide)) _
  · refine det_forRange2 ((foot_updateMhd2 p v2 _ _).own ?_) _
    rcases hpp with ⟨rfl, rfl⟩ | ⟨rfl, rfl⟩ <;> decide
  · refine det_forRange2 ((foot_updateEmfMhd2 p v2 _ _).own ?_) _
    rcases hpp with ⟨rfl, rfl⟩ | ⟨rfl, rfl⟩ <;> decide

theorem AddFootM2.det {G : Int × Int → Prop} {ins outs : List Arr} {lo hi : Int}
    {body : Int × Int → Prog Arr ℝ Unit} (h : AddFootM2 G ins outs lo hi body)
    (hd : ∀ a ∈ outs, a ∉ ins) (F : Finset (Int × Int)) : Deterministic (forRange F body) :=
  fun m => ⟨_, (h.iff hd F m _).2 rfl, fun m' hm => (h.iff hd F m m').1 hm⟩

theorem det_postMhd2_real (p : Params ℝ) (dt : ℝ) (jk : JunkM ℝ)
    {inA outA : Arr} (hpp : PingPong inA outA) :
    ∀ L ∈ postMhd2 p dt jk inA outA, Deterministic L.kern := by
  by_cases h0 : p.implementationVersion = 0
  · exact det_postMhd2_0 p h0 dt jk hpp
  obtain ⟨v1, v2⟩ := nvM2_ping hpp
  intro L hL
  unfold postMhd2 at hL
  simp only [h0, if_false] at hL
  split_ifs at hL with h1 h2
  · simp only [List.mem_cons, List.not_mem_nil, or_false] at hL
    rcases hL with rfl | rfl | rfl
    · refine det_forRange2 ((foot_computeTraceMhd2 p v1 _ _ _).own ?_) _
      rcases hpp with ⟨rfl, rfl⟩ | ⟨rfl, rfl⟩ <;> decide
    · refine (foot_fluxesAndUpdateMhd2 p v2 _ _ _).det ?_ _
      rcases hpp with ⟨rfl, rfl⟩ | ⟨rfl, rfl⟩ <;> decide
    · refine (foot_emfAndUpdateMhd2 p v2 _ _).det ?_ _
      rcases hpp with ⟨rfl, rfl⟩ | ⟨rfl, rfl⟩ <;> decide
  · simp only [List.mem_cons, List.not_mem_nil, or_false] at hL
    rcases hL with rfl | rfl | rfl | rfl | rfl | rfl | rfl
    · refine det_forRange2 ((foot_computeSlopesMhd2 p v1 _).own ?_) _
      rcases hpp with ⟨rfl, rfl⟩ | ⟨rfl, rfl⟩ <;> decide
    · refine det_forRange2 ((foot_updatedPrimVarMhd2 p v1 _ _).own ?_) _
      rcases hpp with ⟨rfl, rfl⟩ | ⟨rfl, rfl⟩ <;> decide
    · refine det_forRange2 ((foot_elecFieldMhd2 p v1).own ?_) _
      rcases hpp with ⟨rfl, rfl⟩ | ⟨rfl, rfl⟩ <;> decide
    · exact det_forRange2 ((foot_sourceFaceMagMhd2 p _ _).own (by decide)) _
    · refine (foot_fluxAlongXMhd2 p v1 v2 _ _).det ?_ _
      rcases hpp with ⟨rfl, rfl⟩ | ⟨rfl, rfl⟩ <;> decide
    · refine (foot_fluxAlongYMhd2 p v1 v2 _ _).det ?_ _
      rcases hpp with ⟨rfl, rfl⟩ | ⟨rfl, rfl⟩ <;> decide
    · refine (foot_reconstructEmfMhd2 p v1 v2 _ _).det ?_ _
      rcases hpp with ⟨rfl, rfl⟩ | ⟨rfl, rfl⟩ <;> decide
  · simp at hL

theorem det_runLaunches {ls : List (Launch Arr R)} (h : ∀ L ∈ ls, Deterministic L.kern) :
    Deterministic (runLaunches ls) := by
  refine det_seqs (fun k hk => ?_)
  obtain ⟨L, hL, rfl⟩ := List.mem_map.1 hk
  exact h L hL

/-- **C39 (version 0, any arithmetic).** For every interleaving of the iterations of every kernel of a
2D MHD step the final arrays are the same, and there is one: for IEEE arithmetic as well as for the
reals, any initial memory, any `dt`, any values of uninitialised locals. -/
theorem C39_mhd_step_deterministic_2d {p : Params R} (hw : p.WF) (hf : Faces2Ok p)
    (hi : p.implementationVersion = 0) (dt : R) (jk : JunkM R) {inA outA : Arr}
    (hpp : PingPong inA outA) (m : Mem Arr R) : ∃! m', godunovMhd2 p dt jk inA outA m m' :=
  det_seq (det_runLaunches (det_preMhd2 hw hf hpp)) (det_runLaunches (det_postMhd2_0 p hi dt jk hpp)) m

/-- **C39 (all versions, exact additions).** Versions 1 and 2 accumulate with atomic additions: with exact
additions the result does not depend on their order. -/
theorem C39_mhd_atomic_step_deterministic_2d {p : Params ℝ} (hw : p.WF) (hf : Faces2Ok p)
    (dt : ℝ) (jk : JunkM ℝ) {inA outA : Arr} (hpp : PingPong inA outA) (m : Mem Arr ℝ) :
    ∃! m', godunovMhd2 p dt jk inA outA m m' :=
  det_seq (det_runLaunches (det_preMhd2 hw hf hpp)) (det_runLaunches (det_postMhd2_real p dt jk hpp)) m

/-- **C39, kernel by kernel.** -/
theorem C39_mhd_each_kernel_deterministic_2d {p : Params ℝ} (hw : p.WF) (hf : Faces2Ok p)
    (dt : ℝ) (jk : JunkM ℝ) {inA outA : Arr} (hpp : PingPong inA outA) :
    ∀ L ∈ preMhd2 p inA outA ++ postMhd2 p dt jk inA outA, ∀ m, ∃! m', L.kern m m' := by
  intro L hL
  rcases List.mem_append.1 hL with h | h
  · exact det_preMhd2 hw hf hpp L h
  · exact det_postMhd2_real p dt jk hpp L h

/-- **C39 (runs).** Any number of steps. -/
theorem C39_mhd_run_deterministic_2d {p : Params ℝ} (hw : p.WF) (hf : Faces2Ok p) (jk : JunkM ℝ)
    (dts : List ℝ) (n : Nat) (m : Mem Arr ℝ) : ∃! m', mhdRun2 p jk n dts m m' := by
  induction dts generalizing n m with
  | nil => exact ⟨m, rfl, fun y h => h⟩
  | cons dt dts ih =>
    exact det_seq (fun m => C39_mhd_atomic_step_deterministic_2d hw hf dt jk (pingPong n) m)
      (fun m => ih (n + 1) m) m

example : Mhd2 (sampleM .periodic .dirichlet 2) ∧
    ∃! m', godunovMhd2 (sampleM .periodic .dirichlet 2) (1/100) (fun _ _ _ _ => MS.zero) .U .U2
      (fun _ => 1) m' :=
  ⟨sampleM_mhd2 _ _ _, C39_mhd_atomic_step_deterministic_2d (sampleM_wf _ _ _)
    (sampleM_mhd2 _ _ _).faces _ _ (Or.inl ⟨rfl, rfl⟩) _⟩

/-! ## C40 -/

/-- **C40.** Versions 0, 1, 2 (exact arithmetic), any schedule, any content of uninitialised locals: the
new interior state is the scheme `fullStepM2` applied to the old one. -/
theorem C40_mhd_all_versions_agree_2d {p : Params ℝ} (hp : Mhd2 p)
    (hi : p.implementationVersion = 0 ∨ p.implementationVersion = 1 ∨
      p.implementationVersion = 2)
    (dt : ℝ) (jk : JunkM ℝ) {inA outA : Arr} (hpp : PingPong inA outA) {m m' : Mem Arr ℝ}
    (hm : godunovMhd2 p dt jk inA outA m m') (i j : Int) (hij : interior2 p i j) :
    ms2 m' outA i j = fullStepM2 p dt (ms2 m inA) i j :=
  (godunovMhd2_result hp signLaws_real (mhdOK2_real hp hi) hpp hm).2 i j hij

/-- **C40 (version 0, any arithmetic with exact multiplication by ±1).** -/
theorem C40_mhd_version_0_scheme_2d {p : Params R} (hp : Mhd2 p) (hS : SignLaws R)
    (hi : p.implementationVersion = 0) (dt : R) (jk : JunkM R) {inA outA : Arr}
    (hpp : PingPong inA outA) {m m' : Mem Arr R} (hm : godunovMhd2 p dt jk inA outA m m')
    (i j : Int) (hij : interior2 p i j) :
    ms2 m' outA i j = fullStepM2 p dt (ms2 m inA) i j :=
  (godunovMhd2_result hp hS (mhdOK2_0 hp hi) hpp hm).2 i j hij

theorem iterStepM2_params {p q : Params R}
    (h : ∀ dt u, fullStepM2 q dt u = fullStepM2 p dt u) (dts : List R)
    (u : FldM2 R) : iterStepM2 q dts u = iterStepM2 p dts u := by
  induction dts generalizing u with
  | nil => rfl
  | cons dt dts ih => unfold iterStepM2; rw [h]; exact ih _

/-- **C40, direct form**: two MHD solvers that differ only by the version, the schedule and uninitialised
locals, from the same initial state, have after any number of steps the same state in every interior
cell. -/
theorem C40_mhd_runs_agree_2d {p q : Params ℝ} (hp : Mhd2 p)
    (hv : p.implementationVersion = 0 ∨ p.implementationVersion = 1 ∨ p.implementationVersion = 2)
    (hv' : q.implementationVersion = 0 ∨ q.implementationVersion = 1 ∨ q.implementationVersion = 2)
    (hq : q = { p with implementationVersion := q.implementationVersion })
    (jk jk' : JunkM ℝ) (dts : List ℝ) (n : Nat) {m a b : Mem Arr ℝ}
    (ha : mhdRun2 p jk n dts m a) (hb : mhdRun2 q jk' n dts m b)
    (i j : Int) (hij : interior2 p i j) :
    ms2 a (pingIn (n + dts.length)) i j = ms2 b (pingIn (n + dts.length)) i j := by
  have hp' : Mhd2 q := by
    obtain ⟨⟨w1, w2, w3, w4, w5, w6, w7, w8, w9, w10, w11, w12, w13⟩, gw, nb, ⟨v1, v2⟩, f⟩ := hp
    rw [hq]
    exact ⟨⟨w1, w2, w3, w4, w5, w6, w7, w8, w9, w10, w11, w12, w13⟩, gw, nb, ⟨v1, v2⟩, f⟩
  have e1 := mhdRun2_result hp signLaws_real (mhdOK2_real hp hv) dts n ha i j hij
  have e2 := mhdRun2_result hp' signLaws_real (mhdOK2_real hp' hv') dts n hb i j
    (by rw [hq]; exact hij)
  rw [e1, e2]
  have hstep : ∀ dt u, fullStepM2 q dt u = fullStepM2 p dt u := by
    intro dt u; rw [hq]; rfl
  rw [iterStepM2_params hstep]

/-- non-vacuity: versions 0 and 2 of the sample run -/
example : ∃ a b, mhdRun2 (sampleM .periodic .periodic 0) (fun _ _ _ _ => MS.zero) 0 [1/10, 1/20] (fun _ => 1) a ∧
    mhdRun2 (sampleM .periodic .periodic 2) (fun _ _ _ _ => MS.zero) 0 [1/10, 1/20] (fun _ => 1) b :=
  have h : ∀ v, ∃ a, mhdRun2 (sampleM .periodic .periodic v) (fun _ _ _ _ => MS.zero) 0 [1/10, 1/20]
      (fun _ => 1) a := fun v =>
    (C39_mhd_run_deterministic_2d (sampleM_wf _ _ v) (sampleM_mhd2 _ _ v).faces _ _ _ _).exists
  ⟨_, _, (h 0).choose_spec, (h 2).choose_spec⟩

/-! ## C41 -/

theorem safe_makeBoundaryM2 {p : Params R} (hw : p.WF) {inA : Arr}
    (hA : inA = .U ∨ inA = .U2) (f : Face) (t : Int) (ht : 0 ≤ t) :
    (makeBoundary2 true p inA f t).Safe (AllocM2 p) := by
  have hgw := hw.gw_pos
  have hx := hw.nx_pos
  have hy := hw.ny_pos
  have hI := hw.isize_eq
  have hJ := hw.jsize_eq
  obtain ⟨dec, enc, h1, -, -⟩ := faceCode2 true inA hw f
  rw [h1 t ht]
  refine Prog.foot_ite (fun hg => ?_) (fun _ => Prog.foot_pure _ _ _ _)
  have hb : ∀ (c : Int × Int × Int), 0 ≤ c.1 → c.1 < p.isize → 0 ≤ c.2.1 → c.2.1 < p.jsize →
      c.2.2 = 0 → ∀ v < p.nbvar, AllocM2 p ⟨inA, c.1, c.2.1, c.2.2, v⟩ := by
    intro c a1 a2 a3 a4 a5 v hv
    refine ⟨⟨a1, a2⟩, ⟨a3, a4⟩, a5, ?_⟩
    rcases hA with rfl | rfl <;> exact hv
  refine foot_copyVars (hb _ ?_ ?_ ?_ ?_ ?_) (hb _ ?_ ?_ ?_ ?_ ?_)
  all_goals
    cases f <;> simp only [G2, faceSrc, bcSrcMin, bcSrcMax] at hg ⊢ <;>
      first
        | exact hg.2.elim
        | (split_ifs <;> omega)
        | omega

/-- the views of a list are allocated in version `v` (with at least the number of variables of `nvM2`) -/
def viewsOk (p : Params R) (arrs : List Arr) : Prop :=
  ∀ a ∈ arrs, ∀ l : Loc Arr, l.arr = a → 0 ≤ l.i → l.i < p.isize → 0 ≤ l.j → l.j < p.jsize → l.k = 0 →
    l.v < nvM2 a → AllocM2 p l

theorem accM2_alloc {p : Params R} {arrs : List Arr} (hv : viewsOk p arrs) {t : Int × Int} {lo hi : Int}
    (h1 : 0 ≤ t.1 + lo ∧ t.1 + hi < p.isize) (h2 : 0 ≤ t.2 + lo ∧ t.2 + hi < p.jsize)
    {l : Loc Arr} (h : AccM2 arrs t lo hi l) : AllocM2 p l := by
  obtain ⟨a, b, c, d, e⟩ := h
  exact hv _ a l rfl (by omega) (by omega) (by omega) (by omega) d e

theorem OwnFootM2.safe {p : Params R} {G : Int × Int → Prop} {ins outs : List Arr} {lo hi : Int}
    {body : Int × Int → Prog Arr R Unit} (h : OwnFootM2 G ins outs lo hi body)
    (hi' : viewsOk p ins) (ho : viewsOk p outs)
    (hG : ∀ t, G t → (0 ≤ t.1 + lo ∧ t.1 + hi < p.isize) ∧ (0 ≤ t.2 + lo ∧ t.2 + hi < p.jsize))
    (t : Int × Int) (ht : t ∈ range2 p.isize p.jsize) : (body t).Safe (AllocM2 p) := by
  rw [mem_range2] at ht
  have own : ∀ l, AccM2 outs t 0 0 l → AllocM2 p l := fun l hl =>
    accM2_alloc ho (by omega) (by omega) hl
  refine foot_to_safe (h t) ?_ (fun l hl => own l hl.2) (fun _ h => h.elim)
  rintro l ⟨g, hl | hl⟩
  · exact accM2_alloc hi' (hG t g).1 (hG t g).2 hl
  · exact own l hl

theorem AddFootM2.safe {p : Params R} {G : Int × Int → Prop} {ins outs : List Arr} {lo hi : Int}
    {body : Int × Int → Prog Arr R Unit} (h : AddFootM2 G ins outs lo hi body)
    (hi' : viewsOk p ins) (ho : viewsOk p outs)
    (hG : ∀ t, G t → (0 ≤ t.1 + lo ∧ t.1 + hi < p.isize) ∧ (0 ≤ t.2 + lo ∧ t.2 + hi < p.jsize))
    (hG' : ∀ t, G t → 0 ≤ t.1 - 1 ∧ 0 ≤ t.2 - 1)
    (t : Int × Int) (ht : t ∈ range2 p.isize p.jsize) : (body t).Safe (AllocM2 p) := by
  rw [mem_range2] at ht
  refine foot_to_safe (h t) ?_ (fun _ h => h.elim) (fun l hl => ?_)
  · exact fun l hl => accM2_alloc hi' (hG t hl.1).1 (hG t hl.1).2 hl.2
  · have := hG' t hl.1
    exact accM2_alloc ho (by omega) (by omega) hl.2

/-- **C41.** Every element read, written or atomically updated by any iteration of any kernel of a 2D MHD
step, on every path, is an allocated element; deep copies are between views of equal extents.  For every
grid with at least one cell, ghost width at least 3 (MHD runs set 3), all versions, all parameters. -/
theorem C41_mhd_no_out_of_bounds_2d {p : Params R} (hw : p.WF) (hgw : 3 ≤ p.ghostWidth)
    (hn : p.nbvar = 8) (dt : R) (jk : JunkM R) {inA outA : Arr} (hpp : PingPong inA outA) :
    ∀ L ∈ preMhd2 p inA outA ++ postMhd2 p dt jk inA outA, L.Safe (AllocM2 p) := by
  have hx := hw.nx_pos
  have hy := hw.ny_pos
  have hI := hw.isize_eq
  have hJ := hw.jsize_eq
  obtain ⟨v1, v2⟩ := nvM2_ping hpp
  have hin : inA = .U ∨ inA = .U2 := by rcases hpp with ⟨rfl, rfl⟩ | ⟨rfl, rfl⟩ <;> simp
  have hout : outA = .U ∨ outA = .U2 := by rcases hpp with ⟨rfl, rfl⟩ | ⟨rfl, rfl⟩ <;> simp
  have one : ∀ a, (∀ l : Loc Arr, l.arr = a → 0 ≤ l.i → l.i < p.isize → 0 ≤ l.j → l.j < p.jsize →
      l.k = 0 → l.v < nvM2 a → AllocM2 p l) → ∀ {as}, viewsOk p as → viewsOk p (a :: as) := by
    intro a h as has b hb
    rcases List.mem_cons.1 hb with rfl | hb
    · exact h
    · exact has b hb
  have nil : viewsOk p [] := fun a h => by simp at h
  have mk : ∀ a, (nvM2 a = 8 → ∀ v : Nat, v < 8 → (match a with
      | .U | .U2 | .Q => v < p.nbvar
      | .Qm_x | .Qm_y | .Qp_x | .Qp_y =>
        (p.implementationVersion = 0 ∨ p.implementationVersion = 1) ∧ v < p.nbvar
      | .QEdge n => n < 4 ∧ (p.implementationVersion = 0 ∨ p.implementationVersion = 1) ∧ v < p.nbvar
      | .Fx | .Fy => p.implementationVersion = 0 ∧ v < p.nbvar
      | .Q2 | .Sx | .Sy => p.implementationVersion = 2 ∧ v < p.nbvar
      | _ => False)) → nvM2 a = 8 → ∀ {as}, viewsOk p as → viewsOk p (a :: as) := by
    intro a h h8 as has
    refine one a (fun l hl h1 h2 h3 h4 h5 h6 => ⟨⟨h1, h2⟩, ⟨h3, h4⟩, h5, ?_⟩) has
    have := h h8 l.v (h8 ▸ h6)
    rw [hl]
    cases a <;> first | exact this | (simp only at this)
  have oU : ∀ {a}, (a = .U ∨ a = .U2) → ∀ {as}, viewsOk p as → viewsOk p (a :: as) := by
    intro a ha as has
    rcases ha with rfl | rfl <;> exact mk _ (fun _ v hv => by simp only; omega) rfl has
  have oQ : ∀ {as}, viewsOk p as → viewsOk p (.Q :: as) := fun has =>
    mk _ (fun _ v hv => by simp only; omega) rfl has
  intro L hL
  rcases List.mem_append.1 hL with hL | hL
  · unfold preMhd2 at hL
    simp only [List.mem_cons, List.not_mem_nil, or_false] at hL
    rcases hL with rfl | rfl | rfl | rfl | rfl | rfl
    · exact fun t ht => safe_makeBoundaryM2 hw hin _ t (mem_range1.1 ht).1
    · exact fun t ht => safe_makeBoundaryM2 hw hin _ t (mem_range1.1 ht).1
    · exact fun t ht => safe_makeBoundaryM2 hw hin _ t (mem_range1.1 ht).1
    · exact fun t ht => safe_makeBoundaryM2 hw hin _ t (mem_range1.1 ht).1
    · intro l
      unfold AllocM2
      rcases hpp with ⟨rfl, rfl⟩ | ⟨rfl, rfl⟩ <;> exact Iff.rfl
    · exact (foot_convertMhd2 p v1).safe (oU hin nil) (oQ nil) (fun t g => by omega)
  · unfold postMhd2 at hL
    split_ifs at hL with h0 h1 h2
    · have o8 : ∀ {a}, (a ∈ ([.Qm_x, .Qp_x, .Qm_y, .Qp_y, .QEdge 0, .QEdge 1, .QEdge 2, .QEdge 3, .Fx, .Fy] : List Arr)) →
          ∀ {as}, viewsOk p as → viewsOk p (a :: as) := by
        intro a ha as has
        simp only [List.mem_cons, List.not_mem_nil, or_false] at ha
        rcases ha with rfl | rfl | rfl | rfl | rfl | rfl | rfl | rfl | rfl | rfl <;>
          exact mk _ (fun _ v hv => by simp only; omega) rfl has
      have oE : ∀ {as}, viewsOk p as → viewsOk p (.Emf :: as) := fun has =>
        one _ (fun l hl h1 h2 h3 h4 h5 h6 => ⟨⟨h1, h2⟩, ⟨h3, h4⟩, h5, by
          rw [hl]; simp only; exact ⟨h0, h6⟩⟩) has
      have tq : viewsOk p [.Qm_x, .Qp_x, .Qm_y, .Qp_y] :=
        o8 (by simp) (o8 (by simp) (o8 (by simp) (o8 (by simp) nil)))
      have te : viewsOk p [.QEdge 0, .QEdge 1, .QEdge 2, .QEdge 3] :=
        o8 (by simp) (o8 (by simp) (o8 (by simp) (o8 (by simp) nil)))
      have tF : viewsOk p [.Fx, .Fy] := o8 (by simp) (o8 (by simp) nil)
      have tt : viewsOk p [.Qm_x, .Qp_x, .Qm_y, .Qp_y, .QEdge 0, .QEdge 1, .QEdge 2, .QEdge 3] :=
        o8 (by simp) (o8 (by simp) (o8 (by simp) (o8 (by simp) te)))
      simp only [List.mem_cons, List.not_mem_nil, or_false] at hL
      rcases hL with rfl | rfl | rfl | rfl | rfl
      · exact (foot_computeTraceMhd2 p v1 _ _ _).safe (oU hin (oQ nil)) tt
          (fun t g => by unfold traceGuardM2 at g; omega)
      · exact (foot_fluxesAndStoreMhd2 p _).safe tq tF (fun t g => by unfold faceGuardM2 at g; omega)
      · exact (foot_emfAndStoreMhd2 p).safe te (oE nil) (fun t g => by unfold faceGuardM2 at g; omega)
      · exact (foot_updateMhd2 p v2 _ _).safe tF (oU hout nil)
          (fun t g => by unfold cellGuard2 at g; omega)
      · exact (foot_updateEmfMhd2 p v2 _ _).safe (oE nil) (oU hout nil)
          (fun t g => by unfold cellGuard2 at g; omega)
    · have o8 : ∀ {a}, (a ∈ ([.Qm_x, .Qp_x, .Qm_y, .Qp_y, .QEdge 0, .QEdge 1, .QEdge 2, .QEdge 3] : List Arr)) →
          ∀ {as}, viewsOk p as → viewsOk p (a :: as) := by
        intro a ha as has
        simp only [List.mem_cons, List.not_mem_nil, or_false] at ha
        rcases ha with rfl | rfl | rfl | rfl | rfl | rfl | rfl | rfl <;>
          exact mk _ (fun _ v hv => by simp only; omega) rfl has
      have tq : viewsOk p [.Qm_x, .Qp_x, .Qm_y, .Qp_y] :=
        o8 (by simp) (o8 (by simp) (o8 (by simp) (o8 (by simp) nil)))
      have te : viewsOk p [.QEdge 0, .QEdge 1, .QEdge 2, .QEdge 3] :=
        o8 (by simp) (o8 (by simp) (o8 (by simp) (o8 (by simp) nil)))
      have tt : viewsOk p [.Qm_x, .Qp_x, .Qm_y, .Qp_y, .QEdge 0, .QEdge 1, .QEdge 2, .QEdge 3] :=
        o8 (by simp) (o8 (by simp) (o8 (by simp) (o8 (by simp) te)))
      simp only [List.mem_cons, List.not_mem_nil, or_false] at hL
      rcases hL with rfl | rfl | rfl
      · exact (foot_computeTraceMhd2 p v1 _ _ _).safe (oU hin (oQ nil)) tt
          (fun t g => by unfold traceGuardM2 at g; omega)
      · exact (foot_fluxesAndUpdateMhd2 p v2 _ _ _).safe tq (oU hout nil)
          (fun t g => by unfold faceGuardM2 at g; omega) (fun t g => by unfold faceGuardM2 at g; omega)
      · exact (foot_emfAndUpdateMhd2 p v2 _ _).safe te (oU hout nil)
          (fun t g => by unfold faceGuardM2 at g; omega) (fun t g => by unfold faceGuardM2 at g; omega)
    · have o8 : ∀ {a}, (a ∈ ([.Q2, .Sx, .Sy] : List Arr)) →
          ∀ {as}, viewsOk p as → viewsOk p (a :: as) := by
        intro a ha as has
        simp only [List.mem_cons, List.not_mem_nil, or_false] at ha
        rcases ha with rfl | rfl | rfl <;>
          exact mk _ (fun _ v hv => by simp only; omega) rfl has
      have oE : ∀ {as}, viewsOk p as → viewsOk p (.ElecField :: as) := fun has =>
        one _ (fun l hl h1 h2' h3 h4 h5 h6 => ⟨⟨h1, h2'⟩, ⟨h3, h4⟩, h5, by
          rw [hl]; simp only; exact ⟨h2, h6⟩⟩) has
      have oM : ∀ {as}, viewsOk p as → viewsOk p (.sFaceMag :: as) := fun has =>
        one _ (fun l hl h1 h2' h3 h4 h5 h6 => ⟨⟨h1, h2'⟩, ⟨h3, h4⟩, h5, by
          rw [hl]; simp only; exact ⟨h2, h6⟩⟩) has
      simp only [List.mem_cons, List.not_mem_nil, or_false] at hL
      rcases hL with rfl | rfl | rfl | rfl | rfl | rfl | rfl
      · exact (foot_computeSlopesMhd2 p v1 _).safe (oU hin (oQ nil)) (o8 (by simp) (o8 (by simp) nil))
          (fun t g => by omega)
      · exact (foot_updatedPrimVarMhd2 p v1 _ _).safe (oU hin (oQ (o8 (by simp) (o8 (by simp) nil))))
          (o8 (by simp) nil) (fun t g => by unfold traceGuardM2 at g; omega)
      · exact (foot_elecFieldMhd2 p v1).safe (oU hin (oQ nil)) (oE nil) (fun t g => by omega)
      · exact (foot_sourceFaceMagMhd2 p _ _).safe (oE nil) (oM nil) (fun t g => by omega)
      · exact (foot_fluxAlongXMhd2 p v1 v2 _ _).safe (oU hin (o8 (by simp) (o8 (by simp) (oM nil))))
          (oU hout nil)
          (fun t g => by unfold faceGuardM2 at g; omega) (fun t g => by unfold faceGuardM2 at g; omega)
      · exact (foot_fluxAlongYMhd2 p v1 v2 _ _).safe (oU hin (o8 (by simp) (o8 (by simp) (oM nil))))
          (oU hout nil)
          (fun t g => by unfold faceGuardM2 at g; omega) (fun t g => by unfold faceGuardM2 at g; omega)
      · exact (foot_reconstructEmfMhd2 p v1 v2 _ _).safe
          (oU hin (o8 (by simp) (o8 (by simp) (o8 (by simp) (oM nil))))) (oU hout nil)
          (fun t g => by unfold faceGuardM2 at g; omega) (fun t g => by unfold faceGuardM2 at g; omega)
    · simp at hL

/-- non-vacuity -/
example : (sampleM .periodic .dirichlet 1).WF ∧ 3 ≤ (sampleM .periodic .dirichlet 1).ghostWidth ∧
    (sampleM .periodic .dirichlet 1).nbvar = 8 :=
  ⟨sampleM_wf _ _ _, (sampleM_mhd2 _ _ _).gw, rfl⟩

end EulerKokkos
