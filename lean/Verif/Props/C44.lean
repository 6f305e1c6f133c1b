import Verif.Lemmas.MhdFull3D
import Verif.Props.C39

/-!
# C44, C45, C46 — the 3D MHD time step: schedules, versions, memory accesses
-/

set_option linter.constructorNameAsVariable false
set_option linter.unusedSectionVars false
set_option linter.unusedSimpArgs false

namespace EulerKokkos

open Spec
open Prog (forRange)
variable {R : Type} [RealOps R]

theorem det_preMhd3 {p : Params R} (hw : p.WF) (hf : Faces3Ok p) {inA outA : Arr}
    (hpp : PingPong inA outA) :
    ∀ L ∈ preMhd3 p inA outA, Deterministic L.kern := by
  obtain ⟨v1, v2⟩ := nvM3_ping hpp
  obtain ⟨⟨f1, f2, f3, f4⟩, f5, f6⟩ := hf
  intro L hL
  unfold preMhd3 at hL
  simp only [List.mem_cons, List.not_mem_nil, or_false] at hL
  rcases hL with rfl | rfl | rfl | rfl | rfl | rfl | rfl | rfl
  · exact (makeBoundaryK3_is true inA hw .xmin f1).det
  · exact (makeBoundaryK3_is true inA hw .xmax f2).det
  · exact (makeBoundaryK3_is true inA hw .ymin f3).det
  · exact (makeBoundaryK3_is true inA hw .ymax f4).det
  · exact (makeBoundaryK3_is true inA hw .zmin f5).det
  · exact (makeBoundaryK3_is true inA hw .zmax f6).det
  · exact fun m => ⟨_, rfl, fun y h => h⟩
  · refine det_forRange3 ((foot_convertMhd3 p v1).own ?_) _
    rcases hpp with ⟨rfl, rfl⟩ | ⟨rfl, rfl⟩ <;> decide

/-- the kernels without atomic updates are schedule independent in any arithmetic -/
theorem det_postMhd3_0 (p : Params R) (hi : p.implementationVersion = 0) (dt : R) (jk : JunkM R)
    {inA outA : Arr} (hpp : PingPong inA outA) :
    ∀ L ∈ postMhd3 p dt jk inA outA, Deterministic L.kern := by
  obtain ⟨v1, v2⟩ := nvM3_ping hpp
  intro L hL
  unfold postMhd3 at hL
  simp only [hi, if_true, List.mem_cons, List.not_mem_nil, or_false] at hL
  rcases hL with rfl | rfl | rfl | rfl | rfl | rfl | rfl
  · refine det_forRange3 ((foot_elecFieldMhd3 p v1).own ?_) _
    rcases hpp with ⟨rfl, rfl⟩ | ⟨rfl, rfl⟩ <;> decide
  · refine det_forRange3 ((foot_magSlopesMhd3 p v1).own ?_) _
    rcases hpp with ⟨rfl, rfl⟩ | ⟨rfl, rfl⟩ <;> decide
  · refine det_forRange3 ((foot_computeTraceMhd3 p v1 _ _ _).own ?_) _
    rcases hpp with ⟨rfl, rfl⟩ | ⟨rfl, rfl⟩ <;> decide
  · exact det_forRange3 ((foot_fluxesAndStoreMhd3 p _).own (by decide)) _
  · exact det_forRange3 ((foot_emfAndStoreMhd3 p).own (by decide)) _
  · refine det_forRange3 ((foot_updateMhd3 p v2 _ _ _).own ?_) _
    rcases hpp with ⟨rfl, rfl⟩ | ⟨rfl, rfl⟩ <;> decide
  · refine det_forRange3 ((foot_updateEmfMhd3 p v2 _ _ _).own ?_) _
    rcases hpp with ⟨rfl, rfl⟩ | ⟨rfl, rfl⟩ <;> decide

theorem AddFootM3.det {G : Int × Int × Int → Prop} {ins outs : List Arr} {lo hi : Int}
    {body : Int × Int × Int → Prog Arr ℝ Unit} (h : AddFootM3 G ins outs lo hi body)
    (hd : ∀ a ∈ outs, a ∉ ins) (F : Finset (Int × Int × Int)) : Deterministic (forRange F body) :=
  fun m => ⟨_, (h.iff hd F m _).2 rfl, fun m' hm => (h.iff hd F m m').1 hm⟩

theorem det_postMhd3_real (p : Params ℝ) (dt : ℝ) (jk : JunkM ℝ)
    {inA outA : Arr} (hpp : PingPong inA outA) :
    ∀ L ∈ postMhd3 p dt jk inA outA, Deterministic L.kern := by
  by_cases h0 : p.implementationVersion = 0
  · exact det_postMhd3_0 p h0 dt jk hpp
  obtain ⟨v1, v2⟩ := nvM3_ping hpp
  intro L hL
  unfold postMhd3 at hL
  simp only [h0, if_false] at hL
  split_ifs at hL with h1 h2
  · simp only [List.mem_cons, List.not_mem_nil, or_false] at hL
    rcases hL with rfl | rfl | rfl | rfl | rfl
    · refine det_forRange3 ((foot_elecFieldMhd3 p v1).own ?_) _
      rcases hpp with ⟨rfl, rfl⟩ | ⟨rfl, rfl⟩ <;> decide
    · refine det_forRange3 ((foot_magSlopesMhd3 p v1).own ?_) _
      rcases hpp with ⟨rfl, rfl⟩ | ⟨rfl, rfl⟩ <;> decide
    · refine det_forRange3 ((foot_computeTraceMhd3 p v1 _ _ _).own ?_) _
      rcases hpp with ⟨rfl, rfl⟩ | ⟨rfl, rfl⟩ <;> decide
    · refine (foot_fluxesAndUpdateMhd3 p v2 _ _ _ _).det ?_ _
      rcases hpp with ⟨rfl, rfl⟩ | ⟨rfl, rfl⟩ <;> decide
    · refine (foot_emfAndUpdateMhd3 p v2 _ _ _).det ?_ _
      rcases hpp with ⟨rfl, rfl⟩ | ⟨rfl, rfl⟩ <;> decide
  · have hF : ∀ d, Deterministic (Launch.kern (.par (range3 p.isize p.jsize p.ksize)
        (fluxAlongMhd3 d p inA outA .Q2 (dt / p.dx) (dt / p.dy) (dt / p.dz) jk))) := by
      intro d
      refine (foot_fluxAlongMhd3 d p v1 v2 _ _ _ _).det ?_ _
      rcases hpp with ⟨rfl, rfl⟩ | ⟨rfl, rfl⟩ <;> decide
    have hE : ∀ d, Deterministic (Launch.kern (.par (range3 p.isize p.jsize p.ksize)
        (reconstructEmfMhd3 d p inA outA .Q2 (dt / p.dx) (dt / p.dy) (dt / p.dz)))) := by
      intro d
      refine (foot_reconstructEmfMhd3 d p v1 v2 _ _ _).det ?_ _
      rcases hpp with ⟨rfl, rfl⟩ | ⟨rfl, rfl⟩ <;> decide
    simp only [List.mem_cons, List.not_mem_nil, or_false] at hL
    rcases hL with rfl | rfl | rfl | rfl | rfl | rfl | rfl | rfl | rfl | rfl
    · refine det_forRange3 ((foot_computeSlopesMhd3 p v1 _).own ?_) _
      rcases hpp with ⟨rfl, rfl⟩ | ⟨rfl, rfl⟩ <;> decide
    · refine det_forRange3 ((foot_updatedPrimVarMhd3 p v1 _ _ _).own ?_) _
      rcases hpp with ⟨rfl, rfl⟩ | ⟨rfl, rfl⟩ <;> decide
    · refine det_forRange3 ((foot_elecFieldMhd3 p v1).own ?_) _
      rcases hpp with ⟨rfl, rfl⟩ | ⟨rfl, rfl⟩ <;> decide
    · exact det_forRange3 ((foot_sourceFaceMagMhd3 p _ _ _).own (by decide)) _
    · exact hF .x
    · exact hF .y
    · exact hF .z
    · exact hE .x
    · exact hE .y
    · exact hE .z
  · simp at hL

/-- **C44 (version 0, any arithmetic).** For every interleaving of the iterations of every kernel of a
3D MHD step the final arrays are the same, and there is one. -/
theorem C44_mhd_step_deterministic_3d {p : Params R} (hw : p.WF) (hf : Faces3Ok p)
    (hi : p.implementationVersion = 0) (dt : R) (jk : JunkM R) {inA outA : Arr}
    (hpp : PingPong inA outA) (m : Mem Arr R) : ∃! m', godunovMhd3 p dt jk inA outA m m' :=
  det_seq (det_runLaunches (det_preMhd3 hw hf hpp)) (det_runLaunches (det_postMhd3_0 p hi dt jk hpp)) m

/-- **C44 (all versions, exact additions).** -/
theorem C44_mhd_atomic_step_deterministic_3d {p : Params ℝ} (hw : p.WF) (hf : Faces3Ok p)
    (dt : ℝ) (jk : JunkM ℝ) {inA outA : Arr} (hpp : PingPong inA outA) (m : Mem Arr ℝ) :
    ∃! m', godunovMhd3 p dt jk inA outA m m' :=
  det_seq (det_runLaunches (det_preMhd3 hw hf hpp)) (det_runLaunches (det_postMhd3_real p dt jk hpp)) m

/-- **C44, kernel by kernel.** -/
theorem C44_mhd_each_kernel_deterministic_3d {p : Params ℝ} (hw : p.WF) (hf : Faces3Ok p)
    (dt : ℝ) (jk : JunkM ℝ) {inA outA : Arr} (hpp : PingPong inA outA) :
    ∀ L ∈ preMhd3 p inA outA ++ postMhd3 p dt jk inA outA, ∀ m, ∃! m', L.kern m m' := by
  intro L hL
  rcases List.mem_append.1 hL with h | h
  · exact det_preMhd3 hw hf hpp L h
  · exact det_postMhd3_real p dt jk hpp L h

/-- **C44 (runs).** Any number of steps. -/
theorem C44_mhd_run_deterministic_3d {p : Params ℝ} (hw : p.WF) (hf : Faces3Ok p) (jk : JunkM ℝ)
    (dts : List ℝ) (n : Nat) (m : Mem Arr ℝ) : ∃! m', mhdRun3 p jk n dts m m' := by
  induction dts generalizing n m with
  | nil => exact ⟨m, rfl, fun y h => h⟩
  | cons dt dts ih =>
    exact det_seq (fun m => C44_mhd_atomic_step_deterministic_3d hw hf dt jk (pingPong n) m)
      (fun m => ih (n + 1) m) m

theorem sampleM_mhd3 (a b : BC) (v : Int) : Mhd3 (sampleM a b v) where
  wf := sampleM_wf a b v
  gw := by simp [sampleM, sampleMHD, rawSample, Params.init]
  nbvar := rfl
  valid := (sampleM_mhd2 a b v).valid
  faces := sampleMHD_faces3 a b

theorem sampleM_step3 (a b : BC) (v : Int) (m : Mem Arr ℝ) :
    ∃ m', godunovMhd3 (sampleM a b v) (1/100) (fun _ _ _ _ => MS.zero) .U .U2 m m' :=
  (C44_mhd_atomic_step_deterministic_3d (sampleM_wf _ _ _)
    (sampleM_mhd3 _ _ _).faces _ _ (Or.inl ⟨rfl, rfl⟩) _).exists

example : Mhd3 (sampleM .periodic .dirichlet 2) ∧
    ∃! m', godunovMhd3 (sampleM .periodic .dirichlet 2) (1/100) (fun _ _ _ _ => MS.zero) .U .U2
      (fun _ => 1) m' :=
  ⟨sampleM_mhd3 _ _ _, C44_mhd_atomic_step_deterministic_3d (sampleM_wf _ _ _)
    (sampleM_mhd3 _ _ _).faces _ _ (Or.inl ⟨rfl, rfl⟩) _⟩

/-! ## C45 -/

/-- **C45.** Versions 0 and 1 (exact arithmetic), any schedule, any content of uninitialised locals: the
new interior state is given by the fluxes `fluxesM3` of the ghost-filled old state; version 2 uses the
fluxes `fluxesV2M3` (its own specification). -/
theorem C45_mhd_step_is_scheme_3d {p : Params ℝ} (hp : Mhd3 p)
    (hi : p.implementationVersion = 0 ∨ p.implementationVersion = 1 ∨
      p.implementationVersion = 2)
    (dt : ℝ) (jk : JunkM ℝ) {inA outA : Arr} (hpp : PingPong inA outA) {m m' : Mem Arr ℝ}
    (hm : godunovMhd3 p dt jk inA outA m m') (i j k : Int) (hij : interior3 p i j k) :
    ms m' outA i j k = stepOfM3 p dt
      (if p.implementationVersion = 2 then fluxesV2M3 p dt (fillM3 p (ms m inA))
        else fluxesM3 p dt (fillM3 p (ms m inA))) (fillM3 p (ms m inA)) i j k :=
  (godunovMhd3_result hp signLaws_real (mhdOK3_real hp hi) hpp hm).2 i j k hij

/-- **C45 (version 0, any arithmetic with exact multiplication by ±1).** -/
theorem C45_mhd_version_0_scheme_3d {p : Params R} (hp : Mhd3 p) (hS : SignLaws R)
    (hi : p.implementationVersion = 0) (dt : R) (jk : JunkM R) {inA outA : Arr}
    (hpp : PingPong inA outA) {m m' : Mem Arr R} (hm : godunovMhd3 p dt jk inA outA m m')
    (i j k : Int) (hij : interior3 p i j k) :
    ms m' outA i j k = stepOfM3 p dt (fluxesM3 p dt (fillM3 p (ms m inA))) (fillM3 p (ms m inA)) i j k := by
  have h := (godunovMhd3_result hp hS (mhdOK3_0 hp hi) hpp hm).2 i j k hij
  unfold fullStepM3 stepM3 at h
  rwa [schemeM3_not2 (by omega)] at h

theorem iterStepM3_params {p q : Params R}
    (h : ∀ dt u, fullStepM3 q dt u = fullStepM3 p dt u) (dts : List R)
    (u : FldM3 R) : iterStepM3 q dts u = iterStepM3 p dts u := by
  induction dts generalizing u with
  | nil => rfl
  | cons dt dts ih => unfold iterStepM3; rw [h]; exact ih _

/-- **C45, direct form**: two 3D MHD solvers that differ only by the version (0 or 1), the schedule and
uninitialised locals, from the same initial state, have after any number of steps the same state in every
interior cell. -/
theorem C45_mhd_runs_agree_3d {p q : Params ℝ} (hp : Mhd3 p)
    (hv : p.implementationVersion = 0 ∨ p.implementationVersion = 1)
    (hv' : q.implementationVersion = 0 ∨ q.implementationVersion = 1)
    (hq : q = { p with implementationVersion := q.implementationVersion })
    (jk jk' : JunkM ℝ) (dts : List ℝ) (n : Nat) {m a b : Mem Arr ℝ}
    (ha : mhdRun3 p jk n dts m a) (hb : mhdRun3 q jk' n dts m b)
    (i j k : Int) (hij : interior3 p i j k) :
    ms a (pingIn (n + dts.length)) i j k = ms b (pingIn (n + dts.length)) i j k := by
  have hp' : Mhd3 q := by
    obtain ⟨⟨w1, w2, w3, w4, w5, w6, w7, w8, w9, w10, w11, w12, w13⟩, gw, nb, ⟨v1, v2⟩, f⟩ := hp
    rw [hq]
    exact ⟨⟨w1, w2, w3, w4, w5, w6, w7, w8, w9, w10, w11, w12, w13⟩, gw, nb, ⟨v1, v2⟩, f⟩
  have e1 := mhdRun3_result hp signLaws_real (mhdOK3_real hp (by omega)) dts n ha i j k hij
  have e2 := mhdRun3_result hp' signLaws_real (mhdOK3_real hp' (by omega)) dts n hb i j k
    (by rw [hq]; exact hij)
  rw [e1, e2]
  have hstep : ∀ dt u, fullStepM3 q dt u = fullStepM3 p dt u := by
    intro dt u
    unfold fullStepM3 stepM3
    rw [schemeM3_not2 (by omega), schemeM3_not2 (by omega), hq]; rfl
  rw [iterStepM3_params hstep]

/-- two runs of version 2 agree too, whatever the schedules and uninitialised locals -/
theorem C45_mhd_version_2_runs_agree_3d {p : Params ℝ} (hp : Mhd3 p) (hv : p.implementationVersion = 2)
    (jk jk' : JunkM ℝ) (dts : List ℝ) (n : Nat) {m a b : Mem Arr ℝ}
    (ha : mhdRun3 p jk n dts m a) (hb : mhdRun3 p jk' n dts m b)
    (i j k : Int) (hij : interior3 p i j k) :
    ms a (pingIn (n + dts.length)) i j k = ms b (pingIn (n + dts.length)) i j k := by
  rw [mhdRun3_result hp signLaws_real (mhdOK3_real hp (by omega)) dts n ha i j k hij,
    mhdRun3_result hp signLaws_real (mhdOK3_real hp (by omega)) dts n hb i j k hij]

/-- **C45 (finding: version 2 differs).** In version 2 the transverse slope along z of a face-centred
component, used to place the field on the x and y edges, is zero whatever the data (slope types 1 and 2):
the two neighbours it compares are the same cell.  Versions 0 and 1 use the limited difference of the two
real neighbours. -/
theorem C45_version_2_z_slope_vanishes (p : Params ℝ) (u : Int → Int → Int → ℝ) (i j k : Int) :
    limSlopeV2 p u .z i j k = 0 := by
  simp only [limSlopeV2, Dir.delta, add_zero, sub_zero]
  generalize u i j k = b
  generalize u i j (k + 1) = c
  unfold slopeScalarDir
  have hd : ∀ x : ℝ, 0 ≤ x → fmin x (fabs (lit (1/2) * (c - c))) = 0 := by
    intro x hx
    rw [sub_self, mul_zero]
    show min x |(0:ℝ)| = 0
    rw [abs_zero]; exact min_eq_right hx
  simp only
  rw [hd, mul_zero]
  split_ifs
  · simp
  · exact le_min (abs_nonneg _) (abs_nonneg _)

/-- The slope of versions 0 and 1 does not vanish: it is exact on linear profiles. -/
theorem C45_versions_0_1_z_slope_linear (p : Params ℝ) (hs : 1 ≤ p.settings.slope_type) (a : ℝ)
    (i j k : Int) : faceSlopeM3 p (fun _ _ k => a * k) .z i j k = a := by
  simp only [faceSlopeM3, Dir.delta, add_zero, sub_zero, Int.cast_add, Int.cast_sub, Int.cast_one]
  have e1 : a * ((k:ℝ) + 1) - a * k = a := by ring
  have e2 : a * (k:ℝ) - a * (k - 1) = a := by ring
  have e3 : a * ((k:ℝ) + 1) - a * (k - 1) = 2 * a := by ring
  have hst : (1:ℝ) ≤ fmin p.settings.slope_type (lit 2) := by
    show (1:ℝ) ≤ min p.settings.slope_type ((2:ℚ):ℝ)
    push_cast
    exact le_min hs (by norm_num)
  unfold slopeScalarDir
  rw [e1, e2, e3]
  generalize fmin p.settings.slope_type (lit 2) = st at *
  have hc : ((1/2 : ℚ) : ℝ) * (2 * a) = a := by push_cast; ring
  simp only [RealOps.lit_real, hc, RealOps.le_real, Rat.cast_zero, RealOps.fmin_real, RealOps.fabs_real,
    geb, min_self, Rat.cast_one]
  have hst0 : 0 < st := by linarith
  rw [abs_mul, abs_of_pos hst0]
  rcases lt_trichotomy a 0 with h | h | h
  · rw [if_neg (not_le.2 h), if_neg (by nlinarith [mul_pos hst0 hst0, mul_pos_of_neg_of_neg h h, mul_pos (mul_pos hst0 hst0) (mul_pos_of_neg_of_neg h h)]), abs_of_neg h, min_eq_right (by nlinarith)]
    ring
  · subst h; simp
  · rw [if_pos h.le, if_neg (by nlinarith [mul_pos (mul_pos hst0 hst0) (mul_pos h h)]), abs_of_pos h, min_eq_right (by nlinarith)]
    ring

/-! ## C46 -/

theorem safe_makeBoundaryM3 {p : Params R} (hw : p.WF) {inA : Arr}
    (hA : inA = .U ∨ inA = .U2) (f : Face) (t : Int) (ht : 0 ≤ t) :
    (makeBoundary3 true p inA f t).Safe (AllocM3 p) := by
  have hgw := hw.gw_pos
  have hx := hw.nx_pos
  have hy := hw.ny_pos
  have hz := hw.nz_pos
  have hI := hw.isize_eq
  have hJ := hw.jsize_eq
  have hK := hw.ksize_eq
  obtain ⟨dec, enc, h1, -, -⟩ := faceCode3 true inA hw f
  rw [h1 t ht]
  refine Prog.foot_ite (fun hg => ?_) (fun _ => Prog.foot_pure _ _ _ _)
  have hb : ∀ (c : Int × Int × Int), 0 ≤ c.1 → c.1 < p.isize → 0 ≤ c.2.1 → c.2.1 < p.jsize →
      0 ≤ c.2.2 → c.2.2 < p.ksize → ∀ v < p.nbvar, AllocM3 p ⟨inA, c.1, c.2.1, c.2.2, v⟩ := by
    intro c a1 a2 a3 a4 a5 a6 v hv
    refine ⟨⟨a1, a2⟩, ⟨a3, a4⟩, ⟨a5, a6⟩, ?_⟩
    rcases hA with rfl | rfl <;> exact hv
  refine foot_copyVars (hb _ ?_ ?_ ?_ ?_ ?_ ?_) (hb _ ?_ ?_ ?_ ?_ ?_ ?_)
  all_goals
    cases f <;> simp only [G3, faceSrc, bcSrcMin, bcSrcMax] at hg ⊢ <;>
      first
        | (split_ifs <;> omega)
        | omega

/-- the views of a list are allocated (with at least the number of variables of `nvM3`) -/
def viewsOk3 (p : Params R) (arrs : List Arr) : Prop :=
  ∀ a ∈ arrs, ∀ l : Loc Arr, l.arr = a → 0 ≤ l.i → l.i < p.isize → 0 ≤ l.j → l.j < p.jsize →
    0 ≤ l.k → l.k < p.ksize → l.v < nvM3 a → AllocM3 p l

theorem accM3_alloc {p : Params R} {arrs : List Arr} (hv : viewsOk3 p arrs) {t : Int × Int × Int}
    {lo hi : Int} (h1 : 0 ≤ t.1 + lo ∧ t.1 + hi < p.isize) (h2 : 0 ≤ t.2.1 + lo ∧ t.2.1 + hi < p.jsize)
    (h3 : 0 ≤ t.2.2 + lo ∧ t.2.2 + hi < p.ksize)
    {l : Loc Arr} (h : AccM3 arrs t lo hi l) : AllocM3 p l := by
  obtain ⟨a, b, c, d, e⟩ := h
  exact hv _ a l rfl (by omega) (by omega) (by omega) (by omega) (by omega) (by omega) e

theorem OwnFootM3.safe {p : Params R} {G : Int × Int × Int → Prop} {ins outs : List Arr} {lo hi : Int}
    {body : Int × Int × Int → Prog Arr R Unit} (h : OwnFootM3 G ins outs lo hi body)
    (hi' : viewsOk3 p ins) (ho : viewsOk3 p outs)
    (hG : ∀ t, G t → (0 ≤ t.1 + lo ∧ t.1 + hi < p.isize) ∧ (0 ≤ t.2.1 + lo ∧ t.2.1 + hi < p.jsize) ∧
      (0 ≤ t.2.2 + lo ∧ t.2.2 + hi < p.ksize))
    (t : Int × Int × Int) (ht : t ∈ range3 p.isize p.jsize p.ksize) : (body t).Safe (AllocM3 p) := by
  rw [mem_range3] at ht
  have own : ∀ l, AccM3 outs t 0 0 l → AllocM3 p l := fun l hl =>
    accM3_alloc ho (by omega) (by omega) (by omega) hl
  refine foot_to_safe (h t) ?_ (fun l hl => own l hl.2) (fun _ h => h.elim)
  rintro l ⟨g, hl | hl⟩
  · exact accM3_alloc hi' (hG t g).1 (hG t g).2.1 (hG t g).2.2 hl
  · exact own l hl

theorem AddFootM3.safe {p : Params R} {G : Int × Int × Int → Prop} {ins outs : List Arr} {lo hi : Int}
    {body : Int × Int × Int → Prog Arr R Unit} (h : AddFootM3 G ins outs lo hi body)
    (hi' : viewsOk3 p ins) (ho : viewsOk3 p outs)
    (hG : ∀ t, G t → (0 ≤ t.1 + lo ∧ t.1 + hi < p.isize) ∧ (0 ≤ t.2.1 + lo ∧ t.2.1 + hi < p.jsize) ∧
      (0 ≤ t.2.2 + lo ∧ t.2.2 + hi < p.ksize))
    (hG' : ∀ t, G t → 0 ≤ t.1 - 1 ∧ 0 ≤ t.2.1 - 1 ∧ 0 ≤ t.2.2 - 1)
    (t : Int × Int × Int) (ht : t ∈ range3 p.isize p.jsize p.ksize) : (body t).Safe (AllocM3 p) := by
  rw [mem_range3] at ht
  refine foot_to_safe (h t) ?_ (fun _ h => h.elim) (fun l hl => ?_)
  · exact fun l hl => accM3_alloc hi' (hG t hl.1).1 (hG t hl.1).2.1 (hG t hl.1).2.2 hl.2
  · have := hG' t hl.1
    exact accM3_alloc ho (by omega) (by omega) (by omega) hl.2

/-- views allocated by version `v` -/
def okView (v : Int) : Arr → Bool
  | .U | .U2 | .Q => true
  | .Qm_x | .Qm_y | .Qm_z | .Qp_x | .Qp_y | .Qp_z | .DeltaA | .DeltaB | .DeltaC => v = 0 || v = 1
  | .QEdge n => n < 12 && (v = 0 || v = 1)
  | .ElecField => v = 0 || v = 1 || v = 2
  | .Fx | .Fy | .Fz | .Emf => v = 0
  | .Q2 | .Sx | .Sy | .Sz | .sFaceMag => v = 2
  | _ => false

theorem okView_alloc {p : Params R} (hn : p.nbvar = 8) {v : Int} (hv : p.implementationVersion = v)
    {arrs : List Arr} (h : arrs.all (okView v) = true) : viewsOk3 p arrs := by
  intro a ha l hl h1 h2 h3 h4 h5 h6 h7
  have hok := List.all_eq_true.1 h a ha
  refine ⟨⟨h1, h2⟩, ⟨h3, h4⟩, ⟨h5, h6⟩, ?_⟩
  rw [hl, hn, hv]
  cases a <;> simp [okView, nvM3] at hok h7 ⊢ <;> tauto

/-- **C46.** Every element read, written or atomically updated by any iteration of any kernel of a 3D MHD
step, on every path, is an allocated element; deep copies are between views of equal extents.  For every
grid with at least one cell, ghost width at least 3 (MHD runs set 3), all versions, all parameters. -/
theorem C46_mhd_no_out_of_bounds_3d {p : Params R} (hw : p.WF) (hgw : 3 ≤ p.ghostWidth)
    (hn : p.nbvar = 8) (dt : R) (jk : JunkM R) {inA outA : Arr} (hpp : PingPong inA outA) :
    ∀ L ∈ preMhd3 p inA outA ++ postMhd3 p dt jk inA outA, L.Safe (AllocM3 p) := by
  have hx := hw.nx_pos
  have hy := hw.ny_pos
  have hz := hw.nz_pos
  have hI := hw.isize_eq
  have hJ := hw.jsize_eq
  have hK := hw.ksize_eq
  obtain ⟨v1, v2⟩ := nvM3_ping hpp
  have hin : inA = .U ∨ inA = .U2 := by rcases hpp with ⟨rfl, rfl⟩ | ⟨rfl, rfl⟩ <;> simp
  have hout : outA = .U ∨ outA = .U2 := by rcases hpp with ⟨rfl, rfl⟩ | ⟨rfl, rfl⟩ <;> simp
  have iI : ∀ v, okView v inA = true := by rcases hin with rfl | rfl <;> intro v <;> rfl
  have iO : ∀ v, okView v outA = true := by rcases hout with rfl | rfl <;> intro v <;> rfl
  intro L hL
  rcases List.mem_append.1 hL with hL | hL
  · unfold preMhd3 at hL
    simp only [List.mem_cons, List.not_mem_nil, or_false] at hL
    rcases hL with rfl | rfl | rfl | rfl | rfl | rfl | rfl | rfl
    · exact fun t ht => safe_makeBoundaryM3 hw hin _ t (mem_range1.1 ht).1
    · exact fun t ht => safe_makeBoundaryM3 hw hin _ t (mem_range1.1 ht).1
    · exact fun t ht => safe_makeBoundaryM3 hw hin _ t (mem_range1.1 ht).1
    · exact fun t ht => safe_makeBoundaryM3 hw hin _ t (mem_range1.1 ht).1
    · exact fun t ht => safe_makeBoundaryM3 hw hin _ t (mem_range1.1 ht).1
    · exact fun t ht => safe_makeBoundaryM3 hw hin _ t (mem_range1.1 ht).1
    · intro l
      unfold AllocM3
      rcases hpp with ⟨rfl, rfl⟩ | ⟨rfl, rfl⟩ <;> exact Iff.rfl
    · exact (foot_convertMhd3 p v1).safe (okView_alloc hn rfl (by simp [iI]))
        (okView_alloc hn rfl (by simp [okView])) (fun t g => by omega)
  · unfold postMhd3 at hL
    have fg : ∀ t, faceGuardM3 p t → (p.ghostWidth ≤ t.1 ∧ t.1 < p.isize - p.ghostWidth + 1) ∧
        (p.ghostWidth ≤ t.2.1 ∧ t.2.1 < p.jsize - p.ghostWidth + 1) ∧
        (p.ghostWidth ≤ t.2.2 ∧ t.2.2 < p.ksize - p.ghostWidth + 1) := by
      intro t g; unfold faceGuardM3 at g; omega
    split_ifs at hL with h0 h1 h2
    · have ok : ∀ l, List.all l (okView 0) = true → viewsOk3 p l := fun l h => okView_alloc hn h0 h
      simp only [List.mem_cons, List.not_mem_nil, or_false] at hL
      rcases hL with rfl | rfl | rfl | rfl | rfl | rfl | rfl
      · exact (foot_elecFieldMhd3 p v1).safe (ok _ (by rcases hin with rfl | rfl <;> decide)) (ok _ (by decide))
          (fun t g => by unfold innerGuardM3 at g; omega)
      · exact (foot_magSlopesMhd3 p v1).safe (ok _ (by rcases hin with rfl | rfl <;> decide)) (ok _ (by decide))
          (fun t g => by unfold innerGuardM3 at g; omega)
      · exact (foot_computeTraceMhd3 p v1 _ _ _).safe (ok _ (by rcases hin with rfl | rfl <;> decide)) (ok _ (by decide))
          (fun t g => by unfold traceGuardM3 at g; omega)
      · exact (foot_fluxesAndStoreMhd3 p _).safe (ok _ (by decide)) (ok _ (by decide))
          (fun t g => by have := fg t g; omega)
      · exact (foot_emfAndStoreMhd3 p).safe (ok _ (by decide)) (ok _ (by decide))
          (fun t g => by have := fg t g; omega)
      · exact (foot_updateMhd3 p v2 _ _ _).safe (ok _ (by decide)) (ok _ (by simp [iO]))
          (fun t g => by unfold cellGuard3 at g; omega)
      · exact (foot_updateEmfMhd3 p v2 _ _ _).safe (ok _ (by decide)) (ok _ (by simp [iO]))
          (fun t g => by unfold cellGuard3 at g; omega)
    · have ok : ∀ l, List.all l (okView 1) = true → viewsOk3 p l := fun l h => okView_alloc hn h1 h
      simp only [List.mem_cons, List.not_mem_nil, or_false] at hL
      rcases hL with rfl | rfl | rfl | rfl | rfl
      · exact (foot_elecFieldMhd3 p v1).safe (ok _ (by rcases hin with rfl | rfl <;> decide)) (ok _ (by decide))
          (fun t g => by unfold innerGuardM3 at g; omega)
      · exact (foot_magSlopesMhd3 p v1).safe (ok _ (by rcases hin with rfl | rfl <;> decide)) (ok _ (by decide))
          (fun t g => by unfold innerGuardM3 at g; omega)
      · exact (foot_computeTraceMhd3 p v1 _ _ _).safe (ok _ (by rcases hin with rfl | rfl <;> decide)) (ok _ (by decide))
          (fun t g => by unfold traceGuardM3 at g; omega)
      · exact (foot_fluxesAndUpdateMhd3 p v2 _ _ _ _).safe (ok _ (by decide)) (ok _ (by simp [iO]))
          (fun t g => by have := fg t g; omega) (fun t g => by have := fg t g; omega)
      · exact (foot_emfAndUpdateMhd3 p v2 _ _ _).safe (ok _ (by decide)) (ok _ (by simp [iO]))
          (fun t g => by have := fg t g; omega) (fun t g => by have := fg t g; omega)
    · have ok : ∀ l, List.all l (okView 2) = true → viewsOk3 p l := fun l h => okView_alloc hn h2 h
      have hF : ∀ d, Launch.Safe (AllocM3 p) (.par (range3 p.isize p.jsize p.ksize)
          (fluxAlongMhd3 d p inA outA .Q2 (dt / p.dx) (dt / p.dy) (dt / p.dz) jk)) := fun d =>
        (foot_fluxAlongMhd3 d p v1 v2 _ _ _ _).safe (ok _ (by rcases hin with rfl | rfl <;> decide)) (ok _ (by simp [iO]))
          (fun t g => by have := fg t g; omega) (fun t g => by have := fg t g; omega)
      have hE : ∀ d, Launch.Safe (AllocM3 p) (.par (range3 p.isize p.jsize p.ksize)
          (reconstructEmfMhd3 d p inA outA .Q2 (dt / p.dx) (dt / p.dy) (dt / p.dz))) := fun d =>
        (foot_reconstructEmfMhd3 d p v1 v2 _ _ _).safe (ok _ (by rcases hin with rfl | rfl <;> decide)) (ok _ (by simp [iO]))
          (fun t g => by have := fg t g; omega) (fun t g => by have := fg t g; omega)
      simp only [List.mem_cons, List.not_mem_nil, or_false] at hL
      rcases hL with rfl | rfl | rfl | rfl | rfl | rfl | rfl | rfl | rfl | rfl
      · exact (foot_computeSlopesMhd3 p v1 _).safe (ok _ (by rcases hin with rfl | rfl <;> decide)) (ok _ (by decide))
          (fun t g => by unfold innerGuardM3 at g; omega)
      · exact (foot_updatedPrimVarMhd3 p v1 _ _ _).safe (ok _ (by rcases hin with rfl | rfl <;> decide)) (ok _ (by decide))
          (fun t g => by unfold traceGuardM3 at g; omega)
      · exact (foot_elecFieldMhd3 p v1).safe (ok _ (by rcases hin with rfl | rfl <;> decide)) (ok _ (by decide))
          (fun t g => by unfold innerGuardM3 at g; omega)
      · exact (foot_sourceFaceMagMhd3 p _ _ _).safe (ok _ (by decide)) (ok _ (by decide))
          (fun t g => by unfold innerGuardM3 at g; omega)
      · exact hF .x
      · exact hF .y
      · exact hF .z
      · exact hE .x
      · exact hE .y
      · exact hE .z
    · simp at hL

/-- non-vacuity -/
example : (sampleM .periodic .dirichlet 1).WF ∧ 3 ≤ (sampleM .periodic .dirichlet 1).ghostWidth ∧
    (sampleM .periodic .dirichlet 1).nbvar = 8 :=
  ⟨sampleM_wf _ _ _, (sampleM_mhd2 _ _ _).gw, rfl⟩

end EulerKokkos
