import Verif.Lemmas.HydroStep3D
import Verif.Props.C02

/-!
# C29 — the 3D hydro time step: schedules and implementation versions
-/

set_option linter.constructorNameAsVariable false
set_option linter.unusedSectionVars false
set_option linter.unusedSimpArgs false

namespace EulerKokkos

open Spec
variable {R : Type} [RealOps R]

theorem det_godunov3 {p : Params R} (hw : p.WF) (hf : Faces3Ok p) (g : GravityParams) (dt : R)
    (jk : Junk R) {inA outA : Arr} (hpp : PingPong inA outA)
    (hA : p.implementationVersion = 2 → Deterministic (Prog.forRange
      (range3 p.isize p.jsize p.ksize) (computeAllFluxesAndUpdate3 p .Q outA .grav dt g jk))) :
    Deterministic (godunov3 p g dt jk inA outA) := by
  obtain ⟨F, hF, _⟩ := makeBoundaries3_is hw hf false inA
  exact det_seq hF.det (det_seqs (det_scheme3 p g dt jk hpp hA))

/-- the launch list is what the 3D step executes -/
theorem launches3_correct (p : Params R) (g : GravityParams) (dt : R) (jk : Junk R)
    (inA outA : Arr) (m m' : Mem Arr R) :
    godunov3 p g dt jk inA outA m m' ↔
      Kern.seqs ((launches3 p g dt jk inA outA).map Launch.kern) m m' := by
  have : godunov3 p g dt jk inA outA =
      Kern.seqs ((launches3 p g dt jk inA outA).map Launch.kern) := by
    unfold godunov3 launches3 scheme3 makeBoundaries3 gravityStep3 makeBoundaryK3 deepCopy
    by_cases hg : g.enabled = true <;> by_cases h0 : p.implementationVersion = 0 <;>
      by_cases h1 : p.implementationVersion = 1 <;> by_cases h2 : p.implementationVersion = 2 <;>
      simp [hg, h0, h1, h2, Kern.seqs, Kern.seq_assoc, Launch.kern]
  rw [this]

/-- **3D, versions 0 and 1**: for every interleaving of the iterations of every kernel of a step
the final arrays are the same, for any arithmetic, memory and `dt`. -/
theorem C29_step_deterministic_3d {p : Params R} (hw : p.WF) (hf : Faces3Ok p)
    (hi : p.implementationVersion = 0 ∨ p.implementationVersion = 1) (g : GravityParams) (dt : R)
    (jk : Junk R) {inA outA : Arr} (hpp : PingPong inA outA) (m : Mem Arr R) :
    ∃! m', godunov3 p g dt jk inA outA m m' :=
  det_godunov3 hw hf g dt jk hpp (fun h => by omega) m

/-- **3D, version 2 (atomics), exact additions**: schedule independent. -/
theorem C29_atomic_step_deterministic_3d {p : Params ℝ} (hw : p.WF) (hf : Faces3Ok p)
    (g : GravityParams) (dt : ℝ) (jk : Junk ℝ) {inA outA : Arr} (hpp : PingPong inA outA)
    (m : Mem Arr ℝ) : ∃! m', godunov3 p g dt jk inA outA m m' :=
  det_godunov3 hw hf g dt jk hpp (fun _ => det_allFluxes3 p g dt jk
    (by rcases hpp with ⟨rfl, rfl⟩ | ⟨rfl, rfl⟩ <;> decide)
    (by rcases hpp with ⟨rfl, rfl⟩ | ⟨rfl, rfl⟩ <;> decide)) m

/-- **C29, what versions 0 and 2 compute**: exact arithmetic, any schedule, any uninitialised
locals: the reference step `fullStep3 true` (gravity kick on both sides of every face). -/
theorem C29_versions_0_2_3d {p : Params ℝ} (hp : Hydro3 p)
    (hi : p.implementationVersion = 0 ∨ p.implementationVersion = 2)
    (g : GravityParams) (dt : ℝ) (jk : Junk ℝ) {inA outA : Arr} (hpp : PingPong inA outA)
    {m m' : Mem Arr ℝ} (hm : godunov3 p g dt jk inA outA m m') (i j k : Int)
    (hij : inGrid3 p i j k) :
    hs3 m' outA i j k = fullStep3 true p g dt (gravOf3 m .grav) (hs3 m inA) i j k := by
  have hK := schemeOK3_real hp (by rcases hi with h | h <;> simp [h])
  have hz : zKick p.implementationVersion = true := by rcases hi with h | h <;> simp [zKick, h]
  rw [hz] at hK
  exact (godunov3_result hp signLaws_real hK hpp hm).2.2 i j k hij

/-- **What version 0 and 1 compute, bit for bit** in any arithmetic with exact `·(±1)`:
version 0 the reference step, version 1 the step without the kick above z-faces. -/
theorem C29_versions_0_1_3d {p : Params R} (hp : Hydro3 p) (hS : SignLaws R)
    (hi : p.implementationVersion = 0 ∨ p.implementationVersion = 1)
    (g : GravityParams) (dt : R) (jk : Junk R) {inA outA : Arr} (hpp : PingPong inA outA)
    {m m' : Mem Arr R} (hm : godunov3 p g dt jk inA outA m m') (i j k : Int)
    (hij : inGrid3 p i j k) :
    hs3 m' outA i j k = fullStep3 (p.implementationVersion == 0) p g dt (gravOf3 m .grav)
      (hs3 m inA) i j k := by
  have hK := schemeOK3_01 hp hi
  have hz : zKick p.implementationVersion = (p.implementationVersion == 0) := by
    rcases hi with h | h <;> simp [zKick, h]
  rw [hz] at hK
  exact (godunov3_result hp hS hK hpp hm).2.2 i j k hij

/-- without gravity predictor the flag plays no role -/
theorem fullStep3_noKick {p : Params R} {g : GravityParams}
    (hg : (g.enabled && g.hancock_predictor_enabled) = false) (zk zk' : Bool) (dt : R)
    (gf : Grav3 R) (u : Fld3 R) : fullStep3 zk p g dt gf u = fullStep3 zk' p g dt gf u := by
  have : ∀ zk, fluxZ3 zk p g dt gf (prim3 p (fill3 p u)) =
      fluxZ3 true p g dt gf (prim3 p (fill3 p u)) := by
    intro zk
    funext i j k
    cases zk
    · simp [fluxZ3, face3, kick3, hg]
    · rfl
  unfold fullStep3 step3
  simp only [this zk, this zk']

theorem iterStep3_ext {p q : Params R} {g : GravityParams} {zk zk' : Bool}
    (h : ∀ dt gf u, fullStep3 zk q g dt gf u = fullStep3 zk' p g dt gf u) (gf : Grav3 R)
    (dts : List R) (u : Fld3 R) : iterStep3 zk q g gf dts u = iterStep3 zk' p g gf dts u := by
  induction dts generalizing u with
  | nil => rfl
  | cons dt dts ih => unfold iterStep3; rw [h]; exact ih _

theorem Hydro3.withVersion {p : Params R} (hp : Hydro3 p) (v : Int) :
    Hydro3 { p with implementationVersion := v } := by
  obtain ⟨⟨w1, w2, w3, w4, w5, w6, w7, w8, w9, w10, w11, w12, w13⟩, nb, ⟨v1, v2⟩, f⟩ := hp
  exact ⟨⟨w1, w2, w3, w4, w5, w6, w7, w8, w9, w10, w11, w12, w13⟩, nb, ⟨v1, v2⟩, f⟩

/-- **C29 (runs agree).** Two 3D solvers that differ only by version, schedule and uninitialised
locals end a run of any number of steps with the same state — provided version 1 is not used
together with the gravity predictor. -/
theorem C29_runs_agree_3d {p q : Params ℝ} (hp : Hydro3 p) {g : GravityParams}
    (hq : q = { p with implementationVersion := q.implementationVersion })
    (hv : p.implementationVersion = 0 ∨ p.implementationVersion = 1 ∨ p.implementationVersion = 2)
    (hv' : q.implementationVersion = 0 ∨ q.implementationVersion = 1 ∨ q.implementationVersion = 2)
    (hg : (p.implementationVersion = 1 ∨ q.implementationVersion = 1) →
      (g.enabled && g.hancock_predictor_enabled) = false)
    (jk jk' : Junk ℝ) (dts : List ℝ) (n : Nat) {m a b : Mem Arr ℝ}
    (ha : hydroRun3 p g jk n dts m a) (hb : hydroRun3 q g jk' n dts m b)
    (i j k : Int) (hij : inGrid3 p i j k) :
    hs3 a (pingIn (n + dts.length)) i j k = hs3 b (pingIn (n + dts.length)) i j k := by
  have hp' : Hydro3 q := by rw [hq]; exact hp.withVersion _
  have e1 := (hydroRun3_result hp signLaws_real (schemeOK3_real hp hv) dts n ha).1 i j k hij
  have e2 := (hydroRun3_result hp' signLaws_real (schemeOK3_real hp' hv') dts n hb).1 i j k
    (by rw [hq]; exact hij)
  rw [e1, e2]
  refine congrFun (congrFun (congrFun (iterStep3_ext (fun dt gf u => ?_) _ _ _) i) j) k
  have hs : fullStep3 (zKick p.implementationVersion) q g dt gf u =
      fullStep3 (zKick p.implementationVersion) p g dt gf u := by rw [hq]; rfl
  rw [← hs]
  by_cases h : p.implementationVersion = 1 ∨ q.implementationVersion = 1
  · exact fullStep3_noKick (hg h) _ _ _ _ _
  · have h1 : zKick p.implementationVersion = true := by
      have : p.implementationVersion ≠ 1 := fun e => h (Or.inl e)
      simp [zKick, this]
    have h2 : zKick q.implementationVersion = true := by
      have : q.implementationVersion ≠ 1 := fun e => h (Or.inr e)
      simp [zKick, this]
    rw [h1, h2]

/-! ## Version 1 with gravity predictor: a counterexample -/

/-- 3D sample: 4 × 3 × 5 cells -/
noncomputable def sample3 (a b : BC) : Params ℝ := (rawSample a b 2 5).init

theorem sample3_wf (a b : BC) : (sample3 a b).WF :=
  Params.init_wf _ (by simp [rawSample]) (by simp [rawSample]) (by simp [rawSample])
    (by simp [rawSample])

theorem sample_hydro3 (a b : BC) : Hydro3 (sample3 a b) where
  wf := sample3_wf a b
  nbvar := rfl
  valid := ⟨by right; left; simp [sample3, rawSample, Params.init],
    by simp [sample3, rawSample, Params.init]⟩
  faces := by unfold Faces3Ok Faces2Ok Spec.BCok sample3 rawSample Params.init; simp

/-- Non-vacuity of the hypotheses used above. -/
example : Hydro3 (sample3 .periodic .dirichlet) ∧ PingPong .U .U2 ∧
    (sample3 .periodic .dirichlet).implementationVersion = 0 ∧
    (∃ m', godunov3 (sample3 .periodic .dirichlet) ⟨true, true⟩ (1/10) (fun _ _ _ _ => HS.zero)
      .U .U2 (fun _ => 1) m') :=
  ⟨sample_hydro3 _ _, Or.inl ⟨rfl, rfl⟩, rfl,
    (C29_step_deterministic_3d (sample3_wf _ _) (sample_hydro3 _ _).faces (Or.inl rfl) _ _ _
      (Or.inl ⟨rfl, rfl⟩) _).exists⟩

/-- The parameters of the counterexample: the 3D sample with the LLF solver, first order. -/
noncomputable def cexParams : Params ℝ :=
  { sample3 .periodic .periodic with
    riemannSolverType := .llf
    settings := { (sample3 .periodic .periodic).settings with slope_type := 0 } }

theorem cex_hydro3 : Hydro3 cexParams where
  wf := by
    obtain ⟨w1, w2, w3, w4, w5, w6, w7, w8, w9, w10, w11, w12, w13⟩ :=
      sample3_wf .periodic .periodic
    exact ⟨w1, w2, w3, w4, w5, w6, w7, w8, w9, w10, w11, w12, w13⟩
  nbvar := rfl
  valid := ⟨by left; simp [cexParams], by simp [cexParams]⟩
  faces := (sample_hydro3 .periodic .periodic).faces

/-- A uniform gas at rest (density 1, energy 1) and a gravity field that is zero except for
`g_z = 1` in cell `(2,2,2)`. -/
noncomputable def cexMem : Mem Arr ℝ := fun l =>
  match l.arr with
  | .grav => if l.v = IZ ∧ l.i = 2 ∧ l.j = 2 ∧ l.k = 2 then 1 else 0
  | _ => if l.v = ID ∨ l.v = IP then 1 else 0

theorem riemannLLF_d {d3 : Bool} {s : Settings ℝ} {a b : HS ℝ} (h : a.d = b.d) :
    (riemannLLF d3 s a b).d = (1/2) * (a.d * a.u + b.d * b.u) := by
  simp [riemannLLF, consOf, h]

/-- the uniform state and its primitive version -/
theorem cex_prim (i j k : Int) : prim3 cexParams (fill3 cexParams (hs3 cexMem .U)) i j k =
    ⟨1, 2/5, 0, 0, 0⟩ := by
  unfold prim3 fill3 computePrimitives3 hs3
  simp [cexMem, cexParams, sample3, rawSample, Params.init, signed, ID, IP, IU, IV, IW]
  norm_num

theorem cex_trace (dt : ℝ) (f : Face) (i j k : Int) :
    trace3 cexParams dt (prim3 cexParams (fill3 cexParams (hs3 cexMem .U))) f i j k =
      ⟨1, 2/5, 0, 0, 0⟩ := by
  unfold trace3 slopes3 slope3 traceAlongDir3
  simp only [cex_prim]
  have h0 : RealOps.beq cexParams.settings.slope_type (lit 0 : ℝ) = true := by simp [cexParams]
  rw [if_pos h0]
  have hr : cexParams.settings.smallr = 1/1000 := by
    simp [cexParams, sample3, rawSample, Params.init]
  cases f <;> simp [HS.zero, hr] <;> norm_num

theorem cex_face (f : Face) (i j k : Int) :
    face3 cexParams ⟨true, true⟩ 1 (gravOf3 cexMem .grav)
      (prim3 cexParams (fill3 cexParams (hs3 cexMem .U))) f i j k =
      ⟨1, 2/5, 0, 0, if i = 2 ∧ j = 2 ∧ k = 2 then 1/2 else 0⟩ := by
  unfold face3 kick3
  rw [cex_trace]
  simp [gravOf3, cexMem, IX, IY, IZ]

theorem cex_density (zk : Bool) :
    (fullStep3 zk cexParams ⟨true, true⟩ 1 (gravOf3 cexMem .grav) (hs3 cexMem .U) 2 2 2).d =
      if zk then 1 else 1 - 5/4 := by
  have hdz : cexParams.dz = 1/5 := by
    simp [cexParams, sample3, rawSample, Params.init, intLit]
  unfold fullStep3 step3
  rw [if_pos (by simp [interior3, cexParams, sample3, rawSample, Params.init])]
  have hrt : cexParams.riemannSolverType = .llf := rfl
  have hu : (fill3 cexParams (hs3 cexMem .U) 2 2 2).d = 1 := by
    unfold fill3 hs3; simp [cexMem, ID, cexParams]
  simp only [gravity3, if_true, fluxUpdate3, HS.add, HS.sub, fluxX3, fluxY3, fluxZ3, HS.smul,
    HS.swapUV, HS.swapUW, riemannHydro3, hrt, hu]
  rw [riemannLLF_d, riemannLLF_d, riemannLLF_d, riemannLLF_d, riemannLLF_d, riemannLLF_d]
  all_goals simp only [cex_face, cex_trace, hdz]
  all_goals cases zk <;> simp [cex_face, cex_trace, hdz] <;> norm_num

/-- **C29 (negative part).** With the gravity predictor on, version 1 does not compute what
version 0 computes: a concrete valid 3D run (uniform gas at rest, one cell with `g_z = 1`,
`dt = 1`) ends with different densities in cell `(2,2,2)`, for every schedule. -/
theorem C29_version1_gravity_differs_3d :
    ∃ (p : Params ℝ) (g : GravityParams) (dt : ℝ) (m : Mem Arr ℝ), Hydro3 p ∧
      p.implementationVersion = 0 ∧ ∀ jk jk' : Junk ℝ,
      (∃ a, godunov3 p g dt jk .U .U2 m a) ∧
      (∃ b, godunov3 { p with implementationVersion := 1 } g dt jk' .U .U2 m b) ∧
      ∀ a b, godunov3 p g dt jk .U .U2 m a →
        godunov3 { p with implementationVersion := 1 } g dt jk' .U .U2 m b →
        (hs3 a .U2 2 2 2).d ≠ (hs3 b .U2 2 2 2).d := by
  refine ⟨cexParams, ⟨true, true⟩, 1, cexMem, cex_hydro3, rfl, fun jk jk' => ⟨?_, ?_, ?_⟩⟩
  · exact (C29_step_deterministic_3d cex_hydro3.wf cex_hydro3.faces (Or.inl rfl) _ _ _
      (Or.inl ⟨rfl, rfl⟩) _).exists
  · exact (C29_step_deterministic_3d (cex_hydro3.withVersion 1).wf (cex_hydro3.withVersion 1).faces
      (Or.inr rfl) _ _ _ (Or.inl ⟨rfl, rfl⟩) _).exists
  · intro a b ha hb
    have hg : inGrid3 cexParams 2 2 2 := by
      simp [inGrid3, cexParams, sample3, rawSample, Params.init]
    have ea := C29_versions_0_1_3d cex_hydro3 signLaws_real (Or.inl rfl) _ _ _
      (Or.inl ⟨rfl, rfl⟩) ha 2 2 2 hg
    have eb := C29_versions_0_1_3d (cex_hydro3.withVersion 1) signLaws_real (Or.inr rfl) _ _ _
      (Or.inl ⟨rfl, rfl⟩) hb 2 2 2 hg
    have h1 := cex_density true
    have h2 := cex_density false
    have eb' : hs3 b .U2 2 2 2 = fullStep3 false cexParams ⟨true, true⟩ 1
      (gravOf3 cexMem .grav) (hs3 cexMem .U) 2 2 2 := eb
    have ea' : hs3 a .U2 2 2 2 = fullStep3 true cexParams ⟨true, true⟩ 1
      (gravOf3 cexMem .grav) (hs3 cexMem .U) 2 2 2 := ea
    rw [ea', eb', h1, h2]
    norm_num

end EulerKokkos
