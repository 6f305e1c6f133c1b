import Verif.Lemmas.NoField3D

/-!
# C83: without magnetic field the MHD solver is the hydro solver

A gas without magnetic field (and without velocity along z) can be run by the 2D hydro solver or by the 2D MHD
solver.  With square cells, and the MHD solver HLLD standing for the hydro solver HLLC, the two programs compute
the same thing: same time steps, same number of iterations, same files.  With LLF or HLL the two agree as long
as no reconstructed pressure falls below the floor `smallp ρ`.

In 3D the same holds of implementation version 2; versions 0 and 1 floor the reconstructed pressures at `smallp`
instead of `smallp ρ`, and agree as long as neither floor is active.
-/

set_option linter.unusedSimpArgs false
set_option linter.unusedSectionVars false

namespace EulerKokkos
open Spec RealOps

/-- **C83 (one step, 2D).** A hydro step and an MHD step (any implementation versions, any schedule) with the
same `dt`, from the same state without magnetic field, give the same state without magnetic field; the field
stays exactly zero. -/
theorem C83_step_2d {p q : Params ℝ} (hs : NoField p q) (hd : p.dx = p.dy) (hp : Hydro2 p) (hq : Mhd2 q)
    (hi : p.implementationVersion = 0 ∨ p.implementationVersion = 1 ∨ p.implementationVersion = 2)
    (hi' : q.implementationVersion = 0 ∨ q.implementationVersion = 1 ∨ q.implementationVersion = 2)
    {g : GravityParams} (hg : g.enabled = false) (dt : ℝ) (jk : Junk ℝ) (jk' : JunkM ℝ)
    {inA outA : Arr} (hA : PingPong inA outA) {inB outB : Arr} (hB : PingPong inB outB)
    {m a m' a' : Mem Arr ℝ}
    (h0 : ∀ i j, interior2 p i j → ms2 m' inB (i + 1) (j + 1) = fluid (hs2 m inA i j))
    (hR : (p.riemannSolverType = .hllc ∧ q.riemannSolverType = .hlld) ∨
      ((p.riemannSolverType = .llf ∧ q.riemannSolverType = .llf ∨
        p.riemannSolverType = .hll ∧ q.riemannSolverType = .hll) ∧
        ∀ f i j, p.ghostWidth - 1 ≤ i → i ≤ p.ghostWidth + p.nx → p.ghostWidth - 1 ≤ j → j ≤ p.ghostWidth + p.ny →
          AboveFloors p.settings (face2 p g dt (gravOf m .grav) (prim2 p (fill2 p (hs2 m inA))) f i j)))
    (ha : godunov2 p g dt jk inA outA m a) (hb : godunovMhd2 q dt jk' inB outB m' a') :
    ∀ i j, interior2 p i j → ms2 a' outB (i + 1) (j + 1) = fluid (hs2 a outA i j) := by
  intro i j hij
  have hij' : interior2 q (i + 1) (j + 1) := (interior2_deeper hs _ _).2 (by simpa using hij)
  have r2 := (godunov2_result hp signLaws_real (schemeOK2_real hp hi) hA ha).2.2 i j (interior_inGrid2 hp.wf hij)
  have rM := (godunovMhd2_result hq signLaws_real (mhdOK2_real hq hi') hB hb).2 _ _ hij'
  rw [rM, r2, fullStepM2_congr hq (u' := embed2 (hs2 m inA)) ?_ _ _ hij', fullStepM2_embed hs hd hg _ _ _ hR]
  · show fluid { fullStep2 p g dt _ _ (i + 1 - 1) (j + 1 - 1) with w := 0 } = _
    rw [add_sub_cancel_right, add_sub_cancel_right, ← r2]
    simp [hs2]
  · intro a b hab
    have := h0 (a - 1) (b - 1) ((interior2_deeper hs _ _).1 hab)
    rw [sub_add_cancel, sub_add_cancel] at this
    rw [this]
    simp [embed2, hs2]

/-- the two methods advance corresponding fields alike, with the same time step -/
theorem related_noField2 {p q : Params ℝ} (hs : NoField p q) (hd : p.dx = p.dy) (hr : p.riemannSolverType = .hllc)
    (hr' : q.riemannSolverType = .hlld) (hq : Mhd2 q) {g : GravityParams} (hg : g.enabled = false) (gf : Grav2 ℝ) :
    Related p q (hydro2 p g gf) (mhd2 q)
      (fun x y => ∀ i j, interior2 p i j → y (i + 1) (j + 1) = fluid { x i j with w := 0 }) where
  tEnd := hs.tEnd
  nOutput := hs.nOutput
  nStepmax := hs.nStepmax
  dt x y h := by
    show cflDt2 p g gf x = cflDtM2 q y
    have hc : ∀ i j, interior2 q i j → y i j = embed2 x i j := by
      intro i j hij
      have := h _ _ ((interior2_deeper hs i j).1 hij)
      simpa [embed2] using this
    rw [← cflDtM2_embed hs hg gf]
    unfold cflDtM2
    congr 2
    ext r
    refine exists_congr fun i => exists_congr fun j => and_congr_right fun hij => ?_
    obtain ⟨h1, h2, h3, h4⟩ := hij
    have hgw := hq.gw
    have e : ∀ a b, i ≤ a → a ≤ i + 1 → j ≤ b → b ≤ j + 1 → fillM2 q (embed2 x) a b = fillM2 q y a b :=
      fun a b k1 k2 k3 k4 => (fillM2_congr hq.wf hq.faces hc a b ⟨by omega, by omega, by omega, by omega⟩).symm
    rw [primM2_congr e]
  adv dt x y h i j hij := by
    show fullStepM2 q dt y (i + 1) (j + 1) = fluid { fullStep2 p g dt gf x i j with w := 0 }
    have hij' : interior2 q (i + 1) (j + 1) := (interior2_deeper hs _ _).2 (by simpa using hij)
    rw [fullStepM2_congr hq (u' := embed2 x) ?_ _ _ hij', fullStepM2_embed hs hd hg gf dt x (Or.inl ⟨hr, hr'⟩)]
    · simp [embed2]
    · intro i j hij
      have := h _ _ ((interior2_deeper hs i j).1 hij)
      simpa [embed2] using this

/-- **C83 (complete runs, 2D).** A complete run of the hydro solver (HLLC) and a complete run of the MHD solver
(HLLD) on square cells, from the same state without magnetic field: same number of iterations, same final time,
and files with the same numbers and times; the MHD files show the states of the hydro files and a magnetic field
which is exactly zero. -/
theorem C83_complete_2d {p q : Params ℝ} (hs : NoField p q) (hd : p.dx = p.dy) (hr : p.riemannSolverType = .hllc)
    (hr' : q.riemannSolverType = .hlld) (hp : Hydro2 p) (hq : Mhd2 q)
    (hi : p.implementationVersion = 0 ∨ p.implementationVersion = 1 ∨ p.implementationVersion = 2)
    (hi' : q.implementationVersion = 0 ∨ q.implementationVersion = 1 ∨ q.implementationVersion = 2)
    (hgp : GoodGrid p) (hgq : GoodGrid q) (he : p.enableOutput = decide (p.nOutput ≠ 0))
    (he' : q.enableOutput = decide (q.nOutput ≠ 0)) {g : GravityParams} (hg : g.enabled = false)
    {ident ident' : ℝ} (hid : ident ≤ 0) (hid' : ident' ≤ 0) (jk : Junk ℝ) (jk' : JunkM ℝ) {m m' : Mem Arr ℝ}
    (h0 : ∀ i j, interior2 p i j → ms2 m' .U (i + 1) (j + 1) = fluid (hs2 m .U i j))
    {t : ℝ} {sv : Int} {a b : RunState ℝ} (ha : runMain p (hydroOps2 p g ident jk) m t sv a)
    (hb : runMain q (mhdOps2 q ident' jk') m' t sv b) :
    a.iteration = b.iteration ∧ a.t = b.t ∧
    List.Forall₂ (fun o o' : Output ℝ => o.number = o'.number ∧ o.time = o'.time ∧
      ∀ i j, interior2 p i j → shownM o'.data (i + 1) (j + 1) 0 = fluid (shown2 o.data i j))
      a.outputs b.outputs := by
  obtain ⟨a1, a2, a3, _⟩ := C15_run_is_algorithm_2d hp hi hgp he g hid jk ha
  obtain ⟨b1, b2, b3, _⟩ := C54_mhd_run_is_algorithm_2d hq hi' hgq he' hid' jk' hb
  have hR := related_noField2 hs hd hr hr' hq hg (gravOf m .grav)
  have hE : ∀ i j, interior2 p i j → ms2 m' .U (i + 1) (j + 1) = fluid { fill2 p (hs2 m .U) i j with w := 0 } := by
    intro i j hij
    rw [fill2_on_interior hij (by simp [hs2]), h0 i j hij]
    simp [hs2]
  have hk : a.iteration = b.iteration := (SimRel.length hR hE a1).unique b1
  have hres := SimRel.result hR hE t sv a.iteration
  refine ⟨hk, ?_, ?_⟩
  · rw [a2, b2, ← hk]; exact hres.t
  · rw [← hk] at b3
    refine forall₂_join ?_ a3 b3 hres.files
    rintro o f o' f' ⟨n1, t1, s1⟩ ⟨n2, t2, s2⟩ ⟨n3, t3, s3⟩
    refine ⟨by rw [n1, n2, n3], by rw [t1, t2, t3], fun i j hij => ?_⟩
    have hij' : interior2 q (i + 1) (j + 1) := (interior2_deeper hs _ _).2 (by simpa using hij)
    have e1 : shown2 o.data i j = f.2.2 i j := s1 i j (interior_inGrid2 hp.wf hij)
    have e2 : shownM o'.data (i + 1) (j + 1) 0 = f'.2.2 (i + 1) (j + 1) := s2 _ _ hij'
    rw [e2, s3 i j hij, ← e1]
    rfl

/-! ## 3D -/

/-- what a 3D MHD step needs to coincide with the hydro step: version 2 with HLLD for HLLC needs nothing; with LLF
the reconstructed states must be above the floors; versions 0 and 1 need moreover pressures above `smallp` -/
def NoFloor3 (p q : Params ℝ) (dt : ℝ) (u : Fld3 ℝ) : Prop :=
  (q.implementationVersion = 2 ∧ p.riemannSolverType = .hllc ∧ q.riemannSolverType = .hlld) ∨
  (q.implementationVersion = 2 ∧ p.riemannSolverType = .llf ∧ q.riemannSolverType = .llf ∧
    ∀ f i j k, near3 p i j k → AboveFloors p.settings (trace3 p dt (prim3 p (fill3 p u)) f i j k)) ∨
  ((p.riemannSolverType = .hllc ∧ q.riemannSolverType = .hlld ∨ p.riemannSolverType = .llf ∧ q.riemannSolverType = .llf) ∧
    ∀ f i j k, near3 p i j k → AboveFloors p.settings (trace3 p dt (prim3 p (fill3 p u)) f i j k) ∧
      p.settings.smallp ≤ (trace3 p dt (prim3 p (fill3 p u)) f i j k).p)

theorem fullStepM3_embed {p q : Params ℝ} (hs : NoField3 p q) (hd : p.dx = p.dy) (hd' : p.dx = p.dz) {g : GravityParams}
    (hg : g.enabled = false) (zk : Bool) (gf : Grav3 ℝ) {dt : ℝ} {u : Fld3 ℝ} (hR : NoFloor3 p q dt u) :
    fullStepM3 q dt (embed3 u) = embed3 (fullStep3 zk p g dt gf u) := by
  rcases hR with ⟨h2, h3⟩ | ⟨h2, h3, h4, h5⟩ | ⟨h3, h4⟩
  · exact fullStepM3_embed_2 hs hd hd' h2 hg zk gf dt u (Or.inl h3)
  · exact fullStepM3_embed_2 hs hd hd' h2 hg zk gf dt u (Or.inr ⟨⟨h3, h4⟩, h5⟩)
  · by_cases h2 : q.implementationVersion = 2
    · exact fullStepM3_embed_2 hs hd hd' h2 hg zk gf dt u
        (h3.imp_right fun h => ⟨h, fun f i j k hn => (h4 f i j k hn).1⟩)
    · exact fullStepM3_embed_01 hs hd hd' h2 hg zk gf dt u h3 h4

/-- **C83 (one step, 3D).** -/
theorem C83_step_3d {p q : Params ℝ} (hs : NoField3 p q) (hd : p.dx = p.dy) (hd' : p.dx = p.dz) (hp : Hydro3 p) (hq : Mhd3 q)
    (hi : p.implementationVersion = 0 ∨ p.implementationVersion = 1 ∨ p.implementationVersion = 2)
    (hi' : q.implementationVersion = 0 ∨ q.implementationVersion = 1 ∨ q.implementationVersion = 2)
    {g : GravityParams} (hg : g.enabled = false) (dt : ℝ) (jk : Junk ℝ) (jk' : JunkM ℝ)
    {inA outA : Arr} (hA : PingPong inA outA) {inB outB : Arr} (hB : PingPong inB outB)
    {m a m' a' : Mem Arr ℝ}
    (h0 : ∀ i j k, interior3 p i j k → ms m' inB (i + 1) (j + 1) (k + 1) = fluid (hs3 m inA i j k))
    (hR : NoFloor3 p q dt (hs3 m inA))
    (ha : godunov3 p g dt jk inA outA m a) (hb : godunovMhd3 q dt jk' inB outB m' a') :
    ∀ i j k, interior3 p i j k → ms a' outB (i + 1) (j + 1) (k + 1) = fluid (hs3 a outA i j k) := by
  intro i j k hij
  have hij' : interior3 q (i + 1) (j + 1) (k + 1) := (interior3_deeper hs _ _ _).2 (by simpa using hij)
  have r2 := (godunov3_result hp signLaws_real (schemeOK3_real hp hi) hA ha).2.2 i j k (interior_inGrid3 hp.wf hij)
  have rM := (godunovMhd3_result hq signLaws_real (mhdOK3_real hq hi') hB hb).2 _ _ _ hij'
  rw [rM, r2, fullStepM3_congr hq (u' := embed3 (hs3 m inA)) ?_ _ _ _ hij',
    fullStepM3_embed hs hd hd' hg (zKick p.implementationVersion) (gravOf3 m .grav) hR]
  · simp only [embed3, add_sub_cancel_right]
  · intro a b c hab
    have := h0 (a - 1) (b - 1) (c - 1) ((interior3_deeper hs _ _ _).1 hab)
    rw [sub_add_cancel, sub_add_cancel, sub_add_cancel] at this
    rw [this]
    rfl

theorem related_noField3 {p q : Params ℝ} (hs : NoField3 p q) (hd : p.dx = p.dy) (hd' : p.dx = p.dz)
    (h2 : q.implementationVersion = 2) (hr : p.riemannSolverType = .hllc)
    (hr' : q.riemannSolverType = .hlld) (hq : Mhd3 q) {g : GravityParams} (hg : g.enabled = false) (zk : Bool) (gf : Grav3 ℝ) :
    Related p q (hydro3 zk p g gf) (mhd3 q)
      (fun x y => ∀ i j k, interior3 p i j k → y (i + 1) (j + 1) (k + 1) = fluid (x i j k)) where
  tEnd := hs.tEnd
  nOutput := hs.nOutput
  nStepmax := hs.nStepmax
  dt x y h := by
    show cflDt3 p g gf x = cflDtM3 q y
    have hc : ∀ i j k, interior3 q i j k → y i j k = embed3 x i j k := by
      intro i j k hij
      have := h _ _ _ ((interior3_deeper hs i j k).1 hij)
      simpa [embed3] using this
    rw [← cflDtM3_embed hs hg gf]
    unfold cflDtM3
    congr 2
    ext r
    refine exists_congr fun i => exists_congr fun j => exists_congr fun k => and_congr_right fun hij => ?_
    have hgw := hq.gw
    obtain ⟨⟨h1, h2⟩, ⟨h3, h4⟩, h5, h6⟩ := hij
    have e : ∀ a b c, i ≤ a → a ≤ i + 1 → j ≤ b → b ≤ j + 1 → k ≤ c → c ≤ k + 1 → fillM3 q (embed3 x) a b c = fillM3 q y a b c :=
      fun a b c k1 k2 k3 k4 k5 k6 => (fillM3_congr hq.wf hq.faces hc a b c
        ⟨⟨by omega, by omega⟩, ⟨by omega, by omega⟩, by omega, by omega⟩).symm
    rw [primM3_congr e]
  adv dt x y h i j k hij := by
    show fullStepM3 q dt y (i + 1) (j + 1) (k + 1) = fluid (fullStep3 zk p g dt gf x i j k)
    have hij' : interior3 q (i + 1) (j + 1) (k + 1) := (interior3_deeper hs _ _ _).2 (by simpa using hij)
    rw [fullStepM3_congr hq (u' := embed3 x) ?_ _ _ _ hij', fullStepM3_embed hs hd hd' hg zk gf (Or.inl ⟨h2, hr, hr'⟩)]
    · simp [embed3]
    · intro i j k hij
      have := h _ _ _ ((interior3_deeper hs i j k).1 hij)
      simpa [embed3] using this

/-- **C83 (complete runs, 3D).** Implementation version 2 of the 3D MHD solver with HLLD, and any version of the 3D hydro
solver with HLLC, on cubic cells, from the same state without magnetic field. -/
theorem C83_complete_3d {p q : Params ℝ} (hs : NoField3 p q) (hd : p.dx = p.dy) (hd' : p.dx = p.dz)
    (h2 : q.implementationVersion = 2) (hr : p.riemannSolverType = .hllc)
    (hr' : q.riemannSolverType = .hlld) (hp : Hydro3 p) (hq : Mhd3 q)
    (hi : p.implementationVersion = 0 ∨ p.implementationVersion = 1 ∨ p.implementationVersion = 2)
    (hgp : GoodGrid p) (hgq : GoodGrid q) (he : p.enableOutput = decide (p.nOutput ≠ 0))
    (he' : q.enableOutput = decide (q.nOutput ≠ 0)) {g : GravityParams} (hg : g.enabled = false)
    {ident ident' : ℝ} (hid : ident ≤ 0) (hid' : ident' ≤ 0) (jk : Junk ℝ) (jk' : JunkM ℝ) {m m' : Mem Arr ℝ}
    (h0 : ∀ i j k, interior3 p i j k → ms m' .U (i + 1) (j + 1) (k + 1) = fluid (hs3 m .U i j k))
    {t : ℝ} {sv : Int} {a b : RunState ℝ} (ha : runMain p (hydroOps3 p g ident jk) m t sv a)
    (hb : runMain q (mhdOps3 q ident' jk') m' t sv b) :
    a.iteration = b.iteration ∧ a.t = b.t ∧
    List.Forall₂ (fun o o' : Output ℝ => o.number = o'.number ∧ o.time = o'.time ∧
      ∀ i j k, interior3 p i j k → shownM o'.data (i + 1) (j + 1) (k + 1) = fluid (shown3 o.data i j k))
      a.outputs b.outputs := by
  obtain ⟨a1, a2, a3, _⟩ := C15_run_is_algorithm_3d hp hi hgp he g hid jk ha
  obtain ⟨b1, b2, b3, _⟩ := C54_mhd_run_is_algorithm_3d hq (Or.inr (Or.inr h2)) hgq he' hid' jk' hb
  have hR := related_noField3 hs hd hd' h2 hr hr' hq hg (zKick p.implementationVersion) (gravOf3 m .grav)
  have hE : ∀ i j k, interior3 p i j k → ms m' .U (i + 1) (j + 1) (k + 1) = fluid (fill3 p (hs3 m .U) i j k) := by
    intro i j k hij
    rw [fill3_on_interior hij, h0 i j k hij]
  have hk : a.iteration = b.iteration := (SimRel.length hR hE a1).unique b1
  have hres := SimRel.result hR hE t sv a.iteration
  refine ⟨hk, ?_, ?_⟩
  · rw [a2, b2, ← hk]; exact hres.t
  · rw [← hk] at b3
    refine forall₂_join ?_ a3 b3 hres.files
    rintro o f o' f' ⟨n1, t1, s1⟩ ⟨n2, t2, s2⟩ ⟨n3, t3, s3⟩
    refine ⟨by rw [n1, n2, n3], by rw [t1, t2, t3], fun i j k hij => ?_⟩
    have hij' : interior3 q (i + 1) (j + 1) (k + 1) := (interior3_deeper hs _ _ _).2 (by simpa using hij)
    have e1 : shown3 o.data i j k = f.2.2 i j k := s1 i j k (interior_inGrid3 hp.wf hij)
    have e2 : shownM o'.data (i + 1) (j + 1) (k + 1) = f'.2.2 (i + 1) (j + 1) (k + 1) := s2 _ _ _ hij'
    rw [e2, s3 i j k hij, ← e1]

/-! ## Non-vacuity: cubic cells of size 1/4 -/

/-- 4 × 3 × 5 cells of size 1/4 -/
noncomputable def rawSquare (gw : Int) (nbvar : Nat) : Params ℝ :=
  { rawSample .periodic .dirichlet gw nbvar with ymax := 3/4, zmax := 5/4 }

/-- hydro -/
noncomputable def squareH (nbvar : Nat) : Params ℝ := (rawSquare 2 nbvar).init

/-- MHD, HLLD -/
noncomputable def squareM (v : Int) : Params ℝ :=
  { (rawSquare 3 8).init with mhdEnabled := true, riemannSolverType := .hlld, implementationVersion := v }

theorem squareH_wf (n : Nat) : (squareH n).WF :=
  Params.init_wf _ (by simp [rawSquare, rawSample]) (by simp [rawSquare, rawSample]) (by simp [rawSquare, rawSample])
    (by simp [rawSquare, rawSample])

theorem squareM_wf (v : Int) : (squareM v).WF := by
  have h : (rawSquare 3 8).init.WF :=
    Params.init_wf _ (by simp [rawSquare, rawSample]) (by simp [rawSquare, rawSample]) (by simp [rawSquare, rawSample])
      (by simp [rawSquare, rawSample])
  exact ⟨h.nx_pos, h.ny_pos, h.nz_pos, h.gw_pos, h.imin_eq, h.jmin_eq, h.kmin_eq, h.imax_eq,
    h.jmax_eq, h.kmax_eq, h.isize_eq, h.jsize_eq, h.ksize_eq⟩

theorem squareH_faces (n : Nat) : Faces3Ok (squareH n) := by
  unfold Faces3Ok Faces2Ok Spec.BCok squareH rawSquare rawSample Params.init; simp

theorem squareM_faces (v : Int) : Faces3Ok (squareM v) := by
  unfold Faces3Ok Faces2Ok Spec.BCok squareM rawSquare rawSample Params.init; simp

theorem square_noField3 (n : Nat) (v : Int) : NoField3 (squareH n) (squareM v) where
  nx := rfl
  ny := rfl
  nz := rfl
  gw := by simp [squareM, squareH, rawSquare, rawSample, Params.init]
  dx := rfl
  dy := rfl
  dz := rfl
  xmin := rfl
  xmax := rfl
  ymin := rfl
  ymax := rfl
  zmin := rfl
  zmax := rfl
  settings := rfl
  tEnd := rfl
  nOutput := rfl
  nStepmax := rfl
  good := sample_good .periodic .dirichlet 2 n
  cIso := by simp [squareH, rawSquare, rawSample, Params.init]
  slope := Or.inl (by simp [squareH, rawSquare, rawSample, Params.init])

theorem square_cubic (n : Nat) : (squareH n).dx = (squareH n).dy ∧ (squareH n).dx = (squareH n).dz := by
  constructor <;> norm_num [squareH, rawSquare, rawSample, Params.init, intLit]

theorem squareH_goodGrid (n : Nat) : GoodGrid (squareH n) where
  settings := sample_good .periodic .dirichlet 2 n
  cfl := by norm_num [squareH, rawSquare, rawSample, Params.init]
  dx := by norm_num [squareH, rawSquare, rawSample, Params.init, intLit]
  dy := by norm_num [squareH, rawSquare, rawSample, Params.init, intLit]
  dz := by norm_num [squareH, rawSquare, rawSample, Params.init, intLit]

theorem squareM_goodGrid (v : Int) : GoodGrid (squareM v) where
  settings := sample_good .periodic .dirichlet 3 8
  cfl := by norm_num [squareM, rawSquare, rawSample, Params.init]
  dx := by norm_num [squareM, rawSquare, rawSample, Params.init, intLit]
  dy := by norm_num [squareM, rawSquare, rawSample, Params.init, intLit]
  dz := by norm_num [squareM, rawSquare, rawSample, Params.init, intLit]

theorem squareM_valid (v : Int) : ValidM (squareM v) :=
  ⟨by left; simp [squareM, rawSquare, rawSample, Params.init], by simp [squareM]⟩

theorem square_hydro2 : Hydro2 (squareH 4) where
  wf := squareH_wf 4
  nbvar := rfl
  valid := ⟨by right; left; simp [squareH, rawSquare, rawSample, Params.init],
    by simp [squareH, rawSquare, rawSample, Params.init]⟩
  faces := (squareH_faces 4).1

theorem square_hydro3 : Hydro3 (squareH 5) where
  wf := squareH_wf 5
  nbvar := rfl
  valid := ⟨by right; left; simp [squareH, rawSquare, rawSample, Params.init],
    by simp [squareH, rawSquare, rawSample, Params.init]⟩
  faces := squareH_faces 5

theorem square_mhd2 (v : Int) : Mhd2 (squareM v) where
  wf := squareM_wf v
  gw := by simp [squareM, rawSquare, rawSample, Params.init]
  nbvar := rfl
  valid := squareM_valid v
  faces := (squareM_faces v).1

theorem square_mhd3 (v : Int) : Mhd3 (squareM v) where
  wf := squareM_wf v
  gw := by simp [squareM, rawSquare, rawSample, Params.init]
  nbvar := rfl
  valid := squareM_valid v
  faces := squareM_faces v

/-- two corresponding initial states which are not uniform: the density grows along x -/
def rampH (nv : Nat) : Mem Arr ℝ := fun l => if l.v = ID then l.i + 5 else if l.v < nv then 3 else 0
/-- the MHD counterpart -/
def rampM (nv : Nat) : Mem Arr ℝ := fun l => if l.v = ID then l.i + 4 else if l.v < nv then 3 else 0

/-- all the hypotheses of the theorems of this file are met (2D) -/
example (v : Int) (jk : Junk ℝ) (jk' : JunkM ℝ) :
    NoField (squareH 4) (squareM v) ∧ (squareH 4).dx = (squareH 4).dy ∧ (squareH 4).riemannSolverType = .hllc ∧
    (squareM v).riemannSolverType = .hlld ∧ Hydro2 (squareH 4) ∧ Mhd2 (squareM v) ∧ GoodGrid (squareH 4) ∧
    GoodGrid (squareM v) ∧ (squareH 4).enableOutput = decide ((squareH 4).nOutput ≠ 0) ∧
    (squareM v).enableOutput = decide ((squareM v).nOutput ≠ 0) ∧
    (∀ i j, ms2 (rampM 4) .U (i + 1) (j + 1) = fluid (hs2 (rampH 4) .U i j)) ∧
    (∃ a, runMain (squareH 4) (hydroOps2 (squareH 4) ⟨false, false⟩ (-1) jk) (rampH 4) 0 0 a) ∧
    ∃ b, runMain (squareM v) (mhdOps2 (squareM v) (-1) jk') (rampM 4) 0 0 b :=
  ⟨(square_noField3 4 v).toNoField, (square_cubic 4).1, rfl, rfl, square_hydro2, square_mhd2 v, squareH_goodGrid 4,
    squareM_goodGrid v, by simp [squareH, rawSquare, rawSample, Params.init],
    by simp [squareM, rawSquare, rawSample, Params.init],
    fun i j => by
      simp only [ms2, ms, hs2, fluid, rampM, rampH]
      refine MS.ext ?_ ?_ ?_ ?_ ?_ ?_ ?_ ?_ <;> simp [ID, IP, IU, IV, IW, IA, IB, IC]
      ring,
    (C14_hydro_completes (squareH_wf 4) (squareH_faces 4) _ _ _
      (by simp [squareH, rawSquare, rawSample, Params.init]) _ 0 0).1,
    (C54_mhd_completes (squareM_wf v) (squareM_faces v) _ _
      (by simp [squareM, rawSquare, rawSample, Params.init]) _ 0 0).1⟩

/-- all the hypotheses of the theorems of this file are met (3D) -/
example (jk : Junk ℝ) (jk' : JunkM ℝ) :
    NoField3 (squareH 5) (squareM 2) ∧ ((squareH 5).dx = (squareH 5).dy ∧ (squareH 5).dx = (squareH 5).dz) ∧
    (squareM 2).implementationVersion = 2 ∧ (squareH 5).riemannSolverType = .hllc ∧
    (squareM 2).riemannSolverType = .hlld ∧ Hydro3 (squareH 5) ∧ Mhd3 (squareM 2) ∧ GoodGrid (squareH 5) ∧
    GoodGrid (squareM 2) ∧ (squareH 5).enableOutput = decide ((squareH 5).nOutput ≠ 0) ∧
    (squareM 2).enableOutput = decide ((squareM 2).nOutput ≠ 0) ∧
    (∀ i j k, ms (rampM 5) .U (i + 1) (j + 1) (k + 1) = fluid (hs3 (rampH 5) .U i j k)) ∧
    (∃ a, runMain (squareH 5) (hydroOps3 (squareH 5) ⟨false, false⟩ (-1) jk) (rampH 5) 0 0 a) ∧
    ∃ b, runMain (squareM 2) (mhdOps3 (squareM 2) (-1) jk') (rampM 5) 0 0 b :=
  ⟨square_noField3 5 2, square_cubic 5, rfl, rfl, rfl, square_hydro3, square_mhd3 2, squareH_goodGrid 5,
    squareM_goodGrid 2, by simp [squareH, rawSquare, rawSample, Params.init],
    by simp [squareM, rawSquare, rawSample, Params.init],
    fun i j k => by
      simp only [ms, hs3, fluid, rampM, rampH]
      refine MS.ext ?_ ?_ ?_ ?_ ?_ ?_ ?_ ?_ <;> simp [ID, IP, IU, IV, IW, IA, IB, IC]
      ring,
    (C14_hydro_completes (squareH_wf 5) (squareH_faces 5) _ _ _
      (by simp [squareH, rawSquare, rawSample, Params.init]) _ 0 0).2,
    (C54_mhd_completes (squareM_wf 2) (squareM_faces 2) _ _
      (by simp [squareM, rawSquare, rawSample, Params.init]) _ 0 0).2⟩

/-- the condition on the floors is met with LLF or in versions 0 and 1: a gas moving along x -/
example (dt : ℝ) (v : Int) : NoFloor3 (squareH 5) (squareM v) dt
    (fun _ _ _ => toCons (squareH 5).settings.gamma0 ⟨1, 1, 3, 0, 0⟩) := by
  have hs := sample_good .periodic .dirichlet 2 5
  have hq : Physical (squareH 5).settings ⟨1, 1, 3, 0, 0⟩ := by
    constructor <;> norm_num [squareH, rawSquare, rawSample, Params.init]
  have hb : WallsAligned3 (squareH 5) ⟨1, 1, 3, 0, 0⟩ := by
    simp [WallsAligned3, WallsAligned2, squareH, rawSquare, rawSample, Params.init]
  have hfill : fill3 (squareH 5) (fun _ _ _ => toCons (squareH 5).settings.gamma0 ⟨1, 1, 3, 0, 0⟩) =
      fun _ _ _ => toCons (squareH 5).settings.gamma0 ⟨1, 1, 3, 0, 0⟩ := by
    funext i j k
    unfold fill3
    simp only [toCons]
    rw [signed_flips_const hb.1.1, signed_flips_const hb.1.2, signed_flips_const hb.2]
  have hprim : prim3 (squareH 5) (fun _ _ _ => toCons (squareH 5).settings.gamma0 ⟨1, 1, 3, 0, 0⟩) =
      fun _ _ _ => ⟨1, 1, 3, 0, 0⟩ := by
    funext i j k
    exact (C18_inverse_3d hs).1 _ hq
  have htr : ∀ f i j k, trace3 (squareH 5) dt (fun _ _ _ => ⟨1, 1, 3, 0, 0⟩) f i j k = ⟨1, 1, 3, 0, 0⟩ := by
    intro f i j k
    simp only [trace3, slopes3, slope3_const]
    exact trace3_const hq _ _ _ f
  refine Or.inr (Or.inr ⟨Or.inl ⟨rfl, rfl⟩, fun f i j k _ => ?_⟩)
  rw [hfill, hprim, htr]
  have e : (squareH 5).settings.smallp ≤ 1 := by
    norm_num [squareH, rawSquare, rawSample, Params.init]
  exact ⟨⟨hq.1, by simpa using e⟩, e⟩

end EulerKokkos
