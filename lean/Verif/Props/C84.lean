import Verif.Lemmas.MhdExchange
import Verif.Props.C83
import Verif.Props.C77

/-!
# C84 — complete MHD runs do not depend on the names of the axes
-/

set_option linter.constructorNameAsVariable false
set_option linter.unusedSectionVars false
set_option linter.unusedSimpArgs false

namespace EulerKokkos
open Spec

/-- **C84 (2D MHD).** Exchange x and y in a 2D MHD run: sizes, spacings, boundary conditions and initial contents
(velocities and magnetic field components change places together with the faces they live on).  The two
complete runs make the same number of iterations, end at the same time and write files with the same
numbers and times, whose contents are the same up to the exchange. -/
theorem C84_axes_2d {p : Params ℝ} (hp : Mhd2 p)
    (hi : p.implementationVersion = 0 ∨ p.implementationVersion = 1 ∨ p.implementationVersion = 2)
    (hg : GoodGrid p) (he : p.enableOutput = decide (p.nOutput ≠ 0))
    {ident ident' : ℝ} (hid : ident ≤ 0) (hid' : ident' ≤ 0) (jk jk' : JunkM ℝ) {m m' : Mem Arr ℝ}
    (h0 : ∀ i j, interior2 p i j → ms2 m' .U j i = transposeM (ms2 m .U i j))
    {t : ℝ} {sv : Int} {r r' : RunState ℝ} (h : runMain p (mhdOps2 p ident jk) m t sv r)
    (h' : runMain (transposeParams p) (mhdOps2 (transposeParams p) ident' jk') m' t sv r') :
    r.iteration = r'.iteration ∧ r.t = r'.t ∧
    List.Forall₂ (fun o o' : Output ℝ => o.number = o'.number ∧ o.time = o'.time ∧
      ∀ i j, interior2 p i j → shownM o'.data j i 0 = transposeM (shownM o.data i j 0))
      r.outputs r'.outputs := by
  obtain ⟨a1, a2, a3, _⟩ := C54_mhd_run_is_algorithm_2d hp hi hg he hid jk h
  obtain ⟨b1, b2, b3, _⟩ := C54_mhd_run_is_algorithm_2d (transpose_mhd2 hp) hi (goodGrid_tr hg) he hid' jk' h'
  have hR := related_trM2 hp hg.settings
  have hk : r.iteration = r'.iteration := (SimRel.length hR h0 a1).unique b1
  have hres := SimRel.result hR h0 t sv r.iteration
  refine ⟨hk, ?_, ?_⟩
  · rw [a2, b2, ← hk]; exact hres.t
  · rw [← hk] at b3
    refine forall₂_join ?_ a3 b3 hres.files
    rintro o f o' f' ⟨n1, t1, s1⟩ ⟨n2, t2, s2⟩ ⟨n3, t3, s3⟩
    refine ⟨n1.trans (n3.trans n2.symm), t1.trans (t3.trans t2.symm), fun i j hij => ?_⟩
    have hij' : interior2 (transposeParams p) j i := by
      unfold interior2 transposeParams; obtain ⟨a, b, c, d⟩ := hij; exact ⟨c, d, a, b⟩
    have e2 := s2 j i hij'
    have e1 := s1 i j hij
    rw [e2, s3 i j hij, ← e1]

/-- **C84 (3D MHD, x ↔ y, implementation versions 0 and 1).** -/
theorem C84_axes_xy_3d {p : Params ℝ} (hp : Mhd3 p)
    (hi : p.implementationVersion = 0 ∨ p.implementationVersion = 1)
    (hg : GoodGrid p) (he : p.enableOutput = decide (p.nOutput ≠ 0))
    {ident ident' : ℝ} (hid : ident ≤ 0) (hid' : ident' ≤ 0) (jk jk' : JunkM ℝ) {m m' : Mem Arr ℝ}
    (h0 : ∀ i j k, interior3 p i j k → ms m' .U j i k = (ms m .U i j k).swapXY)
    {t : ℝ} {sv : Int} {r r' : RunState ℝ} (h : runMain p (mhdOps3 p ident jk) m t sv r)
    (h' : runMain (swapXYParams p) (mhdOps3 (swapXYParams p) ident' jk') m' t sv r') :
    r.iteration = r'.iteration ∧ r.t = r'.t ∧
    List.Forall₂ (fun o o' : Output ℝ => o.number = o'.number ∧ o.time = o'.time ∧
      ∀ i j k, interior3 p i j k → shownM o'.data j i k = (shownM o.data i j k).swapXY)
      r.outputs r'.outputs := by
  have hv : p.implementationVersion ≠ 2 := by omega
  have hi3 : p.implementationVersion = 0 ∨ p.implementationVersion = 1 ∨ p.implementationVersion = 2 := by omega
  obtain ⟨a1, a2, a3, _⟩ := C54_mhd_run_is_algorithm_3d hp hi3 hg he hid jk h
  obtain ⟨b1, b2, b3, _⟩ := C54_mhd_run_is_algorithm_3d (mhd3_XY hp) hi3 (goodGrid_XY hg) he hid' jk' h'
  have hR := related_XYM3 hp hg.settings hv
  have hk : r.iteration = r'.iteration := (SimRel.length hR h0 a1).unique b1
  have hres := SimRel.result hR h0 t sv r.iteration
  refine ⟨hk, ?_, ?_⟩
  · rw [a2, b2, ← hk]; exact hres.t
  · rw [← hk] at b3
    refine forall₂_join ?_ a3 b3 hres.files
    rintro o f o' f' ⟨n1, t1, s1⟩ ⟨n2, t2, s2⟩ ⟨n3, t3, s3⟩
    refine ⟨n1.trans (n3.trans n2.symm), t1.trans (t3.trans t2.symm), fun i j k hij => ?_⟩
    have e2 := s2 j i k ⟨hij.2.1, hij.1, hij.2.2⟩
    rw [e2, s3 i j k hij, ← s1 i j k hij]

/-- **C84 (3D MHD, x ↔ z; with x ↔ y this gives every exchange of axes, implementation versions 0 and 1).** -/
theorem C84_axes_xz_3d {p : Params ℝ} (hp : Mhd3 p)
    (hi : p.implementationVersion = 0 ∨ p.implementationVersion = 1)
    (hg : GoodGrid p) (he : p.enableOutput = decide (p.nOutput ≠ 0))
    {ident ident' : ℝ} (hid : ident ≤ 0) (hid' : ident' ≤ 0) (jk jk' : JunkM ℝ) {m m' : Mem Arr ℝ}
    (h0 : ∀ i j k, interior3 p i j k → ms m' .U k j i = (ms m .U i j k).swapXZ)
    {t : ℝ} {sv : Int} {r r' : RunState ℝ} (h : runMain p (mhdOps3 p ident jk) m t sv r)
    (h' : runMain (swapXZParams p) (mhdOps3 (swapXZParams p) ident' jk') m' t sv r') :
    r.iteration = r'.iteration ∧ r.t = r'.t ∧
    List.Forall₂ (fun o o' : Output ℝ => o.number = o'.number ∧ o.time = o'.time ∧
      ∀ i j k, interior3 p i j k → shownM o'.data k j i = (shownM o.data i j k).swapXZ)
      r.outputs r'.outputs := by
  have hv : p.implementationVersion ≠ 2 := by omega
  have hi3 : p.implementationVersion = 0 ∨ p.implementationVersion = 1 ∨ p.implementationVersion = 2 := by omega
  obtain ⟨a1, a2, a3, _⟩ := C54_mhd_run_is_algorithm_3d hp hi3 hg he hid jk h
  obtain ⟨b1, b2, b3, _⟩ := C54_mhd_run_is_algorithm_3d (mhd3_XZ hp) hi3 (goodGrid_XZ hg) he hid' jk' h'
  have hR := related_XZM3 hp hg.settings hv
  have hk : r.iteration = r'.iteration := (SimRel.length hR h0 a1).unique b1
  have hres := SimRel.result hR h0 t sv r.iteration
  refine ⟨hk, ?_, ?_⟩
  · rw [a2, b2, ← hk]; exact hres.t
  · rw [← hk] at b3
    refine forall₂_join ?_ a3 b3 hres.files
    rintro o f o' f' ⟨n1, t1, s1⟩ ⟨n2, t2, s2⟩ ⟨n3, t3, s3⟩
    refine ⟨n1.trans (n3.trans n2.symm), t1.trans (t3.trans t2.symm), fun i j k hij => ?_⟩
    have e2 := s2 k j i ⟨hij.2.2, hij.2.1, hij.1⟩
    rw [e2, s3 i j k hij, ← s1 i j k hij]

/-- a square grid with the same conditions in x and y is its own transpose, up to labels the scheme does not use -/
theorem transposeParams_square {p : Params ℝ} (hw : p.WF) (hn : p.nx = p.ny) (hd : p.dx = p.dy)
    (hbc : p.boundary_type_xmin = p.boundary_type_ymin ∧ p.boundary_type_xmax = p.boundary_type_ymax) :
    transposeParams p = { p with xmin := p.ymin, ymin := p.xmin, xmax := p.ymax, ymax := p.xmax } := by
  unfold transposeParams
  obtain ⟨w1, w2, w3, w4, w5, w6, w7, w8, w9, w10, w11, w12, w13⟩ := hw
  have e1 : p.imin = p.jmin := by rw [w5, w6]
  have e3 : p.isize = p.jsize := by rw [w11, w12, hn]
  have e2 : p.imax = p.jmax := by rw [w8, w9]; try rw [hn]
  rw [hn, hd, hbc.1, hbc.2, e1, e2, e3]

/-- **C84 (symmetric problems stay symmetric, 2D MHD).** A square grid with the same boundary conditions in
x and y and an initial state symmetric about the diagonal: every file is symmetric about the diagonal. -/
theorem C84_diagonal_2d {p : Params ℝ} (hp : Mhd2 p)
    (hi : p.implementationVersion = 0 ∨ p.implementationVersion = 1 ∨ p.implementationVersion = 2)
    (hg : GoodGrid p) (he : p.enableOutput = decide (p.nOutput ≠ 0))
    (hn : p.nx = p.ny) (hd : p.dx = p.dy) (hbc : p.boundary_type_xmin = p.boundary_type_ymin ∧
      p.boundary_type_xmax = p.boundary_type_ymax)
    {ident : ℝ} (hid : ident ≤ 0) (jk : JunkM ℝ) {m : Mem Arr ℝ}
    (h0 : ∀ i j, interior2 p i j → ms2 m .U j i = transposeM (ms2 m .U i j))
    {t : ℝ} {sv : Int} {r : RunState ℝ} (h : runMain p (mhdOps2 p ident jk) m t sv r) :
    ∀ o ∈ r.outputs, ∀ i j, interior2 p i j → shownM o.data j i 0 = transposeM (shownM o.data i j 0) := by
  have e := transposeParams_square hp.wf hn hd hbc
  have hR := related_trM2 hp hg.settings
  have hM : mhd2 (transposeParams p) = mhd2 p := by rw [e]; rfl
  have hR' : Related p p (mhd2 p) (mhd2 p)
      (fun x y => ∀ i j, interior2 p i j → y j i = transposeM (x i j)) := by
    obtain ⟨r1, r2, r3, r4, r5⟩ := hR
    rw [hM] at r4 r5
    refine ⟨rfl, rfl, rfl, r4, r5⟩
  obtain ⟨a1, a2, a3, _⟩ := C54_mhd_run_is_algorithm_2d hp hi hg he hid jk h
  have hres := SimRel.result hR' h0 t sv r.iteration
  have key : List.Forall₂ (fun o o' : Output ℝ => o.number = o'.number ∧ o.time = o'.time ∧
      ∀ i j, interior2 p i j → shownM o'.data j i 0 = transposeM (shownM o.data i j 0))
      r.outputs r.outputs := by
    refine forall₂_join ?_ a3 a3 hres.files
    rintro o f o' f' ⟨n1, t1, s1⟩ ⟨n2, t2, s2⟩ ⟨n3, t3, s3⟩
    refine ⟨n1.trans (n3.trans n2.symm), t1.trans (t3.trans t2.symm), fun i j hij => ?_⟩
    have hij' : interior2 p j i := by
      obtain ⟨a, b, c, d⟩ := hij; exact ⟨c, hn ▸ d, a, hn ▸ b⟩
    rw [s2 j i hij', s3 i j hij, ← s1 i j hij]
  exact fun o ho => (forall₂_self key o ho).2.2

/-! ## Non-vacuity -/

/-- a run from an arbitrary state, and the run from that state with the axes exchanged, both exist -/
example (m : Mem Arr ℝ) (jk : JunkM ℝ) : ∃ m' s s',
    Mhd2 (sampleM .dirichlet .periodic 2) ∧ GoodGrid (sampleM .dirichlet .periodic 2) ∧
    (∀ i j, ms2 m' .U j i = transposeM (ms2 m .U i j)) ∧
    runMain (sampleM .dirichlet .periodic 2) (mhdOps2 (sampleM .dirichlet .periodic 2) (-1) jk) m 0 0 s ∧
    runMain (transposeParams (sampleM .dirichlet .periodic 2))
      (mhdOps2 (transposeParams (sampleM .dirichlet .periodic 2)) (-1) jk) m' 0 0 s' := by
  let m' : Mem Arr ℝ := fun l => m ⟨l.arr, l.j, l.i, l.k,
    if l.v = IU then IV else if l.v = IV then IU else if l.v = IA then IB else if l.v = IB then IA else l.v⟩
  obtain ⟨s, hs⟩ := (C54_mhd_completes (sampleM_wf .dirichlet .periodic 2) (sampleM_mhd3 _ _ _).faces (-1) jk
    (by simp [sampleM, sampleMHD, rawSample, Params.init]) m 0 0).1
  have hT := total_mhd2 (transpose_mhd2 (sampleM_mhd2 .dirichlet .periodic 2)).wf
    (transpose_mhd2 (sampleM_mhd2 .dirichlet .periodic 2)).faces (-1) jk
  obtain ⟨s0, hs0⟩ := C14_starts (p := transposeParams (sampleM .dirichlet .periodic 2)) hT m' 0 0
  obtain ⟨_, s', _, _, hs'⟩ := C14_completes hT
    (by simp [transposeParams, sampleM, sampleMHD, rawSample, Params.init]) hs0
  exact ⟨m', s, _, sampleM_mhd2 _ _ _, sampleM_goodGrid _ _ _, fun _ _ => rfl, hs, hs'⟩

/-- the same in 3D, version 1, x ↔ z -/
example (m : Mem Arr ℝ) (jk : JunkM ℝ) : ∃ m' s s',
    Mhd3 (sampleM .dirichlet .periodic 1) ∧ GoodGrid (sampleM .dirichlet .periodic 1) ∧
    (sampleM .dirichlet .periodic 1).implementationVersion = 1 ∧
    (∀ i j k, ms m' .U k j i = (ms m .U i j k).swapXZ) ∧
    runMain (sampleM .dirichlet .periodic 1) (mhdOps3 (sampleM .dirichlet .periodic 1) (-1) jk) m 0 0 s ∧
    runMain (swapXZParams (sampleM .dirichlet .periodic 1))
      (mhdOps3 (swapXZParams (sampleM .dirichlet .periodic 1)) (-1) jk) m' 0 0 s' := by
  let m' : Mem Arr ℝ := fun l => m ⟨l.arr, l.k, l.j, l.i,
    if l.v = IU then IW else if l.v = IW then IU else if l.v = IA then IC else if l.v = IC then IA else l.v⟩
  obtain ⟨s, hs⟩ := (C54_mhd_completes (sampleM_wf .dirichlet .periodic 1) (sampleM_mhd3 _ _ _).faces (-1) jk
    (by simp [sampleM, sampleMHD, rawSample, Params.init]) m 0 0).2
  have hT := total_mhd3 (mhd3_XZ (sampleM_mhd3 .dirichlet .periodic 1)).wf
    (mhd3_XZ (sampleM_mhd3 .dirichlet .periodic 1)).faces (-1) jk
  obtain ⟨s0, hs0⟩ := C14_starts (p := swapXZParams (sampleM .dirichlet .periodic 1)) hT m' 0 0
  obtain ⟨_, s', _, _, hs'⟩ := C14_completes hT
    (by simp [swapXZParams, sampleM, sampleMHD, rawSample, Params.init]) hs0
  exact ⟨m', s, _, sampleM_mhd3 _ _ _, sampleM_goodGrid _ _ _, rfl, fun _ _ _ => rfl, hs, hs'⟩

/-- 4 × 4 cells, reflecting at every side, HLLD -/
noncomputable def diagM : Params ℝ :=
  { ({ rawSample .dirichlet .dirichlet 3 8 with ny := 4 } : Params ℝ).init with
    mhdEnabled := true, riemannSolverType := .hlld, implementationVersion := 2 }

theorem diagM_wf : diagM.WF := by
  have h : ({ rawSample .dirichlet .dirichlet 3 8 with ny := 4 } : Params ℝ).init.WF :=
    Params.init_wf _ (by simp [rawSample]) (by simp [rawSample]) (by simp [rawSample]) (by simp [rawSample])
  exact ⟨h.nx_pos, h.ny_pos, h.nz_pos, h.gw_pos, h.imin_eq, h.jmin_eq, h.kmin_eq, h.imax_eq,
    h.jmax_eq, h.kmax_eq, h.isize_eq, h.jsize_eq, h.ksize_eq⟩

theorem diagM_faces : Faces3Ok diagM := by
  unfold Faces3Ok Faces2Ok Spec.BCok diagM rawSample Params.init; simp

/-- a square grid with the same conditions in x and y, and a state symmetric about the diagonal that is not
uniform -/
example (jk : JunkM ℝ) : ∃ (m : Mem Arr ℝ) (s : RunState ℝ), Mhd2 diagM ∧ GoodGrid diagM ∧
    diagM.nx = diagM.ny ∧ diagM.dx = diagM.dy ∧
    (diagM.boundary_type_xmin = diagM.boundary_type_ymin ∧
      diagM.boundary_type_xmax = diagM.boundary_type_ymax) ∧
    (∀ i j, ms2 m .U j i = transposeM (ms2 m .U i j)) ∧ m ⟨.U, 3, 3, 0, ID⟩ ≠ m ⟨.U, 4, 4, 0, ID⟩ ∧
    runMain diagM (mhdOps2 diagM (-1) jk) m 0 0 s := by
  obtain ⟨s, hs⟩ := (C54_mhd_completes diagM_wf diagM_faces (-1) jk
    (by simp [diagM, rawSample, Params.init])
    (fun l => (l.i + l.j : ℝ)) 0 0).1
  refine ⟨_, s, ⟨diagM_wf, ?_, rfl, ⟨.inl ?_, ?_⟩, diagM_faces.1⟩,
    ⟨sample_good .dirichlet .dirichlet 3 8, ?_, ?_, ?_, ?_⟩, ?_, ?_, ⟨rfl, rfl⟩, fun i j => ?_, ?_, hs⟩
  · simp [diagM, rawSample, Params.init]
  · simp [diagM, rawSample, Params.init]
  · simp [diagM]
  · norm_num [diagM, rawSample, Params.init]
  · norm_num [diagM, rawSample, Params.init, intLit]
  · norm_num [diagM, rawSample, Params.init, intLit]
  · norm_num [diagM, rawSample, Params.init, intLit]
  · simp [diagM, rawSample, Params.init]
  · simp [diagM, rawSample, Params.init]
  · refine MS.ext ?_ ?_ ?_ ?_ ?_ ?_ ?_ ?_ <;> simp [ms2, ms, transposeM, add_comm]
  · norm_num

end EulerKokkos
