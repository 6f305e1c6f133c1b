import Verif.Lemmas.Rotate
import Verif.Props.C72

/-!
# C77 — a periodic domain has no origin: complete runs commute with moving the initial state
-/

set_option linter.constructorNameAsVariable false
set_option linter.unusedSectionVars false
set_option linter.unusedSimpArgs false

namespace EulerKokkos
open Spec

/-- **C77 (2D hydro).** Move the initial state by `a` cells along x and `b` cells along y, each either
along a periodic axis or not at all, with uniform gravity if any.  The two complete runs make the same
number of iterations, end at the same time, and write files with the same numbers and times, the
contents of the second being those of the first, moved by the same number of cells. -/
theorem C77_moved_2d {p : Params ℝ} (hp : Hydro2 p)
    (hi : p.implementationVersion = 0 ∨ p.implementationVersion = 1 ∨ p.implementationVersion = 2)
    (hg : GoodGrid p) (he : p.enableOutput = decide (p.nOutput ≠ 0)) (g : GravityParams) {a b : Int}
    (hx : Rotates p.boundary_type_xmin p.boundary_type_xmax a)
    (hy : Rotates p.boundary_type_ymin p.boundary_type_ymax b)
    {ident ident' : ℝ} (hid : ident ≤ 0) (hid' : ident' ≤ 0) (jk jk' : Junk ℝ) {m m' : Mem Arr ℝ}
    (h0 : ∀ i j, interior2 p i j → hs2 m' .U i j =
      hs2 m .U (rotIdx p.nx p.ghostWidth a i) (rotIdx p.ny p.ghostWidth b j))
    (gx gy : ℝ) (hG : g.enabled = true → ∀ i j, inGrid2 p i j →
      (m ⟨.grav, i, j, 0, IX⟩ = gx ∧ m ⟨.grav, i, j, 0, IY⟩ = gy) ∧
      m' ⟨.grav, i, j, 0, IX⟩ = gx ∧ m' ⟨.grav, i, j, 0, IY⟩ = gy)
    {t : ℝ} {sv : Int} {r r' : RunState ℝ} (h : runMain p (hydroOps2 p g ident jk) m t sv r)
    (h' : runMain p (hydroOps2 p g ident' jk') m' t sv r') :
    r.iteration = r'.iteration ∧ r.t = r'.t ∧
    List.Forall₂ (fun o o' : Output ℝ => o.number = o'.number ∧ o.time = o'.time ∧
      ∀ i j, interior2 p i j → shown2 o'.data i j =
        shown2 o.data (rotIdx p.nx p.ghostWidth a i) (rotIdx p.ny p.ghostWidth b j))
      r.outputs r'.outputs :=
  runSym2 hp hp hi hi hg hg he he g hid hid' jk jk'
    (runSym_rot2 hp hx hy g (gx, gy) (fun hen i j hij => by
      obtain ⟨⟨x, y⟩, _⟩ := hG hen i j hij
      show (_, _) = (_, _)
      rw [x, y]))
    (fun hen i j hij => by
      obtain ⟨_, x, y⟩ := hG hen i j hij
      show (_, _) = (_, _)
      rw [x, y])
    h0 h h'

/-- **C77 (3D hydro).** -/
theorem C77_moved_3d {p : Params ℝ} (hp : Hydro3 p)
    (hi : p.implementationVersion = 0 ∨ p.implementationVersion = 1 ∨ p.implementationVersion = 2)
    (hg : GoodGrid p) (he : p.enableOutput = decide (p.nOutput ≠ 0)) (g : GravityParams) {a b c : Int}
    (hx : Rotates p.boundary_type_xmin p.boundary_type_xmax a)
    (hy : Rotates p.boundary_type_ymin p.boundary_type_ymax b)
    (hz : Rotates p.boundary_type_zmin p.boundary_type_zmax c)
    {ident ident' : ℝ} (hid : ident ≤ 0) (hid' : ident' ≤ 0) (jk jk' : Junk ℝ) {m m' : Mem Arr ℝ}
    (h0 : ∀ i j k, interior3 p i j k → hs3 m' .U i j k =
      hs3 m .U (rotIdx p.nx p.ghostWidth a i) (rotIdx p.ny p.ghostWidth b j)
        (rotIdx p.nz p.ghostWidth c k))
    (gx gy gz : ℝ) (hG : g.enabled = true → ∀ i j k, inGrid3 p i j k →
      (m ⟨.grav, i, j, k, IX⟩ = gx ∧ m ⟨.grav, i, j, k, IY⟩ = gy ∧ m ⟨.grav, i, j, k, IZ⟩ = gz) ∧
      m' ⟨.grav, i, j, k, IX⟩ = gx ∧ m' ⟨.grav, i, j, k, IY⟩ = gy ∧ m' ⟨.grav, i, j, k, IZ⟩ = gz)
    {t : ℝ} {sv : Int} {r r' : RunState ℝ} (h : runMain p (hydroOps3 p g ident jk) m t sv r)
    (h' : runMain p (hydroOps3 p g ident' jk') m' t sv r') :
    r.iteration = r'.iteration ∧ r.t = r'.t ∧
    List.Forall₂ (fun o o' : Output ℝ => o.number = o'.number ∧ o.time = o'.time ∧
      ∀ i j k, interior3 p i j k → shown3 o'.data i j k =
        shown3 o.data (rotIdx p.nx p.ghostWidth a i) (rotIdx p.ny p.ghostWidth b j)
          (rotIdx p.nz p.ghostWidth c k))
      r.outputs r'.outputs :=
  runSym3 hp hp hi hi hg hg he he g hid hid' jk jk'
    (runSym_rot3 hp hx hy hz (zKick p.implementationVersion) g (gx, gy, gz) (fun hen i j k hij => by
      obtain ⟨⟨x, y, z⟩, _⟩ := hG hen i j k hij
      show (_, _, _) = (_, _, _)
      rw [x, y, z]))
    (fun hen i j k hij => by
      obtain ⟨_, x, y, z⟩ := hG hen i j k hij
      show (_, _, _) = (_, _, _)
      rw [x, y, z])
    h0 h h'

/-- **C77 (2D MHD).** -/
theorem C77_moved_mhd_2d {p : Params ℝ} (hp : Mhd2 p)
    (hi : p.implementationVersion = 0 ∨ p.implementationVersion = 1 ∨ p.implementationVersion = 2)
    (hg : GoodGrid p) (he : p.enableOutput = decide (p.nOutput ≠ 0)) {a b : Int}
    (hx : Rotates p.boundary_type_xmin p.boundary_type_xmax a)
    (hy : Rotates p.boundary_type_ymin p.boundary_type_ymax b)
    {ident ident' : ℝ} (hid : ident ≤ 0) (hid' : ident' ≤ 0) (jk jk' : JunkM ℝ) {m m' : Mem Arr ℝ}
    (h0 : ∀ i j, interior2 p i j → ms2 m' .U i j =
      ms2 m .U (rotIdx p.nx p.ghostWidth a i) (rotIdx p.ny p.ghostWidth b j))
    {t : ℝ} {sv : Int} {r r' : RunState ℝ} (h : runMain p (mhdOps2 p ident jk) m t sv r)
    (h' : runMain p (mhdOps2 p ident' jk') m' t sv r') :
    r.iteration = r'.iteration ∧ r.t = r'.t ∧
    List.Forall₂ (fun o o' : Output ℝ => o.number = o'.number ∧ o.time = o'.time ∧
      ∀ i j, interior2 p i j → shownM o'.data i j 0 =
        shownM o.data (rotIdx p.nx p.ghostWidth a i) (rotIdx p.ny p.ghostWidth b j) 0)
      r.outputs r'.outputs := by
  obtain ⟨a1, a2, a3, _⟩ := C54_mhd_run_is_algorithm_2d hp hi hg he hid jk h
  obtain ⟨b1, b2, b3, _⟩ := C54_mhd_run_is_algorithm_2d hp hi hg he hid' jk' h'
  have hR := related_rotM2 hp hx hy
  have hk : r.iteration = r'.iteration := (SimRel.length hR h0 a1).unique b1
  have hres := SimRel.result hR h0 t sv r.iteration
  refine ⟨hk, ?_, ?_⟩
  · rw [a2, b2, ← hk]; exact hres.t
  · rw [← hk] at b3
    refine forall₂_join ?_ a3 b3 hres.files
    rintro o f o' f' ⟨n1, t1, s1⟩ ⟨n2, t2, s2⟩ ⟨n3, t3, s3⟩
    refine ⟨n1.trans (n3.trans n2.symm), t1.trans (t3.trans t2.symm), fun i j hij => ?_⟩
    rw [s2 i j hij, s3 i j hij]
    exact (s1 _ _ (rot2_int hp.wf a b i j)).symm

/-- **C77 (3D MHD, every implementation version).** -/
theorem C77_moved_mhd_3d {p : Params ℝ} (hp : Mhd3 p)
    (hi : p.implementationVersion = 0 ∨ p.implementationVersion = 1 ∨ p.implementationVersion = 2)
    (hg : GoodGrid p) (he : p.enableOutput = decide (p.nOutput ≠ 0)) {a b c : Int}
    (hx : Rotates p.boundary_type_xmin p.boundary_type_xmax a)
    (hy : Rotates p.boundary_type_ymin p.boundary_type_ymax b)
    (hz : Rotates p.boundary_type_zmin p.boundary_type_zmax c)
    {ident ident' : ℝ} (hid : ident ≤ 0) (hid' : ident' ≤ 0) (jk jk' : JunkM ℝ) {m m' : Mem Arr ℝ}
    (h0 : ∀ i j k, interior3 p i j k → ms m' .U i j k =
      ms m .U (rotIdx p.nx p.ghostWidth a i) (rotIdx p.ny p.ghostWidth b j)
        (rotIdx p.nz p.ghostWidth c k))
    {t : ℝ} {sv : Int} {r r' : RunState ℝ} (h : runMain p (mhdOps3 p ident jk) m t sv r)
    (h' : runMain p (mhdOps3 p ident' jk') m' t sv r') :
    r.iteration = r'.iteration ∧ r.t = r'.t ∧
    List.Forall₂ (fun o o' : Output ℝ => o.number = o'.number ∧ o.time = o'.time ∧
      ∀ i j k, interior3 p i j k → shownM o'.data i j k =
        shownM o.data (rotIdx p.nx p.ghostWidth a i) (rotIdx p.ny p.ghostWidth b j)
          (rotIdx p.nz p.ghostWidth c k))
      r.outputs r'.outputs := by
  obtain ⟨a1, a2, a3, _⟩ := C54_mhd_run_is_algorithm_3d hp hi hg he hid jk h
  obtain ⟨b1, b2, b3, _⟩ := C54_mhd_run_is_algorithm_3d hp hi hg he hid' jk' h'
  have hR := related_rotM3 hp hx hy hz
  have hk : r.iteration = r'.iteration := (SimRel.length hR h0 a1).unique b1
  have hres := SimRel.result hR h0 t sv r.iteration
  refine ⟨hk, ?_, ?_⟩
  · rw [a2, b2, ← hk]; exact hres.t
  · rw [← hk] at b3
    refine forall₂_join ?_ a3 b3 hres.files
    rintro o f o' f' ⟨n1, t1, s1⟩ ⟨n2, t2, s2⟩ ⟨n3, t3, s3⟩
    refine ⟨n1.trans (n3.trans n2.symm), t1.trans (t3.trans t2.symm), fun i j k hij => ?_⟩
    rw [s2 i j k hij, s3 i j k hij]
    exact (s1 _ _ _ (rot3_int hp.wf a b c i j k)).symm

/-! ## States that repeat themselves keep repeating themselves -/

/-- **C77 (a 3D state that does not depend on z keeps not depending on z, hydro).** With periodic z
boundaries and no gravity, if the initial state is the same in all cells of every column along z, so is
the content of every file. -/
theorem C77_independent_of_z {p : Params ℝ} (hp : Hydro3 p)
    (hi : p.implementationVersion = 0 ∨ p.implementationVersion = 1 ∨ p.implementationVersion = 2)
    (hg : GoodGrid p) (he : p.enableOutput = decide (p.nOutput ≠ 0)) {g : GravityParams}
    (hgr : g.enabled = false)
    (hz : p.boundary_type_zmin = .periodic ∧ p.boundary_type_zmax = .periodic)
    {ident : ℝ} (hid : ident ≤ 0) (jk : Junk ℝ) {m : Mem Arr ℝ}
    (h0 : ∀ i j k k', interior3 p i j k → interior3 p i j k' → hs3 m .U i j k = hs3 m .U i j k')
    {t : ℝ} {sv : Int} {r : RunState ℝ} (h : runMain p (hydroOps3 p g ident jk) m t sv r) :
    ∀ o ∈ r.outputs, ∀ i j k k', interior3 p i j k → interior3 p i j k' →
      shown3 o.data i j k = shown3 o.data i j k' := by
  intro o ho i j k k' hk hk'
  have key := C77_moved_3d hp hi hg he g (a := 0) (b := 0) (c := k' - k) (.inr rfl) (.inr rfl) (.inl hz) hid hid
    jk jk (m := m) (m' := m) (fun i j l hl => by
      have hr := rot3_int hp.wf 0 0 (k' - k) i j l
      obtain ⟨⟨x1, x2⟩, ⟨y1, y2⟩, z⟩ := hl
      unfold rot3 at hr
      simp only [rotIdx_zero x1 x2, rotIdx_zero y1 y2] at hr ⊢
      exact h0 i j l _ ⟨⟨x1, x2⟩, ⟨y1, y2⟩, z⟩ hr) 0 0 0 (by simp [hgr]) h h
  have := (forall₂_self key.2.2 o ho).2.2 i j k hk
  obtain ⟨⟨x1, x2⟩, ⟨y1, y2⟩, _, _⟩ := hk
  obtain ⟨_, _, z1, z2⟩ := hk'
  rw [rotIdx_zero x1 x2, rotIdx_zero y1 y2, rotIdx_eq (x := k') z1 z2 0 (by ring)] at this
  exact this

/-- **C77 (a 3D MHD state that does not depend on z keeps not depending on z).** -/
theorem C77_independent_of_z_mhd {p : Params ℝ} (hp : Mhd3 p)
    (hi : p.implementationVersion = 0 ∨ p.implementationVersion = 1 ∨ p.implementationVersion = 2)
    (hg : GoodGrid p) (he : p.enableOutput = decide (p.nOutput ≠ 0))
    (hz : p.boundary_type_zmin = .periodic ∧ p.boundary_type_zmax = .periodic)
    {ident : ℝ} (hid : ident ≤ 0) (jk : JunkM ℝ) {m : Mem Arr ℝ}
    (h0 : ∀ i j k k', interior3 p i j k → interior3 p i j k' → ms m .U i j k = ms m .U i j k')
    {t : ℝ} {sv : Int} {r : RunState ℝ} (h : runMain p (mhdOps3 p ident jk) m t sv r) :
    ∀ o ∈ r.outputs, ∀ i j k k', interior3 p i j k → interior3 p i j k' →
      shownM o.data i j k = shownM o.data i j k' := by
  intro o ho i j k k' hk hk'
  have key := C77_moved_mhd_3d hp hi hg he (a := 0) (b := 0) (c := k' - k) (.inr rfl) (.inr rfl) (.inl hz) hid hid
    jk jk (m := m) (m' := m) (fun i j l hl => by
      have hr := rot3_int hp.wf 0 0 (k' - k) i j l
      obtain ⟨⟨x1, x2⟩, ⟨y1, y2⟩, z⟩ := hl
      unfold rot3 at hr
      simp only [rotIdx_zero x1 x2, rotIdx_zero y1 y2] at hr ⊢
      exact h0 i j l _ ⟨⟨x1, x2⟩, ⟨y1, y2⟩, z⟩ hr) h h
  have := (forall₂_self key.2.2 o ho).2.2 i j k hk
  obtain ⟨⟨x1, x2⟩, ⟨y1, y2⟩, _, _⟩ := hk
  obtain ⟨_, _, z1, z2⟩ := hk'
  rw [rotIdx_zero x1 x2, rotIdx_zero y1 y2, rotIdx_eq (x := k') z1 z2 0 (by ring)] at this
  exact this

/-! ## Non-vacuity -/

/-- a run from an arbitrary state and a run from that state moved by one cell along the periodic y axis
(x is reflecting at one end), both exist -/
example (m : Mem Arr ℝ) (jk : Junk ℝ) : ∃ m' s s',
    Rotates (sample .dirichlet .periodic).boundary_type_ymin (sample .dirichlet .periodic).boundary_type_ymax 1 ∧
    (∀ i j, hs2 m' .U i j = hs2 m .U i (rotIdx (sample .dirichlet .periodic).ny
      (sample .dirichlet .periodic).ghostWidth 1 j)) ∧
    runMain (sample .dirichlet .periodic) (hydroOps2 (sample .dirichlet .periodic) ⟨false, false⟩ (-1) jk)
      m 0 0 s ∧
    runMain (sample .dirichlet .periodic) (hydroOps2 (sample .dirichlet .periodic) ⟨false, false⟩ (-1) jk)
      m' 0 0 s' := by
  let m' : Mem Arr ℝ := fun l => m ⟨l.arr, l.i, rotIdx (sample .dirichlet .periodic).ny
      (sample .dirichlet .periodic).ghostWidth 1 l.j, l.k, l.v⟩
  obtain ⟨s, hs⟩ := (C14_hydro_completes (sample_wf .dirichlet .periodic) (sample_faces3 _ _) ⟨false, false⟩
    (-1) jk (by simp [sample, rawSample, Params.init]) m 0 0).1
  obtain ⟨s', hs'⟩ := (C14_hydro_completes (sample_wf .dirichlet .periodic) (sample_faces3 _ _) ⟨false, false⟩
    (-1) jk (by simp [sample, rawSample, Params.init]) m' 0 0).1
  exact ⟨m', s, s', .inl ⟨rfl, rfl⟩, fun _ _ => rfl, hs, hs'⟩

/-- a 3D MHD run on a box periodic in all directions, from a state that depends on x only -/
example (jk : JunkM ℝ) : ∃ (m : Mem Arr ℝ) (s : RunState ℝ),
    Mhd3 (sampleM .periodic .periodic 2) ∧
    ((sampleM .periodic .periodic 2).boundary_type_zmin = .periodic ∧
      (sampleM .periodic .periodic 2).boundary_type_zmax = .periodic) ∧
    (∀ i j k k', ms m .U i j k = ms m .U i j k') ∧
    runMain (sampleM .periodic .periodic 2) (mhdOps3 (sampleM .periodic .periodic 2) (-1) jk) m 0 0 s := by
  obtain ⟨s, hs⟩ := (C54_mhd_completes (sampleM_wf .periodic .periodic 2) (sampleM_mhd3 _ _ _).faces (-1) jk
    (by simp [sampleM, sampleMHD, rawSample, Params.init]) (fun l => l.i + 1) 0 0).2
  exact ⟨_, s, sampleM_mhd3 _ _ _, ⟨rfl, rfl⟩, fun _ _ _ _ => rfl, hs⟩

end EulerKokkos
