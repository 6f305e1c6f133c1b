import Verif.Lemmas.RunSymmetry
import Verif.Lemmas.Symmetry3

/-!
# C70 — complete runs do not depend on the names of the axes
-/

set_option linter.constructorNameAsVariable false
set_option linter.unusedSectionVars false
set_option linter.unusedSimpArgs false

namespace EulerKokkos
open Spec

/-! ## Time step and parameters under an exchange of axes -/

theorem sound_swapUV (s : Settings ℝ) (q : HS ℝ) : sound s q.swapUV = sound s q := rfl
theorem sound_swapUW (s : Settings ℝ) (q : HS ℝ) : sound s q.swapUW = sound s q := rfl

theorem rate2_tr (p : Params ℝ) (g : GravityParams) (gf : Grav2 ℝ) (u : Fld2 ℝ) (i j : Int) :
    rate2 (transposeParams p) g (trG gf) (trF u) i j = rate2 p g gf u j i := by
  unfold rate2
  have e : (computePrimitives2 (transposeParams p).settings (trF u i j)).1 =
    (computePrimitives2 p.settings (u j i)).1.swapUV := prim_swap _ _
  simp only [e]
  have e2 : (transposeParams p).dx = p.dy ∧ (transposeParams p).dy = p.dx ∧
    (transposeParams p).settings = p.settings := ⟨rfl, rfl, rfl⟩
  split_ifs
  · simp only [e2, sound_swapUV]
    simp only [HS.swapUV, trG, min_comm p.dy p.dx]
    congr 2
    · ring
    · ring
  · simp only [cflRate2, e2, sound_swapUV]
    simp only [HS.swapUV]; ring

theorem rate3_XY (p : Params ℝ) (g : GravityParams) (gf : Grav3 ℝ) (u : Fld3 ℝ) (i j k : Int) :
    rate3 (swapXYParams p) g (swapXYG gf) (swapXY u) i j k = rate3 p g gf u j i k := by
  unfold rate3
  have e : (computePrimitives3 (swapXYParams p).settings (swapXY u i j k)).1 =
    (computePrimitives3 p.settings (u j i k)).1.swapUV := computePrimitives3_swapUV _ _
  simp only [e]
  have e2 : (swapXYParams p).dx = p.dy ∧ (swapXYParams p).dy = p.dx ∧ (swapXYParams p).dz = p.dz ∧
    (swapXYParams p).settings = p.settings := ⟨rfl, rfl, rfl, rfl⟩
  split_ifs
  · simp only [e2, sound_swapUV]
    simp only [HS.swapUV, swapXYG, min_comm p.dy p.dx]
    congr 2
    · ring
    · ring
  · simp only [cflRate3, e2, sound_swapUV]
    simp only [HS.swapUV]; ring

theorem rate3_XZ (p : Params ℝ) (g : GravityParams) (gf : Grav3 ℝ) (u : Fld3 ℝ) (i j k : Int) :
    rate3 (swapXZParams p) g (swapXZG gf) (swapXZ u) i j k = rate3 p g gf u k j i := by
  unfold rate3
  have e : (computePrimitives3 (swapXZParams p).settings (swapXZ u i j k)).1 =
    (computePrimitives3 p.settings (u k j i)).1.swapUW := computePrimitives3_swapUW _ _
  simp only [e]
  have e2 : (swapXZParams p).dx = p.dz ∧ (swapXZParams p).dy = p.dy ∧ (swapXZParams p).dz = p.dx ∧
    (swapXZParams p).settings = p.settings := ⟨rfl, rfl, rfl, rfl⟩
  have e3 : min (min p.dz p.dy) p.dx = min (min p.dx p.dy) p.dz := by
    rw [min_comm p.dz, min_assoc, min_comm p.dz, ← min_assoc, min_comm p.dy]
  split_ifs
  · simp only [e2, sound_swapUW]
    simp only [HS.swapUW, swapXZG, e3]
    congr 2
    · ring
    · ring
  · simp only [cflRate3, e2, sound_swapUW]
    simp only [HS.swapUW]; ring

theorem goodGrid_tr {p : Params ℝ} (h : GoodGrid p) : GoodGrid (transposeParams p) :=
  ⟨h.settings, h.cfl, h.dy, h.dx, h.dz⟩
theorem goodGrid_XY {p : Params ℝ} (h : GoodGrid p) : GoodGrid (swapXYParams p) :=
  ⟨h.settings, h.cfl, h.dy, h.dx, h.dz⟩
theorem goodGrid_XZ {p : Params ℝ} (h : GoodGrid p) : GoodGrid (swapXZParams p) :=
  ⟨h.settings, h.cfl, h.dz, h.dy, h.dx⟩

theorem hydro3_XY {p : Params ℝ} (hp : Hydro3 p) : Hydro3 (swapXYParams p) := by
  obtain ⟨⟨w1, w2, w3, w4, w5, w6, w7, w8, w9, w10, w11, w12, w13⟩, nb, ⟨v1, v2⟩,
    ⟨⟨f1, f2, f3, f4⟩, f5, f6⟩⟩ := hp
  exact ⟨⟨w2, w1, w3, w4, w6, w5, w7, w9, w8, w10, w12, w11, w13⟩, nb, ⟨v1, v2⟩,
    ⟨⟨f3, f4, f1, f2⟩, f5, f6⟩⟩

theorem hydro3_XZ {p : Params ℝ} (hp : Hydro3 p) : Hydro3 (swapXZParams p) := by
  obtain ⟨⟨w1, w2, w3, w4, w5, w6, w7, w8, w9, w10, w11, w12, w13⟩, nb, ⟨v1, v2⟩,
    ⟨⟨f1, f2, f3, f4⟩, f5, f6⟩⟩ := hp
  exact ⟨⟨w3, w2, w1, w4, w7, w6, w5, w10, w9, w8, w13, w12, w11⟩, nb, ⟨v1, v2⟩,
    ⟨⟨f5, f6, f3, f4⟩, f1, f2⟩⟩

theorem runSym_tr (p : Params ℝ) (g : GravityParams) (gf : Grav2 ℝ) :
    RunSym2 p (transposeParams p) g gf (trG gf) (fun i j => (j, i)) HS.swapUV where
  tEnd := rfl
  nOutput := rfl
  nStepmax := rfl
  cfl := rfl
  int i j h := by unfold interior2 transposeParams at h; simp only at h; exact ⟨h.2.2.1, h.2.2.2, h.1, h.2.1⟩
  onto i j h := ⟨j, i, by obtain ⟨a, b, c, d⟩ := h; exact ⟨c, d, a, b⟩, rfl⟩
  rate u i j _ := rate2_tr p g gf u i j
  step dt u i j _ := congrFun (congrFun (trF_fullStep p g dt gf u) i) j

theorem fullStep3_XY {p : Params ℝ} (hr : p.riemannSolverType ≠ .hll ∧ p.riemannSolverType ≠ .hlld)
    (zk : Bool) (g : GravityParams) (dt : ℝ) (gf : Grav3 ℝ) (u : Fld3 ℝ) :
    fullStep3 zk (swapXYParams p) g dt (swapXYG gf) (swapXY u) =
      swapXY (fullStep3 zk p g dt gf u) := by
  unfold fullStep3
  rw [fill3_XY, step3_XY hr]

theorem fullStep3_XZ {p : Params ℝ} (hr : p.riemannSolverType ≠ .hll ∧ p.riemannSolverType ≠ .hlld)
    (zk : Bool) (g : GravityParams) (hz : zk = true ∨ g.enabled = false) (dt : ℝ) (gf : Grav3 ℝ)
    (u : Fld3 ℝ) :
    fullStep3 zk (swapXZParams p) g dt (swapXZG gf) (swapXZ u) =
      swapXZ (fullStep3 zk p g dt gf u) := by
  unfold fullStep3
  rw [fill3_XZ, step3_XZ hr zk g hz]

theorem runSym_XY {p : Params ℝ} (hr : p.riemannSolverType ≠ .hll ∧ p.riemannSolverType ≠ .hlld)
    (zk : Bool) (g : GravityParams) (gf : Grav3 ℝ) :
    RunSym3 zk zk p (swapXYParams p) g gf (swapXYG gf) (fun i j k => (j, i, k)) HS.swapUV where
  tEnd := rfl
  nOutput := rfl
  nStepmax := rfl
  cfl := rfl
  int i j k h := ⟨h.2.1, h.1, h.2.2⟩
  onto i j k h := ⟨j, i, k, ⟨h.2.1, h.1, h.2.2⟩, rfl⟩
  rate u i j k _ := rate3_XY p g gf u i j k
  step dt u i j k _ := congrFun (congrFun (congrFun (fullStep3_XY hr zk g dt gf u) i) j) k

theorem runSym_XZ {p : Params ℝ} (hr : p.riemannSolverType ≠ .hll ∧ p.riemannSolverType ≠ .hlld)
    (zk : Bool) (g : GravityParams) (hz : zk = true ∨ g.enabled = false) (gf : Grav3 ℝ) :
    RunSym3 zk zk p (swapXZParams p) g gf (swapXZG gf) (fun i j k => (k, j, i)) HS.swapUW where
  tEnd := rfl
  nOutput := rfl
  nStepmax := rfl
  cfl := rfl
  int i j k h := ⟨h.2.2, h.2.1, h.1⟩
  onto i j k h := ⟨k, j, i, ⟨h.2.2, h.2.1, h.1⟩, rfl⟩
  rate u i j k _ := rate3_XZ p g gf u i j k
  step dt u i j k _ := congrFun (congrFun (congrFun (fullStep3_XZ hr zk g hz dt gf u) i) j) k

/-! ## The property -/

/-- **C70 (2D).** Exchange x and y in a 2D run: sizes, spacings, boundary conditions, initial contents
and gravity field.  The two complete runs make the same number of iterations, end at the same time and
write files with the same numbers and times, whose contents are the same up to the exchange: time
steps and all.  Different implementation versions, schedules, and contents of uninitialised memory do
not matter. -/
theorem C70_axes_2d {p : Params ℝ} (hp : Hydro2 p)
    (hi : p.implementationVersion = 0 ∨ p.implementationVersion = 1 ∨ p.implementationVersion = 2)
    (hg : GoodGrid p) (he : p.enableOutput = decide (p.nOutput ≠ 0)) (g : GravityParams)
    {ident ident' : ℝ} (hid : ident ≤ 0) (hid' : ident' ≤ 0) (jk jk' : Junk ℝ) {m m' : Mem Arr ℝ}
    (h0 : ∀ i j, interior2 p i j → hs2 m' .U j i = (hs2 m .U i j).swapUV)
    (hG : g.enabled = true → ∀ i j, inGrid2 p i j →
      m' ⟨.grav, j, i, 0, IX⟩ = m ⟨.grav, i, j, 0, IY⟩ ∧
      m' ⟨.grav, j, i, 0, IY⟩ = m ⟨.grav, i, j, 0, IX⟩)
    {t : ℝ} {sv : Int} {a b : RunState ℝ} (ha : runMain p (hydroOps2 p g ident jk) m t sv a)
    (hb : runMain (transposeParams p) (hydroOps2 (transposeParams p) g ident' jk') m' t sv b) :
    a.iteration = b.iteration ∧ a.t = b.t ∧
    List.Forall₂ (fun o o' : Output ℝ => o.number = o'.number ∧ o.time = o'.time ∧
      ∀ i j, interior2 p i j → shown2 o'.data j i = (shown2 o.data i j).swapUV)
      a.outputs b.outputs := by
  have hsw : ∀ i j, interior2 (transposeParams p) i j ↔ interior2 p j i := by
    intro i j; unfold interior2 transposeParams; simp only; tauto
  have hsg : ∀ i j, inGrid2 (transposeParams p) i j ↔ inGrid2 p j i := by
    intro i j; unfold inGrid2 transposeParams; simp only; tauto
  obtain ⟨r1, r2, r3⟩ := runSym2 hp (transpose_hydro2 hp) hi hi hg (goodGrid_tr hg) he he g hid hid'
    jk jk' (runSym_tr p g (gravOf m .grav))
    (fun hen i j hij => by
      obtain ⟨x, y⟩ := hG hen j i ((hsg i j).1 hij)
      show (_, _) = (_, _)
      rw [x, y]; rfl)
    (fun i j hij => h0 j i ((hsw i j).1 hij)) ha hb
  refine ⟨r1, r2, r3.imp ?_⟩
  rintro o o' ⟨x, y, z⟩
  exact ⟨x, y, fun i j hij => z j i ((hsw j i).2 hij)⟩

/-- **C70 (3D, x ↔ y).** -/
theorem C70_axes_xy_3d {p : Params ℝ} (hp : Hydro3 p)
    (hi : p.implementationVersion = 0 ∨ p.implementationVersion = 1 ∨ p.implementationVersion = 2)
    (hg : GoodGrid p) (he : p.enableOutput = decide (p.nOutput ≠ 0)) (g : GravityParams)
    {ident ident' : ℝ} (hid : ident ≤ 0) (hid' : ident' ≤ 0) (jk jk' : Junk ℝ) {m m' : Mem Arr ℝ}
    (h0 : ∀ i j k, interior3 p i j k → hs3 m' .U j i k = (hs3 m .U i j k).swapUV)
    (hG : g.enabled = true → ∀ i j k, inGrid3 p i j k →
      m' ⟨.grav, j, i, k, IX⟩ = m ⟨.grav, i, j, k, IY⟩ ∧
      m' ⟨.grav, j, i, k, IY⟩ = m ⟨.grav, i, j, k, IX⟩ ∧
      m' ⟨.grav, j, i, k, IZ⟩ = m ⟨.grav, i, j, k, IZ⟩)
    {t : ℝ} {sv : Int} {a b : RunState ℝ} (ha : runMain p (hydroOps3 p g ident jk) m t sv a)
    (hb : runMain (swapXYParams p) (hydroOps3 (swapXYParams p) g ident' jk') m' t sv b) :
    a.iteration = b.iteration ∧ a.t = b.t ∧
    List.Forall₂ (fun o o' : Output ℝ => o.number = o'.number ∧ o.time = o'.time ∧
      ∀ i j k, interior3 p i j k → shown3 o'.data j i k = (shown3 o.data i j k).swapUV)
      a.outputs b.outputs := by
  obtain ⟨r1, r2, r3⟩ := runSym3 hp (hydro3_XY hp) hi hi hg (goodGrid_XY hg) he he g hid hid'
    jk jk' (runSym_XY hp.valid.riemann (zKick p.implementationVersion) g (gravOf3 m .grav))
    (fun hen i j k hij => by
      obtain ⟨x, y, z⟩ := hG hen j i k ⟨hij.2.1, hij.1, hij.2.2⟩
      show (_, _, _) = (_, _, _)
      rw [x, y, z]; rfl)
    (fun i j k hij => h0 j i k ⟨hij.2.1, hij.1, hij.2.2⟩) ha hb
  refine ⟨r1, r2, r3.imp ?_⟩
  rintro o o' ⟨x, y, z⟩
  exact ⟨x, y, fun i j k hij => z j i k ⟨hij.2.1, hij.1, hij.2.2⟩⟩

/-- **C70 (3D, x ↔ z).** Together with x ↔ y this gives every exchange of axes.  Implementation
version 1 with gravity is excluded: it treats the z faces differently (C29). -/
theorem C70_axes_xz_3d {p : Params ℝ} (hp : Hydro3 p)
    (hi : p.implementationVersion = 0 ∨ p.implementationVersion = 1 ∨ p.implementationVersion = 2)
    (hg : GoodGrid p) (he : p.enableOutput = decide (p.nOutput ≠ 0)) (g : GravityParams)
    (hz : p.implementationVersion ≠ 1 ∨ g.enabled = false)
    {ident ident' : ℝ} (hid : ident ≤ 0) (hid' : ident' ≤ 0) (jk jk' : Junk ℝ) {m m' : Mem Arr ℝ}
    (h0 : ∀ i j k, interior3 p i j k → hs3 m' .U k j i = (hs3 m .U i j k).swapUW)
    (hG : g.enabled = true → ∀ i j k, inGrid3 p i j k →
      m' ⟨.grav, k, j, i, IX⟩ = m ⟨.grav, i, j, k, IZ⟩ ∧
      m' ⟨.grav, k, j, i, IY⟩ = m ⟨.grav, i, j, k, IY⟩ ∧
      m' ⟨.grav, k, j, i, IZ⟩ = m ⟨.grav, i, j, k, IX⟩)
    {t : ℝ} {sv : Int} {a b : RunState ℝ} (ha : runMain p (hydroOps3 p g ident jk) m t sv a)
    (hb : runMain (swapXZParams p) (hydroOps3 (swapXZParams p) g ident' jk') m' t sv b) :
    a.iteration = b.iteration ∧ a.t = b.t ∧
    List.Forall₂ (fun o o' : Output ℝ => o.number = o'.number ∧ o.time = o'.time ∧
      ∀ i j k, interior3 p i j k → shown3 o'.data k j i = (shown3 o.data i j k).swapUW)
      a.outputs b.outputs := by
  have hz' : zKick p.implementationVersion = true ∨ g.enabled = false := by
    rcases hz with h | h
    · left
      rcases hi with h' | h' | h'
      · rw [h']; rfl
      · exact absurd h' h
      · rw [h']; rfl
    · exact .inr h
  obtain ⟨r1, r2, r3⟩ := runSym3 hp (hydro3_XZ hp) hi hi hg (goodGrid_XZ hg) he he g hid hid'
    jk jk' (runSym_XZ hp.valid.riemann (zKick p.implementationVersion) g hz' (gravOf3 m .grav))
    (fun hen i j k hij => by
      obtain ⟨x, y, z⟩ := hG hen k j i ⟨hij.2.2, hij.2.1, hij.1⟩
      show (_, _, _) = (_, _, _)
      rw [x, y, z]; rfl)
    (fun i j k hij => h0 k j i ⟨hij.2.2, hij.2.1, hij.1⟩) ha hb
  refine ⟨r1, r2, r3.imp ?_⟩
  rintro o o' ⟨x, y, z⟩
  exact ⟨x, y, fun i j k hij => z k j i ⟨hij.2.2, hij.2.1, hij.1⟩⟩

/-- **C70 (symmetric problems stay symmetric, 2D).** A square grid with the same boundary conditions in
x and y and an initial state symmetric about the diagonal (such as the implosion problem): every file
of the run is symmetric about the diagonal. -/
theorem C70_diagonal_2d {p : Params ℝ} (hp : Hydro2 p)
    (hi : p.implementationVersion = 0 ∨ p.implementationVersion = 1 ∨ p.implementationVersion = 2)
    (hg : GoodGrid p) (he : p.enableOutput = decide (p.nOutput ≠ 0)) {g : GravityParams}
    (hn : p.nx = p.ny) (hd : p.dx = p.dy) (hbc : p.boundary_type_xmin = p.boundary_type_ymin ∧
      p.boundary_type_xmax = p.boundary_type_ymax)
    {ident : ℝ} (hid : ident ≤ 0) (jk : Junk ℝ) {m : Mem Arr ℝ}
    (h0 : ∀ i j, interior2 p i j → hs2 m .U j i = (hs2 m .U i j).swapUV)
    (hG : g.enabled = true → ∀ i j, inGrid2 p i j →
      m ⟨.grav, j, i, 0, IX⟩ = m ⟨.grav, i, j, 0, IY⟩)
    {t : ℝ} {sv : Int} {a : RunState ℝ} (ha : runMain p (hydroOps2 p g ident jk) m t sv a) :
    ∀ o ∈ a.outputs, ∀ i j, interior2 p i j → shown2 o.data j i = (shown2 o.data i j).swapUV := by
  have e : ∀ u dt gf, fullStep2 (transposeParams p) g dt gf u = fullStep2 p g dt gf u := by
    intro u dt gf
    have hI : ∀ i j, interior2 (transposeParams p) i j ↔ interior2 p i j := by
      intro i j; unfold interior2 transposeParams; simp only; rw [hn]
    have hF : fill2 (transposeParams p) u = fill2 p u := by
      unfold fill2 transposeParams; simp only; rw [hn, hbc.1, hbc.2]
    have hfx : ∀ q, fluxX2 (transposeParams p) g dt gf q = fluxX2 p g dt gf q := by
      intro q
      unfold fluxX2 face2 slopes2 transposeParams; simp only; rw [hd]
    have hfy : ∀ q, fluxY2 (transposeParams p) g dt gf q = fluxY2 p g dt gf q := by
      intro q
      unfold fluxY2 face2 slopes2 transposeParams; simp only; rw [hd]
    unfold fullStep2 step2
    rw [hF]
    funext i j
    have hP : prim2 (transposeParams p) (fill2 p u) = prim2 p (fill2 p u) := rfl
    have hgr : ∀ a b c, gravity2 (transposeParams p) dt a b c = gravity2 p dt a b c := fun _ _ _ => rfl
    simp only [hP, hfx, hfy, hgr, hI]
  have hS : RunSym2 p p g (gravOf m .grav) (trG (gravOf m .grav)) (fun i j => (j, i)) HS.swapUV := by
    have h := runSym_tr p g (gravOf m .grav)
    have hr : ∀ u i j gf, rate2 (transposeParams p) g gf u i j = rate2 p g gf u i j := by
      intro u i j gf
      unfold rate2 cflRate2 transposeParams
      simp only
      rw [hd]
    refine ⟨rfl, rfl, rfl, rfl, ?_, ?_, ?_, ?_⟩
    · rintro i j ⟨x, y, z, w⟩; exact ⟨by omega, by omega, by omega, by omega⟩
    · rintro i j ⟨x, y, z, w⟩; exact ⟨j, i, ⟨by omega, by omega, by omega, by omega⟩, rfl⟩
    · intro u i j hij
      rw [← hr]
      exact rate2_tr p g (gravOf m .grav) u i j
    · intro dt u i j hij
      rw [← e]
      exact congrFun (congrFun (trF_fullStep p g dt (gravOf m .grav) u) i) j
  have hsq : ∀ i j, interior2 p i j → interior2 p j i := by
    rintro i j ⟨x, y, z, w⟩; exact ⟨by omega, by omega, by omega, by omega⟩
  have hsg : ∀ i j, inGrid2 p i j → inGrid2 p j i := by
    rintro i j ⟨x, y, z, w⟩; exact ⟨by omega, by omega, by omega, by omega⟩
  obtain ⟨_, _, r3⟩ := runSym2 hp hp hi hi hg hg he he g hid hid jk jk hS
    (fun hen i j hij => by
      have x := hG hen j i (hsg i j hij)
      have y := hG hen i j hij
      show (_, _) = (_, _)
      simp only [gravOf]
      rw [x, ← y])
    (fun i j hij => h0 j i (hsq i j hij)) ha ha
  intro o ho i j hij
  have : ∀ l : List (Output ℝ), List.Forall₂ (fun o o' : Output ℝ => o.number = o'.number ∧
      o.time = o'.time ∧ ∀ i j, interior2 p i j → shown2 o'.data i j = (shown2 o.data j i).swapUV) l l →
      ∀ o ∈ l, ∀ i j, interior2 p i j → shown2 o.data i j = (shown2 o.data j i).swapUV := by
    intro l hl
    induction l with
    | nil => intro o ho; cases ho
    | cons x l ih =>
      cases hl with
      | cons h1 h2 =>
        intro o ho
        rcases List.mem_cons.1 ho with rfl | ho
        · exact h1.2.2
        · exact ih h2 o ho
  exact this _ r3 o ho j i (hsq i j hij)

/-- Non-vacuity: the sample 4 × 3 grid and its transpose satisfy the hypotheses and the runs exist. -/
example (m : Mem Arr ℝ) (jk : Junk ℝ) : ∃ m' s s',
    (∀ i j, interior2 (sample .periodic .dirichlet) i j → hs2 m' .U j i = (hs2 m .U i j).swapUV) ∧
    runMain (sample .periodic .dirichlet) (hydroOps2 (sample .periodic .dirichlet) ⟨false, false⟩ (-1) jk)
      m 0 0 s ∧
    runMain (transposeParams (sample .periodic .dirichlet)) (hydroOps2 (transposeParams
      (sample .periodic .dirichlet)) ⟨false, false⟩ (-1) jk) m' 0 0 s' := by
  let m' : Mem Arr ℝ := fun l => m ⟨l.arr, l.j, l.i, l.k, if l.v = 2 then 3 else if l.v = 3 then 2 else l.v⟩
  obtain ⟨s, hs⟩ := (C14_hydro_completes (sample_wf .periodic .dirichlet) (sample_faces3 _ _) ⟨false, false⟩
    (-1) jk (by simp [sample, rawSample, Params.init]) m 0 0).1
  have hp := transpose_hydro2 (sample_hydro2 .periodic .dirichlet)
  obtain ⟨s', hs'⟩ := (C14_hydro_completes hp.wf
    (show Faces3Ok (transposeParams (sample .periodic .dirichlet)) from
      ⟨hp.faces, (sample_faces3 .periodic .dirichlet).2⟩) ⟨false, false⟩
    (-1) jk (by simp [transposeParams, sample, rawSample, Params.init]) m' 0 0).1
  refine ⟨m', s, s', ?_, hs, hs'⟩
  intro i j _
  simp [m', hs2, HS.swapUV, ID, IP, IU, IV]

end EulerKokkos
