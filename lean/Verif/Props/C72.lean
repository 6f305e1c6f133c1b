import Verif.Lemmas.RunSymmetry
import Verif.Lemmas.Mirror3
import Verif.Props.C70

/-!
# C72 — complete runs do not depend on the direction of an axis
-/

set_option linter.constructorNameAsVariable false
set_option linter.unusedSectionVars false
set_option linter.unusedSimpArgs false

namespace EulerKokkos
open Spec

/-! ## Time step and parameters under reversal -/

theorem rate2_revX (p : Params ℝ) (g : GravityParams) (gf : Grav2 ℝ) (u : Fld2 ℝ) (i j : Int) :
    rate2 (reverseXParams p) g (reverseX2G p gf) (reverseX2 p u) i j =
      rate2 p g gf u (revIdx p.nx p.ghostWidth i) j := by
  have e : ∀ w : HS ℝ, (computePrimitives2 (reverseXParams p).settings (mirror w)).1 =
      mirror (computePrimitives2 p.settings w).1 := fun w => computePrimitives2_mirror _ _
  have e1 : ∀ w : HS ℝ, sound p.settings (mirror w) = sound p.settings w := fun _ => rfl
  unfold rate2 reverseX2 reverseX2G
  simp only [e]
  show (if _ then gravVel p.settings.cfl (min p.dx p.dy) _ _ / min p.dx p.dy else cflRate2 p _) = _
  show (if g.enabled = true then gravVel p.settings.cfl (min p.dx p.dy)
    ((|(mirror _).u| + sound p.settings (mirror _)) + (|(mirror _).v| + sound p.settings (mirror _)))
      (|-_| + |_|) / min p.dx p.dy else cflRate2 p (mirror _)) = _
  unfold cflRate2
  simp only [e1]
  simp only [mirror, abs_neg]

theorem rate3_revX (p : Params ℝ) (g : GravityParams) (gf : Grav3 ℝ) (u : Fld3 ℝ) (i j k : Int) :
    rate3 (reverseXParams p) g (reverseX3G p gf) (reverseX3 p u) i j k =
      rate3 p g gf u (revIdx p.nx p.ghostWidth i) j k := by
  have e : ∀ w : HS ℝ, (computePrimitives3 (reverseXParams p).settings (mirror w)).1 =
      mirror (computePrimitives3 p.settings w).1 := fun w => computePrimitives3_mirror _ _
  have e1 : ∀ w : HS ℝ, sound p.settings (mirror w) = sound p.settings w := fun _ => rfl
  have e2 : (reverseXParams p).dx = p.dx ∧ (reverseXParams p).dy = p.dy ∧ (reverseXParams p).dz = p.dz ∧
    (reverseXParams p).settings = p.settings := ⟨rfl, rfl, rfl, rfl⟩
  unfold rate3 reverseX3 reverseX3G
  simp only [e]
  unfold cflRate3
  simp only [e1, e2]
  simp only [mirror, abs_neg]

theorem rate3_revY (p : Params ℝ) (g : GravityParams) (gf : Grav3 ℝ) (u : Fld3 ℝ) (i j k : Int) :
    rate3 (reverseYParams p) g (reverseY3G p gf) (reverseY3 p u) i j k =
      rate3 p g gf u i (revIdx p.ny p.ghostWidth j) k := by
  have h1 := rate3_XY (reverseXParams (swapXYParams p)) g (reverseX3G (swapXYParams p) (swapXYG gf))
    (reverseX3 (swapXYParams p) (swapXY u)) i j k
  have h2 := rate3_revX (swapXYParams p) g (swapXYG gf) (swapXY u) j i k
  have h3 := rate3_XY p g gf u (revIdx p.ny p.ghostWidth j) i k
  exact h1.trans (h2.trans h3)

theorem rate3_revZ (p : Params ℝ) (g : GravityParams) (gf : Grav3 ℝ) (u : Fld3 ℝ) (i j k : Int) :
    rate3 (reverseZParams p) g (reverseZ3G p gf) (reverseZ3 p u) i j k =
      rate3 p g gf u i j (revIdx p.nz p.ghostWidth k) := by
  have h1 := rate3_XZ (reverseXParams (swapXZParams p)) g (reverseX3G (swapXZParams p) (swapXZG gf))
    (reverseX3 (swapXZParams p) (swapXZ u)) i j k
  have h2 := rate3_revX (swapXZParams p) g (swapXZG gf) (swapXZ u) k j i
  have h3 := rate3_XZ p g gf u (revIdx p.nz p.ghostWidth k) j i
  exact h1.trans (h2.trans h3)

theorem rate2_revY (p : Params ℝ) (g : GravityParams) (gf : Grav2 ℝ) (u : Fld2 ℝ) (i j : Int) :
    rate2 (reverseYParams p) g (reverseY2G p gf) (reverseY2 p u) i j =
      rate2 p g gf u i (revIdx p.ny p.ghostWidth j) := by
  have h1 := rate2_tr (reverseXParams (transposeParams p)) g (reverseX2G (transposeParams p) (trG gf))
    (reverseX2 (transposeParams p) (trF u)) i j
  have h2 := rate2_revX (transposeParams p) g (trG gf) (trF u) j i
  have h3 := rate2_tr p g gf u (revIdx p.ny p.ghostWidth j) i
  exact h1.trans (h2.trans h3)

theorem fullStep2_revY {p : Params ℝ} (hp : Hydro2 p) (hs : GoodSettings p.settings)
    (hr : p.riemannSolverType = .llf ∨ p.riemannSolverType = .hll ∨ p.riemannSolverType = .hllc)
    (g : GravityParams) (dt : ℝ) (gf : Grav2 ℝ) (u : Fld2 ℝ) :
    fullStep2 (reverseYParams p) g dt (reverseY2G p gf) (reverseY2 p u) =
      reverseY2 p (fullStep2 p g dt gf u) := by
  have e1 : ∀ v, reverseY2 p v = trF (reverseX2 (transposeParams p) (trF v)) := fun _ => rfl
  have e2 : reverseY2G p gf = trG (reverseX2G (transposeParams p) (trG gf)) := rfl
  have e3 : reverseYParams p = transposeParams (reverseXParams (transposeParams p)) := rfl
  rw [e1, e1, e2, e3, trF_fullStep (reverseXParams (transposeParams p)),
    fullStep2_revX (transpose_hydro2 hp).wf hs hr, trF_fullStep]

theorem hydro2_revX {p : Params ℝ} (hp : Hydro2 p) : Hydro2 (reverseXParams p) := by
  obtain ⟨⟨w1, w2, w3, w4, w5, w6, w7, w8, w9, w10, w11, w12, w13⟩, nb, ⟨v1, v2⟩, ⟨f1, f2, f3, f4⟩⟩ := hp
  exact ⟨⟨w1, w2, w3, w4, w5, w6, w7, w8, w9, w10, w11, w12, w13⟩, nb, ⟨v1, v2⟩, ⟨f2, f1, f3, f4⟩⟩
theorem hydro2_revY {p : Params ℝ} (hp : Hydro2 p) : Hydro2 (reverseYParams p) := by
  obtain ⟨⟨w1, w2, w3, w4, w5, w6, w7, w8, w9, w10, w11, w12, w13⟩, nb, ⟨v1, v2⟩, ⟨f1, f2, f3, f4⟩⟩ := hp
  exact ⟨⟨w1, w2, w3, w4, w5, w6, w7, w8, w9, w10, w11, w12, w13⟩, nb, ⟨v1, v2⟩, ⟨f1, f2, f4, f3⟩⟩
theorem hydro3_revX {p : Params ℝ} (hp : Hydro3 p) : Hydro3 (reverseXParams p) := by
  obtain ⟨⟨w1, w2, w3, w4, w5, w6, w7, w8, w9, w10, w11, w12, w13⟩, nb, ⟨v1, v2⟩,
    ⟨⟨f1, f2, f3, f4⟩, f5, f6⟩⟩ := hp
  exact ⟨⟨w1, w2, w3, w4, w5, w6, w7, w8, w9, w10, w11, w12, w13⟩, nb, ⟨v1, v2⟩,
    ⟨⟨f2, f1, f3, f4⟩, f5, f6⟩⟩
theorem hydro3_revY {p : Params ℝ} (hp : Hydro3 p) : Hydro3 (reverseYParams p) := by
  obtain ⟨⟨w1, w2, w3, w4, w5, w6, w7, w8, w9, w10, w11, w12, w13⟩, nb, ⟨v1, v2⟩,
    ⟨⟨f1, f2, f3, f4⟩, f5, f6⟩⟩ := hp
  exact ⟨⟨w1, w2, w3, w4, w5, w6, w7, w8, w9, w10, w11, w12, w13⟩, nb, ⟨v1, v2⟩,
    ⟨⟨f1, f2, f4, f3⟩, f5, f6⟩⟩
theorem hydro3_revZ {p : Params ℝ} (hp : Hydro3 p) : Hydro3 (reverseZParams p) := by
  obtain ⟨⟨w1, w2, w3, w4, w5, w6, w7, w8, w9, w10, w11, w12, w13⟩, nb, ⟨v1, v2⟩,
    ⟨⟨f1, f2, f3, f4⟩, f5, f6⟩⟩ := hp
  exact ⟨⟨w1, w2, w3, w4, w5, w6, w7, w8, w9, w10, w11, w12, w13⟩, nb, ⟨v1, v2⟩,
    ⟨⟨f1, f2, f3, f4⟩, f6, f5⟩⟩

theorem runSym_revX2 {p : Params ℝ} (hp : Hydro2 p) (hs : GoodSettings p.settings)
    (hr : p.riemannSolverType = .llf ∨ p.riemannSolverType = .hll ∨ p.riemannSolverType = .hllc)
    (g : GravityParams) (gf : Grav2 ℝ) :
    RunSym2 p (reverseXParams p) g gf (reverseX2G p gf)
      (fun i j => (revIdx p.nx p.ghostWidth i, j)) mirror where
  tEnd := rfl
  nOutput := rfl
  nStepmax := rfl
  cfl := rfl
  int i j h := by
    obtain ⟨a, b, c, d⟩ := h
    change p.ghostWidth ≤ i at a; change i < p.ghostWidth + p.nx at b
    exact ⟨by unfold revIdx; omega, by unfold revIdx; omega, c, d⟩
  onto i j h := by
    obtain ⟨a, b, c, d⟩ := h
    refine ⟨revIdx p.nx p.ghostWidth i, j, ⟨?_, ?_, c, d⟩, by rw [revIdx_revIdx]⟩
    · show p.ghostWidth ≤ _; unfold revIdx; omega
    · show _ < p.ghostWidth + p.nx; unfold revIdx; omega
  rate u i j _ := rate2_revX p g gf u i j
  step dt u i j _ := congrFun (congrFun (fullStep2_revX hp.wf hs hr g dt gf u) i) j

theorem runSym_revY2 {p : Params ℝ} (hp : Hydro2 p) (hs : GoodSettings p.settings)
    (hr : p.riemannSolverType = .llf ∨ p.riemannSolverType = .hll ∨ p.riemannSolverType = .hllc)
    (g : GravityParams) (gf : Grav2 ℝ) :
    RunSym2 p (reverseYParams p) g gf (reverseY2G p gf)
      (fun i j => (i, revIdx p.ny p.ghostWidth j)) flipV where
  tEnd := rfl
  nOutput := rfl
  nStepmax := rfl
  cfl := rfl
  int i j h := by
    obtain ⟨a, b, c, d⟩ := h
    change p.ghostWidth ≤ j at c; change j < p.ghostWidth + p.ny at d
    exact ⟨a, b, by unfold revIdx; omega, by unfold revIdx; omega⟩
  onto i j h := by
    obtain ⟨a, b, c, d⟩ := h
    refine ⟨i, revIdx p.ny p.ghostWidth j, ⟨a, b, ?_, ?_⟩, by rw [revIdx_revIdx]⟩
    · show p.ghostWidth ≤ _; unfold revIdx; omega
    · show _ < p.ghostWidth + p.ny; unfold revIdx; omega
  rate u i j _ := rate2_revY p g gf u i j
  step dt u i j _ := congrFun (congrFun (fullStep2_revY hp hs hr g dt gf u) i) j

section
variable {p : Params ℝ} (hp : Hydro3 p) (hs : GoodSettings p.settings)
  (hr : p.riemannSolverType = .llf ∨ p.riemannSolverType = .hllc) (zk : Bool)
  (g : GravityParams) (gf : Grav3 ℝ)
include hp hs hr

theorem runSym_revX3 : RunSym3 zk zk p (reverseXParams p) g gf (reverseX3G p gf)
      (fun i j k => (revIdx p.nx p.ghostWidth i, j, k)) mirror where
  tEnd := rfl
  nOutput := rfl
  nStepmax := rfl
  cfl := rfl
  int i j k h := by
    obtain ⟨⟨a, b⟩, c⟩ := h
    change p.ghostWidth ≤ i at a; change i < p.ghostWidth + p.nx at b
    exact ⟨⟨by unfold revIdx; omega, by unfold revIdx; omega⟩, c⟩
  onto i j k h := by
    obtain ⟨⟨a, b⟩, c⟩ := h
    refine ⟨revIdx p.nx p.ghostWidth i, j, k, ⟨⟨?_, ?_⟩, c⟩, by rw [revIdx_revIdx]⟩
    · show p.ghostWidth ≤ _; unfold revIdx; omega
    · show _ < p.ghostWidth + p.nx; unfold revIdx; omega
  rate u i j k _ := rate3_revX p g gf u i j k
  step dt u i j k _ := congrFun (congrFun (congrFun (fullStep3_revX hp.wf hs hr zk g dt gf u) i) j) k

theorem runSym_revY3 : RunSym3 zk zk p (reverseYParams p) g gf (reverseY3G p gf)
      (fun i j k => (i, revIdx p.ny p.ghostWidth j, k)) flipV where
  tEnd := rfl
  nOutput := rfl
  nStepmax := rfl
  cfl := rfl
  int i j k h := by
    obtain ⟨x, ⟨a, b⟩, c⟩ := h
    change p.ghostWidth ≤ j at a; change j < p.ghostWidth + p.ny at b
    exact ⟨x, ⟨by dsimp only; unfold revIdx; omega, by dsimp only; unfold revIdx; omega⟩, c⟩
  onto i j k h := by
    obtain ⟨x, ⟨a, b⟩, c⟩ := h
    refine ⟨i, revIdx p.ny p.ghostWidth j, k, ⟨x, ⟨?_, ?_⟩, c⟩, by rw [revIdx_revIdx]⟩
    · show p.ghostWidth ≤ _; unfold revIdx; omega
    · show _ < p.ghostWidth + p.ny; unfold revIdx; omega
  rate u i j k _ := rate3_revY p g gf u i j k
  step dt u i j k _ := congrFun (congrFun (congrFun (fullStep3_revY hp.wf hs hr zk g dt gf u) i) j) k

theorem runSym_revZ3 (hz : zk = true ∨ g.enabled = false) :
    RunSym3 zk zk p (reverseZParams p) g gf (reverseZ3G p gf)
      (fun i j k => (i, j, revIdx p.nz p.ghostWidth k)) flipW where
  tEnd := rfl
  nOutput := rfl
  nStepmax := rfl
  cfl := rfl
  int i j k h := by
    obtain ⟨x, y, a, b⟩ := h
    change p.ghostWidth ≤ k at a; change k < p.ghostWidth + p.nz at b
    exact ⟨x, y, by dsimp only; unfold revIdx; omega, by dsimp only; unfold revIdx; omega⟩
  onto i j k h := by
    obtain ⟨x, y, a, b⟩ := h
    refine ⟨i, j, revIdx p.nz p.ghostWidth k, ⟨x, y, ?_, ?_⟩, by rw [revIdx_revIdx]⟩
    · show p.ghostWidth ≤ _; unfold revIdx; omega
    · show _ < p.ghostWidth + p.nz; unfold revIdx; omega
  rate u i j k _ := rate3_revZ p g gf u i j k
  step dt u i j k _ := congrFun (congrFun (congrFun (fullStep3_revZ hp.wf hs hr zk g hz dt gf u) i) j) k

end

/-! ## The property

The cell opposite to `i` on an axis of `n` cells is `revIdx n gw i = 2 gw + n - 1 - i`. -/

/-- **C72 (2D, x reversed: boundary conditions exchanged, initial state and gravity mirrored).** -/
theorem C72_reverse_x_2d {p : Params ℝ} (hp : Hydro2 p)
    (hi : p.implementationVersion = 0 ∨ p.implementationVersion = 1 ∨ p.implementationVersion = 2)
    (hg : GoodGrid p) (he : p.enableOutput = decide (p.nOutput ≠ 0))
    (hr : p.riemannSolverType = .llf ∨ p.riemannSolverType = .hll ∨ p.riemannSolverType = .hllc)
    (g : GravityParams) {ident ident' : ℝ} (hid : ident ≤ 0) (hid' : ident' ≤ 0) (jk jk' : Junk ℝ)
    {m m' : Mem Arr ℝ}
    (h0 : ∀ i j, interior2 p i j → hs2 m' .U (revIdx p.nx p.ghostWidth i) (j) = mirror (hs2 m .U i j))
    (hG : g.enabled = true → ∀ i j, inGrid2 p i j →
      m' ⟨.grav, revIdx p.nx p.ghostWidth i, j, 0, IX⟩ = -m ⟨.grav, i, j, 0, IX⟩ ∧
      m' ⟨.grav, revIdx p.nx p.ghostWidth i, j, 0, IY⟩ = m ⟨.grav, i, j, 0, IY⟩)
    {t : ℝ} {sv : Int} {a b : RunState ℝ} (ha : runMain p (hydroOps2 p g ident jk) m t sv a)
    (hb : runMain (reverseXParams p) (hydroOps2 (reverseXParams p) g ident' jk') m' t sv b) :
    a.iteration = b.iteration ∧ a.t = b.t ∧
    List.Forall₂ (fun o o' : Output ℝ => o.number = o'.number ∧ o.time = o'.time ∧
      ∀ i j, interior2 p i j → shown2 o'.data (revIdx p.nx p.ghostWidth i) (j) = mirror (shown2 o.data i j))
      a.outputs b.outputs := by
  have hI : ∀ i j, interior2 p i j → interior2 p (revIdx p.nx p.ghostWidth i) (j) := by
    rintro i j ⟨a, b, c, d⟩
    refine ⟨?_, ?_, ?_, ?_⟩ <;> (try unfold revIdx) <;> omega
  have hGr : ∀ i j, inGrid2 p i j → inGrid2 p (revIdx p.nx p.ghostWidth i) (j) := by
    rintro i j ⟨a, b, c, d⟩
    refine ⟨?_, ?_, ?_, ?_⟩ <;> (try unfold revIdx) <;> omega
  obtain ⟨r1, r2, r3⟩ := runSym2 hp (hydro2_revX hp) hi hi hg (⟨hg.1, hg.2, hg.3, hg.4, hg.5⟩) he he g
    hid hid' jk jk' (runSym_revX2 hp hg.settings hr g (gravOf m .grav))
    (fun hen i j hij => by
      obtain ⟨x, y⟩ := hG hen (revIdx p.nx p.ghostWidth i) (j) (hGr i j hij)
      rw [revIdx_revIdx] at x y
      show (_, _) = (_, _)
      rw [x, y]; rfl)
    (fun i j hij => by
      have := h0 (revIdx p.nx p.ghostWidth i) (j) (hI i j hij)
      rw [revIdx_revIdx] at this
      exact this) ha hb
  refine ⟨r1, r2, r3.imp ?_⟩
  rintro o o' ⟨x, y, z⟩
  refine ⟨x, y, fun i j hij => ?_⟩
  have := z (revIdx p.nx p.ghostWidth i) (j) (hI i j hij)
  dsimp only at this
  rw [revIdx_revIdx] at this
  exact this

/-- **C72 (2D, y reversed).** -/
theorem C72_reverse_y_2d {p : Params ℝ} (hp : Hydro2 p)
    (hi : p.implementationVersion = 0 ∨ p.implementationVersion = 1 ∨ p.implementationVersion = 2)
    (hg : GoodGrid p) (he : p.enableOutput = decide (p.nOutput ≠ 0))
    (hr : p.riemannSolverType = .llf ∨ p.riemannSolverType = .hll ∨ p.riemannSolverType = .hllc)
    (g : GravityParams) {ident ident' : ℝ} (hid : ident ≤ 0) (hid' : ident' ≤ 0) (jk jk' : Junk ℝ)
    {m m' : Mem Arr ℝ}
    (h0 : ∀ i j, interior2 p i j → hs2 m' .U (i) (revIdx p.ny p.ghostWidth j) = flipV (hs2 m .U i j))
    (hG : g.enabled = true → ∀ i j, inGrid2 p i j →
      m' ⟨.grav, i, revIdx p.ny p.ghostWidth j, 0, IX⟩ = m ⟨.grav, i, j, 0, IX⟩ ∧
      m' ⟨.grav, i, revIdx p.ny p.ghostWidth j, 0, IY⟩ = -m ⟨.grav, i, j, 0, IY⟩)
    {t : ℝ} {sv : Int} {a b : RunState ℝ} (ha : runMain p (hydroOps2 p g ident jk) m t sv a)
    (hb : runMain (reverseYParams p) (hydroOps2 (reverseYParams p) g ident' jk') m' t sv b) :
    a.iteration = b.iteration ∧ a.t = b.t ∧
    List.Forall₂ (fun o o' : Output ℝ => o.number = o'.number ∧ o.time = o'.time ∧
      ∀ i j, interior2 p i j → shown2 o'.data (i) (revIdx p.ny p.ghostWidth j) = flipV (shown2 o.data i j))
      a.outputs b.outputs := by
  have hI : ∀ i j, interior2 p i j → interior2 p (i) (revIdx p.ny p.ghostWidth j) := by
    rintro i j ⟨a, b, c, d⟩
    refine ⟨?_, ?_, ?_, ?_⟩ <;> (try unfold revIdx) <;> omega
  have hGr : ∀ i j, inGrid2 p i j → inGrid2 p (i) (revIdx p.ny p.ghostWidth j) := by
    rintro i j ⟨a, b, c, d⟩
    refine ⟨?_, ?_, ?_, ?_⟩ <;> (try unfold revIdx) <;> omega
  obtain ⟨r1, r2, r3⟩ := runSym2 hp (hydro2_revY hp) hi hi hg (⟨hg.1, hg.2, hg.3, hg.4, hg.5⟩) he he g
    hid hid' jk jk' (runSym_revY2 hp hg.settings hr g (gravOf m .grav))
    (fun hen i j hij => by
      obtain ⟨x, y⟩ := hG hen (i) (revIdx p.ny p.ghostWidth j) (hGr i j hij)
      rw [revIdx_revIdx] at x y
      show (_, _) = (_, _)
      rw [x, y]; rfl)
    (fun i j hij => by
      have := h0 (i) (revIdx p.ny p.ghostWidth j) (hI i j hij)
      rw [revIdx_revIdx] at this
      exact this) ha hb
  refine ⟨r1, r2, r3.imp ?_⟩
  rintro o o' ⟨x, y, z⟩
  refine ⟨x, y, fun i j hij => ?_⟩
  have := z (i) (revIdx p.ny p.ghostWidth j) (hI i j hij)
  dsimp only at this
  rw [revIdx_revIdx] at this
  exact this

/-- **C72 (3D, x reversed).** -/
theorem C72_reverse_x_3d {p : Params ℝ} (hp : Hydro3 p)
    (hi : p.implementationVersion = 0 ∨ p.implementationVersion = 1 ∨ p.implementationVersion = 2)
    (hg : GoodGrid p) (he : p.enableOutput = decide (p.nOutput ≠ 0))
    (hr : p.riemannSolverType = .llf ∨ p.riemannSolverType = .hllc)
    (g : GravityParams)
    {ident ident' : ℝ} (hid : ident ≤ 0) (hid' : ident' ≤ 0) (jk jk' : Junk ℝ)
    {m m' : Mem Arr ℝ}
    (h0 : ∀ i j k, interior3 p i j k →
      hs3 m' .U (revIdx p.nx p.ghostWidth i) (j) (k) = mirror (hs3 m .U i j k))
    (hG : g.enabled = true → ∀ i j k, inGrid3 p i j k →
      m' ⟨.grav, revIdx p.nx p.ghostWidth i, j, k, IX⟩ = -m ⟨.grav, i, j, k, IX⟩ ∧
      m' ⟨.grav, revIdx p.nx p.ghostWidth i, j, k, IY⟩ = m ⟨.grav, i, j, k, IY⟩ ∧
      m' ⟨.grav, revIdx p.nx p.ghostWidth i, j, k, IZ⟩ = m ⟨.grav, i, j, k, IZ⟩)
    {t : ℝ} {sv : Int} {a b : RunState ℝ} (ha : runMain p (hydroOps3 p g ident jk) m t sv a)
    (hb : runMain (reverseXParams p) (hydroOps3 (reverseXParams p) g ident' jk') m' t sv b) :
    a.iteration = b.iteration ∧ a.t = b.t ∧
    List.Forall₂ (fun o o' : Output ℝ => o.number = o'.number ∧ o.time = o'.time ∧
      ∀ i j k, interior3 p i j k →
        shown3 o'.data (revIdx p.nx p.ghostWidth i) (j) (k) = mirror (shown3 o.data i j k))
      a.outputs b.outputs := by
  have hI : ∀ i j k, interior3 p i j k → interior3 p (revIdx p.nx p.ghostWidth i) (j) (k) := by
    rintro i j k ⟨⟨a, b⟩, ⟨c, d⟩, e, f⟩
    refine ⟨⟨?_, ?_⟩, ⟨?_, ?_⟩, ?_, ?_⟩ <;> (try unfold revIdx) <;> omega
  have hGr : ∀ i j k, inGrid3 p i j k → inGrid3 p (revIdx p.nx p.ghostWidth i) (j) (k) := by
    rintro i j k ⟨⟨a, b⟩, ⟨c, d⟩, e, f⟩
    refine ⟨⟨?_, ?_⟩, ⟨?_, ?_⟩, ?_, ?_⟩ <;> (try unfold revIdx) <;> omega
  obtain ⟨r1, r2, r3⟩ := runSym3 hp (hydro3_revX hp) hi hi hg (⟨hg.1, hg.2, hg.3, hg.4, hg.5⟩) he he g
    hid hid' jk jk' (runSym_revX3 hp hg.settings hr (zKick p.implementationVersion) g (gravOf3 m .grav))
    (fun hen i j k hij => by
      obtain ⟨x, y, z⟩ := hG hen (revIdx p.nx p.ghostWidth i) (j) (k) (hGr i j k hij)
      rw [revIdx_revIdx] at x y z
      show (_, _, _) = (_, _, _)
      rw [x, y, z]; rfl)
    (fun i j k hij => by
      have := h0 (revIdx p.nx p.ghostWidth i) (j) (k) (hI i j k hij)
      rw [revIdx_revIdx] at this
      exact this) ha hb
  refine ⟨r1, r2, r3.imp ?_⟩
  rintro o o' ⟨x, y, z⟩
  refine ⟨x, y, fun i j k hij => ?_⟩
  have := z (revIdx p.nx p.ghostWidth i) (j) (k) (hI i j k hij)
  dsimp only at this
  rw [revIdx_revIdx] at this
  exact this

/-- **C72 (3D, y reversed).** -/
theorem C72_reverse_y_3d {p : Params ℝ} (hp : Hydro3 p)
    (hi : p.implementationVersion = 0 ∨ p.implementationVersion = 1 ∨ p.implementationVersion = 2)
    (hg : GoodGrid p) (he : p.enableOutput = decide (p.nOutput ≠ 0))
    (hr : p.riemannSolverType = .llf ∨ p.riemannSolverType = .hllc)
    (g : GravityParams)
    {ident ident' : ℝ} (hid : ident ≤ 0) (hid' : ident' ≤ 0) (jk jk' : Junk ℝ)
    {m m' : Mem Arr ℝ}
    (h0 : ∀ i j k, interior3 p i j k →
      hs3 m' .U (i) (revIdx p.ny p.ghostWidth j) (k) = flipV (hs3 m .U i j k))
    (hG : g.enabled = true → ∀ i j k, inGrid3 p i j k →
      m' ⟨.grav, i, revIdx p.ny p.ghostWidth j, k, IX⟩ = m ⟨.grav, i, j, k, IX⟩ ∧
      m' ⟨.grav, i, revIdx p.ny p.ghostWidth j, k, IY⟩ = -m ⟨.grav, i, j, k, IY⟩ ∧
      m' ⟨.grav, i, revIdx p.ny p.ghostWidth j, k, IZ⟩ = m ⟨.grav, i, j, k, IZ⟩)
    {t : ℝ} {sv : Int} {a b : RunState ℝ} (ha : runMain p (hydroOps3 p g ident jk) m t sv a)
    (hb : runMain (reverseYParams p) (hydroOps3 (reverseYParams p) g ident' jk') m' t sv b) :
    a.iteration = b.iteration ∧ a.t = b.t ∧
    List.Forall₂ (fun o o' : Output ℝ => o.number = o'.number ∧ o.time = o'.time ∧
      ∀ i j k, interior3 p i j k →
        shown3 o'.data (i) (revIdx p.ny p.ghostWidth j) (k) = flipV (shown3 o.data i j k))
      a.outputs b.outputs := by
  have hI : ∀ i j k, interior3 p i j k → interior3 p (i) (revIdx p.ny p.ghostWidth j) (k) := by
    rintro i j k ⟨⟨a, b⟩, ⟨c, d⟩, e, f⟩
    refine ⟨⟨?_, ?_⟩, ⟨?_, ?_⟩, ?_, ?_⟩ <;> (try unfold revIdx) <;> omega
  have hGr : ∀ i j k, inGrid3 p i j k → inGrid3 p (i) (revIdx p.ny p.ghostWidth j) (k) := by
    rintro i j k ⟨⟨a, b⟩, ⟨c, d⟩, e, f⟩
    refine ⟨⟨?_, ?_⟩, ⟨?_, ?_⟩, ?_, ?_⟩ <;> (try unfold revIdx) <;> omega
  obtain ⟨r1, r2, r3⟩ := runSym3 hp (hydro3_revY hp) hi hi hg (⟨hg.1, hg.2, hg.3, hg.4, hg.5⟩) he he g
    hid hid' jk jk' (runSym_revY3 hp hg.settings hr (zKick p.implementationVersion) g (gravOf3 m .grav))
    (fun hen i j k hij => by
      obtain ⟨x, y, z⟩ := hG hen (i) (revIdx p.ny p.ghostWidth j) (k) (hGr i j k hij)
      rw [revIdx_revIdx] at x y z
      show (_, _, _) = (_, _, _)
      rw [x, y, z]; rfl)
    (fun i j k hij => by
      have := h0 (i) (revIdx p.ny p.ghostWidth j) (k) (hI i j k hij)
      rw [revIdx_revIdx] at this
      exact this) ha hb
  refine ⟨r1, r2, r3.imp ?_⟩
  rintro o o' ⟨x, y, z⟩
  refine ⟨x, y, fun i j k hij => ?_⟩
  have := z (i) (revIdx p.ny p.ghostWidth j) (k) (hI i j k hij)
  dsimp only at this
  rw [revIdx_revIdx] at this
  exact this

/-- **C72 (3D, z reversed; implementation version 1 treats z faces differently under gravity).** -/
theorem C72_reverse_z_3d {p : Params ℝ} (hp : Hydro3 p)
    (hi : p.implementationVersion = 0 ∨ p.implementationVersion = 1 ∨ p.implementationVersion = 2)
    (hg : GoodGrid p) (he : p.enableOutput = decide (p.nOutput ≠ 0))
    (hr : p.riemannSolverType = .llf ∨ p.riemannSolverType = .hllc)
    (g : GravityParams)
    (hz : p.implementationVersion ≠ 1 ∨ g.enabled = false)
    {ident ident' : ℝ} (hid : ident ≤ 0) (hid' : ident' ≤ 0) (jk jk' : Junk ℝ)
    {m m' : Mem Arr ℝ}
    (h0 : ∀ i j k, interior3 p i j k →
      hs3 m' .U (i) (j) (revIdx p.nz p.ghostWidth k) = flipW (hs3 m .U i j k))
    (hG : g.enabled = true → ∀ i j k, inGrid3 p i j k →
      m' ⟨.grav, i, j, revIdx p.nz p.ghostWidth k, IX⟩ = m ⟨.grav, i, j, k, IX⟩ ∧
      m' ⟨.grav, i, j, revIdx p.nz p.ghostWidth k, IY⟩ = m ⟨.grav, i, j, k, IY⟩ ∧
      m' ⟨.grav, i, j, revIdx p.nz p.ghostWidth k, IZ⟩ = -m ⟨.grav, i, j, k, IZ⟩)
    {t : ℝ} {sv : Int} {a b : RunState ℝ} (ha : runMain p (hydroOps3 p g ident jk) m t sv a)
    (hb : runMain (reverseZParams p) (hydroOps3 (reverseZParams p) g ident' jk') m' t sv b) :
    a.iteration = b.iteration ∧ a.t = b.t ∧
    List.Forall₂ (fun o o' : Output ℝ => o.number = o'.number ∧ o.time = o'.time ∧
      ∀ i j k, interior3 p i j k →
        shown3 o'.data (i) (j) (revIdx p.nz p.ghostWidth k) = flipW (shown3 o.data i j k))
      a.outputs b.outputs := by
  have hz' : zKick p.implementationVersion = true ∨ g.enabled = false := by
    rcases hz with h | h
    · left
      rcases hi with h' | h' | h'
      · rw [h']; rfl
      · exact absurd h' h
      · rw [h']; rfl
    · exact .inr h
  have hI : ∀ i j k, interior3 p i j k → interior3 p (i) (j) (revIdx p.nz p.ghostWidth k) := by
    rintro i j k ⟨⟨a, b⟩, ⟨c, d⟩, e, f⟩
    refine ⟨⟨?_, ?_⟩, ⟨?_, ?_⟩, ?_, ?_⟩ <;> (try unfold revIdx) <;> omega
  have hGr : ∀ i j k, inGrid3 p i j k → inGrid3 p (i) (j) (revIdx p.nz p.ghostWidth k) := by
    rintro i j k ⟨⟨a, b⟩, ⟨c, d⟩, e, f⟩
    refine ⟨⟨?_, ?_⟩, ⟨?_, ?_⟩, ?_, ?_⟩ <;> (try unfold revIdx) <;> omega
  obtain ⟨r1, r2, r3⟩ := runSym3 hp (hydro3_revZ hp) hi hi hg (⟨hg.1, hg.2, hg.3, hg.4, hg.5⟩) he he g
    hid hid' jk jk' (runSym_revZ3 hp hg.settings hr (zKick p.implementationVersion) g (gravOf3 m .grav) hz')
    (fun hen i j k hij => by
      obtain ⟨x, y, z⟩ := hG hen (i) (j) (revIdx p.nz p.ghostWidth k) (hGr i j k hij)
      rw [revIdx_revIdx] at x y z
      show (_, _, _) = (_, _, _)
      rw [x, y, z]; rfl)
    (fun i j k hij => by
      have := h0 (i) (j) (revIdx p.nz p.ghostWidth k) (hI i j k hij)
      rw [revIdx_revIdx] at this
      exact this) ha hb
  refine ⟨r1, r2, r3.imp ?_⟩
  rintro o o' ⟨x, y, z⟩
  refine ⟨x, y, fun i j k hij => ?_⟩
  have := z (i) (j) (revIdx p.nz p.ghostWidth k) (hI i j k hij)
  dsimp only at this
  rw [revIdx_revIdx] at this
  exact this

theorem forall₂_self {α : Type*} {P : α → α → Prop} : ∀ {l : List α}, List.Forall₂ P l l → ∀ o ∈ l, P o o
  | [], _, _, h => by cases h
  | _ :: _, .cons h1 h2, o, ho => by
    rcases List.mem_cons.1 ho with rfl | ho
    · exact h1
    · exact forall₂_self h2 o ho

/-- **C72 (symmetric problems stay symmetric, 2D).** Same boundary condition on both x sides and an
initial state that is its own mirror image: every file is its own mirror image. -/
theorem C72_symmetric_2d {p : Params ℝ} (hp : Hydro2 p)
    (hi : p.implementationVersion = 0 ∨ p.implementationVersion = 1 ∨ p.implementationVersion = 2)
    (hg : GoodGrid p) (he : p.enableOutput = decide (p.nOutput ≠ 0))
    (hr : p.riemannSolverType = .llf ∨ p.riemannSolverType = .hll ∨ p.riemannSolverType = .hllc)
    (hbc : p.boundary_type_xmin = p.boundary_type_xmax) {ident : ℝ} (hid : ident ≤ 0) (jk : Junk ℝ)
    {m : Mem Arr ℝ} {g : GravityParams}
    (h0 : ∀ i j, interior2 p i j → hs2 m .U (revIdx p.nx p.ghostWidth i) j = mirror (hs2 m .U i j))
    (hG : g.enabled = true → ∀ i j, inGrid2 p i j →
      m ⟨.grav, revIdx p.nx p.ghostWidth i, j, 0, IX⟩ = -m ⟨.grav, i, j, 0, IX⟩ ∧
      m ⟨.grav, revIdx p.nx p.ghostWidth i, j, 0, IY⟩ = m ⟨.grav, i, j, 0, IY⟩)
    {t : ℝ} {sv : Int} {a : RunState ℝ} (ha : runMain p (hydroOps2 p g ident jk) m t sv a) :
    ∀ o ∈ a.outputs, ∀ i j, interior2 p i j →
      shown2 o.data (revIdx p.nx p.ghostWidth i) j = mirror (shown2 o.data i j) := by
  have e : reverseXParams p = p := by
    unfold reverseXParams; cases p; simp only at hbc; simp only [hbc]
  obtain ⟨_, _, r⟩ := C72_reverse_x_2d hp hi hg he hr g hid hid jk jk h0 hG ha (by rw [e]; exact ha)
  exact fun o ho => (forall₂_self r o ho).2.2

/-- **C72 (symmetric problems stay symmetric, 3D).** -/
theorem C72_symmetric_3d {p : Params ℝ} (hp : Hydro3 p)
    (hi : p.implementationVersion = 0 ∨ p.implementationVersion = 1 ∨ p.implementationVersion = 2)
    (hg : GoodGrid p) (he : p.enableOutput = decide (p.nOutput ≠ 0))
    (hr : p.riemannSolverType = .llf ∨ p.riemannSolverType = .hllc)
    (hbc : p.boundary_type_xmin = p.boundary_type_xmax) {ident : ℝ} (hid : ident ≤ 0) (jk : Junk ℝ)
    {m : Mem Arr ℝ} {g : GravityParams}
    (h0 : ∀ i j k, interior3 p i j k →
      hs3 m .U (revIdx p.nx p.ghostWidth i) j k = mirror (hs3 m .U i j k))
    (hG : g.enabled = true → ∀ i j k, inGrid3 p i j k →
      m ⟨.grav, revIdx p.nx p.ghostWidth i, j, k, IX⟩ = -m ⟨.grav, i, j, k, IX⟩ ∧
      m ⟨.grav, revIdx p.nx p.ghostWidth i, j, k, IY⟩ = m ⟨.grav, i, j, k, IY⟩ ∧
      m ⟨.grav, revIdx p.nx p.ghostWidth i, j, k, IZ⟩ = m ⟨.grav, i, j, k, IZ⟩)
    {t : ℝ} {sv : Int} {a : RunState ℝ} (ha : runMain p (hydroOps3 p g ident jk) m t sv a) :
    ∀ o ∈ a.outputs, ∀ i j k, interior3 p i j k →
      shown3 o.data (revIdx p.nx p.ghostWidth i) j k = mirror (shown3 o.data i j k) := by
  have e : reverseXParams p = p := by
    unfold reverseXParams; cases p; simp only at hbc; simp only [hbc]
  obtain ⟨_, _, r⟩ := C72_reverse_x_3d hp hi hg he hr g hid hid jk jk h0 hG ha (by rw [e]; exact ha)
  exact fun o ho => (forall₂_self r o ho).2.2

/-- Non-vacuity: on the sample grid (4 × 3 cells, HLLC) the mirror image of any memory exists, and both
runs exist. -/
example (m : Mem Arr ℝ) (jk : Junk ℝ) : ∃ m' s s',
    (∀ i j, interior2 (sample .dirichlet .periodic) i j →
      hs2 m' .U (revIdx (sample .dirichlet .periodic).nx (sample .dirichlet .periodic).ghostWidth i) j =
        mirror (hs2 m .U i j)) ∧
    runMain (sample .dirichlet .periodic) (hydroOps2 (sample .dirichlet .periodic) ⟨false, false⟩ (-1) jk)
      m 0 0 s ∧
    runMain (reverseXParams (sample .dirichlet .periodic)) (hydroOps2 (reverseXParams
      (sample .dirichlet .periodic)) ⟨false, false⟩ (-1) jk) m' 0 0 s' := by
  let m' : Mem Arr ℝ := fun l => if l.v = 2 then -m ⟨l.arr, revIdx (sample .dirichlet .periodic).nx
      (sample .dirichlet .periodic).ghostWidth l.i, l.j, l.k, l.v⟩ else
    m ⟨l.arr, revIdx (sample .dirichlet .periodic).nx (sample .dirichlet .periodic).ghostWidth l.i, l.j,
      l.k, l.v⟩
  obtain ⟨s, hs⟩ := (C14_hydro_completes (sample_wf .dirichlet .periodic) (sample_faces3 _ _) ⟨false, false⟩
    (-1) jk (by simp [sample, rawSample, Params.init]) m 0 0).1
  obtain ⟨s', hs'⟩ := (C14_hydro_completes (sample_wf .dirichlet .periodic) (sample_faces3 _ _) ⟨false, false⟩
    (-1) jk (by simp [sample, rawSample, Params.init]) m' 0 0).1
  refine ⟨m', s, s', ?_, hs, hs'⟩
  intro i j _
  simp [m', hs2, mirror, ID, IP, IU, IV, revIdx_revIdx]

end EulerKokkos
