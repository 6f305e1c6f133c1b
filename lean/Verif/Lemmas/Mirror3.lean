import Verif.Lemmas.Mirror
import Verif.Lemmas.Symmetry3

/-! # Reversing an axis of the 3D hydro step -/

set_option linter.constructorNameAsVariable false
set_option linter.unusedSectionVars false
set_option linter.unusedSimpArgs false
set_option linter.unusedVariables false

namespace EulerKokkos
open Spec

/-- a field reflected about the middle of cells `c - i` and `i` -/
def refl3 (c : Int) (q : Fld3 ℝ) : Fld3 ℝ := fun i j k => mirror (q (c - i) j k)
/-- a gravity field reflected -/
def refl3G (c : Int) (g : Grav3 ℝ) : Grav3 ℝ := fun i j k => (-(g (c - i) j k).1, (g (c - i) j k).2)

theorem slopes3_refl (p : Params ℝ) (c : Int) (q : Fld3 ℝ) (i j k : Int) :
    slopes3 p (refl3 c q) i j k = ⟨mirrorFlux (slopes3 p q (c - i) j k).x,
      mirror (slopes3 p q (c - i) j k).y, mirror (slopes3 p q (c - i) j k).z⟩ := by
  unfold slopes3 refl3
  rw [show c - (i + 1) = c - i - 1 by omega, show c - (i - 1) = c - i + 1 by omega]
  exact slope3_mirror _ _ _ _ _ _ _ _

theorem trace3_refl (p : Params ℝ) (dt : ℝ) (c : Int) (q : Fld3 ℝ) (f : Face) (i j k : Int) :
    trace3 p dt (refl3 c q) f i j k = mirror (trace3 p dt q (faceRevX f) (c - i) j k) := by
  unfold trace3
  rw [slopes3_refl]
  exact traceAlong3_mirror _ _ _ _ _ _ _

theorem face3_refl (p : Params ℝ) (g : GravityParams) (dt : ℝ) (c : Int) (gf : Grav3 ℝ) (q : Fld3 ℝ)
    (f : Face) (i j k : Int) :
    face3 p g dt (refl3G c gf) (refl3 c q) f i j k =
      mirror (face3 p g dt gf q (faceRevX f) (c - i) j k) := by
  unfold face3
  rw [trace3_refl]
  unfold kick3 mirror refl3G
  split_ifs
  · ext <;> simp only; ring
  · rfl

theorem fluxX3_refl {p : Params ℝ} (hs : GoodSettings p.settings)
    (hr : p.riemannSolverType = .llf ∨ p.riemannSolverType = .hllc)
    (g : GravityParams) (dt : ℝ) (c : Int) (gf : Grav3 ℝ) (q : Fld3 ℝ) (i j k : Int) :
    fluxX3 p g dt (refl3G c gf) (refl3 c q) i j k = mirrorFlux (fluxX3 p g dt gf q (c - i + 1) j k) := by
  unfold fluxX3
  rw [face3_refl, face3_refl, show c - (i - 1) = c - i + 1 by omega, show c - i + 1 - 1 = c - i by omega]
  show (riemannHydro3 _ _ (mirror (face3 p g dt gf q .xmin _ _ _)) (mirror (face3 p g dt gf q .xmax _ _ _))
    _).smul _ = _
  rw [C21_mirror_3d hs hr _ _ _ HS.zero, mirrorFlux_smul]

theorem fluxY3_refl {p : Params ℝ} (hr : p.riemannSolverType ≠ .hll ∧ p.riemannSolverType ≠ .hlld)
    (g : GravityParams) (dt : ℝ) (c : Int) (gf : Grav3 ℝ) (q : Fld3 ℝ) (i j k : Int) :
    fluxY3 p g dt (refl3G c gf) (refl3 c q) i j k = mirror (fluxY3 p g dt gf q (c - i) j k) := by
  unfold fluxY3
  rw [face3_refl, face3_refl, swapUV_mirror, swapUV_mirror, riemannHydro3_flipV _ hr, flipV_smul]
  rfl

theorem fluxZ3_refl {p : Params ℝ} (hr : p.riemannSolverType ≠ .hll ∧ p.riemannSolverType ≠ .hlld)
    (zk : Bool) (g : GravityParams) (dt : ℝ) (c : Int) (gf : Grav3 ℝ) (q : Fld3 ℝ) (i j k : Int) :
    fluxZ3 zk p g dt (refl3G c gf) (refl3 c q) i j k = mirror (fluxZ3 zk p g dt gf q (c - i) j k) := by
  unfold fluxZ3
  have e2 : (if zk = true then face3 p g dt (refl3G c gf) (refl3 c q) .zmin i j k
      else trace3 p dt (refl3 c q) .zmin i j k) = mirror (if zk = true then face3 p g dt gf q .zmin (c - i) j k
      else trace3 p dt q .zmin (c - i) j k) := by
    cases zk
    · exact trace3_refl _ _ _ _ _ _ _ _
    · exact face3_refl _ _ _ _ _ _ _ _ _ _
  rw [e2, face3_refl, swapUW_mirror, swapUW_mirror, riemannHydro3_flipW _ hr, flipW_smul]
  rfl

theorem prim3_refl (p : Params ℝ) (c : Int) (u : Fld3 ℝ) : prim3 p (refl3 c u) = refl3 c (prim3 p u) := by
  funext i j k; exact computePrimitives3_mirror _ _

theorem fluxUpdate3_refl (fx fx' fy fy' fz fz' : Fld3 ℝ) (u : HS ℝ) (i j k I : Int)
    (h1 : fx' i j k = mirrorFlux (fx (I + 1) j k)) (h2 : fx' (i + 1) j k = mirrorFlux (fx I j k))
    (h3 : fy' i j k = mirror (fy I j k)) (h4 : fy' i (j + 1) k = mirror (fy I (j + 1) k))
    (h5 : fz' i j k = mirror (fz I j k)) (h6 : fz' i j (k + 1) = mirror (fz I j (k + 1))) :
    fluxUpdate3 fx' fy' fz' (mirror u) i j k = mirror (fluxUpdate3 fx fy fz u I j k) := by
  unfold fluxUpdate3
  rw [h1, h2, h3, h4, h5, h6]
  unfold mirror mirrorFlux HS.add HS.sub
  ext <;> simp only <;> ring

theorem gravity3_mirror (dt : ℝ) (a : ℝ × ℝ × ℝ) (o u : HS ℝ) :
    gravity3 dt (-a.1, a.2) (mirror o) (mirror u) = mirror (gravity3 dt a o u) := by
  unfold gravity3 mirror
  ext <;> simp only
  · ring
  · ring

theorem step3_revX {p : Params ℝ} (hs : GoodSettings p.settings)
    (hr : p.riemannSolverType = .llf ∨ p.riemannSolverType = .hllc)
    (zk : Bool) (g : GravityParams) (dt : ℝ) (gf : Grav3 ℝ) (u : Fld3 ℝ) :
    step3 zk (reverseXParams p) g dt (reverseX3G p gf) (reverseX3 p u) =
      reverseX3 p (step3 zk p g dt gf u) := by
  have hr' : p.riemannSolverType ≠ .hll ∧ p.riemannSolverType ≠ .hlld := by
    rcases hr with h | h <;> rw [h] <;> decide
  have eU : reverseX3 p u = refl3 (2 * p.ghostWidth + p.nx - 1) u := rfl
  have eG : reverseX3G p gf = refl3G (2 * p.ghostWidth + p.nx - 1) gf := rfl
  funext i j k
  show (if interior3 p i j k then _ else _) =
    mirror (if interior3 p (revIdx p.nx p.ghostWidth i) j k then _ else _)
  have hI : interior3 p (revIdx p.nx p.ghostWidth i) j k ↔ interior3 p i j k := by
    unfold interior3 revIdx
    constructor <;> rintro ⟨⟨a, b⟩, c⟩ <;> exact ⟨⟨by omega, by omega⟩, c⟩
  by_cases h : interior3 p i j k
  · rw [if_pos h, if_pos (hI.2 h), eU, eG]
    show (if g.enabled = true then gravity3 dt _ _ _ else _) = mirror (if g.enabled = true then _ else _)
    have e : fluxUpdate3 (fluxX3 p g dt (refl3G (2 * p.ghostWidth + p.nx - 1) gf)
        (prim3 p (refl3 (2 * p.ghostWidth + p.nx - 1) u)))
        (fluxY3 p g dt (refl3G (2 * p.ghostWidth + p.nx - 1) gf)
        (prim3 p (refl3 (2 * p.ghostWidth + p.nx - 1) u)))
        (fluxZ3 zk p g dt (refl3G (2 * p.ghostWidth + p.nx - 1) gf)
        (prim3 p (refl3 (2 * p.ghostWidth + p.nx - 1) u)))
        (mirror (u (revIdx p.nx p.ghostWidth i) j k)) i j k =
        mirror (fluxUpdate3 (fluxX3 p g dt gf (prim3 p u)) (fluxY3 p g dt gf (prim3 p u))
          (fluxZ3 zk p g dt gf (prim3 p u))
          (u (revIdx p.nx p.ghostWidth i) j k) (revIdx p.nx p.ghostWidth i) j k) := by
      rw [prim3_refl]
      refine fluxUpdate3_refl _ _ _ _ _ _ _ _ _ _ _ ?_ ?_ ?_ ?_ ?_ ?_
      · exact fluxX3_refl hs hr g dt _ gf _ i j k
      · rw [fluxX3_refl hs hr]
        congr 2
        unfold revIdx; omega
      · exact fluxY3_refl hr' g dt _ gf _ i j k
      · exact fluxY3_refl hr' g dt _ gf _ i (j + 1) k
      · exact fluxZ3_refl hr' zk g dt _ gf _ i j k
      · exact fluxZ3_refl hr' zk g dt _ gf _ i j (k + 1)
    by_cases hg : g.enabled = true
    · rw [if_pos hg, if_pos hg, ← gravity3_mirror, ← e]; rfl
    · rw [if_neg hg, if_neg hg, ← e]; rfl
  · rw [if_neg h, if_neg (fun x => h (hI.1 x))]; rfl

theorem fill3_revX {p : Params ℝ} (hw : p.WF) (u : Fld3 ℝ) :
    fill3 (reverseXParams p) (reverseX3 p u) = reverseX3 p (fill3 p u) := by
  funext i j k
  have e := srcCoord_rev (a := p.boundary_type_xmax) (b := p.boundary_type_xmin) (gw := p.ghostWidth)
    hw.nx_pos i
  have ef := flips_rev (a := p.boundary_type_xmax) (b := p.boundary_type_xmin) (n := p.nx)
    (gw := p.ghostWidth) i
  unfold fill3 reverseX3 reverseXParams mirror
  simp only
  rw [e]
  simp only [ef, signed_neg]

theorem fullStep3_revX {p : Params ℝ} (hw : p.WF) (hs : GoodSettings p.settings)
    (hr : p.riemannSolverType = .llf ∨ p.riemannSolverType = .hllc)
    (zk : Bool) (g : GravityParams) (dt : ℝ) (gf : Grav3 ℝ) (u : Fld3 ℝ) :
    fullStep3 zk (reverseXParams p) g dt (reverseX3G p gf) (reverseX3 p u) =
      reverseX3 p (fullStep3 zk p g dt gf u) := by
  unfold fullStep3
  rw [fill3_revX hw, step3_revX hs hr]

/-! ## y and z, by exchanging axes -/

theorem swapXY_swapXY (u : Fld3 ℝ) : swapXY (swapXY u) = u := rfl
theorem swapXZ_swapXZ (u : Fld3 ℝ) : swapXZ (swapXZ u) = u := rfl

theorem wf_XY {p : Params ℝ} (h : p.WF) : (swapXYParams p).WF := by
  obtain ⟨w1, w2, w3, w4, w5, w6, w7, w8, w9, w10, w11, w12, w13⟩ := h
  exact ⟨w2, w1, w3, w4, w6, w5, w7, w9, w8, w10, w12, w11, w13⟩
theorem wf_XZ {p : Params ℝ} (h : p.WF) : (swapXZParams p).WF := by
  obtain ⟨w1, w2, w3, w4, w5, w6, w7, w8, w9, w10, w11, w12, w13⟩ := h
  exact ⟨w3, w2, w1, w4, w7, w6, w5, w10, w9, w8, w13, w12, w11⟩

theorem fullStep3_revY {p : Params ℝ} (hw : p.WF) (hs : GoodSettings p.settings)
    (hr : p.riemannSolverType = .llf ∨ p.riemannSolverType = .hllc)
    (zk : Bool) (g : GravityParams) (dt : ℝ) (gf : Grav3 ℝ) (u : Fld3 ℝ) :
    fullStep3 zk (reverseYParams p) g dt (reverseY3G p gf) (reverseY3 p u) =
      reverseY3 p (fullStep3 zk p g dt gf u) := by
  have hr' : p.riemannSolverType ≠ .hll ∧ p.riemannSolverType ≠ .hlld := by
    rcases hr with h | h <;> rw [h] <;> decide
  have e1 : ∀ v, reverseY3 p v = swapXY (reverseX3 (swapXYParams p) (swapXY v)) := fun _ => rfl
  have e2 : reverseY3G p gf = swapXYG (reverseX3G (swapXYParams p) (swapXYG gf)) := rfl
  have e3 : reverseYParams p = swapXYParams (reverseXParams (swapXYParams p)) := rfl
  have sw : ∀ {p' : Params ℝ}, (p'.riemannSolverType ≠ .hll ∧ p'.riemannSolverType ≠ .hlld) → ∀ gf' u',
      fullStep3 zk (swapXYParams p') g dt (swapXYG gf') (swapXY u') = swapXY (fullStep3 zk p' g dt gf' u') := by
    intro p' h gf' u'
    unfold fullStep3
    rw [fill3_XY, step3_XY h]
  rw [e1, e1, e2, e3, sw (p' := reverseXParams (swapXYParams p)) hr', fullStep3_revX (wf_XY hw) hs hr, sw hr']

theorem fullStep3_revZ {p : Params ℝ} (hw : p.WF) (hs : GoodSettings p.settings)
    (hr : p.riemannSolverType = .llf ∨ p.riemannSolverType = .hllc)
    (zk : Bool) (g : GravityParams) (hz : zk = true ∨ g.enabled = false) (dt : ℝ) (gf : Grav3 ℝ)
    (u : Fld3 ℝ) :
    fullStep3 zk (reverseZParams p) g dt (reverseZ3G p gf) (reverseZ3 p u) =
      reverseZ3 p (fullStep3 zk p g dt gf u) := by
  have hr' : p.riemannSolverType ≠ .hll ∧ p.riemannSolverType ≠ .hlld := by
    rcases hr with h | h <;> rw [h] <;> decide
  have e1 : ∀ v, reverseZ3 p v = swapXZ (reverseX3 (swapXZParams p) (swapXZ v)) := fun _ => rfl
  have e2 : reverseZ3G p gf = swapXZG (reverseX3G (swapXZParams p) (swapXZG gf)) := rfl
  have e3 : reverseZParams p = swapXZParams (reverseXParams (swapXZParams p)) := rfl
  have sw : ∀ {p' : Params ℝ}, (p'.riemannSolverType ≠ .hll ∧ p'.riemannSolverType ≠ .hlld) → ∀ gf' u',
      fullStep3 zk (swapXZParams p') g dt (swapXZG gf') (swapXZ u') = swapXZ (fullStep3 zk p' g dt gf' u') := by
    intro p' h gf' u'
    unfold fullStep3
    rw [fill3_XZ, step3_XZ h zk g hz]
  rw [e1, e1, e2, e3, sw (p' := reverseXParams (swapXZParams p)) hr', fullStep3_revX (wf_XZ hw) hs hr, sw hr']

end EulerKokkos
