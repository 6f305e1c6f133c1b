import Verif.Spec.Symmetry
import Verif.Props.C21
import Verif.Props.C18

/-! # Reversing an axis: pointwise lemmas -/

set_option linter.constructorNameAsVariable false
set_option linter.unusedSectionVars false
set_option linter.unusedSimpArgs false
set_option linter.unusedVariables false

namespace EulerKokkos
open Spec

theorem mirror_mirror (q : HS ℝ) : mirror (mirror q) = q := by unfold mirror; simp
theorem swapUV_mirror (q : HS ℝ) : (mirror q).swapUV = flipV q.swapUV := rfl
theorem swapUW_mirror (q : HS ℝ) : (mirror q).swapUW = flipW q.swapUW := rfl
theorem mirrorFlux_smul (f : HS ℝ) (c : ℝ) : (mirrorFlux f).smul c = mirrorFlux (f.smul c) := by
  unfold mirrorFlux HS.smul; ext <;> simp
theorem flipV_smul (f : HS ℝ) (c : ℝ) : (flipV f).smul c = flipV (f.smul c) := by
  unfold flipV HS.smul; ext <;> simp
theorem flipW_smul (f : HS ℝ) (c : ℝ) : (flipW f).smul c = flipW (f.smul c) := by
  unfold flipW HS.smul; ext <;> simp
theorem mirrorFlux_trunc (f : HS ℝ) : (mirrorFlux f).trunc = mirrorFlux f.trunc := by
  unfold mirrorFlux HS.trunc; ext <;> simp
theorem mirror_trunc (f : HS ℝ) : (mirror f).trunc = mirror f.trunc := rfl

/-! ## Riemann solvers and tangential velocities -/

theorem approxState_flipV (d3 : Bool) (s : Settings ℝ) (a b : HS ℝ) :
    approxState d3 s (flipV a) (flipV b) = flipV (approxState d3 s a b) := by
  unfold approxState flipV
  dsimp only
  refine HS.ext rfl rfl rfl ?_ rfl
  exact (apply_ite Neg.neg _ _ _).symm

theorem neg_mul_self (c x : ℝ) : c * -x * -x = c * x * x := by ring

theorem riemannHydro2_flipV (s : Settings ℝ) {rt : RiemannType} (hr : rt ≠ .hlld) (a b f0 : HS ℝ) :
    riemannHydro2 s rt (flipV a) (flipV b) f0 = flipV (riemannHydro2 s rt a b f0) := by
  cases rt
  · simp only [riemannHydro2, riemannApprox, approxState_flipV]
    generalize approxState false s a b = q
    unfold cmpflx flipV
    ext <;> simp
  · simp only [riemannHydro2]
    unfold riemannLLF consOf flipV
    simp only [neg_mul_self, if_false, Bool.false_eq_true]
    ext <;> simp only [RealOps.lit_real] <;> ring
  · simp only [riemannHydro2]
    unfold riemannHLL consOf flipV
    simp only [neg_mul_self, if_false, Bool.false_eq_true]
    ext <;> simp only [RealOps.lit_real] <;> ring
  · simp only [riemannHydro2]
    unfold riemannHLLC flipV
    simp only [neg_mul_self, if_false, Bool.false_eq_true]
    ext <;> simp only [mul_neg]
    split_ifs <;> rfl
  · exact absurd rfl hr

theorem riemannHydro3_flipV (s : Settings ℝ) {rt : RiemannType} (hr : rt ≠ .hll ∧ rt ≠ .hlld)
    (a b f0 : HS ℝ) :
    riemannHydro3 s rt (flipV a) (flipV b) f0 = flipV (riemannHydro3 s rt a b f0) := by
  cases rt
  · simp only [riemannHydro3, riemannApprox, approxState_flipV]
    generalize approxState true s a b = q
    unfold cmpflx flipV
    ext <;> simp
  · simp only [riemannHydro3]
    unfold riemannLLF consOf flipV
    simp only [neg_mul_self, if_true]
    ext <;> simp only [RealOps.lit_real] <;> ring
  · exact absurd rfl hr.1
  · simp only [riemannHydro3]
    unfold riemannHLLC flipV
    simp only [neg_mul_self, if_true]
    ext <;> simp only [mul_neg]
    split_ifs <;> rfl
  · exact absurd rfl hr.2

theorem riemannHydro3_flipW (s : Settings ℝ) {rt : RiemannType} (hr : rt ≠ .hll ∧ rt ≠ .hlld)
    (a b f0 : HS ℝ) :
    riemannHydro3 s rt (flipW a) (flipW b) f0 = flipW (riemannHydro3 s rt a b f0) := by
  cases rt
  · simp only [riemannHydro3, riemannApprox]
    have : approxState true s (flipW a) (flipW b) = flipW (approxState true s a b) := by
      unfold approxState flipW
      dsimp only
      refine HS.ext rfl rfl rfl rfl ?_
      simp only [if_true]
      exact (apply_ite Neg.neg _ _ _).symm
    rw [this]
    generalize approxState true s a b = q
    unfold cmpflx flipW
    ext <;> simp
  · simp only [riemannHydro3]
    unfold riemannLLF consOf flipW
    simp only [neg_mul_self, if_true]
    ext <;> simp only [RealOps.lit_real] <;> ring
  · exact absurd rfl hr.1
  · simp only [riemannHydro3]
    unfold riemannHLLC flipW
    simp only [neg_mul_self, if_true]
    ext <;> simp only [mul_neg]
    split_ifs <;> rfl
  · exact absurd rfl hr.2

/-! ## Conversion, slopes, trace -/

theorem computePrimitives2_mirror (s : Settings ℝ) (u : HS ℝ) :
    (computePrimitives2 s (mirror u)).1 = mirror (computePrimitives2 s u).1 := by
  unfold computePrimitives2 mirror
  simp only [neg_div, neg_mul_neg]

theorem computePrimitives3_mirror (s : Settings ℝ) (u : HS ℝ) :
    (computePrimitives3 s (mirror u)).1 = mirror (computePrimitives3 s u).1 := by
  unfold computePrimitives3 mirror
  simp only [neg_div, neg_mul_neg]

theorem slopeDir_swap (θ q qp qm : ℝ) : slopeScalarDir θ q qm qp = -slopeScalarDir θ q qp qm :=
  (C19_slope_symmetry θ q qp qm 0).2.1

theorem slopeDir_neg_swap (θ q qp qm : ℝ) :
    slopeScalarDir θ (-q) (-qm) (-qp) = slopeScalarDir θ q qp qm := by
  rw [slopeScalarDir_neg, slopeDir_swap, neg_neg]

/-- slopes of the mirror image -/
theorem slope2_mirror (s : Settings ℝ) (q a b c d : HS ℝ) :
    slope2 s (mirror q) (mirror b) (mirror a) (mirror c) (mirror d) HS.zero HS.zero =
      (mirrorFlux (slope2 s q a b c d HS.zero HS.zero).1, mirror (slope2 s q a b c d HS.zero HS.zero).2) := by
  have z : mirrorFlux HS.zero = HS.zero := by unfold mirrorFlux HS.zero; simp
  have z' : mirror HS.zero = HS.zero := by unfold mirror HS.zero; simp
  unfold slope2
  split_ifs
  · simp only [z, z']
  · simp only [slopeScalar2, mirror, mirrorFlux, slopeDir_neg_swap, slopeScalarDir_neg, slopeDir_swap _ _ a.d,
      slopeDir_swap _ _ a.p, slopeDir_swap _ _ a.v, slopeDir_swap _ _ c.u]
    simp
  · simp only [z, z']

theorem slope3_mirror (s : Settings ℝ) (q a b c d e f : HS ℝ) :
    slope3 s (mirror q) (mirror b) (mirror a) (mirror c) (mirror d) (mirror e) (mirror f)
        ⟨HS.zero, HS.zero, HS.zero⟩ =
      ⟨mirrorFlux (slope3 s q a b c d e f ⟨HS.zero, HS.zero, HS.zero⟩).x,
       mirror (slope3 s q a b c d e f ⟨HS.zero, HS.zero, HS.zero⟩).y,
       mirror (slope3 s q a b c d e f ⟨HS.zero, HS.zero, HS.zero⟩).z⟩ := by
  have z : mirrorFlux HS.zero = HS.zero := by unfold mirrorFlux HS.zero; simp
  have z' : mirror HS.zero = HS.zero := by unfold mirror HS.zero; simp
  unfold slope3
  split_ifs
  · simp only [z, z']
  · simp only [mirror, mirrorFlux, slopeDir_neg_swap, slopeScalarDir_neg, slopeDir_swap _ _ a.d,
      slopeDir_swap _ _ a.p, slopeDir_swap _ _ a.v, slopeDir_swap _ _ a.w,
      slopeDir_swap _ _ c.u, slopeDir_swap _ _ e.u]
  · simp only [z, z']

/-- the face a reversal of x exchanges with `f` -/
def faceRevX : Face → Face
  | .xmin => .xmax | .xmax => .xmin | f => f

theorem traceAlong2_mirror (s : Settings ℝ) (q dx dy : HS ℝ) (a b : ℝ) (f : Face) :
    traceAlongDir2 s (mirror q) (mirrorFlux dx) (mirror dy) a b f =
      mirror (traceAlongDir2 s q dx dy a b (faceRevX f)) := by
  cases f <;> simp only [traceAlongDir2, faceRevX, mirror, mirrorFlux, RealOps.lit_real, RealOps.fmax_real] <;>
    ext <;> simp only <;> first | ring | (congr 1; ring)

theorem traceAlong3_mirror (s : Settings ℝ) (q : HS ℝ) (d : Slopes3 ℝ) (a b c : ℝ) (f : Face) :
    traceAlongDir3 s (mirror q) ⟨mirrorFlux d.x, mirror d.y, mirror d.z⟩ a b c f =
      mirror (traceAlongDir3 s q d a b c (faceRevX f)) := by
  cases f <;> simp only [traceAlongDir3, faceRevX, mirror, mirrorFlux, RealOps.lit_real, RealOps.fmax_real] <;>
    ext <;> simp only <;> first | ring | (congr 1; ring)

/-! ## Reversed fields

`c` is the sum of the indices of two cells that change places. -/

/-- a field reflected about the middle of cells `c - i` and `i` -/
def refl2 (c : Int) (q : Fld2 ℝ) : Fld2 ℝ := fun i j => mirror (q (c - i) j)
/-- a gravity field reflected -/
def refl2G (c : Int) (g : Grav2 ℝ) : Grav2 ℝ := fun i j => (-(g (c - i) j).1, (g (c - i) j).2)

theorem slopes2_refl (p : Params ℝ) (c : Int) (q : Fld2 ℝ) (i j : Int) :
    slopes2 p (refl2 c q) i j = (mirrorFlux (slopes2 p q (c - i) j).1, mirror (slopes2 p q (c - i) j).2) := by
  unfold slopes2 refl2
  rw [show c - (i + 1) = c - i - 1 by omega, show c - (i - 1) = c - i + 1 by omega]
  exact slope2_mirror _ _ _ _ _ _

theorem face2_refl (p : Params ℝ) (g : GravityParams) (dt : ℝ) (c : Int) (gf : Grav2 ℝ) (q : Fld2 ℝ)
    (f : Face) (i j : Int) :
    face2 p g dt (refl2G c gf) (refl2 c q) f i j = mirror (face2 p g dt gf q (faceRevX f) (c - i) j) := by
  unfold face2
  rw [slopes2_refl]
  show kick2 _ _ _ (traceAlongDir2 p.settings (mirror (q (c - i) j)) _ _ _ _ f) = _
  rw [traceAlong2_mirror]
  unfold kick2 mirror refl2G
  split_ifs
  · ext <;> simp only; ring
  · rfl

theorem fluxX2_refl {p : Params ℝ} (hs : GoodSettings p.settings)
    (hr : p.riemannSolverType = .llf ∨ p.riemannSolverType = .hll ∨ p.riemannSolverType = .hllc)
    (g : GravityParams) (dt : ℝ) (c : Int) (gf : Grav2 ℝ) (q : Fld2 ℝ) (i j : Int) :
    fluxX2 p g dt (refl2G c gf) (refl2 c q) i j = mirrorFlux (fluxX2 p g dt gf q (c - i + 1) j) := by
  unfold fluxX2
  rw [face2_refl, face2_refl, show c - (i - 1) = c - i + 1 by omega, show c - i + 1 - 1 = c - i by omega]
  show ((riemannHydro2 _ _ (mirror (face2 p g dt gf q .xmin _ _)) (mirror (face2 p g dt gf q .xmax _ _)) _).smul
    _).trunc = _
  rw [C21_mirror_2d hs hr _ _ _ HS.zero, mirrorFlux_smul, mirrorFlux_trunc]

theorem fluxY2_refl {p : Params ℝ} (hr : p.riemannSolverType ≠ .hlld)
    (g : GravityParams) (dt : ℝ) (c : Int) (gf : Grav2 ℝ) (q : Fld2 ℝ) (i j : Int) :
    fluxY2 p g dt (refl2G c gf) (refl2 c q) i j = mirror (fluxY2 p g dt gf q (c - i) j) := by
  unfold fluxY2
  rw [face2_refl, face2_refl, swapUV_mirror, swapUV_mirror, riemannHydro2_flipV _ hr, flipV_smul]
  rfl

/-! ## One step of the reversed field -/

theorem prim2_refl (p : Params ℝ) (c : Int) (u : Fld2 ℝ) : prim2 p (refl2 c u) = refl2 c (prim2 p u) := by
  funext i j; exact computePrimitives2_mirror _ _

theorem fluxUpdate_refl (fx fx' fy fy' : Fld2 ℝ) (u : HS ℝ) (i j I : Int)
    (h1 : fx' i j = mirrorFlux (fx (I + 1) j)) (h2 : fx' (i + 1) j = mirrorFlux (fx I j))
    (h3 : fy' i j = mirror (fy I j)) (h4 : fy' i (j + 1) = mirror (fy I (j + 1))) :
    fluxUpdate2 fx' fy' (mirror u) i j = mirror (fluxUpdate2 fx fy u I j) := by
  unfold fluxUpdate2
  rw [h1, h2, h3, h4]
  unfold mirror mirrorFlux HS.add HS.sub HS.trunc
  ext <;> simp only <;> ring

theorem gravity2_mirror (p : Params ℝ) (dt : ℝ) (a : ℝ × ℝ) (o u : HS ℝ) :
    gravity2 p dt (-a.1, a.2) (mirror o) (mirror u) = mirror (gravity2 p dt a o u) := by
  unfold gravity2 mirror
  ext <;> simp only
  · ring
  · ring

theorem step2_revX {p : Params ℝ} (hs : GoodSettings p.settings)
    (hr : p.riemannSolverType = .llf ∨ p.riemannSolverType = .hll ∨ p.riemannSolverType = .hllc)
    (g : GravityParams) (dt : ℝ) (gf : Grav2 ℝ) (u : Fld2 ℝ) :
    step2 (reverseXParams p) g dt (reverseX2G p gf) (reverseX2 p u) =
      reverseX2 p (step2 p g dt gf u) := by
  have hr' : p.riemannSolverType ≠ .hlld := by rcases hr with h | h | h <;> rw [h] <;> decide
  have eU : reverseX2 p u = refl2 (2 * p.ghostWidth + p.nx - 1) u := rfl
  have eG : reverseX2G p gf = refl2G (2 * p.ghostWidth + p.nx - 1) gf := rfl
  funext i j
  show (if interior2 p i j then _ else _) = mirror (if interior2 p (revIdx p.nx p.ghostWidth i) j then _ else _)
  have hI : interior2 p (revIdx p.nx p.ghostWidth i) j ↔ interior2 p i j := by
    unfold interior2 revIdx; constructor <;> rintro ⟨a, b, c, d⟩ <;> exact ⟨by omega, by omega, c, d⟩
  by_cases h : interior2 p i j
  · rw [if_pos h, if_pos (hI.2 h), eU, eG]
    show (if g.enabled = true then gravity2 p dt _ _ _ else _) = mirror (if g.enabled = true then _ else _)
    have e : fluxUpdate2 (fluxX2 p g dt (refl2G (2 * p.ghostWidth + p.nx - 1) gf)
        (prim2 p (refl2 (2 * p.ghostWidth + p.nx - 1) u)))
        (fluxY2 p g dt (refl2G (2 * p.ghostWidth + p.nx - 1) gf)
        (prim2 p (refl2 (2 * p.ghostWidth + p.nx - 1) u)))
        (mirror (u (revIdx p.nx p.ghostWidth i) j)) i j =
        mirror (fluxUpdate2 (fluxX2 p g dt gf (prim2 p u)) (fluxY2 p g dt gf (prim2 p u))
          (u (revIdx p.nx p.ghostWidth i) j) (revIdx p.nx p.ghostWidth i) j) := by
      rw [prim2_refl]
      refine fluxUpdate_refl _ _ _ _ _ _ _ _ ?_ ?_ ?_ ?_
      · exact fluxX2_refl hs hr g dt _ gf _ i j
      · rw [fluxX2_refl hs hr]
        congr 2
        unfold revIdx; omega
      · exact fluxY2_refl hr' g dt _ gf _ i j
      · exact fluxY2_refl hr' g dt _ gf _ i (j + 1)
    by_cases hg : g.enabled = true
    · rw [if_pos hg, if_pos hg, ← gravity2_mirror, ← e]; rfl
    · rw [if_neg hg, if_neg hg, ← e]; rfl
  · rw [if_neg h, if_neg (fun x => h (hI.1 x))]; rfl

theorem srcCoord_rev {a b : BC} {n gw : Int} (hn : 0 < n) (c : Int) :
    srcCoord b a n gw (revIdx n gw c) = revIdx n gw (srcCoord a b n gw c) := by
  unfold srcCoord revIdx
  rcases lt_trichotomy c gw with h | h | h
  · rw [if_neg (by omega), if_pos (by omega), if_pos h]
    cases a <;> simp only <;> omega
  · by_cases h1 : gw + n ≤ c
    · omega
    · rw [if_neg (by omega), if_neg (by omega), if_neg (by omega), if_neg (by omega)]
  · by_cases h1 : gw + n ≤ c
    · rw [if_pos (by omega), if_neg (by omega), if_pos h1]
      cases b <;> simp only <;> omega
    · rw [if_neg (by omega), if_neg (by omega), if_neg (by omega), if_neg (by omega)]

theorem flips_rev {a b : BC} {n gw : Int} (c : Int) :
    flips b a n gw (revIdx n gw c) ↔ flips a b n gw c := by
  unfold flips revIdx
  constructor
  · rintro (⟨h, e⟩ | ⟨h, e⟩)
    · exact .inr ⟨by omega, e⟩
    · exact .inl ⟨by omega, e⟩
  · rintro (⟨h, e⟩ | ⟨h, e⟩)
    · exact .inr ⟨by omega, e⟩
    · exact .inl ⟨by omega, e⟩

theorem revIdx_revIdx (n gw i : Int) : revIdx n gw (revIdx n gw i) = i := by unfold revIdx; omega

theorem signed_neg (P : Prop) [Decidable P] (x : ℝ) : signed P (-x) = -signed P x := by
  unfold signed; split_ifs <;> ring

theorem fill2_revX {p : Params ℝ} (hw : p.WF) (u : Fld2 ℝ) :
    fill2 (reverseXParams p) (reverseX2 p u) = reverseX2 p (fill2 p u) := by
  funext i j
  have e := srcCoord_rev (a := p.boundary_type_xmax) (b := p.boundary_type_xmin) (gw := p.ghostWidth)
    hw.nx_pos i
  have ef := flips_rev (a := p.boundary_type_xmax) (b := p.boundary_type_xmin) (n := p.nx)
    (gw := p.ghostWidth) i
  unfold fill2 reverseX2 reverseXParams mirror
  simp only
  rw [e]
  simp only [ef, signed_neg]

theorem fullStep2_revX {p : Params ℝ} (hw : p.WF) (hs : GoodSettings p.settings)
    (hr : p.riemannSolverType = .llf ∨ p.riemannSolverType = .hll ∨ p.riemannSolverType = .hllc)
    (g : GravityParams) (dt : ℝ) (gf : Grav2 ℝ) (u : Fld2 ℝ) :
    fullStep2 (reverseXParams p) g dt (reverseX2G p gf) (reverseX2 p u) =
      reverseX2 p (fullStep2 p g dt gf u) := by
  unfold fullStep2
  rw [fill2_revX hw, step2_revX hs hr]

end EulerKokkos
