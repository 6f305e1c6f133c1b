import Verif.Spec.Symmetry
import Verif.Lemmas.HydroStep3D
import Verif.Props.C18

/-! # Axis exchange of the 3D hydro step -/

set_option linter.constructorNameAsVariable false
set_option linter.unusedSectionVars false
set_option linter.unusedSimpArgs false
set_option linter.unusedVariables false

namespace EulerKokkos
open Spec

/-! ## The Riemann solvers treat the two tangential directions alike -/

theorem approxState_swapVW (s : Settings ℝ) (a b : HS ℝ) :
    approxState true s (HSswapVW a) (HSswapVW b) = HSswapVW (approxState true s a b) := by
  unfold approxState HSswapVW
  simp only [if_true]

theorem riemannHydro3_swapVW (s : Settings ℝ) {rt : RiemannType} (hr : rt ≠ .hll ∧ rt ≠ .hlld)
    (a b f0 : HS ℝ) :
    riemannHydro3 s rt (HSswapVW a) (HSswapVW b) f0 = HSswapVW (riemannHydro3 s rt a b f0) := by
  cases rt
  · simp only [riemannHydro3, riemannApprox, approxState_swapVW]
    generalize approxState true s a b = q
    unfold cmpflx HSswapVW
    simp only [if_true]
    ext <;> simp only <;> ring
  · simp only [riemannHydro3]
    unfold riemannLLF consOf HSswapVW
    simp only [if_true]
    ext <;> simp only [RealOps.lit_real] <;> ring
  · exact absurd rfl hr.1
  · simp only [riemannHydro3]
    have e1 : ∀ x y z : ℝ, x + y + z = x + z + y := by intros; ring
    unfold riemannHLLC HSswapVW
    simp only [if_true, e1 _ (_ * a.w * a.w), e1 _ (_ * b.w * b.w)]
  · exact absurd rfl hr.2

theorem computePrimitives3_swapUV (s : Settings ℝ) (u : HS ℝ) :
    (computePrimitives3 s u.swapUV).1 = (computePrimitives3 s u).1.swapUV := by
  unfold computePrimitives3 HS.swapUV
  simp only [add_comm (u.v / _ * _)]

theorem computePrimitives3_swapUW (s : Settings ℝ) (u : HS ℝ) :
    (computePrimitives3 s u.swapUW).1 = (computePrimitives3 s u).1.swapUW := by
  have e : ∀ x y z : ℝ, x + y + z = z + y + x := by intros; ring
  unfold computePrimitives3 HS.swapUW
  simp only [e (u.w / _ * _)]

/-- the face a swap of x and y exchanges with `f` -/
def faceXY : Face → Face
  | .xmin => .ymin | .xmax => .ymax | .ymin => .xmin | .ymax => .xmax | .zmin => .zmin | .zmax => .zmax
/-- the face a swap of x and z exchanges with `f` -/
def faceXZ : Face → Face
  | .xmin => .zmin | .xmax => .zmax | .zmin => .xmin | .zmax => .xmax | .ymin => .ymin | .ymax => .ymax

theorem slopes3_XY (p : Params ℝ) (q : Fld3 ℝ) (i j k : Int) :
    slopes3 (swapXYParams p) (swapXY q) i j k =
      ⟨(slopes3 p q j i k).y.swapUV, (slopes3 p q j i k).x.swapUV, (slopes3 p q j i k).z.swapUV⟩ := by
  unfold slopes3 slope3 swapXY swapXYParams HS.swapUV
  simp only
  split_ifs <;> rfl

theorem slopes3_XZ (p : Params ℝ) (q : Fld3 ℝ) (i j k : Int) :
    slopes3 (swapXZParams p) (swapXZ q) i j k =
      ⟨(slopes3 p q k j i).z.swapUW, (slopes3 p q k j i).y.swapUW, (slopes3 p q k j i).x.swapUW⟩ := by
  unfold slopes3 slope3 swapXZ swapXZParams HS.swapUW
  simp only
  split_ifs <;> rfl

theorem traceAlong_XY (s : Settings ℝ) (q : HS ℝ) (d : Slopes3 ℝ) (a b c : ℝ) (f : Face) :
    traceAlongDir3 s q.swapUV ⟨d.y.swapUV, d.x.swapUV, d.z.swapUV⟩ b a c f =
      (traceAlongDir3 s q d a b c (faceXY f)).swapUV := by
  cases f <;> simp only [traceAlongDir3, faceXY, HS.swapUV, RealOps.lit_real, RealOps.fmax_real] <;>
    ext <;> simp only <;> first | ring | (congr 1; ring)

theorem traceAlong_XZ (s : Settings ℝ) (q : HS ℝ) (d : Slopes3 ℝ) (a b c : ℝ) (f : Face) :
    traceAlongDir3 s q.swapUW ⟨d.z.swapUW, d.y.swapUW, d.x.swapUW⟩ c b a f =
      (traceAlongDir3 s q d a b c (faceXZ f)).swapUW := by
  cases f <;> simp only [traceAlongDir3, faceXZ, HS.swapUW, RealOps.lit_real, RealOps.fmax_real] <;>
    ext <;> simp only <;> first | ring | (congr 1; ring)

theorem trace3_XY (p : Params ℝ) (dt : ℝ) (q : Fld3 ℝ) (f : Face) (i j k : Int) :
    trace3 (swapXYParams p) dt (swapXY q) f i j k = (trace3 p dt q (faceXY f) j i k).swapUV := by
  unfold trace3
  rw [slopes3_XY]
  exact traceAlong_XY _ _ _ _ _ _ _

theorem trace3_XZ (p : Params ℝ) (dt : ℝ) (q : Fld3 ℝ) (f : Face) (i j k : Int) :
    trace3 (swapXZParams p) dt (swapXZ q) f i j k = (trace3 p dt q (faceXZ f) k j i).swapUW := by
  unfold trace3
  rw [slopes3_XZ]
  exact traceAlong_XZ _ _ _ _ _ _ _

theorem face3_XY (p : Params ℝ) (g : GravityParams) (dt : ℝ) (gf : Grav3 ℝ) (q : Fld3 ℝ) (f : Face)
    (i j k : Int) :
    face3 (swapXYParams p) g dt (swapXYG gf) (swapXY q) f i j k =
      (face3 p g dt gf q (faceXY f) j i k).swapUV := by
  unfold face3
  rw [trace3_XY]
  unfold kick3
  split_ifs <;> rfl

theorem face3_XZ (p : Params ℝ) (g : GravityParams) (dt : ℝ) (gf : Grav3 ℝ) (q : Fld3 ℝ) (f : Face)
    (i j k : Int) :
    face3 (swapXZParams p) g dt (swapXZG gf) (swapXZ q) f i j k =
      (face3 p g dt gf q (faceXZ f) k j i).swapUW := by
  unfold face3
  rw [trace3_XZ]
  unfold kick3
  split_ifs <;> rfl

section
variable {p : Params ℝ} (hr : p.riemannSolverType ≠ .hll ∧ p.riemannSolverType ≠ .hlld)
  (g : GravityParams) (dt : ℝ) (gf : Grav3 ℝ) (q : Fld3 ℝ) (i j k : Int)
include hr

theorem fluxX3_XY : fluxX3 (swapXYParams p) g dt (swapXYG gf) (swapXY q) i j k =
    (fluxY3 p g dt gf q j i k).swapUV := by
  unfold fluxX3 fluxY3
  rw [face3_XY, face3_XY]
  rfl

theorem fluxY3_XY : fluxY3 (swapXYParams p) g dt (swapXYG gf) (swapXY q) i j k =
    (fluxX3 p g dt gf q j i k).swapUV := by
  unfold fluxX3 fluxY3
  rw [face3_XY, face3_XY]
  rfl

theorem fluxZ3_XY (zk : Bool) :
    fluxZ3 zk (swapXYParams p) g dt (swapXYG gf) (swapXY q) i j k =
    (fluxZ3 zk p g dt gf q j i k).swapUV := by
  unfold fluxZ3
  rw [face3_XY, face3_XY, trace3_XY]
  have e : ∀ a : HS ℝ, a.swapUV.swapUW = HSswapVW a.swapUW := fun _ => rfl
  have e2 : (if zk = true then (face3 p g dt gf q (faceXY .zmin) j i k).swapUV
      else (trace3 p dt q (faceXY .zmin) j i k).swapUV) =
      (if zk = true then face3 p g dt gf q .zmin j i k else trace3 p dt q .zmin j i k).swapUV := by
    cases zk <;> rfl
  rw [e2, e, e]
  show ((riemannHydro3 p.settings p.riemannSolverType _ _ _).smul _).swapUW = _
  rw [riemannHydro3_swapVW _ hr]
  rfl

theorem fluxX3_XZ (zk : Bool) (hz : zk = true ∨ g.enabled = false) :
    fluxX3 (swapXZParams p) g dt (swapXZG gf) (swapXZ q) i j k =
    (fluxZ3 zk p g dt gf q k j i).swapUW := by
  unfold fluxX3 fluxZ3
  rw [face3_XZ, face3_XZ]
  have e2 : (if zk = true then face3 p g dt gf q .zmin k j i else trace3 p dt q .zmin k j i) =
      face3 p g dt gf q .zmin k j i := by
    rcases hz with h | h
    · rw [h]; rfl
    · cases zk
      · simp [face3, kick3, h]
      · rfl
  rw [e2]
  rfl

theorem fluxZ3_XZ (zk : Bool) (hz : zk = true ∨ g.enabled = false) :
    fluxZ3 zk (swapXZParams p) g dt (swapXZG gf) (swapXZ q) i j k =
    (fluxX3 p g dt gf q k j i).swapUW := by
  unfold fluxX3 fluxZ3
  have e2 : (if zk = true then face3 (swapXZParams p) g dt (swapXZG gf) (swapXZ q) .zmin i j k
      else trace3 (swapXZParams p) dt (swapXZ q) .zmin i j k) =
      face3 (swapXZParams p) g dt (swapXZG gf) (swapXZ q) .zmin i j k := by
    rcases hz with h | h
    · rw [h]; rfl
    · cases zk
      · simp [face3, kick3, h]
      · rfl
  rw [e2, face3_XZ, face3_XZ]
  rfl

theorem fluxY3_XZ : fluxY3 (swapXZParams p) g dt (swapXZG gf) (swapXZ q) i j k =
    (fluxY3 p g dt gf q k j i).swapUW := by
  unfold fluxY3
  rw [face3_XZ, face3_XZ]
  have e : ∀ a : HS ℝ, a.swapUW.swapUV = HSswapVW a.swapUV := fun _ => rfl
  rw [e, e]
  show ((riemannHydro3 p.settings p.riemannSolverType _ _ _).smul _).swapUV = _
  rw [riemannHydro3_swapVW _ hr]
  rfl

end

theorem fill3_XY (p : Params ℝ) (u : Fld3 ℝ) :
    fill3 (swapXYParams p) (swapXY u) = swapXY (fill3 p u) := by
  funext i j k; rfl

theorem fill3_XZ (p : Params ℝ) (u : Fld3 ℝ) :
    fill3 (swapXZParams p) (swapXZ u) = swapXZ (fill3 p u) := by
  funext i j k; rfl

theorem gravity3_XY (dt a b c : ℝ) (uOld u : HS ℝ) :
    gravity3 dt (b, a, c) uOld.swapUV u.swapUV = (gravity3 dt (a, b, c) uOld u).swapUV := by
  unfold gravity3 HS.swapUV
  simp only
  ext <;> simp only <;> ring

theorem gravity3_XZ (dt a b c : ℝ) (uOld u : HS ℝ) :
    gravity3 dt (c, b, a) uOld.swapUW u.swapUW = (gravity3 dt (a, b, c) uOld u).swapUW := by
  unfold gravity3 HS.swapUW
  simp only
  ext <;> simp only <;> ring

theorem step3_XY {p : Params ℝ} (hr : p.riemannSolverType ≠ .hll ∧ p.riemannSolverType ≠ .hlld)
    (zk : Bool) (g : GravityParams) (dt : ℝ) (gf : Grav3 ℝ) (u : Fld3 ℝ) :
    step3 zk (swapXYParams p) g dt (swapXYG gf) (swapXY u) = swapXY (step3 zk p g dt gf u) := by
  funext i j k
  have hint : interior3 (swapXYParams p) i j k ↔ interior3 p j i k := by
    unfold interior3 swapXYParams; simp only; tauto
  have e1 : prim3 (swapXYParams p) (swapXY u) = swapXY (prim3 p u) := by
    funext i j k; exact computePrimitives3_swapUV _ _
  show step3 zk (swapXYParams p) g dt (swapXYG gf) (swapXY u) i j k =
    (step3 zk p g dt gf u j i k).swapUV
  unfold step3
  by_cases h : interior3 p j i k
  · rw [if_pos (hint.2 h), if_pos h]
    simp only [e1]
    have e2 : fluxUpdate3 (fluxX3 (swapXYParams p) g dt (swapXYG gf) (swapXY (prim3 p u)))
        (fluxY3 (swapXYParams p) g dt (swapXYG gf) (swapXY (prim3 p u)))
        (fluxZ3 zk (swapXYParams p) g dt (swapXYG gf) (swapXY (prim3 p u))) (swapXY u i j k) i j k =
        (fluxUpdate3 (fluxX3 p g dt gf (prim3 p u)) (fluxY3 p g dt gf (prim3 p u))
          (fluxZ3 zk p g dt gf (prim3 p u)) (u j i k) j i k).swapUV := by
      unfold fluxUpdate3
      rw [fluxX3_XY hr, fluxX3_XY hr, fluxY3_XY hr, fluxY3_XY hr, fluxZ3_XY hr, fluxZ3_XY hr]
      simp only [swapXY, HS.swapUV, HS.add, HS.sub]
      ext <;> simp only <;> ring
    rw [e2]
    split_ifs
    · exact gravity3_XY dt _ _ _ _ _
    · rfl
  · rw [if_neg (fun h' => h (hint.1 h')), if_neg h]
    rfl

theorem step3_XZ {p : Params ℝ} (hr : p.riemannSolverType ≠ .hll ∧ p.riemannSolverType ≠ .hlld)
    (zk : Bool) (g : GravityParams) (hz : zk = true ∨ g.enabled = false) (dt : ℝ) (gf : Grav3 ℝ)
    (u : Fld3 ℝ) :
    step3 zk (swapXZParams p) g dt (swapXZG gf) (swapXZ u) = swapXZ (step3 zk p g dt gf u) := by
  funext i j k
  have hint : interior3 (swapXZParams p) i j k ↔ interior3 p k j i := by
    unfold interior3 swapXZParams; simp only; tauto
  have e1 : prim3 (swapXZParams p) (swapXZ u) = swapXZ (prim3 p u) := by
    funext i j k; exact computePrimitives3_swapUW _ _
  show step3 zk (swapXZParams p) g dt (swapXZG gf) (swapXZ u) i j k =
    (step3 zk p g dt gf u k j i).swapUW
  unfold step3
  by_cases h : interior3 p k j i
  · rw [if_pos (hint.2 h), if_pos h]
    simp only [e1]
    have e2 : fluxUpdate3 (fluxX3 (swapXZParams p) g dt (swapXZG gf) (swapXZ (prim3 p u)))
        (fluxY3 (swapXZParams p) g dt (swapXZG gf) (swapXZ (prim3 p u)))
        (fluxZ3 zk (swapXZParams p) g dt (swapXZG gf) (swapXZ (prim3 p u))) (swapXZ u i j k) i j k =
        (fluxUpdate3 (fluxX3 p g dt gf (prim3 p u)) (fluxY3 p g dt gf (prim3 p u))
          (fluxZ3 zk p g dt gf (prim3 p u)) (u k j i) k j i).swapUW := by
      unfold fluxUpdate3
      rw [fluxX3_XZ hr g dt gf _ _ _ _ zk hz, fluxX3_XZ hr g dt gf _ _ _ _ zk hz, fluxY3_XZ hr,
        fluxY3_XZ hr, fluxZ3_XZ hr g dt gf _ _ _ _ zk hz, fluxZ3_XZ hr g dt gf _ _ _ _ zk hz]
      simp only [swapXZ, HS.swapUW, HS.add, HS.sub]
      ext <;> simp only <;> ring
    rw [e2]
    split_ifs
    · exact gravity3_XZ dt _ _ _ _ _
    · rfl
  · rw [if_neg (fun h' => h (hint.1 h')), if_neg h]
    rfl

end EulerKokkos
