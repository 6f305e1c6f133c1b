import Verif.Lemmas.Units
import Verif.Lemmas.RunSymmetry
import Mathlib.Data.Real.Pointwise

/-!
# Change of units: one step, the time step, complete runs
-/

set_option linter.constructorNameAsVariable false
set_option linter.unusedSectionVars false
set_option linter.unusedSimpArgs false

namespace EulerKokkos
open Spec

open scoped Pointwise

variable (U : Units)

theorem Spec.Units.T_pos : 0 < U.T := div_pos U.hL U.hV

theorem courant_units (dt dx : ℝ) : U.T * dt / (U.L * dx) = dt / dx / U.V := by
  have hL := U.hL
  have hV := U.hV
  unfold Units.T
  field_simp

theorem TG_units : U.T * U.G = U.V := by
  have hL := U.hL
  have hV := U.hV
  unfold Units.T Units.G
  field_simp

theorem halfKick_units (dt gx : ℝ) :
    lit (1/2) * (U.T * dt) * (U.G * gx) = U.V * (lit (1/2) * dt * gx) := by
  rw [← TG_units U]; ring

theorem signed_scale (b : Prop) [Decidable b] (c x : ℝ) : signed b (c * x) = c * signed b x := by
  unfold signed; split_ifs <;> ring

theorem fluxcons (F : HS ℝ) (k : ℝ) : (U.flux F).smul (k / U.V) = U.cons (F.smul k) := by
  have hV := U.hV
  simp only [Units.flux, Units.cons, HS.smul]
  rw [HS.mk.injEq]
  refine ⟨?_, ?_, ?_, ?_, ?_⟩ <;> field_simp

theorem cons_trunc (F : HS ℝ) : (U.cons F).trunc = U.cons F.trunc := by
  simp [Units.cons, HS.trunc, RealOps.lit_real]
theorem cons_swapUV (F : HS ℝ) : (U.cons F).swapUV = U.cons F.swapUV := rfl
theorem cons_swapUW (F : HS ℝ) : (U.cons F).swapUW = U.cons F.swapUW := rfl
theorem prim_swapUV (F : HS ℝ) : (U.prim F).swapUV = U.prim F.swapUV := rfl
theorem prim_swapUW (F : HS ℝ) : (U.prim F).swapUW = U.prim F.swapUW := rfl
theorem cons_add (a b : HS ℝ) : (U.cons a).add (U.cons b) = U.cons (a.add b) := by
  simp only [Units.cons, HS.add, mul_add]
theorem cons_sub (a b : HS ℝ) : (U.cons a).sub (U.cons b) = U.cons (a.sub b) := by
  simp only [Units.cons, HS.sub, mul_sub]

/-! ## 2D -/

theorem kick2_units (g : GravityParams) (dt : ℝ) (gxy : ℝ × ℝ) (q : HS ℝ) :
    kick2 g (U.T * dt) (U.G * gxy.1, U.G * gxy.2) (U.prim q) = U.prim (kick2 g dt gxy q) := by
  unfold kick2
  split_ifs
  · simp only [Units.prim, halfKick_units, mul_add]
  · rfl

theorem face2_units (p : Params ℝ) (g : GravityParams) (dt : ℝ) (gf : Grav2 ℝ) (q : Fld2 ℝ) (f : Face)
    (i j : Int) :
    face2 (U.params p) g (U.T * dt) (U.grav2 gf) (fun i j => U.prim (q i j)) f i j =
      U.prim (face2 p g dt gf q f i j) := by
  unfold face2 slopes2
  show kick2 g (U.T * dt) (U.G * (gf i j).1, U.G * (gf i j).2) (traceAlongDir2 (U.settings p.settings) _ _ _
    (U.T * dt / (U.L * p.dx)) (U.T * dt / (U.L * p.dy)) f) = _
  rw [courant_units, courant_units]
  simp only [show (U.params p).settings = U.settings p.settings from rfl]
  rw [slope2_units, traceAlongDir2_units, kick2_units]

theorem fluxX2_units (p : Params ℝ) (g : GravityParams) (dt : ℝ) (gf : Grav2 ℝ) (q : Fld2 ℝ) (i j : Int) :
    fluxX2 (U.params p) g (U.T * dt) (U.grav2 gf) (fun i j => U.prim (q i j)) i j =
      U.cons (fluxX2 p g dt gf q i j) := by
  unfold fluxX2
  rw [face2_units, face2_units]
  show ((riemannHydro2 (U.settings p.settings) p.riemannSolverType _ _ _).smul
    (U.T * dt / (U.L * p.dx))).trunc = _
  rw [riemannHydro2_units, courant_units, fluxcons, cons_trunc]

theorem fluxY2_units (p : Params ℝ) (g : GravityParams) (dt : ℝ) (gf : Grav2 ℝ) (q : Fld2 ℝ) (i j : Int) :
    fluxY2 (U.params p) g (U.T * dt) (U.grav2 gf) (fun i j => U.prim (q i j)) i j =
      U.cons (fluxY2 p g dt gf q i j) := by
  unfold fluxY2
  rw [face2_units, face2_units, prim_swapUV, prim_swapUV]
  show ((riemannHydro2 (U.settings p.settings) p.riemannSolverType _ _ _).smul
    (U.T * dt / (U.L * p.dy))).swapUV.trunc = _
  rw [riemannHydro2_units, courant_units, fluxcons, cons_swapUV, cons_trunc]

theorem work_units (a b c d : ℝ) : lit (1/2) * ((U.D * U.V * a) * (U.D * U.V * a) + (U.D * U.V * b) * (U.D * U.V * b)) /
      (U.D * d) = U.D * U.V ^ 2 * (lit (1/2) * (a * a + b * b) / d) := by
  have hD := U.hD
  have hV := U.hV
  exact div_sc (a := U.D ^ 2 * U.V ^ 2) (by positivity) hD (by ring) rfl (by ring)

theorem push_units (dt gx a b c : ℝ) : U.D * U.V * a + lit (1/2) * (U.T * dt) * (U.G * gx) * (U.D * b + U.D * c) =
    U.D * U.V * (a + lit (1/2) * dt * gx * (b + c)) := by
  rw [halfKick_units]; ring

theorem gravity2_units (p : Params ℝ) (dt : ℝ) (gxy : ℝ × ℝ) (uOld u : HS ℝ) :
    gravity2 (U.params p) (U.T * dt) (U.G * gxy.1, U.G * gxy.2) (U.cons uOld) (U.cons u) =
      U.cons (gravity2 p dt gxy uOld u) := by
  have hD := U.hD
  unfold gravity2
  have h1 : fmax (U.params p).settings.smallr (U.cons u).d = U.D * fmax p.settings.smallr u.d :=
    max_sc hD rfl rfl
  dsimp only
  rw [h1]
  simp only [Units.cons, push_units, work_units U _ _ 0]
  rw [HS.mk.injEq]
  exact ⟨rfl, by ring, rfl, rfl, rfl⟩

theorem step2_units (p : Params ℝ) (g : GravityParams) (dt : ℝ) (gf : Grav2 ℝ) (u : Fld2 ℝ) (i j : Int) :
    step2 (U.params p) g (U.T * dt) (U.grav2 gf) (fun i j => U.cons (u i j)) i j =
      U.cons (step2 p g dt gf u i j) := by
  have hq : prim2 (U.params p) (fun i j => U.cons (u i j)) = fun i j => U.prim (prim2 p u i j) := by
    funext i j
    unfold prim2
    show (computePrimitives2 (U.settings p.settings) _).1 = _
    rw [computePrimitives2_units]
  unfold step2
  by_cases h : interior2 p i j
  · rw [if_pos h, if_pos (show interior2 (U.params p) i j from h)]
    dsimp only
    rw [hq]
    have hv : fluxUpdate2 (fluxX2 (U.params p) g (U.T * dt) (U.grav2 gf) fun i j => U.prim (prim2 p u i j))
        (fluxY2 (U.params p) g (U.T * dt) (U.grav2 gf) fun i j => U.prim (prim2 p u i j)) (U.cons (u i j)) i j =
        U.cons (fluxUpdate2 (fluxX2 p g dt gf (prim2 p u)) (fluxY2 p g dt gf (prim2 p u)) (u i j) i j) := by
      unfold fluxUpdate2
      rw [fluxX2_units, fluxX2_units, fluxY2_units, fluxY2_units, cons_add, cons_sub, cons_add, cons_sub,
        cons_trunc]
    rw [hv]
    split_ifs
    · exact gravity2_units U p dt (gf i j) _ _
    · rfl
  · rw [if_neg h, if_neg (show ¬ interior2 (U.params p) i j from h)]

theorem fill2_units (p : Params ℝ) (u : Fld2 ℝ) :
    fill2 (U.params p) (fun i j => U.cons (u i j)) = fun i j => U.cons (fill2 p u i j) := by
  funext i j
  unfold fill2
  simp only [Units.cons, signed_scale]
  rw [HS.mk.injEq]
  exact ⟨rfl, rfl, rfl, rfl, zero_sc _⟩

theorem fullStep2_units (p : Params ℝ) (g : GravityParams) (dt : ℝ) (gf : Grav2 ℝ) (u : Fld2 ℝ) (i j : Int) :
    fullStep2 (U.params p) g (U.T * dt) (U.grav2 gf) (fun i j => U.cons (u i j)) i j =
      U.cons (fullStep2 p g dt gf u i j) := by
  unfold fullStep2
  rw [fill2_units, step2_units]

/-! ## The time step -/

theorem sound_units (s : Settings ℝ) (q : HS ℝ) : sound (U.settings s) (U.prim q) = U.V * sound s q := by
  have hD := U.hD
  have hV := U.hV
  exact sqrt_scale hV (div_sc (a := U.D * U.V ^ 2) (by positivity) hD
    (by simp only [Units.settings, Units.prim]; ring) rfl (by ring))

theorem speed_units (s : Settings ℝ) (q : HS ℝ) (a : ℝ) :
    |U.V * a| + sound (U.settings s) (U.prim q) = U.V * (|a| + sound s q) := by
  rw [abs_scale U.hV, sound_units]; ring

theorem gravVel_units (cfl dx u G : ℝ) :
    gravVel cfl (U.L * dx) (U.V * u) (U.G * G) = U.V * gravVel cfl dx u G := by
  have hL := U.hL
  have hV := U.hV
  unfold gravVel
  have e : U.G * G * (cfl * (U.L * dx) / (U.V * u * (U.V * u))) = G * (cfl * dx / (u * u)) := by
    rw [div_sc (x' := cfl * dx) (y' := u * u) (a := U.L) (b := U.V ^ 2) (c := U.L / U.V ^ 2) hL (by positivity)
      (by ring) (by ring) (by field_simp)]
    unfold Units.G
    field_simp
  simp only [e]
  ring

theorem rate_div (a b : ℝ) : U.V * a / (U.L * b) = U.T⁻¹ * (a / b) := by
  have hL := U.hL
  have hV := U.hV
  unfold Units.T
  exact div_sc hV hL rfl rfl (by field_simp)

theorem rate2_units (p : Params ℝ) (g : GravityParams) (gf : Grav2 ℝ) (u : Fld2 ℝ) (i j : Int) :
    rate2 (U.params p) g (U.grav2 gf) (fun i j => U.cons (u i j)) i j = U.T⁻¹ * rate2 p g gf u i j := by
  have hL := U.hL
  have hV := U.hV
  have hG : 0 < U.G := by unfold Units.G; positivity
  unfold rate2
  simp only [show (U.params p).settings = U.settings p.settings from rfl, computePrimitives2_units,
    show (U.params p).dx = U.L * p.dx from rfl, show (U.params p).dy = U.L * p.dy from rfl,
    Units.grav2, min_scale hL, abs_scale hG]
  generalize (computePrimitives2 p.settings (u i j)).1 = q
  split_ifs
  · have e1 : |(U.prim q).u| + sound (U.settings p.settings) (U.prim q) = U.V * (|q.u| + sound p.settings q) :=
      speed_units U _ _ _
    have e2 : |(U.prim q).v| + sound (U.settings p.settings) (U.prim q) = U.V * (|q.v| + sound p.settings q) :=
      speed_units U _ _ _
    rw [e1, e2, ← mul_add, ← mul_add, ← rate_div]
    exact congrArg (· / (U.L * min p.dx p.dy)) (gravVel_units U _ _ _ _)
  · unfold cflRate2
    show (|U.V * q.u| + sound (U.settings p.settings) _) / (U.L * p.dx) +
      (|U.V * q.v| + sound (U.settings p.settings) _) / (U.L * p.dy) = _
    rw [speed_units, speed_units, rate_div, rate_div]; ring

theorem sSup_scale {c : ℝ} (hc : 0 < c) {S S' : Set ℝ} (h : ∀ r, r ∈ S' ↔ ∃ x ∈ S, r = c * x) :
    sSup S' = c * sSup S := by
  have e : S' = c • S := by
    ext r
    rw [h, Set.mem_smul_set]
    exact ⟨fun ⟨x, hx, e⟩ => ⟨x, hx, e.symm⟩, fun ⟨x, hx, e⟩ => ⟨x, hx, e.symm⟩⟩
  rw [e, Real.sSup_smul_of_nonneg hc.le, smul_eq_mul]

theorem cflDt2_units (p : Params ℝ) (g : GravityParams) (gf : Grav2 ℝ) (u : Fld2 ℝ) :
    cflDt2 (U.params p) g (U.grav2 gf) (fun i j => U.cons (u i j)) = U.T * cflDt2 p g gf u := by
  have hT := U.T_pos
  unfold cflDt2
  rw [sSup_scale (c := U.T⁻¹) (inv_pos.2 hT) (S := {r | ∃ i j, interior2 p i j ∧ r = rate2 p g gf u i j})]
  · show p.settings.cfl / _ = _
    rw [div_mul_eq_div_div]
    rw [div_inv_eq_mul]
    ring
  · intro r
    constructor
    · rintro ⟨i, j, hij, rfl⟩
      exact ⟨_, ⟨i, j, hij, rfl⟩, rate2_units U p g gf u i j⟩
    · rintro ⟨_, ⟨i, j, hij, rfl⟩, rfl⟩
      exact ⟨i, j, hij, (rate2_units U p g gf u i j).symm⟩

/-! ## 3D -/

theorem kick3_units (g : GravityParams) (dt : ℝ) (gv : ℝ × ℝ × ℝ) (q : HS ℝ) :
    kick3 g (U.T * dt) (U.G * gv.1, U.G * gv.2.1, U.G * gv.2.2) (U.prim q) = U.prim (kick3 g dt gv q) := by
  unfold kick3
  split_ifs
  · simp only [Units.prim, halfKick_units, mul_add]
  · rfl

theorem trace3_units (p : Params ℝ) (dt : ℝ) (q : Fld3 ℝ) (f : Face) (i j k : Int) :
    trace3 (U.params p) (U.T * dt) (fun i j k => U.prim (q i j k)) f i j k = U.prim (trace3 p dt q f i j k) := by
  unfold trace3 slopes3
  show traceAlongDir3 (U.settings p.settings) _ _ (U.T * dt / (U.L * p.dx)) (U.T * dt / (U.L * p.dy))
    (U.T * dt / (U.L * p.dz)) f = _
  rw [courant_units, courant_units, courant_units]
  simp only [show (U.params p).settings = U.settings p.settings from rfl]
  rw [slope3_units, traceAlongDir3_units]

theorem face3_units (p : Params ℝ) (g : GravityParams) (dt : ℝ) (gf : Grav3 ℝ) (q : Fld3 ℝ) (f : Face)
    (i j k : Int) :
    face3 (U.params p) g (U.T * dt) (U.grav3 gf) (fun i j k => U.prim (q i j k)) f i j k =
      U.prim (face3 p g dt gf q f i j k) := by
  unfold face3
  rw [trace3_units]
  exact kick3_units U g dt (gf i j k) _

theorem fluxX3_units (p : Params ℝ) (g : GravityParams) (dt : ℝ) (gf : Grav3 ℝ) (q : Fld3 ℝ) (i j k : Int) :
    fluxX3 (U.params p) g (U.T * dt) (U.grav3 gf) (fun i j k => U.prim (q i j k)) i j k =
      U.cons (fluxX3 p g dt gf q i j k) := by
  unfold fluxX3
  rw [face3_units, face3_units]
  show (riemannHydro3 (U.settings p.settings) p.riemannSolverType _ _ _).smul (U.T * dt / (U.L * p.dx)) = _
  rw [riemannHydro3_units, courant_units, fluxcons]

theorem fluxY3_units (p : Params ℝ) (g : GravityParams) (dt : ℝ) (gf : Grav3 ℝ) (q : Fld3 ℝ) (i j k : Int) :
    fluxY3 (U.params p) g (U.T * dt) (U.grav3 gf) (fun i j k => U.prim (q i j k)) i j k =
      U.cons (fluxY3 p g dt gf q i j k) := by
  unfold fluxY3
  rw [face3_units, face3_units, prim_swapUV, prim_swapUV]
  show ((riemannHydro3 (U.settings p.settings) p.riemannSolverType _ _ _).smul
    (U.T * dt / (U.L * p.dy))).swapUV = _
  rw [riemannHydro3_units, courant_units, fluxcons, cons_swapUV]

theorem fluxZ3_units (zk : Bool) (p : Params ℝ) (g : GravityParams) (dt : ℝ) (gf : Grav3 ℝ) (q : Fld3 ℝ)
    (i j k : Int) :
    fluxZ3 zk (U.params p) g (U.T * dt) (U.grav3 gf) (fun i j k => U.prim (q i j k)) i j k =
      U.cons (fluxZ3 zk p g dt gf q i j k) := by
  unfold fluxZ3
  have e : (if zk = true then face3 (U.params p) g (U.T * dt) (U.grav3 gf) (fun i j k => U.prim (q i j k)) .zmin i j k
      else trace3 (U.params p) (U.T * dt) (fun i j k => U.prim (q i j k)) .zmin i j k) =
      U.prim (if zk = true then face3 p g dt gf q .zmin i j k else trace3 p dt q .zmin i j k) := by
    split_ifs
    · exact face3_units U p g dt gf q _ _ _ _
    · exact trace3_units U p dt q _ _ _ _
  rw [e, face3_units, prim_swapUW, prim_swapUW]
  show ((riemannHydro3 (U.settings p.settings) p.riemannSolverType _ _ _).smul
    (U.T * dt / (U.L * p.dz))).swapUW = _
  rw [riemannHydro3_units, courant_units, fluxcons, cons_swapUW]

theorem work3_units (a b c d : ℝ) : lit (1/2) * ((U.D * U.V * a) * (U.D * U.V * a) +
      (U.D * U.V * b) * (U.D * U.V * b) + (U.D * U.V * c) * (U.D * U.V * c)) / (U.D * d) =
      U.D * U.V ^ 2 * (lit (1/2) * (a * a + b * b + c * c) / d) := by
  have hD := U.hD
  have hV := U.hV
  exact div_sc (a := U.D ^ 2 * U.V ^ 2) (by positivity) hD (by ring) rfl (by ring)

theorem gravity3_units (dt : ℝ) (gv : ℝ × ℝ × ℝ) (uOld u : HS ℝ) :
    gravity3 (U.T * dt) (U.G * gv.1, U.G * gv.2.1, U.G * gv.2.2) (U.cons uOld) (U.cons u) =
      U.cons (gravity3 dt gv uOld u) := by
  unfold gravity3
  dsimp only
  simp only [Units.cons, push_units, work3_units]
  rw [HS.mk.injEq]
  exact ⟨rfl, by ring, rfl, rfl, rfl⟩

theorem step3_units (zk : Bool) (p : Params ℝ) (g : GravityParams) (dt : ℝ) (gf : Grav3 ℝ) (u : Fld3 ℝ)
    (i j k : Int) :
    step3 zk (U.params p) g (U.T * dt) (U.grav3 gf) (fun i j k => U.cons (u i j k)) i j k =
      U.cons (step3 zk p g dt gf u i j k) := by
  have hq : prim3 (U.params p) (fun i j k => U.cons (u i j k)) = fun i j k => U.prim (prim3 p u i j k) := by
    funext i j k
    unfold prim3
    show (computePrimitives3 (U.settings p.settings) _).1 = _
    rw [computePrimitives3_units]
  unfold step3
  by_cases h : interior3 p i j k
  · rw [if_pos h, if_pos (show interior3 (U.params p) i j k from h)]
    dsimp only
    rw [hq]
    have hv : fluxUpdate3 (fluxX3 (U.params p) g (U.T * dt) (U.grav3 gf) fun i j k => U.prim (prim3 p u i j k))
        (fluxY3 (U.params p) g (U.T * dt) (U.grav3 gf) fun i j k => U.prim (prim3 p u i j k))
        (fluxZ3 zk (U.params p) g (U.T * dt) (U.grav3 gf) fun i j k => U.prim (prim3 p u i j k))
        (U.cons (u i j k)) i j k =
        U.cons (fluxUpdate3 (fluxX3 p g dt gf (prim3 p u)) (fluxY3 p g dt gf (prim3 p u))
          (fluxZ3 zk p g dt gf (prim3 p u)) (u i j k) i j k) := by
      unfold fluxUpdate3
      rw [fluxX3_units, fluxX3_units, fluxY3_units, fluxY3_units, fluxZ3_units, fluxZ3_units, cons_add, cons_sub,
        cons_add, cons_sub, cons_add, cons_sub]
    rw [hv]
    split_ifs
    · exact gravity3_units U dt (gf i j k) _ _
    · rfl
  · rw [if_neg h, if_neg (show ¬ interior3 (U.params p) i j k from h)]

theorem fill3_units (p : Params ℝ) (u : Fld3 ℝ) :
    fill3 (U.params p) (fun i j k => U.cons (u i j k)) = fun i j k => U.cons (fill3 p u i j k) := by
  funext i j k
  unfold fill3
  simp only [Units.cons, signed_scale]
  rfl

theorem fullStep3_units (zk : Bool) (p : Params ℝ) (g : GravityParams) (dt : ℝ) (gf : Grav3 ℝ) (u : Fld3 ℝ)
    (i j k : Int) :
    fullStep3 zk (U.params p) g (U.T * dt) (U.grav3 gf) (fun i j k => U.cons (u i j k)) i j k =
      U.cons (fullStep3 zk p g dt gf u i j k) := by
  unfold fullStep3
  rw [fill3_units, step3_units]

theorem rate3_units (p : Params ℝ) (g : GravityParams) (gf : Grav3 ℝ) (u : Fld3 ℝ) (i j k : Int) :
    rate3 (U.params p) g (U.grav3 gf) (fun i j k => U.cons (u i j k)) i j k = U.T⁻¹ * rate3 p g gf u i j k := by
  have hL := U.hL
  have hV := U.hV
  have hG : 0 < U.G := by unfold Units.G; positivity
  unfold rate3
  simp only [show (U.params p).settings = U.settings p.settings from rfl, computePrimitives3_units,
    show (U.params p).dx = U.L * p.dx from rfl, show (U.params p).dy = U.L * p.dy from rfl,
    show (U.params p).dz = U.L * p.dz from rfl, Units.grav3, min_scale hL, abs_scale hG]
  generalize (computePrimitives3 p.settings (u i j k)).1 = q
  have e1 : |(U.prim q).u| + sound (U.settings p.settings) (U.prim q) = U.V * (|q.u| + sound p.settings q) :=
    speed_units U _ _ _
  have e2 : |(U.prim q).v| + sound (U.settings p.settings) (U.prim q) = U.V * (|q.v| + sound p.settings q) :=
    speed_units U _ _ _
  have e3 : |(U.prim q).w| + sound (U.settings p.settings) (U.prim q) = U.V * (|q.w| + sound p.settings q) :=
    speed_units U _ _ _
  split_ifs
  · rw [e1, e2, e3, ← mul_add, ← mul_add, ← mul_add, ← mul_add, ← rate_div]
    exact congrArg (· / (U.L * min (min p.dx p.dy) p.dz)) (gravVel_units U _ _ _ _)
  · unfold cflRate3
    show (|U.V * q.u| + sound (U.settings p.settings) _) / (U.L * p.dx) +
      (|U.V * q.v| + sound (U.settings p.settings) _) / (U.L * p.dy) +
      (|U.V * q.w| + sound (U.settings p.settings) _) / (U.L * p.dz) = _
    rw [speed_units, speed_units, speed_units, rate_div, rate_div, rate_div]; ring

theorem cflDt3_units (p : Params ℝ) (g : GravityParams) (gf : Grav3 ℝ) (u : Fld3 ℝ) :
    cflDt3 (U.params p) g (U.grav3 gf) (fun i j k => U.cons (u i j k)) = U.T * cflDt3 p g gf u := by
  have hT := U.T_pos
  unfold cflDt3
  rw [sSup_scale (c := U.T⁻¹) (inv_pos.2 hT) (S := {r | ∃ i j k, interior3 p i j k ∧ r = rate3 p g gf u i j k})]
  · show p.settings.cfl / _ = _
    rw [div_mul_eq_div_div]
    rw [div_inv_eq_mul]
    ring
  · intro r
    constructor
    · rintro ⟨i, j, k, hij, rfl⟩
      exact ⟨_, ⟨i, j, k, hij, rfl⟩, rate3_units U p g gf u i j k⟩
    · rintro ⟨_, ⟨i, j, k, hij, rfl⟩, rfl⟩
      exact ⟨i, j, k, hij, (rate3_units U p g gf u i j k).symm⟩

/-! ## Runs with scaled time -/

section
variable {X Y : Type} {p p' : Params ℝ} {M : Method X} {M' : Method Y} {E : X → Y → Prop} {τ : ℝ}

/-- two methods whose states correspond while times differ by the factor `τ` -/
structure Scaled (τ : ℝ) (p p' : Params ℝ) (M : Method X) (M' : Method Y) (E : X → Y → Prop) : Prop where
  pos : 0 < τ
  tEnd : p'.tEnd = τ * p.tEnd
  nOutput : p'.nOutput = p.nOutput
  nStepmax : p'.nStepmax = p.nStepmax
  out : p.nOutput ≤ 0 ∨ τ = 1
  dt : ∀ x y, E x y → M'.cflDt y = τ * M.cflDt x
  adv : ∀ d x y, E x y → E (M.advance d x) (M'.advance (τ * d) y)

/-- corresponding files -/
def FileScaled (τ : ℝ) (E : X → Y → Prop) (f : Int × ℝ × X) (g : Int × ℝ × Y) : Prop :=
  g.1 = f.1 ∧ g.2.1 = τ * f.2.1 ∧ E f.2.2 g.2.2

structure SimScaled (τ : ℝ) (E : X → Y → Prop) (a : Sim X) (b : Sim Y) : Prop where
  x : E a.x b.x
  t : b.t = τ * a.t
  n : b.n = a.n
  next : b.next = a.next
  files : List.Forall₂ (FileScaled τ E) a.files b.files

theorem SimScaled.save {a : Sim X} {b : Sim Y} (h : SimScaled τ E a b) : SimScaled τ E a.save b.save := by
  refine ⟨h.x, h.t, h.n, ?_, ?_⟩
  · show b.next + 1 = a.next + 1
    rw [h.next]
  · exact List.rel_append h.files (.cons ⟨h.next, h.t, h.x⟩ .nil)

theorem SimScaled.turn (hR : Scaled τ p p' M M' E) {a : Sim X} {b : Sim Y} (h : SimScaled τ E a b) :
    SimScaled τ E (a.turn p M) (b.turn p' M') := by
  have hd : a.Due p ↔ b.Due p' := by
    unfold Sim.Due
    rw [hR.nOutput]
    rcases hR.out with ho | ho
    · have e1 : ¬ 0 < p.nOutput := by omega
      simp only [e1, false_and, or_false]
    · rw [hR.tEnd, h.next, h.t, ho, one_mul, one_mul]
  have key : ∀ {a : Sim X} {b : Sim Y}, SimScaled τ E a b →
      SimScaled τ E { a with x := M.advance (min (M.cflDt a.x) (p.tEnd - a.t)) a.x,
                             t := a.t + min (M.cflDt a.x) (p.tEnd - a.t), n := a.n + 1 }
        { b with x := M'.advance (min (M'.cflDt b.x) (p'.tEnd - b.t)) b.x,
                 t := b.t + min (M'.cflDt b.x) (p'.tEnd - b.t), n := b.n + 1 } := by
    intro a b h
    have e : min (M'.cflDt b.x) (p'.tEnd - b.t) = τ * min (M.cflDt a.x) (p.tEnd - a.t) := by
      rw [hR.dt _ _ h.x, hR.tEnd, h.t, ← mul_sub, min_scale hR.pos]
    refine ⟨?_, ?_, ?_, h.next, h.files⟩
    · show E _ (M'.advance (min (M'.cflDt b.x) (p'.tEnd - b.t)) b.x)
      rw [e]; exact hR.adv _ _ _ h.x
    · show b.t + min (M'.cflDt b.x) (p'.tEnd - b.t) = τ * (a.t + _)
      rw [e, h.t, mul_add]
    · show b.n + 1 = a.n + 1
      rw [h.n]
  unfold Sim.turn
  by_cases hc : a.Due p
  · simp only [if_pos hc, if_pos (hd.1 hc)]
    exact key h.save
  · simp only [if_neg hc, if_neg (fun h => hc (hd.2 h))]
    exact key h

theorem SimScaled.start (hR : Scaled τ p p' M M' E) {x : X} {y : Y} (h : E x y) (t : ℝ) (sv : Int) :
    SimScaled τ E (Sim.start p x t sv) (Sim.start p' y (τ * t) sv) := by
  have h0 : SimScaled τ E (⟨x, t, 0, sv, []⟩ : Sim X) ⟨y, τ * t, 0, sv, []⟩ := ⟨h, rfl, rfl, rfl, .nil⟩
  unfold Sim.start
  rw [hR.nOutput]
  split_ifs
  · exact h0.save
  · exact h0

theorem SimScaled.turns (hR : Scaled τ p p' M M' E) {a : Sim X} {b : Sim Y} (h : SimScaled τ E a b) (k : Nat) :
    SimScaled τ E ((Sim.turn p M)^[k] a) ((Sim.turn p' M')^[k] b) := by
  induction k with
  | zero => exact h
  | succ k ih => rw [Function.iterate_succ_apply', Function.iterate_succ_apply']; exact ih.turn hR

theorem SimScaled.result (hR : Scaled τ p p' M M' E) {x : X} {y : Y} (h : E x y) (t : ℝ) (sv : Int)
    (k : Nat) : SimScaled τ E (Sim.result p M x t sv k) (Sim.result p' M' y (τ * t) sv k) := by
  have h1 := (SimScaled.start hR h t sv).turns hR k
  unfold Sim.result
  simp only [hR.nOutput]
  split_ifs
  · exact h1.save
  · exact h1

theorem Sim.result_t (p : Params ℝ) (M : Method X) (x : X) (t : ℝ) (sv : Int) (k : Nat) :
    (Sim.result p M x t sv k).t = ((Sim.turn p M)^[k] (Sim.start p x t sv)).t := by
  unfold Sim.result
  dsimp only
  split_ifs <;> rfl

/-- iterations made: the run in the larger time unit stops at the same iteration if the run in the
smaller one ends exactly at `tEnd` -/
theorem SimScaled.length (hR : Scaled τ p p' M M' E) {x : X} {y : Y} (h : E x y) {t : ℝ} {sv : Int}
    {k : Nat} (hk : Sim.Length p M x t sv k)
    (hend : τ = 1 ∨ (1 ≤ τ ∧ ((Sim.result p M x t sv k).t = p.tEnd ∨
      p.nStepmax ≤ (((Sim.turn p M)^[k] (Sim.start p x t sv)).n : Int)))) :
    Sim.Length p' M' y (τ * t) sv k := by
  have hs := fun k => (SimScaled.start hR h t sv).turns hR k
  rw [Sim.result_t] at hend
  refine ⟨?_, fun l hl ho => hk.2 l hl ?_⟩
  · have h1 := hs k
    unfold Sim.Over
    rw [hR.tEnd, hR.nStepmax, h1.t, h1.n]
    rcases hend with e | ⟨_, e | e⟩
    · rw [e, one_mul, one_mul]; exact hk.1
    · left; rw [e]; linarith
    · exact Or.inr e
  · have h1 := hs l
    unfold Sim.Over at ho ⊢
    rw [hR.tEnd, hR.nStepmax, h1.t, h1.n] at ho
    rcases hend with e | ⟨h1τ, _⟩
    · rw [e, one_mul, one_mul] at ho; exact ho
    · rcases ho with ho | ho
      · left
        by_contra hc
        push Not at hc
        nlinarith
      · exact Or.inr ho
end

theorem GoodGrid.units {p : Params ℝ} (hg : GoodGrid p) : GoodGrid (U.params p) := by
  have hD := U.hD
  have hV := U.hV
  have hL := U.hL
  obtain ⟨⟨h1, h2, h3, h4, h5, h6⟩, c, x, y, z⟩ := hg
  refine ⟨⟨h1, mul_pos hD h2, mul_pos hV h3, ?_, ?_, h6⟩, c, mul_pos hL x, mul_pos hL y, mul_pos hL z⟩
  · show U.V ^ 2 * _ = U.V * _ * (U.V * _) / _
    rw [h4]; simp only [Units.params, Units.settings]; ring
  · show U.D * U.V ^ 2 * _ = U.D * _ * (U.V ^ 2 * _)
    rw [h5]; ring

theorem Hydro2.units {p : Params ℝ} (hp : Hydro2 p) : Hydro2 (U.params p) :=
  ⟨⟨hp.wf.1, hp.wf.2, hp.wf.3, hp.wf.4, hp.wf.5, hp.wf.6, hp.wf.7, hp.wf.8, hp.wf.9, hp.wf.10, hp.wf.11,
    hp.wf.12, hp.wf.13⟩, hp.nbvar, ⟨hp.valid.1, hp.valid.2⟩, hp.faces⟩

theorem Hydro3.units {p : Params ℝ} (hp : Hydro3 p) : Hydro3 (U.params p) :=
  ⟨⟨hp.wf.1, hp.wf.2, hp.wf.3, hp.wf.4, hp.wf.5, hp.wf.6, hp.wf.7, hp.wf.8, hp.wf.9, hp.wf.10, hp.wf.11,
    hp.wf.12, hp.wf.13⟩, hp.nbvar, ⟨hp.valid.1, hp.valid.2⟩, hp.faces⟩

theorem scaled_hydro2 {p : Params ℝ} (hp : Hydro2 p) (ho : p.nOutput ≤ 0 ∨ U.T = 1) {g : GravityParams}
    {gf gf' : Grav2 ℝ} (hG : g.enabled = true → ∀ i j, inGrid2 p i j → gf' i j = U.grav2 gf i j) :
    Scaled U.T p (U.params p) (hydro2 p g gf) (hydro2 (U.params p) g gf')
      (fun x y => ∀ i j, interior2 p i j → y i j = U.cons (x i j)) where
  pos := U.T_pos
  tEnd := rfl
  nOutput := rfl
  nStepmax := rfl
  out := ho
  dt x y h := by
    have e : cflDt2 (U.params p) g gf' y = cflDt2 (U.params p) g (U.grav2 gf) (fun i j => U.cons (x i j)) :=
      cflDt2_congr_grav (fun hen i j hij => hG hen i j (interior_inGrid2 hp.wf hij)) h
    exact e.trans (cflDt2_units U p g gf x)
  adv d x y h := by
    intro i j hij
    show fullStep2 (U.params p) g (U.T * d) gf' y i j = U.cons (fullStep2 p g d gf x i j)
    rw [← fullStep2_units]
    exact fullStep2_congr_grav' (hp.units U) h hG i j hij

theorem scaled_hydro3 {zk : Bool} {p : Params ℝ} (hp : Hydro3 p) (ho : p.nOutput ≤ 0 ∨ U.T = 1)
    {g : GravityParams} {gf gf' : Grav3 ℝ}
    (hG : g.enabled = true → ∀ i j k, inGrid3 p i j k → gf' i j k = U.grav3 gf i j k) :
    Scaled U.T p (U.params p) (hydro3 zk p g gf) (hydro3 zk (U.params p) g gf')
      (fun x y => ∀ i j k, interior3 p i j k → y i j k = U.cons (x i j k)) where
  pos := U.T_pos
  tEnd := rfl
  nOutput := rfl
  nStepmax := rfl
  out := ho
  dt x y h := by
    have e : cflDt3 (U.params p) g gf' y = cflDt3 (U.params p) g (U.grav3 gf) (fun i j k => U.cons (x i j k)) :=
      cflDt3_congr_grav (fun hen i j k hij => hG hen i j k (interior_inGrid3 hp.wf hij)) h
    exact e.trans (cflDt3_units U p g gf x)
  adv d x y h := by
    intro i j k hij
    show fullStep3 zk (U.params p) g (U.T * d) gf' y i j k = U.cons (fullStep3 zk p g d gf x i j k)
    rw [← fullStep3_units]
    exact fullStep3_congr_grav (hp.units U) h hG i j k hij

end EulerKokkos
