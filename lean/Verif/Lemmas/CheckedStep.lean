import Verif.Lemmas.CheckedHydro
import Verif.Lemmas.HydroStep2D
import Verif.Lemmas.HydroStep3D
import Verif.Props.C15

/-!
# Checked arithmetic: the hydro step
-/

set_option linter.unusedSimpArgs false
set_option linter.constructorNameAsVariable false
set_option linter.unusedSectionVars false

namespace EulerKokkos

open Chk Spec

theorem signLaws_chk : SignLaws Chk where
  mul_one x := by
    cases x with
    | ok x => rw [ok_lit, ok_mul]; simp
    | bad => rfl
  mul_neg_one x := by
    cases x with
    | ok x => rw [ok_lit, ok_mul, ok_neg]; simp
    | bad => rfl

theorem HS.map_mk {R S : Type} (f : R → S) (a b c d e : R) :
    (⟨f a, f b, f c, f d, f e⟩ : HS S) = (⟨a, b, c, d, e⟩ : HS R).map f := rfl

section
variable {s : Settings ℝ} (hs : GoodSettings s)
include hs

theorem computePrimitives2_ok (u : HS ℝ) :
    computePrimitives2 (s.map ok) (u.map ok) =
      ((computePrimitives2 s u).1.map ok, ok (computePrimitives2 s u).2) := by
  have hd : 0 < fmax u.d s.smallr := lt_max_of_lt_right hs.smallr
  have hp := hs.smallp_pos
  have hg := hs.gamma
  unfold computePrimitives2
  simp only [HS.map, Settings.map, ok_fmax]
  generalize fmax u.d s.smallr = d at *
  have hd' := hd.ne'
  have hc : 0 ≤ s.gamma0 * fmax ((s.gamma0 - lit 1) * d *
      (u.p / d - lit (1 / 2) * (u.u / d * (u.u / d) + u.v / d * (u.v / d)))) (d * s.smallp) / d := by
    have : 0 < fmax ((s.gamma0 - lit 1) * d *
      (u.p / d - lit (1 / 2) * (u.u / d * (u.u / d) + u.v / d * (u.v / d)))) (d * s.smallp) :=
      lt_max_of_lt_right (by positivity)
    have : 0 < s.gamma0 := by linarith
    positivity
  push_ok []

theorem computePrimitives3_ok (u : HS ℝ) :
    computePrimitives3 (s.map ok) (u.map ok) =
      ((computePrimitives3 s u).1.map ok, ok (computePrimitives3 s u).2) := by
  have hd : 0 < fmax u.d s.smallr := lt_max_of_lt_right hs.smallr
  have hp := hs.smallp_pos
  have hg := hs.gamma
  unfold computePrimitives3
  simp only [HS.map, Settings.map, ok_fmax]
  generalize fmax u.d s.smallr = d at *
  have hd' := hd.ne'
  have hc : 0 ≤ s.gamma0 * fmax ((s.gamma0 - lit 1) * d *
      (u.p / d - lit (1 / 2) * (u.u / d * (u.u / d) + u.v / d * (u.v / d) + u.w / d * (u.w / d))))
        (d * s.smallp) / d := by
    have : 0 < fmax ((s.gamma0 - lit 1) * d *
      (u.p / d - lit (1 / 2) * (u.u / d * (u.u / d) + u.v / d * (u.v / d) + u.w / d * (u.w / d))))
        (d * s.smallp) :=
      lt_max_of_lt_right (by positivity)
    have : 0 < s.gamma0 := by linarith
    positivity
  push_ok []

theorem riemannHydro2_ok (rt : RiemannType) (l r f : HS ℝ) :
    riemannHydro2 (s.map ok) rt (l.map ok) (r.map ok) (f.map ok) = (riemannHydro2 s rt l r f).map ok := by
  cases rt
  · exact approx_ok hs l r false
  · exact llf_ok hs l r false
  · exact hll_ok hs l r false
  · exact hllc_ok hs l r false
  · rfl

theorem riemannHydro3_ok (rt : RiemannType) (l r f : HS ℝ) :
    riemannHydro3 (s.map ok) rt (l.map ok) (r.map ok) (f.map ok) = (riemannHydro3 s rt l r f).map ok := by
  cases rt
  · exact approx_ok hs l r true
  · exact llf_ok hs l r true
  · rfl
  · exact hllc_ok hs l r true
  · rfl

end

theorem slopeScalarDir_ok (t q a b : ℝ) :
    slopeScalarDir (ok t) (ok q) (ok a) (ok b) = ok (slopeScalarDir t q a b) := by
  unfold slopeScalarDir
  cases h1 : RealOps.le (lit 0) (lit (1 / 2) * (a - b)) <;>
  cases h2 : RealOps.le (t * (q - b) * (t * (a - q))) (lit 0) <;>
  simp only [geb, ok_sub, ok_mul, ok_lit, ok_fabs, ok_fmin, ok_le, ok_neg, h1, h2, Bool.false_eq_true,
    if_true, if_false]

theorem zero_ok : (HS.zero : HS Chk) = (HS.zero : HS ℝ).map ok := rfl

theorem slope2_ok (s : Settings ℝ) (q a b c d x y : HS ℝ) :
    slope2 (s.map ok) (q.map ok) (a.map ok) (b.map ok) (c.map ok) (d.map ok) (x.map ok) (y.map ok) =
      ((slope2 s q a b c d x y).1.map ok, (slope2 s q a b c d x y).2.map ok) := by
  unfold slope2
  simp only [Settings.map, HS.map, ok_beq, ok_lit, slopeScalar2, slopeScalarDir_ok]
  split_ifs <;> rfl

theorem slope3_ok (s : Settings ℝ) (q a b c d e f : HS ℝ) (x : Slopes3 ℝ) :
    slope3 (s.map ok) (q.map ok) (a.map ok) (b.map ok) (c.map ok) (d.map ok) (e.map ok) (f.map ok)
      ⟨x.x.map ok, x.y.map ok, x.z.map ok⟩ =
      ⟨(slope3 s q a b c d e f x).x.map ok, (slope3 s q a b c d e f x).y.map ok,
        (slope3 s q a b c d e f x).z.map ok⟩ := by
  unfold slope3
  simp only [Settings.map, HS.map, ok_beq, ok_lit, slopeScalarDir_ok]
  split_ifs <;> rfl

theorem traceAlongDir2_ok (s : Settings ℝ) (q a b : HS ℝ) (x y : ℝ) (f : Face) (h : q.d ≠ 0) :
    traceAlongDir2 (s.map ok) (q.map ok) (a.map ok) (b.map ok) (ok x) (ok y) f =
      (traceAlongDir2 s q a b x y f).map ok := by
  cases f <;> push_ok [traceAlongDir2]

theorem traceAlongDir3_ok (s : Settings ℝ) (q a b c : HS ℝ) (x y z : ℝ) (f : Face) (h : q.d ≠ 0) :
    traceAlongDir3 (s.map ok) (q.map ok) ⟨a.map ok, b.map ok, c.map ok⟩ (ok x) (ok y) (ok z) f =
      (traceAlongDir3 s q ⟨a, b, c⟩ x y z f).map ok := by
  cases f <;> push_ok [traceAlongDir3]

theorem map_swapUV (q : HS ℝ) : (q.map ok).swapUV = q.swapUV.map ok := rfl
theorem map_swapUW (q : HS ℝ) : (q.map ok).swapUW = q.swapUW.map ok := rfl
theorem map_trunc (q : HS ℝ) : (q.map ok).trunc = q.trunc.map ok := rfl
theorem map_smul (q : HS ℝ) (x : ℝ) : (q.map ok).smul (ok x) = (q.smul x).map ok := rfl
theorem map_add (q r : HS ℝ) : (q.map ok).add (r.map ok) = (q.add r).map ok := rfl
theorem map_sub (q r : HS ℝ) : (q.map ok).sub (r.map ok) = (q.sub r).map ok := rfl

/-! ## 2D -/

section
variable {p : Params ℝ} (hs : GoodSettings p.settings) (hx : p.dx ≠ 0) (hy : p.dy ≠ 0)
  (g : GravityParams) (dt : ℝ) {D : Int → Int → Prop}
  {Q : Fld2 Chk} {q : Fld2 ℝ} (hQ : ∀ i j, D i j → Q i j = (q i j).map ok) (hd : ∀ i j, (q i j).d ≠ 0)
  {G : Grav2 Chk} {gf : Grav2 ℝ}
  (hG : g.enabled = true → ∀ i j, D i j → G i j = (ok (gf i j).1, ok (gf i j).2))
include hs hx hy hQ hd hG

/-- the cell and its four neighbours lie in `D` -/
def Cross2 (D : Int → Int → Prop) (i j : Int) : Prop :=
  D i j ∧ D (i + 1) j ∧ D (i - 1) j ∧ D i (j + 1) ∧ D i (j - 1)

theorem face2_ok (f : Face) (i j : Int) (h : Cross2 D i j) :
    face2 (p.map ok) g (ok dt) G Q f i j = (face2 p g dt gf q f i j).map ok := by
  obtain ⟨h0, h1, h2, h3, h4⟩ := h
  have e : slopes2 (p.map ok) Q i j = ((slopes2 p q i j).1.map ok, (slopes2 p q i j).2.map ok) := by
    unfold slopes2
    rw [hQ _ _ h0, hQ _ _ h1, hQ _ _ h2, hQ _ _ h3, hQ _ _ h4, zero_ok]
    exact slope2_ok p.settings _ _ _ _ _ _ _
  unfold face2
  rw [e, hQ _ _ h0]
  have e1 : (ok dt / (p.map ok).dx : Chk) = ok (dt / p.dx) := ok_div hx
  have e2 : (ok dt / (p.map ok).dy : Chk) = ok (dt / p.dy) := ok_div hy
  rw [e1, e2]
  change kick2 g (ok dt) (G i j) (traceAlongDir2 (p.settings.map ok) _ _ _ _ _ _) = _
  rw [traceAlongDir2_ok _ _ _ _ _ _ _ (hd i j)]
  unfold kick2
  by_cases hk : (g.enabled && g.hancock_predictor_enabled) = true
  · have he : g.enabled = true := by
      cases h : g.enabled
      · rw [h] at hk; simp at hk
      · rfl
    rw [hG he i j h0, if_pos hk, if_pos hk]
    rfl
  · rw [if_neg hk, if_neg hk]

theorem fluxX2_ok (i j : Int) (h : Cross2 D (i - 1) j) (h' : Cross2 D i j) :
    fluxX2 (p.map ok) g (ok dt) G Q i j = (fluxX2 p g dt gf q i j).map ok := by
  unfold fluxX2
  rw [face2_ok hs hx hy g dt hQ hd hG _ _ _ h, face2_ok hs hx hy g dt hQ hd hG _ _ _ h', zero_ok]
  change ((riemannHydro2 (p.settings.map ok) p.riemannSolverType _ _ _).smul _).trunc = _
  rw [riemannHydro2_ok hs]
  have e1 : (ok dt / (p.map ok).dx : Chk) = ok (dt / p.dx) := ok_div hx
  rw [e1]
  rfl

theorem fluxY2_ok (i j : Int) (h : Cross2 D i (j - 1)) (h' : Cross2 D i j) :
    fluxY2 (p.map ok) g (ok dt) G Q i j = (fluxY2 p g dt gf q i j).map ok := by
  unfold fluxY2
  rw [face2_ok hs hx hy g dt hQ hd hG _ _ _ h, face2_ok hs hx hy g dt hQ hd hG _ _ _ h', zero_ok]
  rw [map_swapUV, map_swapUV]
  change ((riemannHydro2 (p.settings.map ok) p.riemannSolverType _ _ _).smul _).swapUV.trunc = _
  rw [riemannHydro2_ok hs]
  have e1 : (ok dt / (p.map ok).dy : Chk) = ok (dt / p.dy) := ok_div hy
  rw [e1]
  rfl

end

theorem gravity2_ok {p : Params ℝ} (hs : GoodSettings p.settings) (dt : ℝ) (gx gy : ℝ) (uo u : HS ℝ) :
    gravity2 (p.map ok) (ok dt) (ok gx, ok gy) (uo.map ok) (u.map ok) =
      (gravity2 p dt (gx, gy) uo u).map ok := by
  have hd : fmax p.settings.smallr u.d ≠ 0 := (lt_max_of_lt_left hs.smallr).ne'
  unfold gravity2
  simp only [show (p.map ok).settings.smallr = ok p.settings.smallr from rfl,
    show (u.map ok).d = ok u.d from rfl, ok_fmax]
  generalize fmax p.settings.smallr u.d = rho at *
  push_ok []

theorem signed_ok (c : Prop) [Decidable c] (x : ℝ) : signed c (ok x) = ok (signed c x) := by
  unfold signed
  split_ifs <;> rfl

theorem hs_ext {a b : HS Chk} (h1 : a.d = b.d) (h2 : a.p = b.p) (h3 : a.u = b.u) (h4 : a.v = b.v)
    (h5 : a.w = b.w) : a = b := by
  cases a; cases b; simp_all

theorem fill2_ok {p : Params ℝ} (hw : p.WF) (hf : Faces2Ok p) {U : Fld2 Chk} {u : Fld2 ℝ}
    (hU : ∀ i j, interior2 p i j → U i j = (u i j).map ok) (i j : Int) (hij : inGrid2 p i j) :
    fill2 (p.map ok) U i j = (fill2 p u i j).map ok := by
  obtain ⟨a, b, c, d⟩ := hij
  have h1 := srcCoord_interior hw.nx_pos hf.1 hf.2.1 a b
  have h2 := srcCoord_interior hw.ny_pos hf.2.2.1 hf.2.2.2 c d
  have e := hU _ _ ⟨h1.1, h1.2, h2.1, h2.2⟩
  simp only [fill2, Params.map]
  rw [e]
  exact hs_ext rfl rfl (signed_ok _ _) (signed_ok _ _) rfl

/-- One 2D step, checked: on a field whose interior cells hold numbers, every operation is defined. -/
theorem fullStep2_ok {p : Params ℝ} (hw : p.WF) (hf : Faces2Ok p) (hs : GoodSettings p.settings)
    (hx : p.dx ≠ 0) (hy : p.dy ≠ 0) (g : GravityParams) (dt : ℝ) {U : Fld2 Chk} {u : Fld2 ℝ}
    (hU : ∀ i j, interior2 p i j → U i j = (u i j).map ok) {G : Grav2 Chk} {gf : Grav2 ℝ}
    (hG : g.enabled = true → ∀ i j, inGrid2 p i j → G i j = (ok (gf i j).1, ok (gf i j).2))
    (i j : Int) (hij : inGrid2 p i j) :
    fullStep2 (p.map ok) g (ok dt) G U i j = (fullStep2 p g dt gf u i j).map ok := by
  have hF := fill2_ok hw hf hU
  unfold fullStep2 step2
  by_cases hin : interior2 p i j
  · have hin' : interior2 (p.map ok) i j := hin
    rw [if_pos hin, if_pos hin']
    have hQ : ∀ i j, inGrid2 p i j → prim2 (p.map ok) (fill2 (p.map ok) U) i j =
        (prim2 p (fill2 p u) i j).map ok := by
      intro i j h
      unfold prim2
      rw [hF i j h]
      change (computePrimitives2 (p.settings.map ok) _).1 = _
      rw [computePrimitives2_ok hs]
    have hd : ∀ i j, (prim2 p (fill2 p u) i j).d ≠ 0 := by
      intro i j
      have : 0 < fmax (fill2 p u i j).d p.settings.smallr := lt_max_of_lt_right hs.smallr
      exact this.ne'
    have gw := hw.gw_pos
    obtain ⟨a, b, c, d⟩ := hin
    have cr : ∀ a b : Int, (-1 ≤ a ∧ a ≤ 1) → (-1 ≤ b ∧ b ≤ 1) → Cross2 (inGrid2 p) (i + a) (j + b) := by
      intro a' b' h h'
      refine ⟨?_, ?_, ?_, ?_, ?_⟩ <;> refine ⟨?_, ?_, ?_, ?_⟩ <;> omega
    have fx : ∀ a : Int, 0 ≤ a ∧ a ≤ 1 → fluxX2 (p.map ok) g (ok dt) G
        (prim2 (p.map ok) (fill2 (p.map ok) U)) (i + a) j =
        (fluxX2 p g dt gf (prim2 p (fill2 p u)) (i + a) j).map ok := by
      intro a h
      have c1 := cr (a - 1) 0 (by omega) (by omega)
      have c2 := cr a 0 (by omega) (by omega)
      rw [show i + (a - 1) = i + a - 1 by ring, add_zero] at c1
      rw [add_zero] at c2
      exact fluxX2_ok hs hx hy g dt hQ hd hG _ _ c1 c2
    have fy : ∀ a : Int, 0 ≤ a ∧ a ≤ 1 → fluxY2 (p.map ok) g (ok dt) G
        (prim2 (p.map ok) (fill2 (p.map ok) U)) i (j + a) =
        (fluxY2 p g dt gf (prim2 p (fill2 p u)) i (j + a)).map ok := by
      intro a h
      have c1 := cr 0 (a - 1) (by omega) (by omega)
      have c2 := cr 0 a (by omega) (by omega)
      rw [show j + (a - 1) = j + a - 1 by ring, add_zero] at c1
      rw [add_zero] at c2
      exact fluxY2_ok hs hx hy g dt hQ hd hG _ _ c1 c2
    have fx0 := fx 0 (by omega)
    have fy0 := fy 0 (by omega)
    rw [add_zero] at fx0 fy0
    have ev : fluxUpdate2 (fluxX2 (p.map ok) g (ok dt) G (prim2 (p.map ok) (fill2 (p.map ok) U)))
        (fluxY2 (p.map ok) g (ok dt) G (prim2 (p.map ok) (fill2 (p.map ok) U)))
        (fill2 (p.map ok) U i j) i j =
        (fluxUpdate2 (fluxX2 p g dt gf (prim2 p (fill2 p u))) (fluxY2 p g dt gf (prim2 p (fill2 p u)))
          (fill2 p u i j) i j).map ok := by
      unfold fluxUpdate2
      rw [fx0, fy0, fx 1 (by omega), fy 1 (by omega), hF i j hij]
      rfl
    simp only
    rw [ev, hF i j hij]
    by_cases he : g.enabled = true
    · rw [if_pos he, if_pos he, hG he i j hij]
      exact gravity2_ok hs dt _ _ _ _
    · rw [if_neg he, if_neg he]
  · have hin' : ¬ interior2 (p.map ok) i j := hin
    rw [if_neg hin, if_neg hin']
    exact hF i j hij


/-! ## 3D -/

section
variable {p : Params ℝ} (hs : GoodSettings p.settings) (hx : p.dx ≠ 0) (hy : p.dy ≠ 0) (hz : p.dz ≠ 0)
  (g : GravityParams) (dt : ℝ) {D : Int → Int → Int → Prop}
  {Q : Fld3 Chk} {q : Fld3 ℝ} (hQ : ∀ i j k, D i j k → Q i j k = (q i j k).map ok)
  (hd : ∀ i j k, (q i j k).d ≠ 0) {G : Grav3 Chk} {gf : Grav3 ℝ}
  (hG : g.enabled = true → ∀ i j k, D i j k →
    G i j k = (ok (gf i j k).1, ok (gf i j k).2.1, ok (gf i j k).2.2))
include hs hx hy hz hQ hd hG

/-- the cell and its six neighbours lie in `D` -/
def Cross3 (D : Int → Int → Int → Prop) (i j k : Int) : Prop :=
  D i j k ∧ D (i + 1) j k ∧ D (i - 1) j k ∧ D i (j + 1) k ∧ D i (j - 1) k ∧ D i j (k + 1) ∧ D i j (k - 1)

theorem trace3_ok (f : Face) (i j k : Int) (h : Cross3 D i j k) :
    trace3 (p.map ok) (ok dt) Q f i j k = (trace3 p dt q f i j k).map ok := by
  obtain ⟨h0, h1, h2, h3, h4, h5, h6⟩ := h
  have e : slopes3 (p.map ok) Q i j k = ⟨(slopes3 p q i j k).x.map ok, (slopes3 p q i j k).y.map ok,
      (slopes3 p q i j k).z.map ok⟩ := by
    unfold slopes3
    rw [hQ _ _ _ h0, hQ _ _ _ h1, hQ _ _ _ h2, hQ _ _ _ h3, hQ _ _ _ h4, hQ _ _ _ h5, hQ _ _ _ h6,
      zero_ok]
    exact slope3_ok p.settings _ _ _ _ _ _ _ ⟨HS.zero, HS.zero, HS.zero⟩
  unfold trace3
  rw [e, hQ _ _ _ h0]
  have e1 : (ok dt / (p.map ok).dx : Chk) = ok (dt / p.dx) := ok_div hx
  have e2 : (ok dt / (p.map ok).dy : Chk) = ok (dt / p.dy) := ok_div hy
  have e3 : (ok dt / (p.map ok).dz : Chk) = ok (dt / p.dz) := ok_div hz
  rw [e1, e2, e3]
  exact traceAlongDir3_ok p.settings _ _ _ _ _ _ _ f (hd i j k)

theorem face3_ok (f : Face) (i j k : Int) (h : Cross3 D i j k) :
    face3 (p.map ok) g (ok dt) G Q f i j k = (face3 p g dt gf q f i j k).map ok := by
  unfold face3
  rw [trace3_ok hs hx hy hz g dt hQ hd hG f i j k h]
  unfold kick3
  by_cases hk : (g.enabled && g.hancock_predictor_enabled) = true
  · have he : g.enabled = true := by
      cases h : g.enabled
      · rw [h] at hk; simp at hk
      · rfl
    rw [hG he i j k h.1, if_pos hk, if_pos hk]
    rfl
  · rw [if_neg hk, if_neg hk]

theorem fluxX3_ok (i j k : Int) (h : Cross3 D (i - 1) j k) (h' : Cross3 D i j k) :
    fluxX3 (p.map ok) g (ok dt) G Q i j k = (fluxX3 p g dt gf q i j k).map ok := by
  unfold fluxX3
  rw [face3_ok hs hx hy hz g dt hQ hd hG _ _ _ _ h, face3_ok hs hx hy hz g dt hQ hd hG _ _ _ _ h', zero_ok]
  change (riemannHydro3 (p.settings.map ok) p.riemannSolverType _ _ _).smul _ = _
  rw [riemannHydro3_ok hs]
  have e1 : (ok dt / (p.map ok).dx : Chk) = ok (dt / p.dx) := ok_div hx
  rw [e1]
  rfl

theorem fluxY3_ok (i j k : Int) (h : Cross3 D i (j - 1) k) (h' : Cross3 D i j k) :
    fluxY3 (p.map ok) g (ok dt) G Q i j k = (fluxY3 p g dt gf q i j k).map ok := by
  unfold fluxY3
  rw [face3_ok hs hx hy hz g dt hQ hd hG _ _ _ _ h, face3_ok hs hx hy hz g dt hQ hd hG _ _ _ _ h', zero_ok]
  rw [map_swapUV, map_swapUV]
  change ((riemannHydro3 (p.settings.map ok) p.riemannSolverType _ _ _).smul _).swapUV = _
  rw [riemannHydro3_ok hs]
  have e1 : (ok dt / (p.map ok).dy : Chk) = ok (dt / p.dy) := ok_div hy
  rw [e1]
  rfl

theorem fluxZ3_ok (zk : Bool) (i j k : Int) (h : Cross3 D i j (k - 1)) (h' : Cross3 D i j k) :
    fluxZ3 zk (p.map ok) g (ok dt) G Q i j k = (fluxZ3 zk p g dt gf q i j k).map ok := by
  unfold fluxZ3
  have e0 : (if zk = true then face3 (p.map ok) g (ok dt) G Q .zmin i j k
      else trace3 (p.map ok) (ok dt) Q .zmin i j k) =
      (if zk = true then face3 p g dt gf q .zmin i j k else trace3 p dt q .zmin i j k).map ok := by
    cases zk
    · exact trace3_ok hs hx hy hz g dt hQ hd hG _ _ _ _ h'
    · exact face3_ok hs hx hy hz g dt hQ hd hG _ _ _ _ h'
  rw [face3_ok hs hx hy hz g dt hQ hd hG _ _ _ _ h, e0, zero_ok]
  rw [map_swapUW, map_swapUW]
  change ((riemannHydro3 (p.settings.map ok) p.riemannSolverType _ _ _).smul _).swapUW = _
  rw [riemannHydro3_ok hs]
  have e1 : (ok dt / (p.map ok).dz : Chk) = ok (dt / p.dz) := ok_div hz
  rw [e1]
  rfl

end

/-- the 3D gravity source divides by the new density -/
theorem gravity3_ok (dt : ℝ) (gx gy gz : ℝ) (uo : HS ℝ) {u : HS ℝ} (hd : u.d ≠ 0) :
    gravity3 (ok dt) (ok gx, ok gy, ok gz) (uo.map ok) (u.map ok) =
      (gravity3 dt (gx, gy, gz) uo u).map ok := by
  unfold gravity3
  push_ok []

theorem fill3_ok {p : Params ℝ} (hw : p.WF) (hf : Faces3Ok p) {U : Fld3 Chk} {u : Fld3 ℝ}
    (hU : ∀ i j k, interior3 p i j k → U i j k = (u i j k).map ok) (i j k : Int) (hij : inGrid3 p i j k) :
    fill3 (p.map ok) U i j k = (fill3 p u i j k).map ok := by
  obtain ⟨⟨a, b⟩, ⟨c, d⟩, e, f⟩ := hij
  have h1 := srcCoord_interior hw.nx_pos hf.1.1 hf.1.2.1 a b
  have h2 := srcCoord_interior hw.ny_pos hf.1.2.2.1 hf.1.2.2.2 c d
  have h3 := srcCoord_interior hw.nz_pos hf.2.1 hf.2.2 e f
  have e := hU _ _ _ ⟨h1, h2, h3⟩
  simp only [fill3, Params.map]
  rw [e]
  exact hs_ext rfl rfl (signed_ok _ _) (signed_ok _ _) (signed_ok _ _)

/-- One 3D step, checked. -/
theorem fullStep3_ok {p : Params ℝ} (hw : p.WF) (hf : Faces3Ok p) (hs : GoodSettings p.settings)
    (hx : p.dx ≠ 0) (hy : p.dy ≠ 0) (hz : p.dz ≠ 0) (g : GravityParams) (zk : Bool) (dt : ℝ)
    {U : Fld3 Chk} {u : Fld3 ℝ}
    (hU : ∀ i j k, interior3 p i j k → U i j k = (u i j k).map ok) {G : Grav3 Chk} {gf : Grav3 ℝ}
    (hG : g.enabled = true → ∀ i j k, inGrid3 p i j k →
      G i j k = (ok (gf i j k).1, ok (gf i j k).2.1, ok (gf i j k).2.2))
    (i j k : Int) (hij : inGrid3 p i j k)
    (hnew : g.enabled = true → interior3 p i j k → (fullStep3 zk p g dt gf u i j k).d ≠ 0) :
    fullStep3 zk (p.map ok) g (ok dt) G U i j k = (fullStep3 zk p g dt gf u i j k).map ok := by
  have hF := fill3_ok hw hf hU
  revert hnew
  unfold fullStep3 step3
  by_cases hin : interior3 p i j k
  · have hin' : interior3 (p.map ok) i j k := hin
    rw [if_pos hin, if_pos hin']
    intro hnew
    have hQ : ∀ i j k, inGrid3 p i j k → prim3 (p.map ok) (fill3 (p.map ok) U) i j k =
        (prim3 p (fill3 p u) i j k).map ok := by
      intro i j k h
      unfold prim3
      rw [hF i j k h]
      change (computePrimitives3 (p.settings.map ok) _).1 = _
      rw [computePrimitives3_ok hs]
    have hd : ∀ i j k, (prim3 p (fill3 p u) i j k).d ≠ 0 := by
      intro i j k
      have : 0 < fmax (fill3 p u i j k).d p.settings.smallr := lt_max_of_lt_right hs.smallr
      exact this.ne'
    have gw := hw.gw_pos
    obtain ⟨⟨a, b⟩, ⟨c, d⟩, e, f⟩ := id hin
    have cr : ∀ a b c : Int, (-1 ≤ a ∧ a ≤ 1) → (-1 ≤ b ∧ b ≤ 1) → (-1 ≤ c ∧ c ≤ 1) →
        Cross3 (inGrid3 p) (i + a) (j + b) (k + c) := by
      intro a' b' c' h h' h''
      refine ⟨?_, ?_, ?_, ?_, ?_, ?_, ?_⟩ <;> refine ⟨⟨?_, ?_⟩, ⟨?_, ?_⟩, ?_, ?_⟩ <;> omega
    have fx : ∀ a : Int, 0 ≤ a ∧ a ≤ 1 → fluxX3 (p.map ok) g (ok dt) G
        (prim3 (p.map ok) (fill3 (p.map ok) U)) (i + a) j k =
        (fluxX3 p g dt gf (prim3 p (fill3 p u)) (i + a) j k).map ok := by
      intro a h
      have c1 := cr (a - 1) 0 0 (by omega) (by omega) (by omega)
      have c2 := cr a 0 0 (by omega) (by omega) (by omega)
      rw [show i + (a - 1) = i + a - 1 by ring, add_zero, add_zero] at c1
      rw [add_zero, add_zero] at c2
      exact fluxX3_ok hs hx hy hz g dt hQ hd hG _ _ _ c1 c2
    have fy : ∀ a : Int, 0 ≤ a ∧ a ≤ 1 → fluxY3 (p.map ok) g (ok dt) G
        (prim3 (p.map ok) (fill3 (p.map ok) U)) i (j + a) k =
        (fluxY3 p g dt gf (prim3 p (fill3 p u)) i (j + a) k).map ok := by
      intro a h
      have c1 := cr 0 (a - 1) 0 (by omega) (by omega) (by omega)
      have c2 := cr 0 a 0 (by omega) (by omega) (by omega)
      rw [show j + (a - 1) = j + a - 1 by ring, add_zero, add_zero] at c1
      rw [add_zero, add_zero] at c2
      exact fluxY3_ok hs hx hy hz g dt hQ hd hG _ _ _ c1 c2
    have fz : ∀ a : Int, 0 ≤ a ∧ a ≤ 1 → fluxZ3 zk (p.map ok) g (ok dt) G
        (prim3 (p.map ok) (fill3 (p.map ok) U)) i j (k + a) =
        (fluxZ3 zk p g dt gf (prim3 p (fill3 p u)) i j (k + a)).map ok := by
      intro a h
      have c1 := cr 0 0 (a - 1) (by omega) (by omega) (by omega)
      have c2 := cr 0 0 a (by omega) (by omega) (by omega)
      rw [show k + (a - 1) = k + a - 1 by ring, add_zero, add_zero] at c1
      rw [add_zero, add_zero] at c2
      exact fluxZ3_ok hs hx hy hz g dt hQ hd hG zk _ _ _ c1 c2
    have fx0 := fx 0 (by omega)
    have fy0 := fy 0 (by omega)
    have fz0 := fz 0 (by omega)
    rw [add_zero] at fx0 fy0 fz0
    have ev : fluxUpdate3 (fluxX3 (p.map ok) g (ok dt) G (prim3 (p.map ok) (fill3 (p.map ok) U)))
        (fluxY3 (p.map ok) g (ok dt) G (prim3 (p.map ok) (fill3 (p.map ok) U)))
        (fluxZ3 zk (p.map ok) g (ok dt) G (prim3 (p.map ok) (fill3 (p.map ok) U)))
        (fill3 (p.map ok) U i j k) i j k =
        (fluxUpdate3 (fluxX3 p g dt gf (prim3 p (fill3 p u))) (fluxY3 p g dt gf (prim3 p (fill3 p u)))
          (fluxZ3 zk p g dt gf (prim3 p (fill3 p u))) (fill3 p u i j k) i j k).map ok := by
      unfold fluxUpdate3
      rw [fx0, fy0, fz0, fx 1 (by omega), fy 1 (by omega), fz 1 (by omega), hF i j k hij]
      rfl
    simp only at hnew ⊢
    rw [ev, hF i j k hij]
    by_cases he : g.enabled = true
    · rw [if_pos he, if_pos he, hG he i j k hij]
      have h0 := hnew he hin
      rw [if_pos he] at h0
      exact gravity3_ok dt _ _ _ _ h0
    · rw [if_neg he, if_neg he]
  · have hin' : ¬ interior3 (p.map ok) i j k := hin
    rw [if_neg hin, if_neg hin']
    intro _
    exact hF i j k hij

end EulerKokkos
