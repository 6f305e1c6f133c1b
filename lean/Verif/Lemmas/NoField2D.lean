import Verif.Lemmas.NoField
import Verif.Lemmas.MhdFull2D

/-!
# The 2D MHD scheme without magnetic field is the 2D hydro scheme
-/

set_option linter.unusedSimpArgs false
set_option linter.unusedSectionVars false
set_option linter.constructorNameAsVariable false

namespace EulerKokkos
open Spec RealOps

/-- the MHD field of a hydro field: the grid of the MHD solver has one more ghost layer -/
def embed2 (u : Fld2 ℝ) : FldM2 ℝ := fun i j => fluid { u (i - 1) (j - 1) with w := 0 }

theorem srcCoord_deeper (a b : BC) (n gw c : Int) : srcCoord a b n (gw + 1) c = srcCoord a b n gw (c - 1) + 1 := by
  unfold srcCoord
  cases a <;> cases b <;> dsimp only <;> split_ifs <;> omega

theorem flips_deeper (a b : BC) (n gw c : Int) : flips a b n (gw + 1) c ↔ flips a b n gw (c - 1) := by
  unfold flips
  constructor
  · rintro (⟨h, e⟩ | ⟨h, e⟩)
    · exact Or.inl ⟨by omega, e⟩
    · exact Or.inr ⟨by omega, e⟩
  · rintro (⟨h, e⟩ | ⟨h, e⟩)
    · exact Or.inl ⟨by omega, e⟩
    · exact Or.inr ⟨by omega, e⟩

theorem fluid_liftP_swap (s : Settings ℝ) (x : HS ℝ) : (fluid (liftP s x)).swapXY = fluid (liftP s x.swapUV) := rfl
theorem swapUV_d (x : HS ℝ) : x.swapUV.d = x.d := rfl
theorem swapUV_w (x : HS ℝ) : x.swapUV.w = x.w := rfl

theorem liftP_above {s : Settings ℝ} {x : HS ℝ} (h : AboveFloors s x) : liftP s x = x := by
  unfold liftP; rw [max_eq_right h.p]
theorem above_swap {s : Settings ℝ} {x : HS ℝ} (h : AboveFloors s x) : AboveFloors s x.swapUV := ⟨h.d, h.p⟩

section
variable {p q : Params ℝ} (hs : NoField p q)
include hs

theorem fillM2_embed (u : Fld2 ℝ) : fillM2 q (embed2 u) = embed2 (fill2 p u) := by
  funext i j
  have ex := srcCoord_deeper p.boundary_type_xmin p.boundary_type_xmax p.nx p.ghostWidth i
  have ey := srcCoord_deeper p.boundary_type_ymin p.boundary_type_ymax p.ny p.ghostWidth j
  have fx := flips_deeper p.boundary_type_xmin p.boundary_type_xmax p.nx p.ghostWidth i
  have fy := flips_deeper p.boundary_type_ymin p.boundary_type_ymax p.ny p.ghostWidth j
  simp only [fillM2, ghost2, embed2, fill2, hs.nx, hs.ny, hs.gw, hs.xmin, hs.xmax, hs.ymin, hs.ymax, ex, ey,
    add_sub_cancel_right, fluid]
  refine MS.ext ?_ ?_ ?_ ?_ ?_ ?_ ?_ ?_ <;>
    simp [signed, normalVar, fx, fy, MS.get, ID, IP, IU, IV, IW, IA, IB, IC]

theorem primM2_embed (u : Fld2 ℝ) (i j : Int) : primM2 q (embed2 u) i j = fluid (prim2 p u (i - 1) (j - 1)) := by
  have hc : gtb p.settings.cIso (lit 0 : ℝ) = false := by
    rw [Bool.eq_false_iff]; simpa [gtb, lt_real] using hs.cIso
  simp only [primM2, embed2, prim2, constoprimMhd, computePrimitives2, hs.settings, fluid, hc,
    Bool.false_eq_true, if_false]
  simp only [lit_real, fmax_real]
  push_cast
  refine MS.ext ?_ ?_ ?_ ?_ ?_ ?_ ?_ ?_ <;> dsimp only <;> simp

theorem interior2_deeper (i j : Int) : interior2 q i j ↔ interior2 p (i - 1) (j - 1) := by
  unfold interior2
  rw [hs.nx, hs.ny, hs.gw]
  omega

theorem tracesM2_embed (hd : p.dx = p.dy) {g : GravityParams} (hg : g.enabled = false) (gf : Grav2 ℝ) (dt : ℝ) (u : Fld2 ℝ) (i j : Int) :
    ∃ rt rb lt lb : HS ℝ, tracesM2 q dt (embed2 u) i j =
      ⟨fluid (liftP p.settings (face2 p g dt gf (prim2 p u) .xmax (i - 1) (j - 1))),
       fluid (liftP p.settings (face2 p g dt gf (prim2 p u) .xmin (i - 1) (j - 1))),
       fluid (liftP p.settings (face2 p g dt gf (prim2 p u) .ymax (i - 1) (j - 1))),
       fluid (liftP p.settings (face2 p g dt gf (prim2 p u) .ymin (i - 1) (j - 1))),
       fluid rt, fluid rb, fluid lt, fluid lb⟩ := by
  have hq : ∀ o : Int × Int, (prim2 p u (i + o.1 - 1) (j + o.2 - 1)).w = 0 := by
    intro o; simp [prim2, computePrimitives2]
  obtain ⟨rt, rb, lt, lb, h⟩ := trace_fluid2 hs.slope
    (fun o : Int × Int => prim2 p u (i + o.1 - 1) (j + o.2 - 1)) hq (dt / p.dx) MS.zero MS.zero
    (slopes2 p (prim2 p u) (i - 1) (j - 1)) (by
      unfold slopes2
      simp only [show i + 0 - 1 = i - 1 by omega, show j + 0 - 1 = j - 1 by omega,
        show i + 1 - 1 = i - 1 + 1 by omega, show j + 1 - 1 = j - 1 + 1 by omega,
        show i + -1 - 1 = i - 1 - 1 by omega, show j + -1 - 1 = j - 1 - 1 by omega])
  refine ⟨rt, rb, lt, lb, ?_⟩
  simp only [tracesM2, traceM2, primM2_embed hs, hs.settings, hs.dx, hs.dy, face2, kick2, hg, Bool.false_and,
    Bool.false_eq_true, if_false, ← hd]
  simp only [add_zero] at h
  rw [← h]
  rfl

theorem face2_floor (g : GravityParams) (hg : g.enabled = false) (gf : Grav2 ℝ) (dt : ℝ) (v : Fld2 ℝ) (f : Face)
    (hf : f = .xmin ∨ f = .xmax ∨ f = .ymin ∨ f = .ymax) (i j : Int) :
    p.settings.smallr ≤ (face2 p g dt gf v f i j).d := by
  rcases hf with rfl | rfl | rfl | rfl <;>
    simp [face2, kick2, hg, traceAlongDir2, fmax_real]

theorem face2_w (g : GravityParams) (hg : g.enabled = false) (gf : Grav2 ℝ) (dt : ℝ) (u : Fld2 ℝ) (f : Face)
    (i j : Int) : (face2 p g dt gf (prim2 p u) f i j).w = 0 := by
  simp only [face2, kick2, hg, Bool.false_and, Bool.false_eq_true, if_false]
  exact traceAlongDir2_w _ _ _ _ (by simp [prim2, computePrimitives2]) _ _ _

theorem flux_noField {l r : HS ℝ}
    (hR : (p.riemannSolverType = .hllc ∧ q.riemannSolverType = .hlld) ∨
      ((p.riemannSolverType = .llf ∧ q.riemannSolverType = .llf ∨
        p.riemannSolverType = .hll ∧ q.riemannSolverType = .hll) ∧
        AboveFloors p.settings l ∧ AboveFloors p.settings r))
    (hl : p.settings.smallr ≤ l.d) (h2 : p.settings.smallr ≤ r.d) (wl : l.w = 0) (wr : r.w = 0) :
    riemannMhd q.settings q.riemannSolverType (fluid (liftP p.settings l)) (fluid (liftP p.settings r)) MS.zero =
      fluid (riemannHydro2 p.settings p.riemannSolverType l r HS.zero) := by
  rcases hR with ⟨hr, hr'⟩ | ⟨⟨hr, hr'⟩ | ⟨hr, hr'⟩, al, ar⟩
  · have h3 := riemann3_planar (s := p.settings) (rt := .hllc) ⟨by decide, by decide⟩ wl wr HS.zero HS.zero
    rw [hr, hr', hs.settings, ← h3]
    exact hlld_hllc hs.good hs.cIso hl h2
  · have h3 := riemann3_planar (s := p.settings) (rt := .llf) ⟨by decide, by decide⟩ wl wr HS.zero HS.zero
    rw [hr, hr', hs.settings, ← h3, liftP_above al, liftP_above ar]
    exact llf_llf hs.good hs.cIso al ar
  · have h3 : riemannHLL true p.settings l r = riemannHLL false p.settings l r := by
      unfold riemannHLL consOf
      simp [wl, wr]
    rw [hr, hr', hs.settings, liftP_above al, liftP_above ar]
    show riemannMhdHll p.settings (fluid l) (fluid r) = fluid (riemannHLL false p.settings l r)
    rw [← h3]
    exact hll_hll hs.good hs.cIso al ar

theorem stepM2_embed (hd : p.dx = p.dy) {g : GravityParams} (hg : g.enabled = false) (gf : Grav2 ℝ) (dt : ℝ)
    (u : Fld2 ℝ) (hR : (p.riemannSolverType = .hllc ∧ q.riemannSolverType = .hlld) ∨
      ((p.riemannSolverType = .llf ∧ q.riemannSolverType = .llf ∨
        p.riemannSolverType = .hll ∧ q.riemannSolverType = .hll) ∧
        ∀ f i j, p.ghostWidth - 1 ≤ i → i ≤ p.ghostWidth + p.nx → p.ghostWidth - 1 ≤ j → j ≤ p.ghostWidth + p.ny →
          AboveFloors p.settings (face2 p g dt gf (prim2 p u) f i j))) :
    stepM2 q dt (embed2 u) = embed2 (step2 p g dt gf u) := by
  have hrt : p.riemannSolverType ≠ .hlld := by
    rcases hR with ⟨hr, _⟩ | ⟨⟨hr, _⟩ | ⟨hr, _⟩, _⟩ <;> rw [hr] <;> decide
  have hT := tracesM2_embed hs hd hg gf dt u
  have F := face2_floor hs g hg gf dt (prim2 p u)
  have W := face2_w hs g hg gf dt u
  have hX : ∀ i j, p.ghostWidth ≤ i - 1 → i - 1 ≤ p.ghostWidth + p.nx → p.ghostWidth ≤ j - 1 → j - 1 ≤ p.ghostWidth + p.ny →
      fluxXM2 q (tracesM2 q dt (embed2 u)) i j = fluid (riemannHydro2 p.settings p.riemannSolverType
      (face2 p g dt gf (prim2 p u) .xmax (i - 1 - 1) (j - 1)) (face2 p g dt gf (prim2 p u) .xmin (i - 1) (j - 1)) HS.zero) := by
    intro i j h1 h2 h3 h4
    obtain ⟨_, _, _, _, e1⟩ := hT (i - 1) j
    obtain ⟨_, _, _, _, e2⟩ := hT i j
    simp only [fluxXM2, e1, e2]
    refine flux_noField hs (hR.imp_right fun h => ⟨h.1, h.2 _ _ _ (by omega) (by omega) (by omega) (by omega),
      h.2 _ _ _ (by omega) (by omega) (by omega) (by omega)⟩) (F _ (by simp) _ _) (F _ (by simp) _ _) (W _ _ _) (W _ _ _)
  have hY : ∀ i j, p.ghostWidth ≤ i - 1 → i - 1 ≤ p.ghostWidth + p.nx → p.ghostWidth ≤ j - 1 → j - 1 ≤ p.ghostWidth + p.ny →
      fluxYM2 q (tracesM2 q dt (embed2 u)) i j = (fluid (riemannHydro2 p.settings p.riemannSolverType
      (face2 p g dt gf (prim2 p u) .ymax (i - 1) (j - 1 - 1)).swapUV (face2 p g dt gf (prim2 p u) .ymin (i - 1) (j - 1)).swapUV HS.zero)).swapXY := by
    intro i j h1 h2 h3 h4
    obtain ⟨_, _, _, _, e1⟩ := hT i (j - 1)
    obtain ⟨_, _, _, _, e2⟩ := hT i j
    simp only [fluxYM2, e1, e2, fluid_liftP_swap]
    rw [flux_noField hs (hR.imp_right fun h =>
      ⟨h.1, above_swap (h.2 _ _ _ (by omega) (by omega) (by omega) (by omega)),
        above_swap (h.2 _ _ _ (by omega) (by omega) (by omega) (by omega))⟩)
      (by rw [swapUV_d]; exact F _ (by simp) _ _) (by rw [swapUV_d]; exact F _ (by simp) _ _)
      (by rw [swapUV_w]; exact W _ _ _) (by rw [swapUV_w]; exact W _ _ _)]
  have hE : ∀ i j, emfM2 q (tracesM2 q dt (embed2 u)) i j = 0 := by
    intro i j
    obtain ⟨_, _, _, _, e1⟩ := hT (i - 1) (j - 1)
    obtain ⟨_, _, _, _, e2⟩ := hT (i - 1) j
    obtain ⟨_, _, _, _, e3⟩ := hT i (j - 1)
    obtain ⟨_, _, _, _, e4⟩ := hT i j
    simp only [emfM2, e1, e2, e3, e4]
    exact emf_noField _ _ _ _ _ _
  funext i j
  simp only [stepM2, embed2, step2, interior2_deeper hs]
  by_cases hi : interior2 p (i - 1) (j - 1)
  · simp only [if_pos hi, hg, Bool.false_eq_true, if_false]
    simp only [ctUpdate2, fluxUpdateM2]
    obtain ⟨g1, g2, g3, g4⟩ := hi
    rw [hX i j (by omega) (by omega) (by omega) (by omega), hX (i + 1) j (by omega) (by omega) (by omega) (by omega),
      hY i j (by omega) (by omega) (by omega) (by omega), hY i (j + 1) (by omega) (by omega) (by omega) (by omega)]
    simp only [hE]
    simp only [fluxUpdate2, fluxX2, fluxY2, hs.dx, hs.dy, add_sub_cancel_right,
      show i - 1 + 1 = i by omega, show j - 1 + 1 = j by omega]
    have rw2 : ∀ l r, (riemannHydro2 p.settings p.riemannSolverType l r HS.zero).w = 0 := fun l r =>
      riemann2_w hrt l r _
    generalize hA : riemannHydro2 p.settings p.riemannSolverType (face2 p g dt gf (prim2 p u) .xmax (i - 1 - 1) (j - 1)) _ _ = A
    generalize hB : riemannHydro2 p.settings p.riemannSolverType (face2 p g dt gf (prim2 p u) .xmax (i - 1) (j - 1)) _ _ = B
    generalize hC : riemannHydro2 p.settings p.riemannSolverType (face2 p g dt gf (prim2 p u) .ymax (i - 1) (j - 1 - 1)).swapUV _ _ = C
    generalize hD : riemannHydro2 p.settings p.riemannSolverType (face2 p g dt gf (prim2 p u) .ymax (i - 1) (j - 1)).swapUV _ _ = D
    have wA : A.w = 0 := hA ▸ rw2 _ _
    have wB : B.w = 0 := hB ▸ rw2 _ _
    have wC : C.w = 0 := hC ▸ rw2 _ _
    have wD : D.w = 0 := hD ▸ rw2 _ _
    simp only [fluid, MS.plus6, MS.minus6, MS.swapXY, HS.trunc, HS.swapUV, HS.smul, HS.add, HS.sub, wA, wB, wC, wD]
    refine MS.ext ?_ ?_ ?_ ?_ ?_ ?_ ?_ ?_ <;> dsimp only <;> ring
  · simp only [if_neg hi]

theorem fullStepM2_embed (hd : p.dx = p.dy) {g : GravityParams} (hg : g.enabled = false) (gf : Grav2 ℝ) (dt : ℝ)
    (u : Fld2 ℝ) (hR : (p.riemannSolverType = .hllc ∧ q.riemannSolverType = .hlld) ∨
      ((p.riemannSolverType = .llf ∧ q.riemannSolverType = .llf ∨
        p.riemannSolverType = .hll ∧ q.riemannSolverType = .hll) ∧
        ∀ f i j, p.ghostWidth - 1 ≤ i → i ≤ p.ghostWidth + p.nx → p.ghostWidth - 1 ≤ j → j ≤ p.ghostWidth + p.ny →
          AboveFloors p.settings (face2 p g dt gf (prim2 p (fill2 p u)) f i j))) :
    fullStepM2 q dt (embed2 u) = embed2 (fullStep2 p g dt gf u) := by
  unfold fullStepM2 fullStep2
  rw [fillM2_embed hs, stepM2_embed hs hd hg gf dt _ hR]

omit hs in
/-- without field the fast magnetosonic speed is the sound speed -/
theorem fastSpeed_noField {γ : ℝ} (hg : 1 < γ) {c : HS ℝ} (hl : 0 < c.d) (hp : 0 ≤ c.p) :
    fastSpeed γ 0 (fluid c) = Real.sqrt (γ * c.p / c.d) := by
  simp only [fastSpeed, fluid]
  have e1 : (γ * c.p + (0 ^ 2 + 0 ^ 2 + 0 ^ 2)) / (2 * c.d) = (γ * c.p / c.d) / 2 := by
    field_simp; ring
  rw [e1]
  have e2 : (γ * c.p / c.d / 2) ^ 2 - γ * c.p * 0 ^ 2 / c.d ^ 2 = (γ * c.p / c.d / 2) ^ 2 := by ring
  have h0 : 0 ≤ γ * c.p / c.d := by positivity
  rw [e2, Real.sqrt_sq (by linarith)]
  congr 1; ring

theorem rate2_embed {g : GravityParams} (hg : g.enabled = false) (gf : Grav2 ℝ) (u : Fld2 ℝ) {i j : Int}
    (hi : interior2 q i j) :
    mhdRate2 q.settings.gamma0 q.dx q.dy (primM2 q (fillM2 q (embed2 u)) i j) = rate2 p g gf u (i - 1) (j - 1) := by
  rw [fillM2_embed hs, primM2_embed hs]
  have hi' := (interior2_deeper hs i j).1 hi
  have e : prim2 p (fill2 p u) (i - 1) (j - 1) = (computePrimitives2 p.settings (u (i - 1) (j - 1))).1 := by
    unfold prim2
    have : fill2 p u (i - 1) (j - 1) = { u (i - 1) (j - 1) with w := 0 } := by
      obtain ⟨a, b, c, d⟩ := hi'
      unfold fill2
      simp only [srcCoord_self a b, srcCoord_self c d, signed, flips_not a b, flips_not c d, if_false]
      ext <;> simp
    rw [this]; simp [computePrimitives2]
  rw [e]
  simp only [rate2, hg, Bool.false_eq_true, if_false, cflRate2, sound]
  have hl : 0 < (computePrimitives2 p.settings (u (i - 1) (j - 1))).1.d := by
    simp only [computePrimitives2, fmax_real]
    exact lt_of_lt_of_le hs.good.smallr (le_max_right _ _)
  have hp : 0 ≤ (computePrimitives2 p.settings (u (i - 1) (j - 1))).1.p := by
    have h1 : 0 < max (u (i - 1) (j - 1)).d p.settings.smallr := lt_of_lt_of_le hs.good.smallr (le_max_right _ _)
    simp only [computePrimitives2, fmax_real]
    exact le_trans (mul_nonneg h1.le hs.good.smallp_pos.le) (le_max_right _ _)
  generalize (computePrimitives2 p.settings (u (i - 1) (j - 1))).1 = c at hl hp
  have hf := fastSpeed_noField hs.good.gamma hl hp
  unfold mhdRate2
  rw [show (fluid c).a = 0 from rfl, show (fluid c).b = 0 from rfl, hs.settings, hf, hs.dx, hs.dy]
  rfl

theorem cflDtM2_embed {g : GravityParams} (hg : g.enabled = false) (gf : Grav2 ℝ) (u : Fld2 ℝ) :
    cflDtM2 q (embed2 u) = cflDt2 p g gf u := by
  unfold cflDtM2 cflDt2
  rw [hs.settings]
  congr 2
  ext r
  constructor
  · rintro ⟨i, j, hi, rfl⟩
    exact ⟨i - 1, j - 1, (interior2_deeper hs i j).1 hi, by rw [← hs.settings]; exact rate2_embed hs hg gf u hi⟩
  · rintro ⟨i, j, hi, rfl⟩
    have hi' : interior2 q (i + 1) (j + 1) := (interior2_deeper hs _ _).2 (by simpa using hi)
    refine ⟨i + 1, j + 1, hi', ?_⟩
    have := rate2_embed hs hg gf u hi'
    simp only [add_sub_cancel_right] at this
    rw [← hs.settings, this]

end
end EulerKokkos
