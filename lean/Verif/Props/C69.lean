import Verif.Props.C22

/-!
# C69 — stationary contact discontinuities and shear layers

With `riemann=approx` or `riemann=hllc` a fluid at rest under uniform pressure, *whatever its
density*, is an exact steady state: no mass, momentum or energy moves, and density jumps are not
smeared.  In 2D the same holds for a shear layer: density and tangential velocity varying across the
layer only.  The dissipative solvers (`llf`, `hll`) do not have the property.
-/

set_option linter.constructorNameAsVariable false
set_option linter.unusedSectionVars false
set_option linter.unusedSimpArgs false
set_option linter.unusedVariables false

namespace EulerKokkos
open Spec

/-- The two solvers that resolve contact waves. -/
def Spec.ContactSolver (rt : RiemannType) : Prop := rt = .approx ∨ rt = .hllc

/-- The flux through a face across which nothing flows: only the pressure pushes. -/
def Spec.pressureOnly (P : ℝ) : HS ℝ := ⟨0, 0, P, 0, 0⟩

theorem approxNewton_fix2 {s : Settings ℝ} {u p cl cr : ℝ} (hp : 0 < p) (n : Nat) (conv : ℝ) :
    approxNewton s u p cl u p cr n p conv = p := by
  induction n generalizing conv with
  | zero => rfl
  | succ n ih =>
    unfold approxNewton
    split
    · have e : ∀ x : ℝ, max (x * (u - (p - p) / Real.sqrt (cl * (1 + s.gamma6 * (p - p) / p)) -
          (u + (p - p) / Real.sqrt (cr * (1 + s.gamma6 * (p - p) / p))))) (-p) = 0 := by
        intro x; simp; linarith
      simp only [RealOps.fmax_real, RealOps.fabs_real, RealOps.sqrt_real, RealOps.lit_real,
        Rat.cast_one] at *
      rw [e, add_zero]
      exact ih _
    · rfl

section
variable {s : Settings ℝ} (hs : GoodSettings s) {r1 r2 P : ℝ}
include hs

theorem hllc_at_rest (d3 : Bool) (v1 v2 w1 w2 : ℝ)
    (h1 : Physical s ⟨r1, P, 0, v1, w1⟩) (h2 : Physical s ⟨r2, P, 0, v2, w2⟩) :
    riemannHLLC d3 s ⟨r1, P, 0, v1, w1⟩ ⟨r2, P, 0, v2, w2⟩ = pressureOnly P := by
  have hd1 := phys_d hs h1
  have hd2 := phys_d hs h2
  obtain ⟨a1, a2⟩ := h1
  obtain ⟨b1, b2⟩ := h2
  simp only at a1 a2 b1 b2 hd1 hd2
  have hsc := hs.smallc
  have e1 : max r1 s.smallr = r1 := max_eq_left a1
  have e2 : max r2 s.smallr = r2 := max_eq_left b1
  have e3 : max P (r1 * s.smallp) = P := max_eq_left a2
  have e4 : max P (r2 * s.smallp) = P := max_eq_left b2
  have hc1 : 0 < Real.sqrt (max (s.gamma0 * P / r1) (s.smallc * s.smallc)) :=
    Real.sqrt_pos.2 (lt_of_lt_of_le (by positivity) (le_max_right _ _))
  set c1 := Real.sqrt (max (s.gamma0 * P / r1) (s.smallc * s.smallc)) with hc1d
  set c2 := Real.sqrt (max (s.gamma0 * P / r2) (s.smallc * s.smallc)) with hc2d
  have hc : 0 < max c1 c2 := lt_of_lt_of_le hc1 (le_max_left _ _)
  unfold riemannHLLC
  simp only [RealOps.fmax_real, RealOps.fmin_real, RealOps.lit_real, RealOps.sqrt_real, e1, e2, e3,
    e4, ← hc1d, ← hc2d]
  set c := max c1 c2
  have u0 : (r2 * (max 0 0 + c - 0) * 0 + r1 * (0 - (min 0 0 - c)) * 0 + (P - P)) /
      (r2 * (max 0 0 + c - 0) + r1 * (0 - (min 0 0 - c))) = 0 := by simp
  have p0 : (r2 * (max 0 0 + c - 0) * P + r1 * (0 - (min 0 0 - c)) * P +
      r1 * (0 - (min 0 0 - c)) * (r2 * (max 0 0 + c - 0)) * (0 - 0)) /
      (r2 * (max 0 0 + c - 0) + r1 * (0 - (min 0 0 - c))) = P := by
    simp only [max_self, min_self, zero_add, sub_zero, zero_sub, neg_neg, mul_zero, add_zero]
    have : r2 * c + r1 * c ≠ 0 := by positivity
    rw [div_eq_iff this]; ring
  simp only [u0, p0]
  have b1 : ¬ (0 : ℝ) < min 0 0 - c := by simp; exact hc.le
  have b2 : (0 : ℝ) < max 0 0 + c := by simpa using hc
  simp only [gtb, RealOps.lt_real, Rat.cast_zero, decide_eq_true_eq, b1, if_false, lt_irrefl, b2,
    if_true, mul_zero, zero_add, zero_mul, ite_self]
  simp [pressureOnly]

theorem approx_at_rest (d3 : Bool) (v1 v2 w1 w2 : ℝ)
    (h1 : Physical s ⟨r1, P, 0, v1, w1⟩) (h2 : Physical s ⟨r2, P, 0, v2, w2⟩) :
    riemannApprox d3 s ⟨r1, P, 0, v1, w1⟩ ⟨r2, P, 0, v2, w2⟩ = pressureOnly P := by
  have hd1 := phys_d hs h1
  have hd2 := phys_d hs h2
  have hP := phys_p hs h1
  have hg := hs.gamma
  obtain ⟨a1, a2⟩ := h1
  obtain ⟨b1, b2⟩ := h2
  simp only at a1 a2 b1 b2 hd1 hd2 hP
  have e1 : max r1 s.smallr = r1 := max_eq_left a1
  have e2 : max r2 s.smallr = r2 := max_eq_left b1
  have e3 : max P (r1 * s.smallp) = P := max_eq_left a2
  have e4 : max P (r2 * s.smallp) = P := max_eq_left b2
  have hw1 : 0 < Real.sqrt (s.gamma0 * P * r1) := Real.sqrt_pos.2 (by positivity)
  have hw2 : 0 < Real.sqrt (s.gamma0 * P * r2) := Real.sqrt_pos.2 (by positivity)
  set x1 := Real.sqrt (s.gamma0 * P * r1) with hx1
  set x2 := Real.sqrt (s.gamma0 * P * r2) with hx2
  have hps : max ((x2 * P + x1 * P) / (x1 + x2)) 0 = P := by
    have : (x2 * P + x1 * P) / (x1 + x2) = P := by
      have : x1 + x2 ≠ 0 := by positivity
      rw [div_eq_iff this]; ring
    rw [this]; exact max_eq_left hP.le
  have hN := approxNewton_fix2 (s := s) (u := 0) (cl := s.gamma0 * P * r1)
    (cr := s.gamma0 * P * r2) hP 10 1
  have hst : approxState d3 s ⟨r1, P, 0, v1, w1⟩ ⟨r2, P, 0, v2, w2⟩ =
      ⟨r1, P, 0, v1, if d3 then w1 else 0⟩ := by
    have hin : 0 < x1 / r1 := by positivity
    unfold approxState
    simp only [RealOps.fmax_real, RealOps.fmin_real, RealOps.lit_real, RealOps.sqrt_real, e1, e2,
      e3, e4, ← hx1, ← hx2, Rat.cast_zero, Rat.cast_one, hps, hN, ite_self, sub_self, zero_div,
      mul_zero, add_zero, sub_zero, mul_one, div_one, RealOps.fabs_real, RealOps.copysign_real,
      le_refl, if_true, abs_one, gtb, geb, RealOps.lt_real, RealOps.le_real, zero_lt_one,
      decide_true, hin, abs_one]
  unfold riemannApprox
  rw [hst]
  unfold cmpflx pressureOnly
  cases d3 <;> simp

theorem contact_flux2 {rt : RiemannType} (hr : ContactSolver rt) (v1 v2 w1 w2 : ℝ)
    (h1 : Physical s ⟨r1, P, 0, v1, w1⟩) (h2 : Physical s ⟨r2, P, 0, v2, w2⟩) (f0 : HS ℝ) :
    riemannHydro2 s rt ⟨r1, P, 0, v1, w1⟩ ⟨r2, P, 0, v2, w2⟩ f0 = pressureOnly P := by
  rcases hr with rfl | rfl
  · exact approx_at_rest hs false _ _ _ _ h1 h2
  · exact hllc_at_rest hs false _ _ _ _ h1 h2

theorem contact_flux3 {rt : RiemannType} (hr : ContactSolver rt) (v1 v2 w1 w2 : ℝ)
    (h1 : Physical s ⟨r1, P, 0, v1, w1⟩) (h2 : Physical s ⟨r2, P, 0, v2, w2⟩) (f0 : HS ℝ) :
    riemannHydro3 s rt ⟨r1, P, 0, v1, w1⟩ ⟨r2, P, 0, v2, w2⟩ f0 = pressureOnly P := by
  rcases hr with rfl | rfl
  · exact approx_at_rest hs true _ _ _ _ h1 h2
  · exact hllc_at_rest hs true _ _ _ _ h1 h2

end

/-- **C69 (one face).** Two states at rest relative to the face, at the same pressure, with any
densities and any tangential velocities: no mass, no energy and no tangential momentum crosses the
face, and the normal momentum flux is the pressure. -/
theorem C69_contact_face {s : Settings ℝ} (hs : GoodSettings s) {rt : RiemannType}
    (hr : ContactSolver rt) {r1 r2 P v1 v2 w1 w2 : ℝ}
    (h1 : Physical s ⟨r1, P, 0, v1, w1⟩) (h2 : Physical s ⟨r2, P, 0, v2, w2⟩) (f0 : HS ℝ) :
    riemannHydro2 s rt ⟨r1, P, 0, v1, w1⟩ ⟨r2, P, 0, v2, w2⟩ f0 = pressureOnly P ∧
    riemannHydro3 s rt ⟨r1, P, 0, v1, w1⟩ ⟨r2, P, 0, v2, w2⟩ f0 = pressureOnly P :=
  ⟨contact_flux2 hs hr _ _ _ _ h1 h2 f0, contact_flux3 hs hr _ _ _ _ h1 h2 f0⟩

/-! ## The scheme on a fluid at rest -/

/-- a state at rest at pressure `P`, at or above the floors -/
def Spec.RestAt (s : Settings ℝ) (P : ℝ) (q : HS ℝ) : Prop :=
  Physical s q ∧ q = ⟨q.d, P, 0, 0, 0⟩

theorem slopeDir_zero (q qp qm : ℝ) : slopeScalarDir 0 q qp qm = 0 := by
  rw [slopeScalarDir_real]; simp

theorem slope2_eq {s : Settings ℝ}
    (hs : s.slope_type = 0 ∨ s.slope_type = 1 ∨ s.slope_type = 2) (q a b c d : HS ℝ) :
    slope2 s q a b c d HS.zero HS.zero =
      (⟨slopeScalarDir s.slope_type q.d a.d b.d, slopeScalarDir s.slope_type q.p a.p b.p,
        slopeScalarDir s.slope_type q.u a.u b.u, slopeScalarDir s.slope_type q.v a.v b.v, 0⟩,
       ⟨slopeScalarDir s.slope_type q.d c.d d.d, slopeScalarDir s.slope_type q.p c.p d.p,
        slopeScalarDir s.slope_type q.u c.u d.u, slopeScalarDir s.slope_type q.v c.v d.v, 0⟩) := by
  by_cases hz : s.slope_type = 0
  · rw [hz]; simp only [slopeDir_zero]
    unfold slope2
    rw [if_pos (by simp [hz])]
    simp [HS.zero]
  · have h12 : s.slope_type = 1 ∨ s.slope_type = 2 := by tauto
    unfold slope2 slopeScalar2
    rw [if_neg (by simp [hz]), if_pos (by simpa using h12)]
    simp

theorem slope3_eq {s : Settings ℝ}
    (hs : s.slope_type = 0 ∨ s.slope_type = 1 ∨ s.slope_type = 2) (q a b c d e f : HS ℝ) :
    slope3 s q a b c d e f ⟨HS.zero, HS.zero, HS.zero⟩ =
      (let dir (a b : HS ℝ) : HS ℝ :=
        ⟨slopeScalarDir s.slope_type q.d a.d b.d, slopeScalarDir s.slope_type q.p a.p b.p,
         slopeScalarDir s.slope_type q.u a.u b.u, slopeScalarDir s.slope_type q.v a.v b.v,
         slopeScalarDir s.slope_type q.w a.w b.w⟩
       ⟨dir a b, dir c d, dir e f⟩) := by
  by_cases hz : s.slope_type = 0
  · rw [hz]; simp only [slopeDir_zero]
    unfold slope3
    rw [if_pos (by simp [hz])]
    simp [HS.zero]
  · have h12 : s.slope_type = 1 ∨ s.slope_type = 2 := by tauto
    unfold slope3
    rw [if_neg (by simp [hz]), if_pos (by simpa using h12)]

theorem slope_real {s : Settings ℝ}
    (h : RealOps.beq s.slope_type (lit 0 : ℝ) = true ∨ RealOps.beq s.slope_type (lit 1 : ℝ) = true ∨
      RealOps.beq s.slope_type (lit 2 : ℝ) = true) :
    s.slope_type = 0 ∨ s.slope_type = 1 ∨ s.slope_type = 2 := by simpa using h

/-- A face density of the limited reconstruction lies between the densities of two cells, so the
face state stays at or above the floors when the cells are. -/
theorem face_phys {s : Settings ℝ}
    (hs : s.slope_type = 0 ∨ s.slope_type = 1 ∨ s.slope_type = 2) {r rp rm P v w : ℝ}
    (h : ∀ x ∈ [r, rp, rm], s.smallr ≤ x ∧ x * s.smallp ≤ P) (hsp : 0 < s.smallp) :
    (Physical s ⟨max s.smallr (r - slopeScalarDir s.slope_type r rp rm / 2), P, 0, v, w⟩ ∧
     Physical s ⟨max s.smallr (r + slopeScalarDir s.slope_type r rp rm / 2), P, 0, v, w⟩) := by
  have h0 : 0 ≤ s.slope_type := by rcases hs with h | h | h <;> rw [h] <;> norm_num
  have h2 : s.slope_type ≤ 2 := by rcases hs with h | h | h <;> rw [h] <;> norm_num
  obtain ⟨_, _, _, ⟨m1, m2, m3, m4⟩, _⟩ := slopeScalarDir_tvd h0 h2 r rp rm
  obtain ⟨a1, a2⟩ := h r (by simp)
  obtain ⟨b1, b2⟩ := h rp (by simp)
  obtain ⟨c1, c2⟩ := h rm (by simp)
  generalize slopeScalarDir s.slope_type r rp rm = σ at *
  have k1 : s.smallr ≤ r - σ / 2 := le_trans (le_min c1 a1) m3
  have k2 : s.smallr ≤ r + σ / 2 := le_trans (le_min a1 b1) m1
  have e1 : max s.smallr (r - σ / 2) = r - σ / 2 := max_eq_right k1
  have e2 : max s.smallr (r + σ / 2) = r + σ / 2 := max_eq_right k2
  rw [e1, e2]
  refine ⟨⟨k1, ?_⟩, k2, ?_⟩
  · refine le_trans (mul_le_mul_of_nonneg_right m4 hsp.le) ?_
    show max rm r * s.smallp ≤ P
    rcases max_choice rm r with h | h <;> rw [h] <;> assumption
  · refine le_trans (mul_le_mul_of_nonneg_right m2 hsp.le) ?_
    show max r rp * s.smallp ≤ P
    rcases max_choice r rp with h | h <;> rw [h] <;> assumption

theorem face2_rest {p : Params ℝ} (hs : GoodSettings p.settings) (hv : Valid2 p) {P : ℝ}
    {q : Fld2 ℝ} (hq : ∀ i j, RestAt p.settings P (q i j)) {g : GravityParams}
    (hg : g.enabled = false) (dt : ℝ) (gf : Grav2 ℝ) (i j : Int) (f : Face)
    (hf : f ≠ .zmin ∧ f ≠ .zmax) :
    RestAt p.settings P (face2 p g dt gf q f i j) := by
  have hsl := slope_real hv.slope
  have hsp := hs.smallp_pos
  have hh : ∀ i j, p.settings.smallr ≤ (q i j).d ∧ (q i j).d * p.settings.smallp ≤ P := by
    intro i j
    obtain ⟨⟨a, b⟩, c⟩ := hq i j
    refine ⟨a, ?_⟩
    rw [c] at b
    exact b
  have e : ∀ i j, (q i j).p = P ∧ (q i j).u = 0 ∧ (q i j).v = 0 ∧ (q i j).w = 0 := by
    intro i j
    obtain ⟨_, c⟩ := hq i j
    rw [c]; simp
  have fx := face_phys hsl (v := 0) (w := 0) (r := (q i j).d) (rp := (q (i + 1) j).d)
    (rm := (q (i - 1) j).d) (P := P)
    (by intro x hx; simp only [List.mem_cons, List.not_mem_nil, or_false] at hx
        rcases hx with rfl | rfl | rfl <;> exact hh _ _) hsp
  have fy := face_phys hsl (v := 0) (w := 0) (r := (q i j).d) (rp := (q i (j + 1)).d)
    (rm := (q i (j - 1)).d) (P := P)
    (by intro x hx; simp only [List.mem_cons, List.not_mem_nil, or_false] at hx
        rcases hx with rfl | rfl | rfl <;> exact hh _ _) hsp
  have hsl2 : slopes2 p q i j =
      (⟨slopeScalarDir p.settings.slope_type (q i j).d (q (i + 1) j).d (q (i - 1) j).d, 0, 0, 0, 0⟩,
       ⟨slopeScalarDir p.settings.slope_type (q i j).d (q i (j + 1)).d (q i (j - 1)).d, 0, 0, 0, 0⟩)
      := by
    unfold slopes2
    rw [slope2_eq hsl]
    simp only [fun i j => (e i j).1, fun i j => (e i j).2.1, fun i j => (e i j).2.2.1,
      slopeScalarDir_const]
  have half : ∀ x : ℝ, ((1/2 : ℚ) : ℝ) * x = x / 2 := by intro x; push_cast; ring
  unfold face2 kick2
  simp only [hg, Bool.false_and, Bool.false_eq_true, if_false]
  rw [hsl2]
  obtain ⟨a1, a2, a3, a4⟩ := e i j
  cases f
  · simp only [traceAlongDir2, a1, a2, a3, neg_zero, zero_mul, sub_zero, mul_zero, add_zero,
      zero_div, RealOps.fmax_real, RealOps.lit_real, half, Rat.cast_zero]
    exact ⟨fx.1, rfl⟩
  · simp only [traceAlongDir2, a1, a2, a3, neg_zero, zero_mul, sub_zero, mul_zero, add_zero,
      zero_div, RealOps.fmax_real, RealOps.lit_real, half, Rat.cast_zero]
    exact ⟨fx.2, rfl⟩
  · simp only [traceAlongDir2, a1, a2, a3, neg_zero, zero_mul, sub_zero, mul_zero, add_zero,
      zero_div, RealOps.fmax_real, RealOps.lit_real, half, Rat.cast_zero]
    exact ⟨fy.1, rfl⟩
  · simp only [traceAlongDir2, a1, a2, a3, neg_zero, zero_mul, sub_zero, mul_zero, add_zero,
      zero_div, RealOps.fmax_real, RealOps.lit_real, half, Rat.cast_zero]
    exact ⟨fy.2, rfl⟩
  · exact absurd rfl hf.1
  · exact absurd rfl hf.2

/-- the reference step leaves a fluid at rest at rest (fields given everywhere) -/
theorem step2_rest {p : Params ℝ} (hs : GoodSettings p.settings) (hv : Valid2 p)
    (hr : ContactSolver p.riemannSolverType) {P : ℝ} {q : Fld2 ℝ}
    (hq : ∀ i j, RestAt p.settings P (q i j)) {g : GravityParams} (hg : g.enabled = false)
    (dt : ℝ) (gf : Grav2 ℝ) :
    step2 p g dt gf (fun i j => toCons p.settings.gamma0 (q i j)) =
      fun i j => toCons p.settings.gamma0 (q i j) := by
  have hw : ∀ i j, q i j = ⟨(q i j).d, P, 0, 0, 0⟩ := fun i j => (hq i j).2
  have hprim : prim2 p (fun i j => toCons p.settings.gamma0 (q i j)) = q := by
    funext i j
    exact (C18_inverse_2d hs).1 _ (hq i j).1 (by rw [hw i j]; rfl)
  have hface := face2_rest hs hv hq hg dt gf
  have hX : ∀ i j, fluxX2 p g dt gf q i j = ((pressureOnly P).smul (dt / p.dx)).trunc := by
    intro i j
    obtain ⟨a1, a2⟩ := hface (i - 1) j .xmax (by simp)
    obtain ⟨b1, b2⟩ := hface i j .xmin (by simp)
    unfold fluxX2
    rw [a2] at a1; rw [b2] at b1
    rw [a2, b2, contact_flux2 hs hr _ _ _ _ a1 b1]
  have hY : ∀ i j, fluxY2 p g dt gf q i j = ((pressureOnly P).smul (dt / p.dy)).swapUV.trunc := by
    intro i j
    obtain ⟨a1, a2⟩ := hface i (j - 1) .ymax (by simp)
    obtain ⟨b1, b2⟩ := hface i j .ymin (by simp)
    unfold fluxY2
    rw [a2] at a1; rw [b2] at b1
    rw [a2, b2]
    simp only [HS.swapUV]
    rw [contact_flux2 hs hr _ _ _ _ a1 b1]
  unfold step2
  funext i j
  simp only [hg, Bool.false_eq_true, if_false]
  split_ifs with hint
  · simp only [hprim]
    unfold fluxUpdate2
    rw [hX, hX, hY, hY]
    have h2' : (toCons p.settings.gamma0 (q i j)).w = 0 := by
      rw [hw i j]; simp [toCons]
    generalize toCons p.settings.gamma0 (q i j) = c at *
    simp only [HS.add, HS.sub, HS.trunc, RealOps.lit_real]
    ext <;> simp [h2']
  · rfl

/-- the conservative field of a fluid at rest -/
noncomputable def Spec.restCons (γ P ρ : ℝ) : HS ℝ := ⟨ρ, P / (γ - 1), 0, 0, 0⟩

theorem toCons_rest (γ P ρ : ℝ) : toCons γ ⟨ρ, P, 0, 0, 0⟩ = restCons γ P ρ := by
  simp [toCons, restCons]

theorem fullStep2_rest {p : Params ℝ} (hp : Hydro2 p) (hs : GoodSettings p.settings)
    (hr : ContactSolver p.riemannSolverType) {P : ℝ} {ρ : Int → Int → ℝ}
    (hρ : ∀ i j, interior2 p i j → p.settings.smallr ≤ ρ i j ∧ ρ i j * p.settings.smallp ≤ P)
    {g : GravityParams} (hg : g.enabled = false) (dt : ℝ) (gf : Grav2 ℝ) {u : Fld2 ℝ}
    (hu : ∀ i j, interior2 p i j → u i j = restCons p.settings.gamma0 P (ρ i j)) :
    ∀ i j, interior2 p i j →
      fullStep2 p g dt gf u i j = restCons p.settings.gamma0 P (ρ i j) := by
  obtain ⟨f1, f2, f3, f4⟩ := hp.faces
  have n1 := hp.wf.nx_pos
  have n2 := hp.wf.ny_pos
  have hgw := hp.wf.gw_pos
  let cx : Int → Int := fun i =>
    if 0 ≤ i ∧ i < p.nx + 2 * p.ghostWidth then
      srcCoord p.boundary_type_xmin p.boundary_type_xmax p.nx p.ghostWidth i else p.ghostWidth
  let cy : Int → Int := fun j =>
    if 0 ≤ j ∧ j < p.ny + 2 * p.ghostWidth then
      srcCoord p.boundary_type_ymin p.boundary_type_ymax p.ny p.ghostWidth j else p.ghostWidth
  have hcx : ∀ i, p.ghostWidth ≤ cx i ∧ cx i < p.ghostWidth + p.nx := by
    intro i
    by_cases h : 0 ≤ i ∧ i < p.nx + 2 * p.ghostWidth
    · simp only [cx, if_pos h]; exact srcCoord_interior n1 f1 f2 h.1 h.2
    · simp only [cx, if_neg h]; omega
  have hcy : ∀ j, p.ghostWidth ≤ cy j ∧ cy j < p.ghostWidth + p.ny := by
    intro i
    by_cases h : 0 ≤ i ∧ i < p.ny + 2 * p.ghostWidth
    · simp only [cy, if_pos h]; exact srcCoord_interior n2 f3 f4 h.1 h.2
    · simp only [cy, if_neg h]; omega
  have hI : ∀ i j, interior2 p (cx i) (cy j) := fun i j => ⟨(hcx i).1, (hcx i).2, (hcy j).1, (hcy j).2⟩
  let q : Fld2 ℝ := fun i j => ⟨ρ (cx i) (cy j), P, 0, 0, 0⟩
  have hq : ∀ i j, RestAt p.settings P (q i j) := fun i j => ⟨hρ _ _ (hI i j), rfl⟩
  have key : ∀ i j, inGrid2 p i j →
      fill2 p u i j = toCons p.settings.gamma0 (q i j) := by
    intro i j hij
    obtain ⟨a, b, c, d⟩ := hij
    have ex : srcCoord p.boundary_type_xmin p.boundary_type_xmax p.nx p.ghostWidth i = cx i := by
      simp only [cx]; rw [if_pos ⟨a, b⟩]
    have ey : srcCoord p.boundary_type_ymin p.boundary_type_ymax p.ny p.ghostWidth j = cy j := by
      simp only [cy]; rw [if_pos ⟨c, d⟩]
    unfold fill2
    rw [ex, ey, hu _ _ (hI i j), toCons_rest]
    simp [restCons, signed]
  intro i j hij
  have hgrid : inGrid2 p i j := by
    obtain ⟨a, b, c, d⟩ := hij
    exact ⟨by omega, by omega, by omega, by omega⟩
  unfold fullStep2
  rw [step2_grid_congr hp.wf key i j hgrid, step2_rest hs hp.valid hr hq hg]
  have ex : cx i = i := by
    obtain ⟨a, b, c, d⟩ := hij
    simp only [cx]; rw [if_pos (by omega)]
    unfold srcCoord; rw [if_neg (by omega), if_neg (by omega)]
  have ey : cy j = j := by
    obtain ⟨a, b, c, d⟩ := hij
    simp only [cy]; rw [if_pos (by omega)]
    unfold srcCoord; rw [if_neg (by omega), if_neg (by omega)]
  show toCons p.settings.gamma0 (q i j) = _
  simp only [q, ex, ey, toCons_rest]

/-- **C69 (2D).** With a contact-resolving solver and no gravity: if every interior cell holds a
fluid at rest at the same pressure `P`, with *any* density at or above the floors, then after any
number of steps (any time steps, boundary conditions, slope type, implementation version, schedule)
every interior cell still holds exactly its initial content. -/
theorem C69_rest_2d {p : Params ℝ} (hp : Hydro2 p) (hs : GoodSettings p.settings)
    (hi : p.implementationVersion = 0 ∨ p.implementationVersion = 1 ∨
      p.implementationVersion = 2)
    (hr : ContactSolver p.riemannSolverType)
    {g : GravityParams} (hg : g.enabled = false) {P : ℝ} {ρ : Int → Int → ℝ}
    (hρ : ∀ i j, interior2 p i j → p.settings.smallr ≤ ρ i j ∧ ρ i j * p.settings.smallp ≤ P)
    (jk : Junk ℝ) (dts : List ℝ) (n : Nat) {m m' : Mem Arr ℝ}
    (h0 : ∀ i j, interior2 p i j →
      hs2 m (pingIn n) i j = restCons p.settings.gamma0 P (ρ i j))
    (hm : hydroRun2 p g jk n dts m m') :
    ∀ i j, interior2 p i j →
      hs2 m' (pingIn (n + dts.length)) i j = restCons p.settings.gamma0 P (ρ i j) := by
  intro i j hij
  have hgw := hp.wf.gw_pos
  have hgrid : inGrid2 p i j := by
    obtain ⟨a, b, c, d⟩ := hij
    exact ⟨by omega, by omega, by omega, by omega⟩
  rw [(hydroRun2_result hp signLaws_real (schemeOK2_real hp hi) dts n hm).1 i j hgrid]
  clear hm
  generalize hs2 m (pingIn n) = u at h0
  generalize gravOf m .grav = gf
  induction dts generalizing u with
  | nil => exact h0 i j hij
  | cons dt dts ih =>
    unfold iterStep2
    exact ih _ (fullStep2_rest hp hs hr hρ hg dt gf h0)

/-! ## Three dimensions -/

theorem trace3_rest {p : Params ℝ} (hs : GoodSettings p.settings) (hv : Valid3 p) {P : ℝ}
    {q : Fld3 ℝ} (hq : ∀ i j k, RestAt p.settings P (q i j k)) (dt : ℝ) (i j k : Int) (f : Face) :
    RestAt p.settings P (trace3 p dt q f i j k) := by
  have hsl := slope_real hv.slope
  have hsp := hs.smallp_pos
  have hh : ∀ i j k, p.settings.smallr ≤ (q i j k).d ∧ (q i j k).d * p.settings.smallp ≤ P := by
    intro i j k
    obtain ⟨⟨a, b⟩, c⟩ := hq i j k
    refine ⟨a, ?_⟩
    rw [c] at b
    exact b
  have e : ∀ i j k, (q i j k).p = P ∧ (q i j k).u = 0 ∧ (q i j k).v = 0 ∧ (q i j k).w = 0 := by
    intro i j k
    obtain ⟨_, c⟩ := hq i j k
    rw [c]; simp
  have fp : ∀ a b : ℝ, (∃ i j k, a = (q i j k).d) → (∃ i j k, b = (q i j k).d) →
      _ := fun a b ha hb => face_phys hsl (v := 0) (w := 0) (r := (q i j k).d) (rp := a)
    (rm := b) (P := P)
    (by intro x hx; simp only [List.mem_cons, List.not_mem_nil, or_false] at hx
        rcases hx with rfl | rfl | rfl
        · exact hh _ _ _
        · obtain ⟨_, _, _, rfl⟩ := ha; exact hh _ _ _
        · obtain ⟨_, _, _, rfl⟩ := hb; exact hh _ _ _) hsp
  have fx := fp _ _ ⟨i + 1, j, k, rfl⟩ ⟨i - 1, j, k, rfl⟩
  have fy := fp _ _ ⟨i, j + 1, k, rfl⟩ ⟨i, j - 1, k, rfl⟩
  have fz := fp _ _ ⟨i, j, k + 1, rfl⟩ ⟨i, j, k - 1, rfl⟩
  have half : ∀ x : ℝ, ((1/2 : ℚ) : ℝ) * x = x / 2 := by intro x; push_cast; ring
  unfold trace3 slopes3
  rw [slope3_eq hsl]
  simp only [fun i j k => (e i j k).1, fun i j k => (e i j k).2.1, fun i j k => (e i j k).2.2.1,
      fun i j k => (e i j k).2.2.2, slopeScalarDir_const]
  cases f <;> simp only [traceAlongDir3, fun i j k => (e i j k).1, fun i j k => (e i j k).2.1,
      fun i j k => (e i j k).2.2.1, fun i j k => (e i j k).2.2.2, neg_zero, zero_mul, sub_zero,
      mul_zero, add_zero, zero_div, RealOps.fmax_real, RealOps.lit_real, half, Rat.cast_zero]
  · exact ⟨fx.1, rfl⟩
  · exact ⟨fx.2, rfl⟩
  · exact ⟨fy.1, rfl⟩
  · exact ⟨fy.2, rfl⟩
  · exact ⟨fz.1, rfl⟩
  · exact ⟨fz.2, rfl⟩

theorem step3_rest {zk : Bool} {p : Params ℝ} (hs : GoodSettings p.settings) (hv : Valid3 p)
    (hr : ContactSolver p.riemannSolverType) {P : ℝ} {q : Fld3 ℝ}
    (hq : ∀ i j k, RestAt p.settings P (q i j k)) {g : GravityParams} (hg : g.enabled = false)
    (dt : ℝ) (gf : Grav3 ℝ) :
    step3 zk p g dt gf (fun i j k => toCons p.settings.gamma0 (q i j k)) =
      fun i j k => toCons p.settings.gamma0 (q i j k) := by
  have hprim : prim3 p (fun i j k => toCons p.settings.gamma0 (q i j k)) = q := by
    funext i j k
    exact (C18_inverse_3d hs).1 _ (hq i j k).1
  have htr := trace3_rest hs hv hq dt
  have hface : ∀ i j k f, face3 p g dt gf q f i j k = trace3 p dt q f i j k := by
    intro i j k f
    simp only [face3, kick3, hg, Bool.false_and, Bool.false_eq_true, if_false]
  have hX : ∀ i j k, fluxX3 p g dt gf q i j k = (pressureOnly P).smul (dt / p.dx) := by
    intro i j k
    obtain ⟨a1, a2⟩ := htr (i - 1) j k .xmax
    obtain ⟨b1, b2⟩ := htr i j k .xmin
    unfold fluxX3
    rw [a2] at a1; rw [b2] at b1
    rw [hface, hface, a2, b2, contact_flux3 hs hr _ _ _ _ a1 b1]
  have hY : ∀ i j k, fluxY3 p g dt gf q i j k = ((pressureOnly P).smul (dt / p.dy)).swapUV := by
    intro i j k
    obtain ⟨a1, a2⟩ := htr i (j - 1) k .ymax
    obtain ⟨b1, b2⟩ := htr i j k .ymin
    unfold fluxY3
    rw [a2] at a1; rw [b2] at b1
    rw [hface, hface, a2, b2]
    simp only [HS.swapUV]
    rw [contact_flux3 hs hr _ _ _ _ a1 b1]
  have hZ : ∀ i j k, fluxZ3 zk p g dt gf q i j k = ((pressureOnly P).smul (dt / p.dz)).swapUW := by
    intro i j k
    obtain ⟨a1, a2⟩ := htr i j (k - 1) .zmax
    obtain ⟨b1, b2⟩ := htr i j k .zmin
    unfold fluxZ3
    rw [a2] at a1; rw [b2] at b1
    rw [hface, hface, ite_self, a2, b2]
    simp only [HS.swapUW]
    rw [contact_flux3 hs hr _ _ _ _ a1 b1]
  unfold step3
  funext i j k
  simp only [hg, Bool.false_eq_true, if_false]
  split_ifs with hint
  · simp only [hprim]
    unfold fluxUpdate3
    rw [hX, hX, hY, hY, hZ, hZ]
    simp only [HS.add, HS.sub]
    ext <;> simp
  · rfl

theorem fullStep3_rest {zk : Bool} {p : Params ℝ} (hp : Hydro3 p) (hs : GoodSettings p.settings)
    (hr : ContactSolver p.riemannSolverType) {P : ℝ} {ρ : Int → Int → Int → ℝ}
    (hρ : ∀ i j k, interior3 p i j k →
      p.settings.smallr ≤ ρ i j k ∧ ρ i j k * p.settings.smallp ≤ P)
    {g : GravityParams} (hg : g.enabled = false) (dt : ℝ) (gf : Grav3 ℝ) {u : Fld3 ℝ}
    (hu : ∀ i j k, interior3 p i j k → u i j k = restCons p.settings.gamma0 P (ρ i j k)) :
    ∀ i j k, interior3 p i j k →
      fullStep3 zk p g dt gf u i j k = restCons p.settings.gamma0 P (ρ i j k) := by
  obtain ⟨⟨f1, f2, f3, f4⟩, f5, f6⟩ := hp.faces
  have n1 := hp.wf.nx_pos
  have n2 := hp.wf.ny_pos
  have n3 := hp.wf.nz_pos
  have hgw := hp.wf.gw_pos
  let cc (b1 b2 : BC) (n : Int) : Int → Int := fun i =>
    if 0 ≤ i ∧ i < n + 2 * p.ghostWidth then srcCoord b1 b2 n p.ghostWidth i else p.ghostWidth
  have hcc : ∀ (b1 b2 : BC) (n : Int), 0 < n →
      (∀ i, 0 ≤ i → i < n + 2 * p.ghostWidth → p.ghostWidth ≤ srcCoord b1 b2 n p.ghostWidth i ∧
        srcCoord b1 b2 n p.ghostWidth i < p.ghostWidth + n) →
      ∀ i, p.ghostWidth ≤ cc b1 b2 n i ∧ cc b1 b2 n i < p.ghostWidth + n := by
    intro b1 b2 n hn H i
    by_cases h : 0 ≤ i ∧ i < n + 2 * p.ghostWidth
    · simp only [cc, if_pos h]; exact H i h.1 h.2
    · simp only [cc, if_neg h]; omega
  have hcx := hcc p.boundary_type_xmin p.boundary_type_xmax p.nx (by omega)
    (fun i a b => srcCoord_interior n1 f1 f2 a b)
  have hcy := hcc p.boundary_type_ymin p.boundary_type_ymax p.ny (by omega)
    (fun i a b => srcCoord_interior n2 f3 f4 a b)
  have hcz := hcc p.boundary_type_zmin p.boundary_type_zmax p.nz (by omega)
    (fun i a b => srcCoord_interior n3 f5 f6 a b)
  have gi : ∀ (b1 b2 : BC) (n i : Int), 0 ≤ i → i < n + 2 * p.ghostWidth →
      srcCoord b1 b2 n p.ghostWidth i = cc b1 b2 n i := by
    intro b1 b2 n i a b
    simp only [cc]; rw [if_pos ⟨a, b⟩]
  have ii : ∀ (b1 b2 : BC) (n i : Int), p.ghostWidth ≤ i → i < p.ghostWidth + n →
      cc b1 b2 n i = i := by
    intro b1 b2 n i a b
    rw [← gi _ _ _ _ (by omega) (by omega)]
    unfold srcCoord; rw [if_neg (by omega), if_neg (by omega)]
  set cx := cc p.boundary_type_xmin p.boundary_type_xmax p.nx with hcxd
  set cy := cc p.boundary_type_ymin p.boundary_type_ymax p.ny with hcyd
  set cz := cc p.boundary_type_zmin p.boundary_type_zmax p.nz with hczd
  have hI : ∀ i j k, interior3 p (cx i) (cy j) (cz k) := fun i j k => ⟨hcx i, hcy j, hcz k⟩
  let q : Fld3 ℝ := fun i j k => ⟨ρ (cx i) (cy j) (cz k), P, 0, 0, 0⟩
  have hq : ∀ i j k, RestAt p.settings P (q i j k) := fun i j k => ⟨hρ _ _ _ (hI i j k), rfl⟩
  have key : ∀ i j k, inGrid3 p i j k →
      fill3 p u i j k = toCons p.settings.gamma0 (q i j k) := by
    intro i j k hij
    obtain ⟨⟨a, b⟩, ⟨c, d⟩, e, f⟩ := hij
    unfold fill3
    rw [gi _ _ _ _ a b, gi _ _ _ _ c d, gi _ _ _ _ e f, ← hcxd, ← hcyd, ← hczd,
      hu _ _ _ (hI i j k), toCons_rest]
    simp [restCons, signed]
  intro i j k hij
  obtain ⟨⟨a, b⟩, ⟨c, d⟩, e, f⟩ := hij
  have hgrid : inGrid3 p i j k := ⟨⟨by omega, by omega⟩, ⟨by omega, by omega⟩, by omega, by omega⟩
  unfold fullStep3
  rw [step3_grid_congr hp.wf key i j k hgrid, step3_rest hs hp.valid hr hq hg]
  show toCons p.settings.gamma0 (q i j k) = _
  simp only [q, toCons_rest]
  rw [hcxd, hcyd, hczd, ii _ _ _ _ a b, ii _ _ _ _ c d, ii _ _ _ _ e f]

/-- **C69 (3D).** -/
theorem C69_rest_3d {p : Params ℝ} (hp : Hydro3 p) (hs : GoodSettings p.settings)
    (hi : p.implementationVersion = 0 ∨ p.implementationVersion = 1 ∨
      p.implementationVersion = 2)
    (hr : ContactSolver p.riemannSolverType)
    {g : GravityParams} (hg : g.enabled = false) {P : ℝ} {ρ : Int → Int → Int → ℝ}
    (hρ : ∀ i j k, interior3 p i j k →
      p.settings.smallr ≤ ρ i j k ∧ ρ i j k * p.settings.smallp ≤ P)
    (jk : Junk ℝ) (dts : List ℝ) (n : Nat) {m m' : Mem Arr ℝ}
    (h0 : ∀ i j k, interior3 p i j k →
      hs3 m (pingIn n) i j k = restCons p.settings.gamma0 P (ρ i j k))
    (hm : hydroRun3 p g jk n dts m m') :
    ∀ i j k, interior3 p i j k →
      hs3 m' (pingIn (n + dts.length)) i j k = restCons p.settings.gamma0 P (ρ i j k) := by
  intro i j k hij
  have hgw := hp.wf.gw_pos
  have hgrid : inGrid3 p i j k := by
    obtain ⟨⟨a, b⟩, ⟨c, d⟩, e, f⟩ := hij
    exact ⟨⟨by omega, by omega⟩, ⟨by omega, by omega⟩, by omega, by omega⟩
  rw [(hydroRun3_result hp signLaws_real (schemeOK3_real hp hi) dts n hm).1 i j k hgrid]
  clear hm
  generalize hs3 m (pingIn n) = u at h0
  generalize gravOf3 m .grav = gf
  induction dts generalizing u with
  | nil => exact h0 i j k hij
  | cons dt dts ih =>
    unfold iterStep3
    exact ih _ (fullStep3_rest hp hs hr hρ hg dt gf h0)

/-! ## Shear layers (2D) -/

/-- the conservative content of a cell of a shear layer: no velocity across the layer -/
noncomputable def Spec.shearCons (γ P ρ v : ℝ) : HS ℝ := ⟨ρ, P / (γ - 1) + ρ * v ^ 2 / 2, 0, ρ * v, 0⟩

theorem toCons_shear (γ P ρ v : ℝ) : toCons γ ⟨ρ, P, 0, v, 0⟩ = shearCons γ P ρ v := by
  simp [toCons, shearCons]

theorem step2_shear {p : Params ℝ} (hs : GoodSettings p.settings) (hv : Valid2 p)
    (hr : ContactSolver p.riemannSolverType) {P : ℝ} {ρ v : Int → ℝ}
    (hρ : ∀ i, p.settings.smallr ≤ ρ i ∧ ρ i * p.settings.smallp ≤ P)
    {g : GravityParams} (hg : g.enabled = false) (dt : ℝ) (gf : Grav2 ℝ) :
    step2 p g dt gf (fun i _ => shearCons p.settings.gamma0 P (ρ i) (v i)) =
      fun i _ => shearCons p.settings.gamma0 P (ρ i) (v i) := by
  have hsl := slope_real hv.slope
  have hsp := hs.smallp_pos
  let q : Fld2 ℝ := fun i _ => ⟨ρ i, P, 0, v i, 0⟩
  have hprim : prim2 p (fun i _ => shearCons p.settings.gamma0 P (ρ i) (v i)) = q := by
    funext i j
    unfold prim2
    beta_reduce
    rw [← toCons_shear]
    exact (C18_inverse_2d hs).1 _ (hρ i) rfl
  let σ : Int → ℝ := fun i => slopeScalarDir p.settings.slope_type (ρ i) (ρ (i + 1)) (ρ (i - 1))
  let τ : Int → ℝ := fun i => slopeScalarDir p.settings.slope_type (v i) (v (i + 1)) (v (i - 1))
  have hsl2 : ∀ i j, slopes2 p q i j = (⟨σ i, 0, 0, τ i, 0⟩, HS.zero) := by
    intro i j
    unfold slopes2
    rw [slope2_eq hsl]
    simp only [q, slopeScalarDir_const, HS.zero, RealOps.lit_real, Rat.cast_zero, σ, τ]
  have half : ∀ x : ℝ, ((1/2 : ℚ) : ℝ) * x = x / 2 := by intro x; push_cast; ring
  have face : ∀ f i j, face2 p g dt gf q f i j =
      traceAlongDir2 p.settings (q i j) ⟨σ i, 0, 0, τ i, 0⟩ HS.zero (dt / p.dx) (dt / p.dy) f := by
    intro f i j
    unfold face2 kick2
    simp only [hg, Bool.false_and, Bool.false_eq_true, if_false, hsl2]
  have hxmin : ∀ i j, face2 p g dt gf q .xmin i j =
      ⟨max p.settings.smallr (ρ i - σ i / 2), P, 0, v i - τ i / 2, 0⟩ := by
    intro i j
    rw [face]
    simp only [traceAlongDir2, q, HS.zero, neg_zero, zero_mul, sub_zero, mul_zero, add_zero,
      zero_div, RealOps.fmax_real, RealOps.lit_real, half, Rat.cast_zero]
  have hxmax : ∀ i j, face2 p g dt gf q .xmax i j =
      ⟨max p.settings.smallr (ρ i + σ i / 2), P, 0, v i + τ i / 2, 0⟩ := by
    intro i j
    rw [face]
    simp only [traceAlongDir2, q, HS.zero, neg_zero, zero_mul, sub_zero, mul_zero, add_zero,
      zero_div, RealOps.fmax_real, RealOps.lit_real, half, Rat.cast_zero]
  have hphys : ∀ i (v : ℝ), Physical p.settings ⟨max p.settings.smallr (ρ i - σ i / 2), P, 0, v, 0⟩ ∧
      Physical p.settings ⟨max p.settings.smallr (ρ i + σ i / 2), P, 0, v, 0⟩ := by
    intro i v
    exact face_phys hsl (r := ρ i) (rp := ρ (i + 1)) (rm := ρ (i - 1)) (P := P)
      (by intro x hx; simp only [List.mem_cons, List.not_mem_nil, or_false] at hx
          rcases hx with rfl | rfl | rfl <;> exact hρ _) hsp
  have hX : ∀ i j, fluxX2 p g dt gf q i j = ((pressureOnly P).smul (dt / p.dx)).trunc := by
    intro i j
    unfold fluxX2
    rw [hxmin, hxmax, contact_flux2 hs hr _ _ _ _ (hphys _ _).2 (hphys _ _).1]
  have hY : ∀ i j, fluxY2 p g dt gf q i j = fluxY2 p g dt gf q i 0 := by
    intro i j
    unfold fluxY2
    simp only [face, q]
  unfold step2
  funext i j
  simp only [hg, Bool.false_eq_true, if_false]
  split_ifs with hint
  · simp only [hprim]
    unfold fluxUpdate2
    rw [hX, hX, hY i j, hY i (j + 1)]
    have h2' : (shearCons p.settings.gamma0 P (ρ i) (v i)).w = 0 := rfl
    generalize shearCons p.settings.gamma0 P (ρ i) (v i) = c at *
    simp only [HS.add, HS.sub, HS.trunc, RealOps.lit_real]
    ext <;> simp [h2']
  · rfl

/-- **C69 (shear layer, 2D).** Density and tangential velocity varying only across the layer (here:
with `x`), uniform pressure, no velocity across it, no reflecting wall across the flow: the run
changes no interior cell. -/
theorem C69_shear_2d {p : Params ℝ} (hp : Hydro2 p) (hs : GoodSettings p.settings)
    (hi : p.implementationVersion = 0 ∨ p.implementationVersion = 1 ∨
      p.implementationVersion = 2)
    (hr : ContactSolver p.riemannSolverType)
    (hy : p.boundary_type_ymin ≠ .dirichlet ∧ p.boundary_type_ymax ≠ .dirichlet)
    {g : GravityParams} (hg : g.enabled = false) {P : ℝ} {ρ v : Int → ℝ}
    (hρ : ∀ i, p.ghostWidth ≤ i → i < p.ghostWidth + p.nx →
      p.settings.smallr ≤ ρ i ∧ ρ i * p.settings.smallp ≤ P)
    (jk : Junk ℝ) (dts : List ℝ) (n : Nat) {m m' : Mem Arr ℝ}
    (h0 : ∀ i j, interior2 p i j →
      hs2 m (pingIn n) i j = shearCons p.settings.gamma0 P (ρ i) (v i))
    (hm : hydroRun2 p g jk n dts m m') :
    ∀ i j, interior2 p i j →
      hs2 m' (pingIn (n + dts.length)) i j = shearCons p.settings.gamma0 P (ρ i) (v i) := by
  obtain ⟨f1, f2, f3, f4⟩ := hp.faces
  have n1 := hp.wf.nx_pos
  have n2 := hp.wf.ny_pos
  have hgw := hp.wf.gw_pos
  have main : ∀ (dt : ℝ) (gf : Grav2 ℝ) (u : Fld2 ℝ),
      (∀ i j, interior2 p i j → u i j = shearCons p.settings.gamma0 P (ρ i) (v i)) →
      ∀ i j, interior2 p i j →
        fullStep2 p g dt gf u i j = shearCons p.settings.gamma0 P (ρ i) (v i) := by
    intro dt gf u hu i j hij
    let cx : Int → Int := fun i =>
      if 0 ≤ i ∧ i < p.nx + 2 * p.ghostWidth then
        srcCoord p.boundary_type_xmin p.boundary_type_xmax p.nx p.ghostWidth i else p.ghostWidth
    have hcx : ∀ i, p.ghostWidth ≤ cx i ∧ cx i < p.ghostWidth + p.nx := by
      intro i
      by_cases h : 0 ≤ i ∧ i < p.nx + 2 * p.ghostWidth
      · simp only [cx, if_pos h]; exact srcCoord_interior n1 f1 f2 h.1 h.2
      · simp only [cx, if_neg h]; omega
    have key : ∀ i j, inGrid2 p i j → fill2 p u i j =
        shearCons p.settings.gamma0 P (ρ (cx i)) (v (cx i)) := by
      intro i j hij
      obtain ⟨a, b, c, d⟩ := hij
      have ex : srcCoord p.boundary_type_xmin p.boundary_type_xmax p.nx p.ghostWidth i = cx i := by
        simp only [cx]; rw [if_pos ⟨a, b⟩]
      have sy := srcCoord_interior n2 f3 f4 c d
      have hnf : ¬ flips p.boundary_type_ymin p.boundary_type_ymax p.ny p.ghostWidth j := by
        unfold flips; tauto
      unfold fill2
      rw [ex, hu _ _ ⟨(hcx i).1, (hcx i).2, sy.1, sy.2⟩]
      simp only [signed, if_neg hnf]
      simp [shearCons]
    have hgrid : inGrid2 p i j := by
      obtain ⟨a, b, c, d⟩ := hij
      exact ⟨by omega, by omega, by omega, by omega⟩
    have ex : cx i = i := by
      obtain ⟨a, b, c, d⟩ := hij
      simp only [cx]; rw [if_pos (by omega)]
      unfold srcCoord; rw [if_neg (by omega), if_neg (by omega)]
    unfold fullStep2
    rw [step2_grid_congr hp.wf key i j hgrid,
      step2_shear hs hp.valid hr (ρ := fun i => ρ (cx i)) (v := fun i => v (cx i))
        (fun i => hρ _ (hcx i).1 (hcx i).2) hg]
    simp only [ex]
  intro i j hij
  have hgrid : inGrid2 p i j := by
    obtain ⟨a, b, c, d⟩ := hij
    exact ⟨by omega, by omega, by omega, by omega⟩
  rw [(hydroRun2_result hp signLaws_real (schemeOK2_real hp hi) dts n hm).1 i j hgrid]
  clear hm
  generalize hs2 m (pingIn n) = u at h0
  generalize gravOf m .grav = gf
  induction dts generalizing u with
  | nil => exact h0 i j hij
  | cons dt dts ih =>
    unfold iterStep2
    exact ih _ (main dt gf u h0)

/-! ## The dissipative solvers -/

/-- **C69 (the other solvers).** LLF and HLL do move mass across a stationary contact: whenever the
two densities differ, the mass flux is not zero. -/
theorem C69_dissipative_solvers {s : Settings ℝ} (hs : GoodSettings s) {r1 r2 P v1 v2 : ℝ}
    (h1 : Physical s ⟨r1, P, 0, v1, 0⟩) (h2 : Physical s ⟨r2, P, 0, v2, 0⟩) (hne : r1 ≠ r2)
    (f0 : HS ℝ) :
    (riemannHydro2 s .llf ⟨r1, P, 0, v1, 0⟩ ⟨r2, P, 0, v2, 0⟩ f0).d ≠ 0 ∧
    (riemannHydro2 s .hll ⟨r1, P, 0, v1, 0⟩ ⟨r2, P, 0, v2, 0⟩ f0).d ≠ 0 ∧
    (riemannHydro3 s .llf ⟨r1, P, 0, v1, 0⟩ ⟨r2, P, 0, v2, 0⟩ f0).d ≠ 0 := by
  have hc1 := sound_pos hs h1
  have hc2 := sound_pos hs h2
  obtain ⟨a1, a2⟩ := h1
  obtain ⟨b1, b2⟩ := h2
  simp only at a1 a2 b1 b2 hc1 hc2
  have e1 : max r1 s.smallr = r1 := max_eq_left a1
  have e2 : max r2 s.smallr = r2 := max_eq_left b1
  have e3 : max P (r1 * s.smallp) = P := max_eq_left a2
  have e4 : max P (r2 * s.smallp) = P := max_eq_left b2
  have hd : r2 - r1 ≠ 0 := sub_ne_zero.2 (Ne.symm hne)
  set c1 := Real.sqrt (s.gamma0 * P / r1) with hd1
  set c2 := Real.sqrt (s.gamma0 * P / r2) with hd2
  have hc : 0 < max c1 c2 := lt_of_lt_of_le hc1 (le_max_left _ _)
  refine ⟨?_, ?_, ?_⟩
  · simp only [riemannHydro2, riemannLLF, consOf, RealOps.fmax_real, RealOps.lit_real,
      RealOps.sqrt_real, RealOps.fabs_real, e1, e2, e3, e4, ← hd1, ← hd2, mul_zero, add_zero,
      zero_sub, abs_zero, zero_add]
    simp [hd, hc.ne']
  · simp only [riemannHydro2, riemannHLL, consOf, RealOps.fmax_real, RealOps.fmin_real,
      RealOps.lit_real, RealOps.sqrt_real, RealOps.fabs_real, e1, e2, e3, e4, ← hd1, ← hd2,
      mul_zero, add_zero, zero_sub, abs_zero, zero_add, max_self, min_self, Rat.cast_zero]
    have m1 : max (max c1 c2) 0 = max c1 c2 := max_eq_left hc.le
    have m2 : min (-max c1 c2) 0 = -max c1 c2 := min_eq_left (by linarith)
    simp only [m1, m2]
    have : max c1 c2 - -max c1 c2 ≠ 0 := by intro h; linarith
    simp [hd, hc.ne', this]
  · simp only [riemannHydro3, riemannLLF, consOf, RealOps.fmax_real, RealOps.lit_real,
      RealOps.sqrt_real, RealOps.fabs_real, e1, e2, e3, e4, ← hd1, ← hd2, mul_zero, add_zero,
      zero_sub, abs_zero, zero_add]
    simp [hd, hc.ne']

/-- Non-vacuity: a density jump from 1 to 1/8 at pressure 1, between reflecting walls. -/
example : Hydro2 (sample .periodic .dirichlet) ∧ GoodSettings (sample .periodic .dirichlet).settings ∧
    ContactSolver (sample .periodic .dirichlet).riemannSolverType ∧
    ∀ i j : Int, (sample .periodic .dirichlet).settings.smallr ≤ (if i ≤ 3 then (1 : ℝ) else 1/8) ∧
      (if i ≤ 3 then (1 : ℝ) else 1/8) * (sample .periodic .dirichlet).settings.smallp ≤ 1 := by
  refine ⟨sample_hydro2 _ _, sample_good _ _ _ _, Or.inr rfl, fun i j => ?_⟩
  split_ifs <;> constructor <;> norm_num [sample, rawSample, Params.init]

end EulerKokkos
