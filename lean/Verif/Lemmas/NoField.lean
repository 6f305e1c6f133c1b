import Verif.Props.C76
import Verif.Props.C53
import Verif.Spec.NoField
import Verif.Spec.MhdSimulation

/-!
# The MHD scheme without magnetic field
-/

set_option linter.unusedSimpArgs false
set_option linter.unusedSectionVars false
set_option linter.constructorNameAsVariable false

namespace EulerKokkos
open Spec RealOps

/-- the pressure floor of the reconstructed MHD states -/
noncomputable def liftP (s : Settings ℝ) (q : HS ℝ) : HS ℝ := { q with p := max (s.smallp * q.d) q.p }

theorem fastSpeed_fluid {s : Settings ℝ} {q : HS ℝ} (h : 0 ≤ s.gamma0 * q.p / q.d) (n : Nat) :
    findSpeedFast s n (fluid q) = Real.sqrt (s.gamma0 * q.p / q.d) := by
  have hn : (fluid q).normalB n = 0 := by
    unfold MS.normalB; split <;> rfl
  simp only [findSpeedFast, hn, lit_real, sqrt_real]
  simp only [fluid]
  push_cast
  have e1 : (1/2 : ℝ) * ((0 * 0 + 0 * 0 + 0 * 0) / q.d + s.gamma0 * q.p / q.d) = (s.gamma0 * q.p / q.d) / 2 := by
    simp; ring
  rw [e1]
  have e2 : (s.gamma0 * q.p / q.d) / 2 * ((s.gamma0 * q.p / q.d) / 2) - s.gamma0 * q.p / q.d * 0 * 0 / q.d
      = ((s.gamma0 * q.p / q.d) / 2) ^ 2 := by ring
  rw [e2, Real.sqrt_sq (by linarith)]
  congr 1; ring

/-- sampling of `riemann_hlld` without magnetic field: the two star states are those of `riemann_hllc` -/
theorem hlldTail_noField (sgnm sl sr ustar ptotstar : ℝ) (l r : HlldOut ℝ)
    (hl : l.bo = 0 ∧ l.co = 0 ∧ l.vdotbo = 0) (hr : r.bo = 0 ∧ r.co = 0 ∧ r.vdotbo = 0) :
    hlldTail 0 sgnm sl sr ustar ptotstar l r =
      let o : HlldOut ℝ := if 0 < sl then l
        else if 0 < ustar then ⟨l.ro * (sl - l.uo) / (sl - ustar), ustar, l.vo, l.wo, 0, 0, ptotstar,
          ((sl - l.uo) * l.etoto - l.ptoto * l.uo + ptotstar * ustar) / (sl - ustar), 0⟩
        else if 0 < sr then ⟨r.ro * (sr - r.uo) / (sr - ustar), ustar, r.vo, r.wo, 0, 0, ptotstar,
          ((sr - r.uo) * r.etoto - r.ptoto * r.uo + ptotstar * ustar) / (sr - ustar), 0⟩
        else r
      ⟨o.ro * o.uo, (o.etoto + o.ptoto) * o.uo, o.ro * o.uo * o.uo + o.ptoto, o.ro * o.uo * o.vo,
        o.ro * o.uo * o.wo, 0, 0, 0⟩ := by
  obtain ⟨l1, l2, l3⟩ := hl
  obtain ⟨r1, r2, r3⟩ := hr
  simp only [hlldTail, hlldStar, hlldSample, hlldStarOut, hlldFlux, l1, l2, l3, r1, r2, r3, gtb, lt_real,
    lit_real, fabs_real, sqrt_real]
  by_cases h1 : 0 < sl
  · simp [h1, l1, l2, l3]
  · by_cases h2 : 0 < ustar
    · simp [h1, h2]
    · by_cases h3 : 0 < sr
      · simp [h1, h2, h3]
      · simp [h1, h2, h3, r1, r2, r3]

theorem hlld_hllc {s : Settings ℝ} (hs : GoodSettings s) (hc : s.cIso ≤ 0) {l r : HS ℝ}
    (hl : s.smallr ≤ l.d) (hr : s.smallr ≤ r.d) :
    riemannMhdHlld s (fluid (liftP s l)) (fluid (liftP s r)) = fluid (riemannHLLC true s l r) := by
  have hg := hs.gamma
  have hsr := hs.smallr
  have hsp := hs.smallp_pos
  have hld : 0 < l.d := lt_of_lt_of_le hsr hl
  have hrd : 0 < r.d := lt_of_lt_of_le hsr hr
  have key : ∀ q : HS ℝ, 0 < q.d → s.smallc * s.smallc ≤ s.gamma0 * max (s.smallp * q.d) q.p / q.d := by
    intro q hq
    rw [le_div_iff₀ hq]
    have : s.smallc * s.smallc = s.gamma0 * s.smallp := by rw [hs.smallp]; field_simp
    rw [this]
    have := le_max_left (s.smallp * q.d) q.p
    nlinarith
  have kl := key l hld
  have kr := key r hrd
  have hsc := hs.smallc
  have hsc2 : 0 < s.smallc * s.smallc := by positivity
  have ci : gtb s.cIso (lit 0 : ℝ) = false := by
    rw [Bool.eq_false_iff]; simpa [gtb, lt_real] using hc
  have sfl : findSpeedFast s 0 (fluid (liftP s l)) = Real.sqrt (s.gamma0 * max (s.smallp * l.d) l.p / l.d) :=
    fastSpeed_fluid (by show 0 ≤ s.gamma0 * max (s.smallp * l.d) l.p / l.d; linarith) 0
  have sfr : findSpeedFast s 0 (fluid (liftP s r)) = Real.sqrt (s.gamma0 * max (s.smallp * r.d) r.p / r.d) :=
    fastSpeed_fluid (by show 0 ≤ s.gamma0 * max (s.smallp * r.d) r.p / r.d; linarith) 0
  have cl0 : 0 < Real.sqrt (s.gamma0 * max (s.smallp * l.d) l.p / l.d) := Real.sqrt_pos.2 (by linarith)
  have cr0 : 0 < Real.sqrt (s.gamma0 * max (s.smallp * r.d) r.p / r.d) := Real.sqrt_pos.2 (by linarith)
  have ea : (lit (1/2) : ℝ) * ((fluid (liftP s l)).a + (fluid (liftP s r)).a) = 0 := by simp [fluid]
  have il : hlldIn s 0 (fluid (liftP s l)) = fluid (liftP s l) := by
    simp only [hlldIn, ci]; rfl
  have ir : hlldIn s 0 (fluid (liftP s r)) = fluid (liftP s r) := by
    simp only [hlldIn, ci]; rfl
  unfold riemannMhdHlld
  simp only [ea, il, ir, sfl, sfr, hlldBody]
  rw [hlldTail_noField _ _ _ _ _ _ _ (by simp [hlldSide, fluid]) (by simp [hlldSide, fluid])]
  unfold riemannHLLC
  simp only [fmax_real, fmin_real, lit_real, sqrt_real, max_eq_left hl, max_eq_left hr,
    gtb, lt_real, if_true, max_comm l.p, max_comm r.p, mul_comm l.d s.smallp, mul_comm r.d s.smallp,
    max_eq_left kl, max_eq_left kr, hlldSide, fluid, liftP]
  have e0 : ((1/2:ℚ):ℝ) * (0 * 0 + 0 * 0 + 0 * 0) = 0 := by simp
  have eL : ((1/2:ℚ):ℝ) * (l.u * l.u + l.v * l.v + l.w * l.w) * l.d =
      ((1/2:ℚ):ℝ) * l.d * l.u * l.u + ((1/2:ℚ):ℝ) * l.d * l.v * l.v + ((1/2:ℚ):ℝ) * l.d * l.w * l.w := by ring
  have eR : ((1/2:ℚ):ℝ) * (r.u * r.u + r.v * r.v + r.w * r.w) * r.d =
      ((1/2:ℚ):ℝ) * r.d * r.u * r.u + ((1/2:ℚ):ℝ) * r.d * r.v * r.v + ((1/2:ℚ):ℝ) * r.d * r.w * r.w := by ring
  have ez : ((0:ℚ):ℝ) = 0 := Rat.cast_zero
  simp only [e0, add_zero, eL, eR, ez]
  generalize Real.sqrt (s.gamma0 * max (s.smallp * l.d) l.p / l.d) = cl at *
  generalize Real.sqrt (s.gamma0 * max (s.smallp * r.d) r.p / r.d) = cr at *
  have b1 : min l.u r.u - max cl cr < l.u := by
    have := min_le_left l.u r.u; have := le_max_left cl cr; linarith
  have b2 : r.u < max l.u r.u + max cl cr := by
    have := le_max_right l.u r.u; have := le_max_right cl cr; linarith
  generalize min l.u r.u - max cl cr = SL at *
  generalize max l.u r.u + max cl cr = SR at *
  generalize (r.d * (SR - r.u) * r.u + l.d * (l.u - SL) * l.u + (max (s.smallp * l.d) l.p - max (s.smallp * r.d) r.p)) /
    (r.d * (SR - r.u) + l.d * (l.u - SL)) = us
  generalize (r.d * (SR - r.u) * max (s.smallp * l.d) l.p + l.d * (l.u - SL) * max (s.smallp * r.d) r.p +
    l.d * (l.u - SL) * (r.d * (SR - r.u)) * (l.u - r.u)) / (r.d * (SR - r.u) + l.d * (l.u - SL)) = ps
  by_cases h1 : 0 < SL
  · have : 0 < l.d * l.u := mul_pos hld (by linarith)
    simp [h1, this]
  · push Not at h1
    by_cases h2 : 0 < us
    · have : 0 < l.d * (SL - l.u) / (SL - us) * us :=
        mul_pos (div_pos_of_neg_of_neg (mul_neg_of_pos_of_neg hld (by linarith)) (by linarith)) h2
      simp [h1.not_gt, h2, this]
    · push Not at h2
      by_cases h3 : 0 < SR
      · have : ¬ 0 < r.d * (SR - r.u) / (SR - us) * us := by
          push Not
          exact mul_nonpos_of_nonneg_of_nonpos (div_nonneg (mul_nonneg hrd.le (by linarith)) (by linarith)) h2
        simp [h1.not_gt, h2.not_gt, h3, this]
      · push Not at h3
        have : ¬ 0 < r.d * r.u := by
          push Not
          exact mul_nonpos_of_nonneg_of_nonpos hrd.le (by linarith)
        simp [h1.not_gt, h2.not_gt, h3.not_gt, this]

theorem fluid_flux {s : Settings ℝ} (hc : s.cIso ≤ 0) (q : HS ℝ) :
    findMhdFlux s (fluid q) = (fluid ⟨q.d, q.p * (1 / (s.gamma0 - 1)) + q.d * (q.u ^ 2 + q.v ^ 2 + q.w ^ 2) / 2,
        q.d * q.u, q.d * q.v, q.d * q.w⟩,
      fluid ⟨q.d * q.u, (q.p * (1 / (s.gamma0 - 1)) + q.d * (q.u ^ 2 + q.v ^ 2 + q.w ^ 2) / 2 + q.p) * q.u,
        q.d * q.u ^ 2 + q.p, q.d * q.u * q.v, q.d * q.u * q.w⟩) := by
  have ci : gtb s.cIso (lit 0 : ℝ) = false := by
    rw [Bool.eq_false_iff]; simpa [gtb, lt_real] using hc
  simp only [findMhdFlux, ci, fluid, Bool.false_eq_true, if_false]
  simp only [lit_real]
  push_cast
  refine Prod.ext (MS.ext ?_ ?_ ?_ ?_ ?_ ?_ ?_ ?_) (MS.ext ?_ ?_ ?_ ?_ ?_ ?_ ?_ ?_) <;> dsimp only <;> ring

theorem speedInfo_fluid {s : Settings ℝ} {q : HS ℝ} (h : 0 ≤ s.gamma0 * q.p / q.d) :
    findSpeedInfo1 s (fluid q) = Real.sqrt (s.gamma0 * q.p / q.d) + |q.u| := by
  have e : findSpeedInfo1 s (fluid q) = findSpeedFast s 0 (fluid q) + |q.u| := by
    simp [findSpeedInfo1, findSpeedFast, MS.normalB, fluid]
  rw [e, fastSpeed_fluid h]

theorem fluid_a_mean (l r : HS ℝ) :
    ({ fluid l with a := (lit (1/2) : ℝ) * ((fluid l).a + (fluid r).a) } : MS ℝ) = fluid l ∧
    ({ fluid r with a := (lit (1/2) : ℝ) * ((fluid l).a + (fluid r).a) } : MS ℝ) = fluid r := by
  simp [fluid]

theorem llf_llf {s : Settings ℝ} (hs : GoodSettings s) (hc : s.cIso ≤ 0) {l r : HS ℝ}
    (hl : AboveFloors s l) (hr : AboveFloors s r) :
    riemannMhdLlf s (fluid l) (fluid r) = fluid (riemannLLF true s l r) := by
  have hg := hs.gamma
  have hsp := hs.smallp_pos
  have hld : 0 < l.d := lt_of_lt_of_le hs.smallr hl.d
  have hrd : 0 < r.d := lt_of_lt_of_le hs.smallr hr.d
  have hlp : 0 ≤ l.p := (by positivity : 0 ≤ s.smallp * l.d).trans hl.p
  have hrp : 0 ≤ r.p := (by positivity : 0 ≤ s.smallp * r.d).trans hr.p
  unfold riemannMhdLlf riemannLLF
  simp only [(fluid_a_mean l r).1, (fluid_a_mean l r).2]
  simp only [fluid_flux hc,
    speedInfo_fluid (show 0 ≤ s.gamma0 * l.p / l.d by positivity),
    speedInfo_fluid (show 0 ≤ s.gamma0 * r.p / r.d by positivity), consOf,
    fmax_real, fabs_real, sqrt_real, lit_real, max_eq_left hl.d, max_eq_left hr.d, if_true,
    mul_comm l.d s.smallp, mul_comm r.d s.smallp, max_eq_left hl.p, max_eq_left hr.p,
    add_comm (Real.sqrt _) |_|]
  generalize max (|l.u| + Real.sqrt (s.gamma0 * l.p / l.d)) (|r.u| + Real.sqrt (s.gamma0 * r.p / r.d)) = cm
  simp only [fluid]
  push_cast
  refine MS.ext ?_ ?_ ?_ ?_ ?_ ?_ ?_ ?_ <;> dsimp only <;> ring

theorem hll_hll {s : Settings ℝ} (hs : GoodSettings s) (hc : s.cIso ≤ 0) {l r : HS ℝ}
    (hl : AboveFloors s l) (hr : AboveFloors s r) :
    riemannMhdHll s (fluid l) (fluid r) = fluid (riemannHLL true s l r) := by
  have hg := hs.gamma
  have hsp := hs.smallp_pos
  have hld : 0 < l.d := lt_of_lt_of_le hs.smallr hl.d
  have hrd : 0 < r.d := lt_of_lt_of_le hs.smallr hr.d
  have hlp : 0 ≤ l.p := (by positivity : 0 ≤ s.smallp * l.d).trans hl.p
  have hrp : 0 ≤ r.p := (by positivity : 0 ≤ s.smallp * r.d).trans hr.p
  unfold riemannMhdHll riemannHLL
  simp only [(fluid_a_mean l r).1, (fluid_a_mean l r).2]
  simp only [fluid_flux hc,
    fastSpeed_fluid (show 0 ≤ s.gamma0 * l.p / l.d by positivity),
    fastSpeed_fluid (show 0 ≤ s.gamma0 * r.p / r.d by positivity), consOf,
    fmax_real, fmin_real, fabs_real, sqrt_real, lit_real, max_eq_left hl.d, max_eq_left hr.d, if_true,
    mul_comm l.d s.smallp, mul_comm r.d s.smallp, max_eq_left hl.p, max_eq_left hr.p]
  simp only [fluid]
  generalize min (min l.u r.u - max (Real.sqrt (s.gamma0 * l.p / l.d)) (Real.sqrt (s.gamma0 * r.p / r.d))) _ = sl
  generalize max (max l.u r.u + max (Real.sqrt (s.gamma0 * l.p / l.d)) (Real.sqrt (s.gamma0 * r.p / r.d))) _ = sr
  push_cast
  refine MS.ext ?_ ?_ ?_ ?_ ?_ ?_ ?_ ?_ <;> dsimp only <;> ring

/-- no field, no electromotive force -/
theorem emf_noField (s : Settings ℝ) (d : EmfDir) (a b c e : HS ℝ) :
    computeEmf s d ⟨fluid a, fluid b, fluid c, fluid e⟩ = 0 := by
  cases d <;>
    simp [computeEmf, EmfDir.frame, fluid, magRiemann2dHlld, magBody, magTail, magSelect, magStar]

/-! ## Two dimensions -/

theorem slopeScalarDir_zero (t : ℝ) : slopeScalarDir t 0 0 0 = 0 := by
  simp [slopeScalarDir]

theorem beq_slope {s : Settings ℝ} (h : s.slope_type = 1 ∨ s.slope_type = 2) :
    (RealOps.beq s.slope_type (lit 1 : ℝ) || RealOps.beq s.slope_type (lit 2 : ℝ)) = true ∧
    ¬ RealOps.beq s.slope_type (lit 0 : ℝ) = true := by
  rcases h with h | h <;> simp [h, beq_real]

theorem slopeM_fluid {s : Settings ℝ} (hsl : s.slope_type = 1 ∨ s.slope_type = 2) (a b c : HS ℝ)
    (ha : a.w = 0) (hb : b.w = 0) (hc : c.w = 0) (j0 : MS ℝ) :
    slopeM s (fluid a) (fluid b) (fluid c) j0 =
      fluid ⟨slopeScalarDir s.slope_type a.d b.d c.d, slopeScalarDir s.slope_type a.p b.p c.p,
        slopeScalarDir s.slope_type a.u b.u c.u, slopeScalarDir s.slope_type a.v b.v c.v, 0⟩ := by
  simp only [slopeM, (beq_slope hsl).1, if_true, fluid, ha, hb, hc, slopeScalarDir_zero]

theorem slope2_tvd {s : Settings ℝ} (hsl : s.slope_type = 1 ∨ s.slope_type = 2) (a b c d e : HS ℝ) (x y : HS ℝ) :
    slope2 s a b c d e x y =
      (⟨slopeScalarDir s.slope_type a.d b.d c.d, slopeScalarDir s.slope_type a.p b.p c.p,
        slopeScalarDir s.slope_type a.u b.u c.u, slopeScalarDir s.slope_type a.v b.v c.v, 0⟩,
       ⟨slopeScalarDir s.slope_type a.d d.d e.d, slopeScalarDir s.slope_type a.p d.p e.p,
        slopeScalarDir s.slope_type a.u d.u e.u, slopeScalarDir s.slope_type a.v d.v e.v, 0⟩) := by
  have h0 : RealOps.beq s.slope_type (lit 0 : ℝ) = false := by
    rw [Bool.eq_false_iff]; exact (beq_slope hsl).2
  simp only [slope2, (beq_slope hsl).1, h0, if_true, Bool.false_eq_true, if_false, slopeScalar2]
  simp [lit_real]

theorem floored_fluid (s : Settings ℝ) (d p u v : ℝ) :
    MS.floored s ⟨d, p, u, v, 0, 0, 0, 0⟩ = fluid (liftP s ⟨max s.smallr d, p, u, v, 0⟩) := by
  simp only [MS.floored, fluid, liftP, fmax_real]

/-- reconstruction without magnetic field: the face states are those of the hydro scheme, with the pressure
floor -/
theorem trace_fluid2 {s : Settings ℝ} (hsl : s.slope_type = 1 ∨ s.slope_type = 2)
    (q : Int × Int → HS ℝ) (hq : ∀ o, (q o).w = 0) (d : ℝ) (j0 j1 : MS ℝ) (f : HS ℝ × HS ℝ)
    (hf : f = slope2 s (q (0, 0)) (q (1, 0)) (q (-1, 0)) (q (0, 1)) (q (0, -1)) HS.zero HS.zero) :
    ∃ rt rb lt lb : HS ℝ, traceMhd2 s (fun o => fluid (q o)) (fun _ => ⟨0, 0, 0⟩) d d j0 j1 =
      ⟨fluid (liftP s (traceAlongDir2 s (q (0, 0)) f.1 f.2 d d .xmax)),
       fluid (liftP s (traceAlongDir2 s (q (0, 0)) f.1 f.2 d d .xmin)),
       fluid (liftP s (traceAlongDir2 s (q (0, 0)) f.1 f.2 d d .ymax)),
       fluid (liftP s (traceAlongDir2 s (q (0, 0)) f.1 f.2 d d .ymin)),
       fluid rt, fluid rb, fluid lt, fluid lb⟩ := by
  rw [slope2_tvd hsl] at hf
  subst hf
  unfold traceMhd2
  simp only [slopeM_fluid hsl _ _ _ (hq _) (hq _) (hq _), slopeScalarDir_zero]
  generalize slopeScalarDir s.slope_type (q (0, 0)).d (q (1, 0)).d _ = xd
  generalize slopeScalarDir s.slope_type (q (0, 0)).p (q (1, 0)).p _ = xp
  generalize slopeScalarDir s.slope_type (q (0, 0)).u (q (1, 0)).u _ = xu
  generalize slopeScalarDir s.slope_type (q (0, 0)).v (q (1, 0)).v _ = xv
  generalize slopeScalarDir s.slope_type (q (0, 0)).d (q (0, 1)).d _ = yd
  generalize slopeScalarDir s.slope_type (q (0, 0)).p (q (0, 1)).p _ = yp
  generalize slopeScalarDir s.slope_type (q (0, 0)).u (q (0, 1)).u _ = yu
  generalize slopeScalarDir s.slope_type (q (0, 0)).v (q (0, 1)).v _ = yv
  have hw := hq (0, 0)
  simp only [fluid, MS.half, elecZ2, sourceM2, hw, traceAlongDir2, lit_real, fmax_real]
  generalize q (0, 0) = c
  simp only [mul_zero, zero_mul, sub_zero, add_zero, zero_add, zero_div, neg_zero, sub_self]
  simp only [floored_fluid]
  iterate 4 apply Exists.intro
  simp only [TraceM2.mk.injEq]
  refine ⟨?_, ?_, ?_, ?_, rfl, rfl, rfl, rfl⟩ <;> simp only [fluid, liftP] <;>
    refine MS.ext ?_ ?_ ?_ ?_ ?_ ?_ ?_ ?_ <;> dsimp only <;> ring_nf
end EulerKokkos
