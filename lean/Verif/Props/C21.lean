import Verif.Props.C20

/-!
# C21 — the Riemann solvers are mirror symmetric
-/

set_option linter.constructorNameAsVariable false
set_option linter.unusedSimpArgs false
set_option linter.unnecessarySeqFocus false
set_option linter.unusedVariables false
set_option linter.unusedTactic false
set_option linter.unreachableTactic false

namespace EulerKokkos
open Spec

theorem llf_mirror (d3 : Bool) (s : Settings ℝ) (a b : HS ℝ) :
    riemannLLF d3 s (mirror b) (mirror a) = mirrorFlux (riemannLLF d3 s a b) := by
  unfold riemannLLF consOf mirror mirrorFlux
  simp only [RealOps.fmax_real, RealOps.lit_real, RealOps.sqrt_real, RealOps.fabs_real, abs_neg]
  rw [max_comm (|b.u| + _)]
  cases d3
  · ext <;> simp only [Bool.false_eq_true, if_false] <;> push_cast <;> ring
  · ext <;> simp only [if_true] <;> push_cast <;> ring

theorem min_neg_max (x y : ℝ) : min (-x) (-y) = -max y x := by
  rw [min_neg_neg, max_comm]
theorem max_neg_min (x y : ℝ) : max (-x) (-y) = -min y x := by
  rw [max_neg_neg, min_comm]

theorem hll_mirror (d3 : Bool) (s : Settings ℝ) (a b : HS ℝ) :
    riemannHLL d3 s (mirror b) (mirror a) = mirrorFlux (riemannHLL d3 s a b) := by
  unfold riemannHLL consOf mirror mirrorFlux
  simp only [RealOps.fmax_real, RealOps.fmin_real, RealOps.lit_real, RealOps.sqrt_real,
    min_neg_max, max_neg_min]
  rw [max_comm (Real.sqrt (s.gamma0 * max b.p _ / _))]
  generalize max (Real.sqrt _) (Real.sqrt _) = c
  have e1 : min (-max a.u b.u - c) ((0:ℚ):ℝ) = -max (max a.u b.u + c) ((0:ℚ):ℝ) := by
    generalize max a.u b.u = m
    rw [← min_neg_neg]; push_cast; congr 1 <;> ring
  have e2 : max (-min a.u b.u + c) ((0:ℚ):ℝ) = -min (min a.u b.u - c) ((0:ℚ):ℝ) := by
    generalize min a.u b.u = m
    rw [← max_neg_neg]; push_cast; congr 1 <;> ring
  rw [e1, e2]
  generalize max (max a.u b.u + c) ((0:ℚ):ℝ) = SR
  generalize min (min a.u b.u - c) ((0:ℚ):ℝ) = SL
  have e3 : -SL - -SR = SR - SL := by ring
  rw [e3]
  cases d3
  · ext <;> simp only [Bool.false_eq_true, if_false] <;>
      first
        | (rw [← neg_div]; congr 1; push_cast; ring)
        | (congr 1; push_cast; ring)
        | simp
  · ext <;> simp only [if_true] <;>
      first
        | (rw [← neg_div]; congr 1; push_cast; ring)
        | (congr 1; push_cast; ring)

/-- the part of `riemannHLLC` after the wave speeds -/
noncomputable def hllcG (d3 : Bool) (rl ul pl el rr ur pr er SL SR va wa vb wb : ℝ) : HS ℝ :=
  let rcl := rl * (ul - SL)
  let rcr := rr * (SR - ur)
  let ustar := (rcr * ur + rcl * ul + (pl - pr)) / (rcr + rcl)
  let ptotstar := (rcr * pl + rcl * pr + rcl * rcr * (ul - ur)) / (rcr + rcl)
  let rstarl := rl * (SL - ul) / (SL - ustar)
  let etotstarl := ((SL - ul) * el - pl * ul + ptotstar * ustar) / (SL - ustar)
  let rstarr := rr * (SR - ur) / (SR - ustar)
  let etotstarr := ((SR - ur) * er - pr * ur + ptotstar * ustar) / (SR - ustar)
  let o : ℝ × ℝ × ℝ × ℝ :=
    if 0 < SL then (rl, ul, pl, el)
    else if 0 < ustar then (rstarl, ustar, ptotstar, etotstarl)
    else if 0 < SR then (rstarr, ustar, ptotstar, etotstarr)
    else (rr, ur, pr, er)
  let fd := o.1 * o.2.1
  ⟨fd, (o.2.2.2 + o.2.2.1) * o.2.1, o.1 * o.2.1 * o.2.1 + o.2.2.1,
    if 0 < fd then fd * va else fd * vb,
    if d3 then (if 0 < fd then fd * wa else fd * wb) else 0⟩

/-- total energy of one side in `riemannHLLC` (as the code adds it up) -/
noncomputable def hllcE (d3 : Bool) (s : Settings ℝ) (q : HS ℝ) : ℝ :=
  let r := max q.d s.smallr
  let p := max q.p (r * s.smallp)
  p * (1 / (s.gamma0 - 1)) + (if d3 then 1/2 * r * q.u * q.u + 1/2 * r * q.v * q.v +
    1/2 * r * q.w * q.w else 1/2 * r * q.u * q.u + 1/2 * r * q.v * q.v)

/-- sound speed of one side in `riemannHLLC` -/
noncomputable def hllcC (s : Settings ℝ) (q : HS ℝ) : ℝ :=
  Real.sqrt (max (s.gamma0 * max q.p (max q.d s.smallr * s.smallp) / max q.d s.smallr)
    (s.smallc * s.smallc))

theorem hllc_form (d3 : Bool) (s : Settings ℝ) (a b : HS ℝ) :
    riemannHLLC d3 s a b =
      hllcG d3 (max a.d s.smallr) a.u (max a.p (max a.d s.smallr * s.smallp)) (hllcE d3 s a)
        (max b.d s.smallr) b.u (max b.p (max b.d s.smallr * s.smallp)) (hllcE d3 s b)
        (min a.u b.u - max (hllcC s a) (hllcC s b)) (max a.u b.u + max (hllcC s a) (hllcC s b))
        a.v a.w b.v b.w := by
  unfold riemannHLLC hllcG hllcE hllcC gtb
  simp only [RealOps.fmax_real, RealOps.fmin_real, RealOps.lit_real, RealOps.sqrt_real,
    RealOps.lt_real, Rat.cast_zero, Rat.cast_one]
  push_cast
  rfl

/-- the contact wave lies strictly between the two outer waves -/
theorem hllc_speeds {s : Settings ℝ} (hs : GoodSettings s) (a b : HS ℝ) :
    let rl := max a.d s.smallr
    let pl := max a.p (rl * s.smallp)
    let rr := max b.d s.smallr
    let pr := max b.p (rr * s.smallp)
    let SL := min a.u b.u - max (hllcC s a) (hllcC s b)
    let SR := max a.u b.u + max (hllcC s a) (hllcC s b)
    let ustar := (rr * (SR - b.u) * b.u + rl * (a.u - SL) * a.u + (pl - pr)) /
      (rr * (SR - b.u) + rl * (a.u - SL))
    0 < rl ∧ 0 < rr ∧ SL < a.u ∧ b.u < SR ∧ SL < ustar ∧ ustar < SR := by
  intro rl pl rr pr SL SR ustar
  have hg := hs.gamma
  have hsm := hs.smallp_pos
  have hrl : 0 < rl := lt_of_lt_of_le hs.smallr (le_max_right _ _)
  have hrr : 0 < rr := lt_of_lt_of_le hs.smallr (le_max_right _ _)
  have hpl : 0 < pl := lt_of_lt_of_le (mul_pos hrl hsm) (le_max_right _ _)
  have hpr : 0 < pr := lt_of_lt_of_le (mul_pos hrr hsm) (le_max_right _ _)
  have hsc := hs.smallc
  -- both sound speeds
  have hca : 0 < hllcC s a := Real.sqrt_pos.2 (lt_of_lt_of_le (by positivity) (le_max_right _ _))
  have hcb : 0 < hllcC s b := Real.sqrt_pos.2 (lt_of_lt_of_le (by positivity) (le_max_right _ _))
  have hla : s.gamma0 * pl ≤ rl * hllcC s a ^ 2 := by
    unfold hllcC
    rw [Real.sq_sqrt (le_trans (by positivity) (le_max_right _ _))]
    have : s.gamma0 * pl / rl ≤ max (s.gamma0 * pl / rl) (s.smallc * s.smallc) := le_max_left _ _
    rw [div_le_iff₀ hrl] at this
    linarith
  have hlb : s.gamma0 * pr ≤ rr * hllcC s b ^ 2 := by
    unfold hllcC
    rw [Real.sq_sqrt (le_trans (by positivity) (le_max_right _ _))]
    have : s.gamma0 * pr / rr ≤ max (s.gamma0 * pr / rr) (s.smallc * s.smallc) := le_max_left _ _
    rw [div_le_iff₀ hrr] at this
    linarith
  set c := max (hllcC s a) (hllcC s b) with hc
  have hc1 : hllcC s a ≤ c := le_max_left _ _
  have hc2 : hllcC s b ≤ c := le_max_right _ _
  have hc0 : 0 < c := lt_of_lt_of_le hca hc1
  have h1 : SL ≤ a.u - c := sub_le_sub_right (min_le_left _ _) _
  have h2 : SL ≤ b.u - c := sub_le_sub_right (min_le_right _ _) _
  have h3 : a.u + c ≤ SR := add_le_add_left (le_max_left a.u b.u) _
  have h4 : b.u + c ≤ SR := add_le_add_left (le_max_right a.u b.u) _
  have hgp : pr ≤ s.gamma0 * pr := by nlinarith
  have hgl : pl ≤ s.gamma0 * pl := by nlinarith
  have hcc1 : rl * hllcC s a ^ 2 ≤ rl * c ^ 2 := by
    apply mul_le_mul_of_nonneg_left _ hrl.le
    exact pow_le_pow_left₀ hca.le hc1 2
  have hcc2 : rr * hllcC s b ^ 2 ≤ rr * c ^ 2 := by
    apply mul_le_mul_of_nonneg_left _ hrr.le
    exact pow_le_pow_left₀ hcb.le hc2 2
  have hden : 0 < rr * (SR - b.u) + rl * (a.u - SL) := by
    have : 0 < rr * (SR - b.u) := mul_pos hrr (by linarith)
    have : 0 < rl * (a.u - SL) := mul_pos hrl (by linarith)
    linarith
  refine ⟨hrl, hrr, by linarith, by linarith, ?_, ?_⟩
  · rw [lt_div_iff₀ hden]
    have k1 : rr * c ^ 2 ≤ rr * (SR - b.u) * (b.u - SL) := by
      have : c ^ 2 ≤ (SR - b.u) * (b.u - SL) := by nlinarith
      nlinarith
    have k2 : 0 < rl * (a.u - SL) * (a.u - SL) := by
      have : 0 < a.u - SL := by linarith
      positivity
    nlinarith
  · rw [div_lt_iff₀ hden]
    have k1 : rl * c ^ 2 ≤ rl * (a.u - SL) * (SR - a.u) := by
      have : c ^ 2 ≤ (a.u - SL) * (SR - a.u) := by nlinarith
      nlinarith
    have k2 : 0 < rr * (SR - b.u) * (SR - b.u) := by
      have : 0 < SR - b.u := by linarith
      positivity
    nlinarith

theorem ite_flip (f va vb : ℝ) :
    (if 0 < -f then -f * vb else -f * va) = -(if 0 < f then f * va else f * vb) := by
  rcases lt_trichotomy f 0 with h | h | h
  · rw [if_pos (by linarith), if_neg (by linarith)]; ring
  · rw [h]; simp
  · rw [if_neg (by linarith), if_pos h]; ring

/-- assemble the five components -/
theorem hllcG_of (d3 : Bool) {f p u f' p' u' va wa vb wb : ℝ} (h1 : f' = -f) (h2 : p' = -p)
    (h3 : u' = u) :
    (⟨f', p', u', if 0 < f' then f' * vb else f' * va,
      if d3 then (if 0 < f' then f' * wb else f' * wa) else 0⟩ : HS ℝ) =
    mirrorFlux ⟨f, p, u, if 0 < f then f * va else f * vb,
      if d3 then (if 0 < f then f * wa else f * wb) else 0⟩ := by
  subst h1 h2 h3
  unfold mirrorFlux
  simp only [ite_flip]
  cases d3 <;> simp

theorem hllcG_mirror (d3 : Bool) {rl ul pl el rr ur pr er SL SR va wa vb wb : ℝ}
    (hrl : 0 < rl) (hrr : 0 < rr) (h1 : SL < ul) (h2 : ur < SR)
    (h3 : SL < (rr * (SR - ur) * ur + rl * (ul - SL) * ul + (pl - pr)) /
      (rr * (SR - ur) + rl * (ul - SL)))
    (h4 : (rr * (SR - ur) * ur + rl * (ul - SL) * ul + (pl - pr)) /
      (rr * (SR - ur) + rl * (ul - SL)) < SR) :
    hllcG d3 rr (-ur) pr er rl (-ul) pl el (-SR) (-SL) vb wb va wa =
      mirrorFlux (hllcG d3 rl ul pl el rr ur pr er SL SR va wa vb wb) := by
  have hden : 0 < rr * (SR - ur) + rl * (ul - SL) := by
    have : 0 < rr * (SR - ur) := mul_pos hrr (by linarith)
    have : 0 < rl * (ul - SL) := mul_pos hrl (by linarith)
    linarith
  unfold hllcG
  simp only
  have eden : rl * (-SL - -ul) + rr * (-ur - -SR) = rr * (SR - ur) + rl * (ul - SL) := by ring
  have eu : (rl * (-SL - -ul) * -ul + rr * (-ur - -SR) * -ur + (pr - pl)) /
      (rr * (SR - ur) + rl * (ul - SL)) = -((rr * (SR - ur) * ur + rl * (ul - SL) * ul +
        (pl - pr)) / (rr * (SR - ur) + rl * (ul - SL))) := by
    rw [← neg_div]; congr 1; ring
  have ep : (rl * (-SL - -ul) * pr + rr * (-ur - -SR) * pl +
      rr * (-ur - -SR) * (rl * (-SL - -ul)) * (-ur - -ul)) / (rr * (SR - ur) + rl * (ul - SL)) =
      (rr * (SR - ur) * pl + rl * (ul - SL) * pr + rl * (ul - SL) * (rr * (SR - ur)) * (ul - ur)) /
      (rr * (SR - ur) + rl * (ul - SL)) := by
    congr 1; ring
  rw [eden, eu, ep]
  -- Rankine-Hugoniot relations of the star pressure
  have rhL : (rr * (SR - ur) * pl + rl * (ul - SL) * pr +
      rl * (ul - SL) * (rr * (SR - ur)) * (ul - ur)) / (rr * (SR - ur) + rl * (ul - SL)) =
      pl + rl * (ul - SL) * (ul - (rr * (SR - ur) * ur + rl * (ul - SL) * ul + (pl - pr)) /
      (rr * (SR - ur) + rl * (ul - SL))) := by
    rw [div_eq_iff hden.ne']; field_simp; ring
  have rhR : (rr * (SR - ur) * pl + rl * (ul - SL) * pr +
      rl * (ul - SL) * (rr * (SR - ur)) * (ul - ur)) / (rr * (SR - ur) + rl * (ul - SL)) =
      pr + rr * (SR - ur) * ((rr * (SR - ur) * ur + rl * (ul - SL) * ul + (pl - pr)) /
      (rr * (SR - ur) + rl * (ul - SL)) - ur) := by
    rw [div_eq_iff hden.ne']; field_simp; ring
  generalize (rr * (SR - ur) * pl + rl * (ul - SL) * pr +
      rl * (ul - SL) * (rr * (SR - ur)) * (ul - ur)) / (rr * (SR - ur) + rl * (ul - SL)) = ps at *
  generalize (rr * (SR - ur) * ur + rl * (ul - SL) * ul + (pl - pr)) /
      (rr * (SR - ur) + rl * (ul - SL)) = us at *
  have dL : SL - us ≠ 0 := by intro h; linarith
  have dR : SR - us ≠ 0 := by intro h; linarith
  have dL' : -SL - -us ≠ 0 := by intro h; linarith
  have dR' : -SR - -us ≠ 0 := by intro h; linarith
  have eR : rr * (-SR - -ur) / (-SR - -us) = rr * (SR - ur) / (SR - us) := by
    rw [div_eq_div_iff dR' dR]; ring
  have eL : rl * (-SL - -ul) / (-SL - -us) = rl * (SL - ul) / (SL - us) := by
    rw [div_eq_div_iff dL' dL]; ring
  have eeR : ((-SR - -ur) * er - pr * -ur + ps * -us) / (-SR - -us) =
      ((SR - ur) * er - pr * ur + ps * us) / (SR - us) := by
    rw [div_eq_div_iff dR' dR]; ring
  have eeL : ((-SL - -ul) * el - pl * -ul + ps * -us) / (-SL - -us) =
      ((SL - ul) * el - pl * ul + ps * us) / (SL - us) := by
    rw [div_eq_div_iff dL' dL]; ring
  rw [eR, eL, eeR, eeL]
  rcases lt_trichotomy SL 0 with hSL | hSL | hSL
  · rcases lt_trichotomy us 0 with hus | hus | hus
    · rcases lt_trichotomy SR 0 with hSR | hSR | hSR
      · -- supersonic to the left
        rw [if_pos (show 0 < -SR by linarith), if_neg (show ¬ 0 < SL by linarith),
          if_neg (show ¬ 0 < us by linarith), if_neg (show ¬ 0 < SR by linarith)]
        exact hllcG_of d3 (by ring) (by ring) (by ring)
      · rw [if_neg (show ¬ 0 < -SR by linarith), if_pos (show 0 < -us by linarith),
          if_neg (show ¬ 0 < SL by linarith), if_neg (show ¬ 0 < us by linarith),
          if_neg (show ¬ 0 < SR by linarith)]
        have hus' : us ≠ 0 := by linarith
        simp only at *
        rw [hSR] at rhR dR ⊢
        refine hllcG_of d3 ?_ ?_ ?_
        · field_simp; ring
        · field_simp; ring
        · rw [rhR]; field_simp; ring
      · rw [if_neg (show ¬ 0 < -SR by linarith), if_pos (show 0 < -us by linarith),
          if_neg (show ¬ 0 < SL by linarith), if_neg (show ¬ 0 < us by linarith),
          if_pos (show 0 < SR by linarith)]
        exact hllcG_of d3 (by ring) (by ring) (by ring)
    · have hSR : 0 < SR := by linarith
      rw [if_neg (show ¬ 0 < -SR by linarith), if_neg (show ¬ 0 < -us by linarith),
          if_pos (show 0 < -SL by linarith),
          if_neg (show ¬ 0 < SL by linarith), if_neg (show ¬ 0 < us by linarith),
          if_pos (show 0 < SR by linarith)]
      rw [hus]
      exact hllcG_of d3 (by ring) (by ring) (by ring)
    · rw [if_neg (show ¬ 0 < -SR by linarith), if_neg (show ¬ 0 < -us by linarith),
          if_pos (show 0 < -SL by linarith),
          if_neg (show ¬ 0 < SL by linarith), if_pos (show 0 < us by linarith)]
      exact hllcG_of d3 (by ring) (by ring) (by ring)
  · rw [if_neg (show ¬ 0 < -SR by linarith), if_neg (show ¬ 0 < -us by linarith),
          if_neg (show ¬ 0 < -SL by linarith),
          if_neg (show ¬ 0 < SL by linarith), if_pos (show 0 < us by linarith)]
    have hus' : us ≠ 0 := by linarith
    simp only at *
    rw [hSL] at rhL dL ⊢
    refine hllcG_of d3 ?_ ?_ ?_
    · field_simp; ring
    · field_simp; ring
    · rw [rhL]; field_simp; ring
  · rw [if_neg (show ¬ 0 < -SR by linarith), if_neg (show ¬ 0 < -us by linarith),
          if_neg (show ¬ 0 < -SL by linarith),
          if_pos (show 0 < SL by linarith)]
    exact hllcG_of d3 (by ring) (by ring) (by ring)

theorem hllc_mirror {s : Settings ℝ} (hs : GoodSettings s) (d3 : Bool) (a b : HS ℝ) :
    riemannHLLC d3 s (mirror b) (mirror a) = mirrorFlux (riemannHLLC d3 s a b) := by
  obtain ⟨h1, h2, h3, h4, h5, h6⟩ := hllc_speeds hs a b
  rw [hllc_form, hllc_form, ← hllcG_mirror d3 h1 h2 h3 h4 h5 h6]
  have eE : ∀ q, hllcE d3 s (mirror q) = hllcE d3 s q := by
    intro q; unfold hllcE mirror; cases d3 <;> simp
  have eC : ∀ q, hllcC s (mirror q) = hllcC s q := fun q => rfl
  rw [eE, eE, eC, eC]
  unfold mirror
  simp only [min_neg_max, max_neg_min]
  rw [max_comm (hllcC s b)]
  congr 1 <;> ring

/-- **C21 (2D).** Mirror symmetry of the LLF, HLL and HLLC fluxes for **all** pairs of states (the
HLLC case uses that its contact wave always lies strictly between the outer waves, and that the
sampled fluxes agree where a wave speed vanishes). -/
theorem C21_mirror_2d {s : Settings ℝ} (hs : GoodSettings s) {rt : RiemannType}
    (hr : rt = .llf ∨ rt = .hll ∨ rt = .hllc) (a b f0 f0' : HS ℝ) :
    riemannHydro2 s rt (mirror b) (mirror a) f0 = mirrorFlux (riemannHydro2 s rt a b f0') := by
  rcases hr with rfl | rfl | rfl
  · exact llf_mirror false s a b
  · exact hll_mirror false s a b
  · exact hllc_mirror hs false a b

/-- **C21 (3D).** -/
theorem C21_mirror_3d {s : Settings ℝ} (hs : GoodSettings s) {rt : RiemannType}
    (hr : rt = .llf ∨ rt = .hllc) (a b f0 f0' : HS ℝ) :
    riemannHydro3 s rt (mirror b) (mirror a) f0 = mirrorFlux (riemannHydro3 s rt a b f0') := by
  rcases hr with rfl | rfl
  · exact llf_mirror true s a b
  · exact hllc_mirror hs true a b

/-- **C21 (wall)**: at a reflecting wall (the ghost state is the mirror image of the inner state)
LLF, HLL and HLLC exchange no mass, no energy and no transverse momentum. -/
theorem C21_wall_flux_2d {s : Settings ℝ} (hs : GoodSettings s) {rt : RiemannType}
    (hr : rt = .llf ∨ rt = .hll ∨ rt = .hllc) (q f0 : HS ℝ) :
    let f := riemannHydro2 s rt q (mirror q) f0
    f.d = 0 ∧ f.p = 0 ∧ f.v = 0 ∧ f.w = 0 := by
  intro f
  have h := C21_mirror_2d hs hr q (mirror q) f0 f0
  have hm : mirror (mirror q) = q := by unfold mirror; simp
  rw [hm] at h
  have : f = mirrorFlux f := h
  rw [HS.ext_iff] at this
  obtain ⟨h1, h2, _, h3, h4⟩ := this
  unfold mirrorFlux at h1 h2 h3 h4
  simp only at h1 h2 h3 h4
  exact ⟨by linarith, by linarith, by linarith, by linarith⟩

/-- **C21 (wall, 3D)**. -/
theorem C21_wall_flux_3d {s : Settings ℝ} (hs : GoodSettings s) {rt : RiemannType}
    (hr : rt = .llf ∨ rt = .hllc) (q f0 : HS ℝ) :
    let f := riemannHydro3 s rt q (mirror q) f0
    f.d = 0 ∧ f.p = 0 ∧ f.v = 0 ∧ f.w = 0 := by
  intro f
  have h := C21_mirror_3d hs hr q (mirror q) f0 f0
  have hm : mirror (mirror q) = q := by unfold mirror; simp
  rw [hm] at h
  have : f = mirrorFlux f := h
  rw [HS.ext_iff] at this
  obtain ⟨h1, h2, _, h3, h4⟩ := this
  unfold mirrorFlux at h1 h2 h3 h4
  simp only at h1 h2 h3 h4
  exact ⟨by linarith, by linarith, by linarith, by linarith⟩

/-- Non-vacuity: the sample settings. -/
example : GoodSettings (sample .periodic .periodic).settings := sample_good _ _ _ _

end EulerKokkos
