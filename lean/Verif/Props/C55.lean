import Verif.Lemmas.MhdMirror
import Verif.Lemmas.MhdEmf
import Verif.Props.C52

/-!
# C55 — the MHD Riemann solvers are the textbook solvers

Exact arithmetic.  `riemannMhd` is the dispatcher called for every face of the MHD schemes, `computeEmf` the
function called for every edge.
-/

set_option linter.unusedSimpArgs false
set_option linter.constructorNameAsVariable false
set_option linter.unusedSectionVars false
set_option linter.unnecessarySeqFocus false

namespace EulerKokkos

open Spec

attribute [local ext] MS

theorem isoState_zero {s : Settings ℝ} (hi : ¬ 0 < s.cIso) (q : MS ℝ) : isoState s q = q := by
  unfold isoState
  rw [if_neg hi]

/-- **C55 (LLF).** The LLF flux is the Rusanov flux of the two states with the averaged normal field; the wave
speed is the larger of `|u| + c_fast`. -/
theorem C55_llf_textbook {s : Settings ℝ} (hs : GoodSettings s) (hi : s.cIso = 0) {l r : MS ℝ} (hl : PhysM l)
    (hr : PhysM r) (junk : MS ℝ) :
    riemannMhd s .llf l r junk =
      mhdRusanov s.gamma0
        (max (|l.u| + fastSpeed s.gamma0 ((l.a + r.a) / 2) (meanNormal l r l))
          (|r.u| + fastSpeed s.gamma0 ((l.a + r.a) / 2) (meanNormal l r r)))
        (meanNormal l r l) (meanNormal l r r) :=
  mhdLlf_textbook hs.gamma (by rw [hi]; exact lt_irrefl _) hl hr

/-- **C55 (HLL).** The HLL flux is the textbook HLL flux with the wave speeds `min(u) - max(c_fast)`,
`max(u) + max(c_fast)`, cut at zero. -/
theorem C55_hll_textbook {s : Settings ℝ} (hs : GoodSettings s) (hi : s.cIso = 0) {l r : MS ℝ} (hl : PhysM l)
    (hr : PhysM r) (junk : MS ℝ) :
    riemannMhd s .hll l r junk =
      mhdHllFlux s.gamma0 (min (speedL s.gamma0 (meanNormal l r l) (meanNormal l r r)) 0)
        (max (speedR s.gamma0 (meanNormal l r l) (meanNormal l r r)) 0)
        (meanNormal l r l) (meanNormal l r r) :=
  mhdHll_textbook hs.gamma (by rw [hi]; exact lt_irrefl _) hl hr

/-- **C55 (HLLD).** The HLLD flux is that of Miyoshi & Kusano at every Riemann problem without degenerate
outer wave whose states do not trigger the (misplaced) degeneracy test of the code. -/
theorem C55_hlld_textbook {s : Settings ℝ} (hs : GoodSettings s) (hi : s.cIso = 0) {l r : MS ℝ} (hl : PhysM l)
    (hr : PhysM r) (hreg : HlldRegular s.gamma0 (meanNormal l r l) (meanNormal l r r))
    (hgd : GuardSilent s.gamma0 (meanNormal l r l) (meanNormal l r r)) (junk : MS ℝ) :
    riemannMhd s .hlld l r junk = hlldTextbook s.gamma0 (meanNormal l r l) (meanNormal l r r) := by
  have h0 : ¬ 0 < s.cIso := by rw [hi]; exact lt_irrefl _
  have := hlld_textbook hs.gamma hl hr (by rw [isoState_zero h0, isoState_zero h0]; exact hreg)
    (by rw [isoState_zero h0, isoState_zero h0]; exact hgd)
  rw [isoState_zero h0, isoState_zero h0] at this
  exact this

/-! ### consistency -/

theorem hlldStar_same {a r u v w b c etot ptot sk : ℝ} (hs : sk - u ≠ 0)
    (he : r * (sk - u) * (sk - u) - a * a ≠ 0) :
    hlldStar a r u v w b c etot ptot (u * a + v * b + w * c) sk u ptot =
      ⟨r, v, w, b, c, u * a + v * b + w * c, etot, Real.sqrt r, |a| / Real.sqrt r⟩ := by
  have e1 : r * (sk - u) / (sk - u) = r := by field_simp
  have e2 : ∀ x : ℝ, x * (r * (sk - u) * (sk - u) - a * a) / (r * (sk - u) * (sk - u) - a * a) = x := by
    intro x; exact mul_div_cancel_right₀ x he
  have e3 : ((sk - u) * etot - ptot * u + ptot * u + a * (u * a + v * b + w * c - (u * a + v * b + w * c))) /
      (sk - u) = etot := by
    rw [div_eq_iff hs]; ring
  unfold hlldStar
  simp only [e1, e2, sub_self, mul_zero, zero_div, sub_zero, ite_self, RealOps.sqrt_real, RealOps.fabs_real]
  rw [sub_self, mul_zero] at e3
  rw [e3]

theorem hlldSS_same {a g r u v w b c etot ptot d x : ℝ} (hr : 0 < r) :
    hlldSS a g u ptot ⟨r, v, w, b, c, d, etot, Real.sqrt r, x⟩ ⟨r, v, w, b, c, d, etot, Real.sqrt r, x⟩ =
    (⟨r, u, v, w, b, c, ptot, etot - g * Real.sqrt r * (d - (u * a + v * b + w * c)), u * a + v * b + w * c⟩,
     ⟨r, u, v, w, b, c, ptot, etot + g * Real.sqrt r * (d - (u * a + v * b + w * c)), u * a + v * b + w * c⟩) := by
  have hx := Real.sqrt_pos.2 hr
  have e : ∀ y : ℝ, (Real.sqrt r * y + Real.sqrt r * y) / (Real.sqrt r + Real.sqrt r) = y := by
    intro y; field_simp
  unfold hlldSS
  simp only [sub_self, mul_zero, add_zero, e]

/-- **C55 (consistency).** Between equal states every solver returns the physical flux of ideal MHD; HLLD
unless the field is along the normal and dominates the pressure. -/
theorem C55_mhd_flux_consistent {s : Settings ℝ} (hs : GoodSettings s) (hi : s.cIso = 0) {q : MS ℝ}
    (hq : PhysM q) (junk : MS ℝ) :
    riemannMhd s .llf q q junk = mhdFlux s.gamma0 q ∧
    riemannMhd s .hll q q junk = mhdFlux s.gamma0 q ∧
    (¬ Switchlike s.gamma0 q → riemannMhd s .hlld q q junk = mhdFlux s.gamma0 q) := by
  have hg := hs.gamma
  have h0 : ¬ 0 < s.cIso := by rw [hi]; exact lt_irrefl _
  have hm : meanNormal q q q = q := by
    simp only [meanNormal]
    ext <;> dsimp only
    ring
  have hc : 0 < fastSpeed s.gamma0 q.a q := fastSpeed_pos hg hq q.a
  refine ⟨?_, ?_, ?_⟩
  · rw [C55_llf_textbook hs hi hq hq, hm]
    unfold mhdRusanov
    simp only [ms_add, ms_sub, ms_smul]
    ext <;> dsimp only <;> ring
  · rw [C55_hll_textbook hs hi hq hq, hm]
    unfold mhdHllFlux
    have e1 : speedL s.gamma0 q q = q.u - fastSpeed s.gamma0 q.a q := by unfold speedL maxFast; simp
    have e2 : speedR s.gamma0 q q = q.u + fastSpeed s.gamma0 q.a q := by unfold speedR maxFast; simp
    have hd : max (speedR s.gamma0 q q) 0 - min (speedL s.gamma0 q q) 0 ≠ 0 := by
      have := le_max_left (speedR s.gamma0 q q) 0
      have := min_le_left (speedL s.gamma0 q q) 0
      linarith
    generalize max (speedR s.gamma0 q q) 0 = SR at *
    generalize min (speedL s.gamma0 q q) 0 = SL at *
    simp only [ms_add, ms_sub, ms_smul]
    ext <;> dsimp only <;> field_simp <;> ring
  · intro hsw
    have hne := fun e => hsw ((fast_eq_alfven hg hq).1 e)
    have hd := hq.d
    change riemannMhdHlld s q q = _
    unfold riemannMhdHlld
    simp only [hlldIn_iso, hm, isoState_zero h0, findSpeedFast_spec hg hq, RealOps.fmin_real, RealOps.fmax_real,
      min_self, max_self]
    have ea : (lit (1/2) : ℝ) * (q.a + q.a) = q.a := by
      rw [RealOps.lit_real]; push_cast; ring
    rw [ea, show q.normalB 0 = q.a from rfl]
    generalize fastSpeed s.gamma0 q.a q = cf at *
    rw [← hlldFlux_side s.gamma0 q]
    generalize he : (lit 1 : ℝ) / (s.gamma0 - lit 1) = e
    unfold hlldBody
    have u1 : ((hlldSide e q.a q).ro * (q.u + cf - (hlldSide e q.a q).uo) * (hlldSide e q.a q).uo +
        (hlldSide e q.a q).ro * ((hlldSide e q.a q).uo - (q.u - cf)) * (hlldSide e q.a q).uo +
        ((hlldSide e q.a q).ptoto - (hlldSide e q.a q).ptoto)) /
        ((hlldSide e q.a q).ro * (q.u + cf - (hlldSide e q.a q).uo) +
        (hlldSide e q.a q).ro * ((hlldSide e q.a q).uo - (q.u - cf))) = q.u := by
      have := mul_pos hd hc
      rw [div_eq_iff (by change q.d * (q.u + cf - q.u) + q.d * (q.u - (q.u - cf)) ≠ 0; nlinarith)]
      change q.d * (q.u + cf - q.u) * q.u + q.d * (q.u - (q.u - cf)) * q.u + _ = _
      change _ = q.u * (q.d * (q.u + cf - q.u) + q.d * (q.u - (q.u - cf)))
      ring
    have u2 : ((hlldSide e q.a q).ro * (q.u + cf - (hlldSide e q.a q).uo) * (hlldSide e q.a q).ptoto +
        (hlldSide e q.a q).ro * ((hlldSide e q.a q).uo - (q.u - cf)) * (hlldSide e q.a q).ptoto +
        (hlldSide e q.a q).ro * ((hlldSide e q.a q).uo - (q.u - cf)) *
          ((hlldSide e q.a q).ro * (q.u + cf - (hlldSide e q.a q).uo)) *
          ((hlldSide e q.a q).uo - (hlldSide e q.a q).uo)) /
        ((hlldSide e q.a q).ro * (q.u + cf - (hlldSide e q.a q).uo) +
        (hlldSide e q.a q).ro * ((hlldSide e q.a q).uo - (q.u - cf))) = (hlldSide e q.a q).ptoto := by
      have := mul_pos hd hc
      rw [div_eq_iff (by change q.d * (q.u + cf - q.u) + q.d * (q.u - (q.u - cf)) ≠ 0; nlinarith)]
      ring
    simp only [u1, u2]
    unfold hlldTail
    have k1 : q.d * (q.u - cf - q.u) * (q.u - cf - q.u) - q.a * q.a ≠ 0 := by
      intro h; apply hne; linear_combination h
    have k2 : q.d * (q.u + cf - q.u) * (q.u + cf - q.u) - q.a * q.a ≠ 0 := by
      intro h; apply hne; linear_combination h
    have s1 := hlldStar_same (v := q.v) (w := q.w) (b := q.b) (c := q.c)
      (etot := (hlldSide e q.a q).etoto) (ptot := (hlldSide e q.a q).ptoto) (sk := q.u - cf)
      (by linarith) k1
    have s2 := hlldStar_same (v := q.v) (w := q.w) (b := q.b) (c := q.c)
      (etot := (hlldSide e q.a q).etoto) (ptot := (hlldSide e q.a q).ptoto) (sk := q.u + cf)
      (by linarith) k2
    have f1 : hlldStar q.a (hlldSide e q.a q).ro (hlldSide e q.a q).uo (hlldSide e q.a q).vo
        (hlldSide e q.a q).wo (hlldSide e q.a q).bo (hlldSide e q.a q).co (hlldSide e q.a q).etoto
        (hlldSide e q.a q).ptoto (hlldSide e q.a q).vdotbo (q.u - cf) q.u (hlldSide e q.a q).ptoto = _ := s1
    have f2 : hlldStar q.a (hlldSide e q.a q).ro (hlldSide e q.a q).uo (hlldSide e q.a q).vo
        (hlldSide e q.a q).wo (hlldSide e q.a q).bo (hlldSide e q.a q).co (hlldSide e q.a q).etoto
        (hlldSide e q.a q).ptoto (hlldSide e q.a q).vdotbo (q.u + cf) q.u (hlldSide e q.a q).ptoto = _ := s2
    rw [f1, f2]
    dsimp only
    rw [hlldSS_same hd]
    simp only [sub_self, mul_zero, sub_zero, add_zero]
    congr 1
    have o1 : (⟨q.d, q.u, q.v, q.w, q.b, q.c, (hlldSide e q.a q).ptoto, (hlldSide e q.a q).etoto,
        q.u * q.a + q.v * q.b + q.w * q.c⟩ : HlldOut ℝ) = hlldSide e q.a q := rfl
    simp only [hlldStarOut, o1]
    unfold hlldSample
    simp only [ite_self]

/-! ### upwinding -/

theorem hlld_upwind_left {s : Settings ℝ} (hs : GoodSettings s) (hi : ¬ 0 < s.cIso) {l r : MS ℝ} (hl : PhysM l)
    (hr : PhysM r) (h : 0 < speedL s.gamma0 (meanNormal l r l) (meanNormal l r r)) :
    riemannMhdHlld s l r = mhdFlux s.gamma0 (meanNormal l r l) := by
  have hg := hs.gamma
  have hl' : PhysM (meanNormal l r l) := ⟨hl.d, hl.p⟩
  have hr' : PhysM (meanNormal l r r) := ⟨hr.d, hr.p⟩
  have ea : (lit (1/2) : ℝ) * (l.a + r.a) = (meanNormal l r l).a := by
    change _ = (l.a + r.a) / 2
    rw [RealOps.lit_real]; push_cast; ring
  unfold riemannMhdHlld
  simp only [hlldIn_iso, isoState_zero hi, findSpeedFast_spec hg hl', findSpeedFast_spec hg hr',
    RealOps.fmin_real, RealOps.fmax_real]
  simp only [ea]
  rw [← hlldFlux_side s.gamma0 (meanNormal l r l)]
  change 0 < min (meanNormal l r l).u (meanNormal l r r).u -
    max (fastSpeed s.gamma0 (meanNormal l r l).a (meanNormal l r l))
      (fastSpeed s.gamma0 (meanNormal l r r).a (meanNormal l r r)) at h
  rw [show ∀ q : MS ℝ, q.normalB 0 = q.a from fun _ => rfl,
    show ∀ q : MS ℝ, q.normalB 0 = q.a from fun _ => rfl]
  generalize (min _ _ - _ : ℝ) = SL at *
  generalize (max _ _ + _ : ℝ) = SR at *
  unfold hlldBody hlldTail hlldSample
  have : gtb SL (lit 0) = true := by simpa [gtb, RealOps.lit_real] using h
  simp only [this, if_true]

/-- **C55 (upwinding).** If all waves move to the right, HLL and HLLD return the flux of the left state; if all
move to the left, HLL returns the flux of the right state, and so does HLLD when its Alfven wave is not
faster than the outer wave. -/
theorem C55_mhd_upwind {s : Settings ℝ} (hs : GoodSettings s) (hi : s.cIso = 0) {l r : MS ℝ} (hl : PhysM l)
    (hr : PhysM r) (junk : MS ℝ) :
    (0 < speedL s.gamma0 (meanNormal l r l) (meanNormal l r r) →
      riemannMhd s .hll l r junk = mhdFlux s.gamma0 (meanNormal l r l) ∧
      riemannMhd s .hlld l r junk = mhdFlux s.gamma0 (meanNormal l r l)) ∧
    (speedR s.gamma0 (meanNormal l r l) (meanNormal l r r) < 0 →
      riemannMhd s .hll l r junk = mhdFlux s.gamma0 (meanNormal l r r)) := by
  have hg := hs.gamma
  have h0 : ¬ 0 < s.cIso := by rw [hi]; exact lt_irrefl _
  have hl' : PhysM (meanNormal l r l) := ⟨hl.d, hl.p⟩
  have hr' : PhysM (meanNormal l r r) := ⟨hr.d, hr.p⟩
  have hw := hlld_waves hg hl' hr' rfl
  have hlt := hw.2.2.1.trans hw.2.2.2
  refine ⟨fun h => ⟨?_, hlld_upwind_left hs h0 hl hr h⟩, fun h => ?_⟩
  · rw [C55_hll_textbook hs hi hl hr, min_eq_right h.le, max_eq_left (h.trans hlt).le]
    unfold mhdHllFlux
    have : speedR s.gamma0 (meanNormal l r l) (meanNormal l r r) ≠ 0 := (h.trans hlt).ne'
    simp only [ms_add, ms_sub, ms_smul]
    ext <;> dsimp only <;> field_simp <;> ring
  · rw [C55_hll_textbook hs hi hl hr, max_eq_right h.le, min_eq_left (hlt.trans h).le]
    unfold mhdHllFlux
    have : speedL s.gamma0 (meanNormal l r l) (meanNormal l r r) ≠ 0 := (hlt.trans h).ne
    simp only [ms_add, ms_sub, ms_smul]
    ext <;> dsimp only <;> field_simp <;> ring

/-! ### mirror symmetry -/

/-- The outer waves are faster than the Alfven waves inside the fan:
`B_n² < ρ_k (S_k - u_k)(S_k - S_M)` on both sides. -/
def Spec.HlldOrdered (γ : ℝ) (l r : MS ℝ) : Prop :=
  let SL := speedL γ l r
  let SR := speedR γ l r
  let SM := speedM SL SR l r
  l.a ^ 2 < l.d * (SL - l.u) * (SL - SM) ∧ r.a ^ 2 < r.d * (SR - r.u) * (SR - SM)

theorem hlldOrdered_regular {γ : ℝ} {l r : MS ℝ} (h : HlldOrdered γ l r) : HlldRegular γ l r :=
  ⟨h.1.ne', h.2.ne'⟩

theorem hlldOrdered_mirror {γ : ℝ} {l r : MS ℝ} (h : HlldOrdered γ l r) :
    HlldOrdered γ (mirrorM r) (mirrorM l) := by
  unfold HlldOrdered at h ⊢
  dsimp only at h ⊢
  rw [speedL_mirror, speedR_mirror, speedM_mirror]
  refine ⟨?_, ?_⟩
  · refine lt_of_eq_of_lt ?_ (lt_of_lt_of_eq h.2 ?_) <;> simp only [mirrorM] <;> ring
  · refine lt_of_eq_of_lt ?_ (lt_of_lt_of_eq h.1 ?_) <;> simp only [mirrorM] <;> ring

theorem guardSilent_mirror {γ : ℝ} {l r : MS ℝ} (h : GuardSilent γ l r) :
    GuardSilent γ (mirrorM r) (mirrorM l) := by
  unfold GuardSilent at h ⊢
  dsimp only at h ⊢
  rw [speedL_mirror, speedR_mirror, speedM_mirror]
  refine ⟨fun ha => ?_, fun ha => ?_⟩
  · refine lt_of_lt_of_eq (h.2 (by simpa [mirrorM] using ha)) ?_
    simp only [mirrorM]
    congr 3 <;> ring
  · refine lt_of_lt_of_eq (h.1 (by simpa [mirrorM] using ha)) ?_
    simp only [mirrorM]
    congr 3 <;> ring

/-- **C55 (mirror symmetry).** Exchanging the two states and reflecting them (normal velocity and normal field
change sign) reflects the flux.  For HLLD the waves must be ordered. -/
theorem C55_mhd_mirror {s : Settings ℝ} (hs : GoodSettings s) (hi : s.cIso = 0) {l r : MS ℝ} (hl : PhysM l)
    (hr : PhysM r) (junk : MS ℝ) :
    riemannMhd s .llf (mirrorM r) (mirrorM l) junk = mirrorFluxM (riemannMhd s .llf l r junk) ∧
    riemannMhd s .hll (mirrorM r) (mirrorM l) junk = mirrorFluxM (riemannMhd s .hll l r junk) ∧
    (HlldOrdered s.gamma0 (meanNormal l r l) (meanNormal l r r) →
      GuardSilent s.gamma0 (meanNormal l r l) (meanNormal l r r) →
      riemannMhd s .hlld (mirrorM r) (mirrorM l) junk = mirrorFluxM (riemannMhd s .hlld l r junk)) := by
  have hl2 : PhysM (mirrorM l) := ⟨hl.d, hl.p⟩
  have hr2 : PhysM (mirrorM r) := ⟨hr.d, hr.p⟩
  have hl' : PhysM (meanNormal l r l) := ⟨hl.d, hl.p⟩
  have hr' : PhysM (meanNormal l r r) := ⟨hr.d, hr.p⟩
  refine ⟨?_, ?_, fun ho hgd => ?_⟩
  · rw [C55_llf_textbook hs hi hr2 hl2, C55_llf_textbook hs hi hl hr, ← mhdRusanov_mirror,
      meanNormal_mirror, meanNormal_mirror]
    have e : ((mirrorM r).a + (mirrorM l).a) / 2 = -((l.a + r.a) / 2) := by
      simp only [mirrorM]; ring
    rw [e, fastSpeed_mirror, fastSpeed_mirror, max_comm]
    have e1 : |(mirrorM l).u| = |l.u| := abs_neg _
    have e2 : |(mirrorM r).u| = |r.u| := abs_neg _
    rw [e1, e2]
  · rw [C55_hll_textbook hs hi hr2 hl2, C55_hll_textbook hs hi hl hr, ← mhdHllFlux_mirror,
      meanNormal_mirror, meanNormal_mirror, speedL_mirror, speedR_mirror]
    congr 1
    · rw [← min_neg_neg, neg_zero]
    · rw [← max_neg_neg, neg_zero]
  · have hw := hlld_waves hs.gamma hl' hr' rfl
    rw [C55_hlld_textbook hs hi hl hr (hlldOrdered_regular ho) hgd,
      C55_hlld_textbook hs hi hr2 hl2 (by rw [meanNormal_mirror, meanNormal_mirror]; exact hlldOrdered_regular (hlldOrdered_mirror ho))
        (by rw [meanNormal_mirror, meanNormal_mirror]; exact guardSilent_mirror hgd),
      meanNormal_mirror, meanNormal_mirror]
    unfold hlldTextbook
    rw [speedL_mirror, speedR_mirror]
    exact hlldFluxWith_mirror rfl hl'.d hr'.d hw.1 hw.2.1 hw.2.2.1 hw.2.2.2 ho.1 ho.2

/-! ### two findings about HLLD -/

/-- fast speed when the field is normal -/
theorem fastSpeed_normal {γ : ℝ} {d p u v w a : ℝ} (hd : 0 < d) :
    fastSpeed γ a ⟨d, p, u, v, w, a, 0, 0⟩ = Real.sqrt (max (γ * p) (a ^ 2) / d) := by
  unfold fastSpeed
  dsimp only
  congr 1
  have e : ((γ * p + (a ^ 2 + 0 ^ 2 + 0 ^ 2)) / (2 * d)) ^ 2 - γ * p * a ^ 2 / d ^ 2 =
      ((γ * p - a ^ 2) / (2 * d)) ^ 2 := by
    field_simp
    ring
  rw [e, Real.sqrt_sq_eq_abs, abs_div, abs_of_pos (show 0 < 2 * d by linarith)]
  rcases le_total (γ * p) (a ^ 2) with h | h
  · rw [max_eq_right h, abs_of_nonpos (by linarith)]
    field_simp
    ring
  · rw [max_eq_left h, abs_of_nonneg (by linarith)]
    field_simp
    ring

/-- settings with adiabatic index `g` -/
noncomputable def exSettings (g : ℝ) : Settings ℝ :=
  ⟨g, (g + 1) / (2 * g), 1/2, 2, 1/1000, 1/1000, (1/1000 * (1/1000)) / g, 1/1000 * ((1/1000 * (1/1000)) / g), 0⟩

theorem exSettings_good {g : ℝ} (h : 1 < g) : GoodSettings (exSettings g) :=
  ⟨h, by norm_num [exSettings], by norm_num [exSettings], rfl, rfl, rfl⟩

/-- cold gas on the left, hot gas on the right, moving to the right at Mach 1.1; the field is normal -/
noncomputable def exCold : MS ℝ := ⟨1, 2/25, 11/10, 0, 0, 1, 0, 0⟩
/-- see `exCold` -/
noncomputable def exHot : MS ℝ := ⟨1, 4/5, 11/10, 0, 0, 1, 0, 0⟩

theorem exMirror_speeds : speedL (6/5) exCold exHot = 1/10 ∧ speedR (6/5) exCold exHot = 21/10 ∧
    speedM (1/10) (21/10) exCold exHot = 37/50 ∧
    starPressure (1/10) (21/10) exCold exHot = 2/25 + 1/2 + 9/25 := by
  have f1 : fastSpeed (6/5) exCold.a exCold = 1 := by
    have := fastSpeed_normal (γ := 6/5) (d := 1) (p := 2/25) (u := 11/10) (v := 0) (w := 0) (a := 1) one_pos
    change fastSpeed (6/5) 1 exCold = _ at this
    change fastSpeed (6/5) 1 exCold = _
    rw [this, max_eq_right (by norm_num)]
    norm_num
  have f2 : fastSpeed (6/5) exHot.a exHot = 1 := by
    have := fastSpeed_normal (γ := 6/5) (d := 1) (p := 4/5) (u := 11/10) (v := 0) (w := 0) (a := 1) one_pos
    change fastSpeed (6/5) 1 exHot = _ at this
    change fastSpeed (6/5) 1 exHot = _
    rw [this, max_eq_right (by norm_num)]
    norm_num
  refine ⟨?_, ?_, ?_, ?_⟩
  · unfold speedL maxFast
    rw [f1, f2]
    norm_num [exCold, exHot]
  · unfold speedR maxFast
    rw [f1, f2]
    norm_num [exCold, exHot]
  · norm_num [speedM, totalPressure, magPressure, exCold, exHot]
  · norm_num [starPressure, totalPressure, magPressure, exCold, exHot]

theorem exMirror_mean (q : MS ℝ) (h : q.a = 1) : meanNormal exCold exHot q = q := by
  unfold meanNormal
  have : (exCold.a + exHot.a) / 2 = q.a := by rw [h]; norm_num [exCold, exHot]
  rw [this]

/-- **C55 (finding).** HLLD as coded is not mirror symmetric: for the states `exCold`, `exHot` (positive, no
degenerate wave, the code is the textbook HLLD) the Alfven wave overtakes the outer wave, the unmirrored
problem is decided by the outer wave and the mirrored one by the Alfven wave. -/
theorem C55_hlld_mirror_fails (junk : MS ℝ) :
    GoodSettings (exSettings (6/5)) ∧ PhysM exCold ∧ PhysM exHot ∧
    HlldRegular (6/5) exCold exHot ∧ GuardSilent (6/5) exCold exHot ∧
    (riemannMhd (exSettings (6/5)) .hlld exCold exHot junk).d = 11/10 ∧
    (riemannMhd (exSettings (6/5)) .hlld (mirrorM exHot) (mirrorM exCold) junk).d = -37/32 := by
  obtain ⟨e1, e2, e3, e4⟩ := exMirror_speeds
  have hs := exSettings_good (g := 6/5) (by norm_num)
  have pl : PhysM exCold := ⟨by norm_num [exCold], by norm_num [exCold]⟩
  have pr : PhysM exHot := ⟨by norm_num [exHot], by norm_num [exHot]⟩
  have hreg : HlldRegular (6/5) exCold exHot := by
    unfold HlldRegular
    dsimp only
    rw [e1, e2, e3]
    norm_num [exCold, exHot]
  have hgd : GuardSilent (6/5) exCold exHot := by
    unfold GuardSilent
    dsimp only
    rw [e1, e2, e3]
    norm_num [exCold, exHot]
  refine ⟨hs, pl, pr, hreg, hgd, ?_, ?_⟩
  · have := ((C55_mhd_upwind hs rfl pl pr junk).1 (by
      rw [exMirror_mean _ rfl, exMirror_mean _ rfl]
      change 0 < speedL (6/5) exCold exHot
      rw [e1]; norm_num)).2
    rw [this, exMirror_mean _ rfl]
    norm_num [mhdFlux, exCold]
  · have hm1 : meanNormal (mirrorM exHot) (mirrorM exCold) (mirrorM exHot) = mirrorM exHot := by
      rw [meanNormal_mirror, exMirror_mean _ rfl]
    have hm2 : meanNormal (mirrorM exHot) (mirrorM exCold) (mirrorM exCold) = mirrorM exCold := by
      rw [meanNormal_mirror, exMirror_mean _ rfl]
    have hreg' : HlldRegular (6/5) (mirrorM exHot) (mirrorM exCold) := by
      unfold HlldRegular
      dsimp only
      rw [speedL_mirror, speedR_mirror, speedM_mirror, e1, e2, e3]
      norm_num [exCold, exHot, mirrorM]
    rw [C55_hlld_textbook (l := mirrorM exHot) (r := mirrorM exCold) hs rfl ⟨pr.d, pr.p⟩ ⟨pl.d, pl.p⟩ (by rw [hm1, hm2]; exact hreg')
      (by rw [hm1, hm2]; exact guardSilent_mirror hgd), hm1, hm2]
    change (hlldTextbook (6/5) _ _).d = _
    unfold hlldTextbook hlldFluxWith
    rw [speedL_mirror, speedR_mirror, e1, e2]
    dsimp only
    rw [speedM_mirror, starPressure_mirror, e3, e4]
    have d1 : (starState (6/5) (-(1/10)) (-(37/50)) (2/25 + 1/2 + 9/25) (mirrorM exCold)).d = 25/16 := by
      norm_num [starState, mirrorM, exCold]
    have s1 : Real.sqrt (25/16) = 5/4 := by
      rw [show (25/16 : ℝ) = (5/4) ^ 2 by norm_num, Real.sqrt_sq (by norm_num)]
    have a1 : |(mirrorM exCold).a| = 1 := by norm_num [mirrorM, exCold]
    have neg1 : ¬ 0 < -(37/50 : ℝ) - |(mirrorM exHot).a| /
        Real.sqrt (starState (6/5) (-(21/10)) (-(37/50)) (2/25 + 1/2 + 9/25) (mirrorM exHot)).d := by
      have : 0 ≤ |(mirrorM exHot).a| /
        Real.sqrt (starState (6/5) (-(21/10)) (-(37/50)) (2/25 + 1/2 + 9/25) (mirrorM exHot)).d :=
        div_nonneg (abs_nonneg _) (Real.sqrt_nonneg _)
      linarith
    rw [if_neg (by norm_num), if_neg neg1, if_neg (by norm_num), d1, s1, a1, if_pos (by norm_num)]
    simp only [ms_add, ms_sub, ms_smul, fanCons, doubleStar, d1, mhdFlux, mhdCons]
    norm_num [mirrorM, exCold]

/-- magnetised gas meeting hotter gas: `ρ (S_L - u)(S_L - S_M) = 2 B_n²` -/
noncomputable def exLeft : MS ℝ := ⟨1, 1/2, 5/4, 0, 0, 1, 1/2, 0⟩
/-- see `exLeft` -/
noncomputable def exRight : MS ℝ := ⟨1, 9/8, 5/4, 0, 0, 1, 0, 0⟩

theorem exGuard_speeds : speedL 2 exLeft exRight = -1/4 ∧ speedR 2 exLeft exRight = 11/4 ∧
    speedM (-1/4) (11/4) exLeft exRight = 13/12 := by
  have f2 : fastSpeed 2 exRight.a exRight = 3/2 := by
    have := fastSpeed_normal (γ := 2) (d := 1) (p := 9/8) (u := 5/4) (v := 0) (w := 0) (a := 1) one_pos
    change fastSpeed 2 1 exRight = _ at this
    change fastSpeed 2 1 exRight = _
    rw [this, max_eq_left (by norm_num), show (2 * (9/8) / 1 : ℝ) = (3/2) ^ 2 by norm_num,
      Real.sqrt_sq (by norm_num)]
  have f1 : fastSpeed 2 exLeft.a exLeft ≤ 3/2 := by
    unfold fastSpeed exLeft
    dsimp only
    rw [Real.sqrt_le_left (by norm_num)]
    have : Real.sqrt (((2 * (1/2) + (1 ^ 2 + (1/2) ^ 2 + 0 ^ 2)) / (2 * 1)) ^ 2 - 2 * (1/2) * 1 ^ 2 / 1 ^ 2) ≤
        (1 : ℝ) := by
      rw [Real.sqrt_le_left (by norm_num)]; norm_num
    linarith [this]
  have fm : maxFast 2 exLeft exRight = 3/2 := by
    unfold maxFast
    rw [f2, max_eq_right f1]
  refine ⟨?_, ?_, ?_⟩
  · unfold speedL
    rw [fm]
    norm_num [exLeft, exRight]
  · unfold speedR
    rw [fm]
    norm_num [exLeft, exRight]
  · norm_num [speedM, totalPressure, magPressure, exLeft, exRight]

/-- **C55 (finding).** The degeneracy test of `riemann_hlld` fires at regular Riemann problems: for the states
`exLeft`, `exRight` (positive, no degenerate wave) the code leaves the transverse field uncompressed and
returns the flux 13/24 of the transverse field instead of 19/32. -/
theorem C55_hlld_guard_misfires (junk : MS ℝ) :
    GoodSettings (exSettings 2) ∧ PhysM exLeft ∧ PhysM exRight ∧ HlldOrdered 2 exLeft exRight ∧
    ¬ GuardSilent 2 exLeft exRight ∧
    (hlldTextbook 2 exLeft exRight).b = 19/32 ∧
    (riemannMhd (exSettings 2) .hlld exLeft exRight junk).b = 13/24 := by
  obtain ⟨e1, e2, e3⟩ := exGuard_speeds
  have hs := exSettings_good (g := 2) (by norm_num)
  have pl : PhysM exLeft := ⟨by norm_num [exLeft], by norm_num [exLeft]⟩
  have pr : PhysM exRight := ⟨by norm_num [exRight], by norm_num [exRight]⟩
  have alf : 1 / Real.sqrt (9/8) ≤ 1 := by
    rw [div_le_one (Real.sqrt_pos.2 (by norm_num))]
    exact Real.one_le_sqrt.2 (by norm_num)
  refine ⟨hs, pl, pr, ?_, ?_, ?_, ?_⟩
  · unfold HlldOrdered
    dsimp only
    rw [e1, e2, e3]
    norm_num [exLeft, exRight]
  · unfold GuardSilent
    dsimp only
    rw [e1, e2, e3]
    intro h
    have := h.1 (by norm_num [exLeft])
    norm_num [exLeft] at this
  · unfold hlldTextbook hlldFluxWith
    rw [e1, e2]
    dsimp only
    rw [e3]
    have d1 : ∀ pT : ℝ, (starState 2 (-1/4) (13/12) pT exLeft).d = 9/8 := by
      intro pT; norm_num [starState, exLeft]
    have b1 : ∀ pT : ℝ, (starState 2 (-1/4) (13/12) pT exLeft).b = 5/8 := by
      intro pT; norm_num [starState, exLeft]
    rw [if_neg (by norm_num), if_pos (by
      rw [d1]
      have : |exLeft.a| = 1 := by norm_num [exLeft]
      rw [this]
      linarith)]
    simp only [ms_add, ms_sub, ms_smul, fanCons, b1, mhdFlux, mhdCons]
    norm_num [exLeft]
  · have hm1 : meanNormal exLeft exRight exLeft = exLeft := by
      unfold meanNormal exLeft exRight; norm_num
    have hm2 : meanNormal exLeft exRight exRight = exRight := by
      unfold meanNormal exLeft exRight; norm_num
    have h0 : ¬ 0 < (exSettings 2).cIso := lt_irrefl _
    change (riemannMhdHlld (exSettings 2) exLeft exRight).b = _
    unfold riemannMhdHlld
    simp only [hlldIn_iso, isoState_zero h0, hm1, hm2, findSpeedFast_spec hs.gamma pl,
      findSpeedFast_spec hs.gamma pr, RealOps.fmin_real, RealOps.fmax_real]
    have g1 : min exLeft.u exRight.u - max (fastSpeed (exSettings 2).gamma0 (exLeft.normalB 0) exLeft)
      (fastSpeed (exSettings 2).gamma0 (exRight.normalB 0) exRight) = -1/4 := e1
    have g2 : max exLeft.u exRight.u + max (fastSpeed (exSettings 2).gamma0 (exLeft.normalB 0) exLeft)
      (fastSpeed (exSettings 2).gamma0 (exRight.normalB 0) exRight) = 11/4 := e2
    have ea : (lit (1/2) : ℝ) * (exLeft.a + exRight.a) = 1 := by
      rw [RealOps.lit_real]; norm_num [exLeft, exRight]
    rw [g1, g2, ea]
    have hL : hlldSide (lit 1 / ((exSettings 2).gamma0 - lit 1)) 1 exLeft =
        ⟨1, 5/4, 0, 0, 1/2, 0, 9/8, 61/32, 5/4⟩ := by
      norm_num [hlldSide, exLeft, exSettings, RealOps.lit_real]
    have hR : hlldSide (lit 1 / ((exSettings 2).gamma0 - lit 1)) 1 exRight =
        ⟨1, 5/4, 0, 0, 0, 0, 13/8, 77/32, 5/4⟩ := by
      norm_num [hlldSide, exRight, exSettings, RealOps.lit_real]
    rw [hL, hR]
    unfold hlldBody
    norm_num only
    unfold hlldTail
    dsimp only
    have guard : (gtb ((1:ℝ) * 1) (lit 0) && RealOps.le (fabs (((1:ℝ) * (-(1/4) - 5/4) * (-(1/4) - 13/12) - 1 * 1) /
        (1 * 1) - lit 1)) (lit (1/100000000)) : Bool) = true := by
      rw [Bool.and_eq_true, RealOps.fabs_real]
      norm_num [gtb, RealOps.lit_real]
    have st : ∀ e pt vb ps : ℝ,
        (hlldStar 1 1 (5/4) 0 0 (1/2) 0 e pt vb (-(1/4)) (13/12) ps).calfven = 1 / Real.sqrt (9/8) ∧
        (hlldStar 1 1 (5/4) 0 0 (1/2) 0 e pt vb (-(1/4)) (13/12) ps).vstar = 0 ∧
        (hlldStar 1 1 (5/4) 0 0 (1/2) 0 e pt vb (-(1/4)) (13/12) ps).bstar = 1/2 := by
      intro e pt vb ps
      unfold hlldStar
      simp only [guard, if_true, RealOps.sqrt_real, RealOps.fabs_real]
      norm_num
    unfold hlldSample
    have n1 : gtb (-(1/4) : ℝ) (lit 0) = false := by
      rw [← Bool.not_eq_true]; norm_num [gtb, RealOps.lit_real]
    rw [(st _ _ _ _).1]
    have n2 : gtb (13/12 - 1 / Real.sqrt (9/8) : ℝ) (lit 0) = true := by
      simp only [gtb, RealOps.lt_real, RealOps.lit_real]
      push_cast
      linarith
    simp only [n1, n2, Bool.false_eq_true, if_false, if_true]
    unfold hlldFlux hlldStarOut
    dsimp only
    rw [(st _ _ _ _).2.1, (st _ _ _ _).2.2]
    norm_num

/-! ### the electric field at an edge -/

/-- `dir` in the frame of the edge: the code's frame -/
theorem computeEmf_corners {s : Settings ℝ} (hi : ¬ 0 < s.cIso) (dir : EmfDir) (e : Edge4 ℝ) :
    let q := cornersOf (dir.frame e.rt) (dir.frame e.rb) (dir.frame e.lt) (dir.frame e.lb)
    computeEmf s dir e =
      magRiemann2dHlld s q.LL q.RL q.LR q.RR (emfOf q.LL) (emfOf q.RL) (emfOf q.LR) (emfOf q.RR) := by
  intro q
  have h : ¬ gtb s.cIso (lit 0) = true := by simpa [gtb] using hi
  have em : ∀ x y : ℝ, (lit (1/2) : ℝ) * (x + y) = (x + y) / 2 := by
    intro x y; rw [RealOps.lit_real]; push_cast; ring
  unfold computeEmf
  simp only [if_neg h, em]
  rfl

/-- **C55 (edge field).** The electric field at an edge is the two-dimensional HLLD field of the four states
around it. -/
theorem C55_emf_textbook {s : Settings ℝ} (hs : GoodSettings s) (hi : s.cIso = 0) (dir : EmfDir) {e : Edge4 ℝ}
    (h1 : PhysM e.rt) (h2 : PhysM e.rb) (h3 : PhysM e.lt) (h4 : PhysM e.lb) :
    computeEmf s dir e = edgeEmf s.gamma0 s.smallc
      (cornersOf (dir.frame e.rt) (dir.frame e.rb) (dir.frame e.lt) (dir.frame e.lb)) := by
  rw [computeEmf_corners (by rw [hi]; exact lt_irrefl _), magRiemann_spec hs.gamma]
  have k1 := PhysM_frame h1 dir
  have k2 := PhysM_frame h2 dir
  have k3 := PhysM_frame h3 dir
  have k4 := PhysM_frame h4 dir
  exact ⟨⟨k1.d, k1.p⟩, ⟨k3.d, k3.p⟩, ⟨k2.d, k2.p⟩, ⟨k4.d, k4.p⟩⟩

/-- **C55 (edge field, consistency).** In a uniform state the field at an edge along z, y, x is `u B_y - v B_x`,
`w B_x - u B_z`, `v B_z - w B_y`. -/
theorem C55_emf_consistent {s : Settings ℝ} (hs : GoodSettings s) (hi : s.cIso = 0) {q : MS ℝ} (hq : PhysM q) :
    computeEmf s .z ⟨q, q, q, q⟩ = q.u * q.b - q.v * q.a ∧
    computeEmf s .y ⟨q, q, q, q⟩ = q.w * q.a - q.u * q.c ∧
    computeEmf s .x ⟨q, q, q, q⟩ = q.v * q.c - q.w * q.b := by
  have key : ∀ k : MS ℝ, cornersOf k k k k = ⟨k, k, k, k⟩ := by
    intro k
    unfold cornersOf
    simp only [add_self_div_two]
  refine ⟨?_, ?_, ?_⟩ <;>
    (rw [C55_emf_textbook hs hi _ hq hq hq hq, key, emfOf_uniform hs.gamma hs.smallc (PhysM_frame hq _)]; rfl)

/-- **C55 (edge field, upwinding).** If all waves move away from one corner, the field is that of the state in
this corner. -/
theorem C55_emf_upwind {γ f : ℝ} (q : Corners) (hx : q.SL γ < q.SR γ) (hy : q.SB γ < q.ST γ) :
    (0 ≤ q.SL γ → 0 ≤ q.SB γ → edgeEmf γ f q = emfOf q.LL) ∧
    (q.SR γ < 0 → 0 ≤ q.SB γ → edgeEmf γ f q = emfOf q.RL) ∧
    (0 ≤ q.SL γ → q.ST γ < 0 → edgeEmf γ f q = emfOf q.LR) ∧
    (q.SR γ < 0 → q.ST γ < 0 → edgeEmf γ f q = emfOf q.RR) := by
  unfold edgeEmf
  refine ⟨fun a b => ?_, fun a b => ?_, fun a b => ?_, fun a b => ?_⟩
  · simp only [a, b, if_true]
  · have : ¬ 0 ≤ q.SL γ := by linarith
    simp only [a, b, this, if_true, if_false]
  · have : ¬ 0 ≤ q.SB γ := by linarith
    simp only [a, b, this, if_true, if_false]
  · have h1 : ¬ 0 ≤ q.SL γ := by linarith
    have h2 : ¬ 0 ≤ q.SB γ := by linarith
    simp only [a, b, h1, h2, if_true, if_false]

/-- **C55 (edge field, exchange of the axes).** Exchanging the two axes around the edge changes the sign of the
field: the scheme has no preferred axis at an edge. -/
theorem C55_emf_transpose {s : Settings ℝ} (hs : GoodSettings s) {q : Corners} (hq : q.Phys) :
    let t := q.transpose
    magRiemann2dHlld s t.LL t.RL t.LR t.RR (emfOf t.LL) (emfOf t.RL) (emfOf t.LR) (emfOf t.RR) =
      -magRiemann2dHlld s q.LL q.RL q.LR q.RR (emfOf q.LL) (emfOf q.RL) (emfOf q.LR) (emfOf q.RR) := by
  intro t
  have ht : t.Phys := by
    obtain ⟨h1, h2, h3, h4⟩ := hq
    exact ⟨⟨h1.d, h1.p⟩, ⟨h3.d, h3.p⟩, ⟨h2.d, h2.p⟩, ⟨h4.d, h4.p⟩⟩
  rw [magRiemann_spec hs.gamma hq, magRiemann_spec hs.gamma ht, edgeEmf_transpose]

/-- The hypotheses are satisfiable: two different states with a regular, ordered HLLD problem at which the
guard is silent. -/
example : ∃ l r : MS ℝ, PhysM l ∧ PhysM r ∧ l ≠ r ∧ HlldOrdered (5/3) l r ∧ GuardSilent (5/3) l r := by
  refine ⟨⟨1, 12/5, 0, 0, 0, 1, 0, 0⟩, ⟨1, 12/5, 0, 1, 0, 1, 0, 0⟩, ⟨by norm_num, by norm_num⟩,
    ⟨by norm_num, by norm_num⟩, by simp, ?_⟩
  have f : ∀ v : ℝ, fastSpeed (5/3) 1 ⟨1, 12/5, 0, v, 0, 1, 0, 0⟩ = 2 := by
    intro v
    rw [fastSpeed_normal one_pos, max_eq_left (by norm_num), show (5/3 * (12/5) / 1 : ℝ) = 2 ^ 2 by norm_num,
      Real.sqrt_sq (by norm_num)]
  have e1 : speedL (5/3) ⟨1, 12/5, 0, 0, 0, 1, 0, 0⟩ ⟨1, 12/5, 0, 1, 0, 1, 0, 0⟩ = -2 := by
    unfold speedL maxFast
    rw [f, f]; norm_num
  have e2 : speedR (5/3) ⟨1, 12/5, 0, 0, 0, 1, 0, 0⟩ ⟨1, 12/5, 0, 1, 0, 1, 0, 0⟩ = 2 := by
    unfold speedR maxFast
    rw [f, f]; norm_num
  have e3 : speedM (-2) 2 ⟨1, 12/5, 0, 0, 0, 1, 0, 0⟩ ⟨1, 12/5, 0, 1, 0, 1, 0, 0⟩ = 0 := by
    norm_num [speedM, totalPressure, magPressure]
  unfold HlldOrdered GuardSilent
  dsimp only
  rw [e1, e2, e3]
  norm_num

end EulerKokkos
