import Verif.Lemmas.MhdDiscontinuity

/-!
# C90: HLLD resolves contact, tangential and rotational discontinuities exactly

When the two states of a Riemann problem are joined by a single discontinuity without compression, the HLLD flux is
the flux of the exact solution: that of the state on the side the discontinuity moves away from.  Switch-like states
(field along the normal, dominating the pressure) are excluded: the code divides zero by zero there (C52, C55).
-/

set_option linter.constructorNameAsVariable false
set_option linter.unusedSectionVars false
set_option linter.unusedSimpArgs false
set_option linter.unusedVariables false

namespace EulerKokkos
open Spec

/-- **C90 (they are discontinuities).** The three kinds of discontinuities obey the jump conditions of ideal MHD,
with speed `u`, `u` and `u ± |B_n|/√ρ` (`+` for waves running along the field direction of the normal). -/
theorem C90_jump_conditions {γ : ℝ} {l r : MS ℝ} (hl : PhysM l) :
    (Contact l r → JumpConditions γ l.u l r) ∧ (Tangential l r → JumpConditions γ l.u l r) ∧
    (∀ σ, σ * σ = 1 → Rotational σ l r → JumpConditions γ (l.u + σ * l.a / Real.sqrt l.d) l r) := by
  have hd := hl.d
  refine ⟨?_, ?_, ?_⟩
  · rintro ⟨h1, h2, h3, h4, h5, h6, h7⟩
    unfold JumpConditions mhdFlux mhdCons mhdEnergy totalPressure magPressure
    simp only [ms_sub, ms_smul, h1, h2, h3, h4, h5, h6, h7]
    ext <;> dsimp only <;> ring
  · rintro ⟨h1, h2, h3, h4⟩
    unfold totalPressure magPressure at h4
    unfold JumpConditions mhdFlux mhdCons mhdEnergy totalPressure magPressure
    rw [h2, h3] at h4
    simp only [ms_sub, ms_smul, h1, h2, h3]
    ext <;> dsimp only
    · ring
    · linear_combination -r.u * h4
    · linear_combination -h4
    all_goals ring
  · rintro σ hσ ⟨h1, h2, h3, h4, h5, h6, h7⟩
    have hq := Real.sqrt_pos.2 hd
    have hqq := Real.mul_self_sqrt hd.le
    unfold JumpConditions mhdFlux mhdCons mhdEnergy totalPressure magPressure
    rw [← h1, ← h2, ← h3, ← h4] at *
    have ev : r.v = l.v + -σ * (r.b - l.b) / Real.sqrt l.d := by linarith
    have ew : r.w = l.w + -σ * (r.c - l.c) / Real.sqrt l.d := by linarith
    generalize Real.sqrt l.d = x at *
    have ed : l.d = x * x := hqq.symm
    simp only [ms_sub, ms_smul, ev, ew, ← h1, ← h2, ← h3, ← h4, ed]
    ext <;> dsimp only <;> field_simp
    · ring
    · linear_combination (-x * l.u) * h5 + (2 * l.a * x * (l.v * (r.b - l.b) + l.w * (r.c - l.c)) -
        l.a * σ * ((r.b - l.b) ^ 2 + (r.c - l.c) ^ 2)) * hσ
    · linear_combination -h5
    · linear_combination l.a * (r.b - l.b) * hσ
    · linear_combination l.a * (r.c - l.c) * hσ
    all_goals ring

theorem hlldFlux_sideR {γ a : ℝ} {q : MS ℝ} (h : a = q.a) :
    hlldFlux a (hlldSide (lit 1 / (γ - lit 1)) a q) = mhdFlux γ q := by
  rw [h]; exact hlldFlux_side γ q

section
variable {s : Settings ℝ} (hs : GoodSettings s) (hi : s.cIso = 0) {l r : MS ℝ} (hl : PhysM l) (hr : PhysM r)
  (hsl : ¬ Switchlike s.gamma0 l) (hsr : ¬ Switchlike s.gamma0 r) (junk : MS ℝ)
include hs hi hl hr hsl hsr

/-- **C90 (contact).** -/
theorem C90_contact_exact (h : Contact l r) :
    riemannMhd s .hlld l r junk = upwindFlux s.gamma0 l.u l r := by
  obtain ⟨h1, h2, h3, h4, h5, h6, h7⟩ := h
  have hpt : totalPressure l = totalPressure r := by
    unfold totalPressure magPressure; rw [h1, h5, h6, h7]
  obtain ⟨c, hc, hal, har, e⟩ := hlld_keep hs hi hl hr h5 h2 hpt hsl hsr
  show riemannMhdHlld s l r = _
  have ql := Real.sqrt_pos.2 hl.d
  have qr := Real.sqrt_pos.2 hr.d
  have hn : 0 < Real.sqrt l.d + Real.sqrt r.d := by positivity
  have m : ∀ x : ℝ, (Real.sqrt l.d * x + Real.sqrt r.d * x) / (Real.sqrt l.d + Real.sqrt r.d) = x := by
    intro x; field_simp
  have es : hlldSS l.a (signOf l.a) l.u (hlldSide (lit 1 / (s.gamma0 - lit 1)) l.a l).ptoto
      (keepStar l.a (hlldSide (lit 1 / (s.gamma0 - lit 1)) l.a l))
      (keepStar l.a (hlldSide (lit 1 / (s.gamma0 - lit 1)) l.a r)) =
      (hlldSide (lit 1 / (s.gamma0 - lit 1)) l.a l, hlldSide (lit 1 / (s.gamma0 - lit 1)) l.a r) := by
    unfold hlldSS keepStar hlldSide
    simp only [← h1, ← h2, ← h3, ← h4, ← h5, ← h6, ← h7, sub_self, mul_zero, sub_zero, add_zero,
      RealOps.sqrt_real, m]
  rw [e]
  dsimp only
  rw [es]
  unfold upwindFlux
  have hal0 : 0 ≤ |l.a| / Real.sqrt l.d := by positivity
  by_cases hu : 0 < l.u
  · rw [if_pos hu, ← hlldFlux_side]
    congr 1
    unfold hlldSample
    simp only [gtb, RealOps.lt_real, RealOps.lit_real, Rat.cast_zero, hu, if_true, ite_self]
  · rw [if_neg hu, ← hlldFlux_sideR h5]
    congr 1
    unfold hlldSample
    have k1 : ¬ 0 < l.u - c := by linarith
    have k2 : ¬ 0 < l.u - |l.a| / Real.sqrt l.d := by linarith
    simp only [gtb, RealOps.lt_real, RealOps.lit_real, Rat.cast_zero, hu, k1, k2, if_false, ite_self]

/-- **C90 (tangential).** -/
theorem C90_tangential_exact (h : Tangential l r) :
    riemannMhd s .hlld l r junk = upwindFlux s.gamma0 l.u l r := by
  obtain ⟨h1, h2, h3, h4⟩ := h
  obtain ⟨c, hc, hal, har, e⟩ := hlld_keep hs hi hl hr (h2.trans h3.symm) h1 h4 hsl hsr
  show riemannMhdHlld s l r = _
  rw [e]
  dsimp only
  have z1 : l.u - |l.a| / Real.sqrt l.d = l.u := by rw [h2]; simp
  have z2 : l.u + |l.a| / Real.sqrt r.d = l.u := by rw [h2]; simp
  rw [z1, z2]
  unfold upwindFlux
  by_cases hu : 0 < l.u
  · rw [if_pos hu, ← hlldFlux_side]
    congr 1
    unfold hlldSample
    simp only [gtb, RealOps.lt_real, RealOps.lit_real, Rat.cast_zero, hu, if_true, ite_self]
  · rw [if_neg hu, ← hlldFlux_sideR (h2.trans h3.symm)]
    congr 1
    unfold hlldSample
    have k1 : ¬ 0 < l.u - c := by linarith
    simp only [gtb, RealOps.lt_real, RealOps.lit_real, Rat.cast_zero, hu, k1, if_false, ite_self]

/-- **C90 (rotational).** Waves running to the right (`σ` is the sign of the normal field) and to the left. -/
theorem C90_rotational_exact {σ : ℝ} (hσ : σ = 1 ∨ σ = -1) (ha : l.a ≠ 0) (h : Rotational σ l r) :
    riemannMhd s .hlld l r junk = upwindFlux s.gamma0 (l.u + σ * l.a / Real.sqrt l.d) l r := by
  obtain ⟨h1, h2, h3, h4, h5, h6, h7⟩ := h
  have hpt : totalPressure l = totalPressure r := by
    unfold totalPressure magPressure; rw [h2, h4]; linarith
  obtain ⟨c, hc, hal, har, e⟩ := hlld_keep hs hi hl hr h4 h3 hpt hsl hsr
  show riemannMhdHlld s l r = _
  have hd := hl.d
  have hq := Real.sqrt_pos.2 hd
  have hqq := Real.mul_self_sqrt hd.le
  have ev : r.v = l.v + -σ * (r.b - l.b) / Real.sqrt l.d := by linarith
  have ew : r.w = l.w + -σ * (r.c - l.c) / Real.sqrt l.d := by linarith
  rw [e]
  dsimp only
  rw [← h1] at har ⊢
  have hab : 0 < |l.a| := abs_pos.2 ha
  have hal0 : 0 < |l.a| / Real.sqrt l.d := by positivity
  have hsa := signOf_mul l.a
  have hss := signOf_sq l.a
  have hs1 : signOf l.a = 1 ∨ signOf l.a = -1 := by unfold signOf; split_ifs <;> simp
  by_cases hdir : σ = signOf l.a
  · -- running to the right: the fan left of the wave is the left state
    have hv : (Real.sqrt l.d * l.v + Real.sqrt l.d * r.v + signOf l.a * (r.b - l.b)) / (Real.sqrt l.d + Real.sqrt l.d) = l.v := by
      rw [ev, hdir]; field_simp; ring
    have hw : (Real.sqrt l.d * l.w + Real.sqrt l.d * r.w + signOf l.a * (r.c - l.c)) / (Real.sqrt l.d + Real.sqrt l.d) = l.w := by
      rw [ew, hdir]; field_simp; ring
    have hb : (Real.sqrt l.d * r.b + Real.sqrt l.d * l.b + signOf l.a * Real.sqrt l.d * Real.sqrt l.d * (r.v - l.v)) / (Real.sqrt l.d + Real.sqrt l.d) = l.b := by
      rw [h6, hdir]; field_simp; linear_combination (-(r.b - l.b)) * hss
    have hcc : (Real.sqrt l.d * r.c + Real.sqrt l.d * l.c + signOf l.a * Real.sqrt l.d * Real.sqrt l.d * (r.w - l.w)) / (Real.sqrt l.d + Real.sqrt l.d) = l.c := by
      rw [h7, hdir]; field_simp; linear_combination (-(r.c - l.c)) * hss
    have es : hlldSS l.a (signOf l.a) l.u (hlldSide (lit 1 / (s.gamma0 - lit 1)) l.a l).ptoto
        (keepStar l.a (hlldSide (lit 1 / (s.gamma0 - lit 1)) l.a l))
        (keepStar l.a (hlldSide (lit 1 / (s.gamma0 - lit 1)) l.a r)) =
        (hlldSide (lit 1 / (s.gamma0 - lit 1)) l.a l, hlldSide (lit 1 / (s.gamma0 - lit 1)) l.a l) := by
      unfold hlldSS keepStar hlldSide
      simp only [← h1, ← h2, ← h3, hv, hw, hb, hcc, sub_self, mul_zero, sub_zero]
      refine Prod.ext rfl ?_
      dsimp only
      congr 1
      rw [ev, ew, hdir]
      simp only [RealOps.lit_real]
      push_cast
      generalize Real.sqrt l.d = x at *
      rw [← hqq]
      field_simp
      linear_combination ((r.b - l.b) ^ 2 + (r.c - l.c) ^ 2 - 2 * ((r.b - l.b) * r.b + (r.c - l.c) * r.c)) * hss
    rw [es]
    dsimp only
    rw [hdir, hsa]
    unfold upwindFlux
    by_cases hu : 0 < l.u + |l.a| / Real.sqrt l.d
    · rw [if_pos hu, ← hlldFlux_side]
      congr 1
      unfold hlldSample
      simp only [gtb, RealOps.lt_real, RealOps.lit_real, Rat.cast_zero, hu, if_true, ite_self]
    · rw [if_neg hu, ← hlldFlux_sideR h4]
      congr 1
      unfold hlldSample
      have k1 : ¬ 0 < l.u - c := by linarith
      have k2 : ¬ 0 < l.u - |l.a| / Real.sqrt l.d := by linarith
      have k3 : ¬ 0 < l.u := by linarith
      simp only [gtb, RealOps.lt_real, RealOps.lit_real, Rat.cast_zero, hu, k1, k2, k3, if_false, ite_self]
  · replace hdir : σ = -signOf l.a := by
      rcases hσ with h | h <;> rcases hs1 with h' | h' <;> rw [h, h'] at hdir ⊢ <;> first | exact absurd rfl hdir | norm_num
    have hv : (Real.sqrt l.d * l.v + Real.sqrt l.d * r.v + signOf l.a * (r.b - l.b)) / (Real.sqrt l.d + Real.sqrt l.d) = r.v := by
      rw [ev, hdir]; field_simp; ring
    have hw : (Real.sqrt l.d * l.w + Real.sqrt l.d * r.w + signOf l.a * (r.c - l.c)) / (Real.sqrt l.d + Real.sqrt l.d) = r.w := by
      rw [ew, hdir]; field_simp; ring
    have hb : (Real.sqrt l.d * r.b + Real.sqrt l.d * l.b + signOf l.a * Real.sqrt l.d * Real.sqrt l.d * (r.v - l.v)) / (Real.sqrt l.d + Real.sqrt l.d) = r.b := by
      rw [h6, hdir]; field_simp; linear_combination ((r.b - l.b)) * hss
    have hcc : (Real.sqrt l.d * r.c + Real.sqrt l.d * l.c + signOf l.a * Real.sqrt l.d * Real.sqrt l.d * (r.w - l.w)) / (Real.sqrt l.d + Real.sqrt l.d) = r.c := by
      rw [h7, hdir]; field_simp; linear_combination ((r.c - l.c)) * hss
    have es : hlldSS l.a (signOf l.a) l.u (hlldSide (lit 1 / (s.gamma0 - lit 1)) l.a l).ptoto
        (keepStar l.a (hlldSide (lit 1 / (s.gamma0 - lit 1)) l.a l))
        (keepStar l.a (hlldSide (lit 1 / (s.gamma0 - lit 1)) l.a r)) =
        (hlldSide (lit 1 / (s.gamma0 - lit 1)) l.a r, hlldSide (lit 1 / (s.gamma0 - lit 1)) l.a r) := by
      have hm : l.a * l.a + l.b * l.b + l.c * l.c = l.a * l.a + r.b * r.b + r.c * r.c := by linarith
      unfold hlldSS keepStar hlldSide
      simp only [← h1, ← h2, ← h3, hv, hw, hb, hcc, sub_self, mul_zero, add_zero, hm]
      refine Prod.ext ?_ rfl
      dsimp only
      congr 1
      rw [ev, ew, hdir]
      simp only [RealOps.lit_real]
      push_cast
      generalize Real.sqrt l.d = x at *
      rw [← hqq]
      field_simp
      linear_combination ((r.b - l.b) ^ 2 + (r.c - l.c) ^ 2 + 2 * (l.b * (r.b - l.b) + l.c * (r.c - l.c))) * hss - h5
    rw [es]
    dsimp only
    have hsu : l.u + σ * l.a / Real.sqrt l.d = l.u - |l.a| / Real.sqrt l.d := by
      rw [hdir, neg_mul, hsa]; ring
    rw [hsu]
    unfold upwindFlux
    by_cases hu : 0 < l.u - |l.a| / Real.sqrt l.d
    · rw [if_pos hu, ← hlldFlux_side]
      congr 1
      unfold hlldSample
      simp only [gtb, RealOps.lt_real, RealOps.lit_real, Rat.cast_zero, hu, if_true, ite_self]
    · rw [if_neg hu, ← hlldFlux_sideR h4]
      congr 1
      unfold hlldSample
      have k1 : ¬ 0 < l.u - c := by linarith
      simp only [gtb, RealOps.lt_real, RealOps.lit_real, Rat.cast_zero, hu, k1, if_false, ite_self]
end

/-- Non-vacuity: a contact, a tangential and a rotational discontinuity between physical states that are not
switch-like. -/
example :
    let l : MS ℝ := ⟨1, 1, 1/2, 0, 0, 1, 1, 0⟩
    let r1 : MS ℝ := ⟨2, 1, 1/2, 0, 0, 1, 1, 0⟩
    let l2 : MS ℝ := ⟨1, 1, 1/2, 0, 0, 0, 1, 0⟩
    let r2 : MS ℝ := ⟨3, 3/2, 1/2, 7, 0, 0, 0, 0⟩
    let r3 : MS ℝ := ⟨1, 1, 1/2, 1, -1, 1, 0, 1⟩
    (∀ q ∈ [l, r1, l2, r2, r3], PhysM q ∧ ¬ Switchlike (5/3) q) ∧
    Contact l r1 ∧ Tangential l2 r2 ∧ Rotational 1 l r3 ∧ l.a ≠ 0 := by
  intro l r1 l2 r2 r3
  refine ⟨?_, ⟨rfl, rfl, rfl, rfl, rfl, rfl, rfl⟩, ⟨rfl, rfl, rfl, ?_⟩, ⟨rfl, rfl, rfl, rfl, ?_, ?_, ?_⟩, ?_⟩
  · intro q hq
    simp only [List.mem_cons, List.not_mem_nil, or_false] at hq
    rcases hq with rfl | rfl | rfl | rfl | rfl <;>
      exact ⟨⟨by norm_num [l, r1, l2, r2, r3], by norm_num [l, r1, l2, r2, r3]⟩,
        fun h => by obtain ⟨h1, h2, h3⟩ := h; revert h1 h2 h3; norm_num [l, r1, l2, r2, r3]⟩
  all_goals norm_num [totalPressure, magPressure, l, r1, l2, r2, r3]

end EulerKokkos
