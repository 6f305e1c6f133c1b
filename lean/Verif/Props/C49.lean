import Verif.Props.C21
import Verif.Spec.RiemannProblem

/-!
# C49 — the hydro Riemann solvers are the textbook solvers
-/

set_option linter.unusedSectionVars false
set_option linter.unusedSimpArgs false
set_option linter.unnecessarySeqFocus false

namespace EulerKokkos
open Spec

section
variable {s : Settings ℝ} (hs : GoodSettings s) {l r : HS ℝ} (hl : Physical s l) (hr : Physical s r)
include hs hl hr

theorem llf_textbook (d3 : Bool) (h2 : d3 = false → l.w = 0 ∧ r.w = 0) :
    riemannLLF d3 s l r = rusanovFlux s.gamma0
      (max (|l.u| + soundSpeed s.gamma0 l) (|r.u| + soundSpeed s.gamma0 r)) l r := by
  have hg : s.gamma0 - 1 ≠ 0 := by have := hs.gamma; linarith
  unfold riemannLLF consOf
  simp only [RealOps.fmax_real, RealOps.lit_real, RealOps.sqrt_real, RealOps.fabs_real,
    max_eq_left hl.1, max_eq_left hl.2, max_eq_left hr.1, max_eq_left hr.2]
  unfold rusanovFlux soundSpeed
  generalize max (|l.u| + _) (|r.u| + _) = a
  simp only [hs_add, hs_sub, hs_smul, eulerFlux, toCons]
  cases d3
  · obtain ⟨w1, w2⟩ := h2 rfl
    ext <;> simp only [Bool.false_eq_true, if_false, w1, w2] <;> push_cast <;> field_simp <;> ring
  · ext <;> simp only [if_true] <;> push_cast <;> field_simp <;> ring

theorem hll_textbook (d3 : Bool) (h2 : d3 = false → l.w = 0 ∧ r.w = 0) :
    riemannHLL d3 s l r = hllFlux s.gamma0
      (min (min l.u r.u - max (soundSpeed s.gamma0 l) (soundSpeed s.gamma0 r)) 0)
      (max (max l.u r.u + max (soundSpeed s.gamma0 l) (soundSpeed s.gamma0 r)) 0) l r := by
  have hg : s.gamma0 - 1 ≠ 0 := by have := hs.gamma; linarith
  unfold riemannHLL consOf
  simp only [RealOps.fmax_real, RealOps.fmin_real, RealOps.lit_real, RealOps.sqrt_real, RealOps.fabs_real,
    max_eq_left hl.1, max_eq_left hl.2, max_eq_left hr.1, max_eq_left hr.2, Rat.cast_zero]
  have hc1 : 0 < soundSpeed s.gamma0 l := sound_pos hs hl
  have hd : (max (max l.u r.u + max (soundSpeed s.gamma0 l) (soundSpeed s.gamma0 r)) 0) -
      (min (min l.u r.u - max (soundSpeed s.gamma0 l) (soundSpeed s.gamma0 r)) 0) ≠ 0 := by
    have a1 := le_max_left (soundSpeed s.gamma0 l) (soundSpeed s.gamma0 r)
    have a2 := le_max_left (max l.u r.u + max (soundSpeed s.gamma0 l) (soundSpeed s.gamma0 r)) 0
    have a3 := min_le_left (min l.u r.u - max (soundSpeed s.gamma0 l) (soundSpeed s.gamma0 r)) 0
    have a4 : min l.u r.u ≤ max l.u r.u := min_le_max
    have : 0 < max (max l.u r.u + max (soundSpeed s.gamma0 l) (soundSpeed s.gamma0 r)) 0 -
      min (min l.u r.u - max (soundSpeed s.gamma0 l) (soundSpeed s.gamma0 r)) 0 := by linarith
    exact this.ne'
  unfold soundSpeed at hd
  unfold hllFlux soundSpeed
  generalize (max (max l.u r.u + _) 0) = SR at *
  generalize (min (min l.u r.u - _) 0) = SL at *
  simp only [hs_add, hs_sub, hs_smul, eulerFlux, toCons]
  cases d3
  · obtain ⟨w1, w2⟩ := h2 rfl
    ext <;> simp only [Bool.false_eq_true, if_false, w1, w2] <;> push_cast <;> field_simp <;> ring
  · ext <;> simp only [if_true] <;> push_cast <;> field_simp <;> ring

theorem hllcC_sound : hllcC s l = soundSpeed s.gamma0 l := by
  unfold hllcC soundSpeed
  rw [max_eq_left hl.1, max_eq_left hl.2, max_eq_left]
  have hd := phys_d hs hl
  have h := hl.2
  have hg := hs.gamma
  rw [hs.smallp] at h
  rw [le_div_iff₀ hd]
  have : l.d * (s.smallc * s.smallc / s.gamma0) * s.gamma0 ≤ l.p * s.gamma0 :=
    mul_le_mul_of_nonneg_right h (by linarith)
  have e : l.d * (s.smallc * s.smallc / s.gamma0) * s.gamma0 = l.d * (s.smallc * s.smallc) := by
    field_simp
  linarith

/-- the HLLC waves are ordered -/
theorem hllc_waves :
    let SL := min l.u r.u - max (soundSpeed s.gamma0 l) (soundSpeed s.gamma0 r)
    let SR := max l.u r.u + max (soundSpeed s.gamma0 l) (soundSpeed s.gamma0 r)
    SL < l.u ∧ r.u < SR ∧ SL < contactSpeed SL SR l r ∧ contactSpeed SL SR l r < SR ∧
    (r.d * (SR - r.u) * r.u + l.d * (l.u - SL) * l.u + (l.p - r.p)) /
      (r.d * (SR - r.u) + l.d * (l.u - SL)) = contactSpeed SL SR l r ∧
    0 < r.d * (SR - r.u) + l.d * (l.u - SL) := by
  have hsp := hllc_speeds hs l r
  simp only [hllcC_sound hs hl hr, hllcC_sound hs hr hl] at hsp ⊢
  simp only [max_eq_left hl.1, max_eq_left hl.2, max_eq_left hr.1, max_eq_left hr.2] at hsp
  generalize (min l.u r.u - _) = SL at *
  generalize (max l.u r.u + _) = SR at *
  obtain ⟨h1, h3, h4, h5, h6, h7⟩ := hsp
  have hden : 0 < r.d * (SR - r.u) + l.d * (l.u - SL) := by
    have : 0 < r.d * (SR - r.u) := mul_pos h3 (by linarith)
    have : 0 < l.d * (l.u - SL) := mul_pos h1 (by linarith)
    linarith
  have hSm : (r.d * (SR - r.u) * r.u + l.d * (l.u - SL) * l.u + (l.p - r.p)) /
      (r.d * (SR - r.u) + l.d * (l.u - SL)) = contactSpeed SL SR l r := by
    unfold contactSpeed
    rw [div_eq_div_iff hden.ne' (by intro h; apply hden.ne'; linarith)]
    ring
  rw [hSm] at h6 h7
  exact ⟨h4, h5, h6, h7, hSm, hden⟩

theorem hllc_textbook (d3 : Bool) (h2 : d3 = false → l.w = 0 ∧ r.w = 0) :
    riemannHLLC d3 s l r = hllcFlux s.gamma0
      (min l.u r.u - max (soundSpeed s.gamma0 l) (soundSpeed s.gamma0 r))
      (max l.u r.u + max (soundSpeed s.gamma0 l) (soundSpeed s.gamma0 r)) l r := by
  have hg : s.gamma0 - 1 ≠ 0 := by have := hs.gamma; linarith
  have hsp := hllc_waves hs hl hr
  have h1 := phys_d hs hl
  have h3 := phys_d hs hr
  rw [hllc_form]
  simp only [hllcC_sound hs hl hr, hllcC_sound hs hr hl] at hsp ⊢
  simp only [max_eq_left hl.1, max_eq_left hl.2, max_eq_left hr.1, max_eq_left hr.2]
  generalize (min l.u r.u - _) = SL at *
  generalize (max l.u r.u + _) = SR at *
  obtain ⟨h4, h5, h6, h7, hSm, hden⟩ := hsp
  have hps1 : (r.d * (SR - r.u) * l.p + l.d * (l.u - SL) * r.p +
      l.d * (l.u - SL) * (r.d * (SR - r.u)) * (l.u - r.u)) / (r.d * (SR - r.u) + l.d * (l.u - SL)) =
      l.p + l.d * (SL - l.u) * (contactSpeed SL SR l r - l.u) := by
    rw [← hSm]; field_simp; ring
  have hps2 : (r.d * (SR - r.u) * l.p + l.d * (l.u - SL) * r.p +
      l.d * (l.u - SL) * (r.d * (SR - r.u)) * (l.u - r.u)) / (r.d * (SR - r.u) + l.d * (l.u - SL)) =
      r.p + r.d * (SR - r.u) * (contactSpeed SL SR l r - r.u) := by
    rw [← hSm]; field_simp; ring
  have heL : hllcE d3 s l = (toCons s.gamma0 l).p := by
    unfold hllcE toCons
    simp only [max_eq_left hl.1, max_eq_left hl.2]
    cases d3
    · simp only [Bool.false_eq_true, if_false, (h2 rfl).1]; ring
    · simp only [if_true]; ring
  have heR : hllcE d3 s r = (toCons s.gamma0 r).p := by
    unfold hllcE toCons
    simp only [max_eq_left hr.1, max_eq_left hr.2]
    cases d3
    · simp only [Bool.false_eq_true, if_false, (h2 rfl).2]; ring
    · simp only [if_true]; ring
  rw [heL, heR]
  unfold hllcG hllcFlux
  simp only [hSm]
  generalize contactSpeed SL SR l r = Sm at *
  have nL : SL - l.u ≠ 0 := by intro h; linarith
  have nR : SR - r.u ≠ 0 := by intro h; linarith
  have mL : SL - Sm ≠ 0 := by intro h; linarith
  have mR : SR - Sm ≠ 0 := by intro h; linarith
  have dL := h1.ne'
  have dR := h3.ne'
  have wz : d3 = false → (l.w = 0 ∧ r.w = 0) := h2
  by_cases c1 : 0 < SL
  · have hf : 0 < l.d * l.u := mul_pos h1 (by linarith)
    simp only [c1, if_true, hf, eulerFlux]
    ext <;> simp only []
    · ring
    · ring
    · cases d3 <;> simp [h2]
  · by_cases c2 : 0 < Sm
    · have hf : 0 < l.d * (SL - l.u) / (SL - Sm) * Sm :=
        mul_pos (div_pos_of_neg_of_neg (mul_neg_of_pos_of_neg h1 (by linarith)) (by linarith)) c2
      simp only [c1, c2, if_true, if_false, hf, hps1, starCons, hs_add, hs_sub, hs_smul, eulerFlux]
      generalize hE : (toCons s.gamma0 l).p = E
      have e1 : (toCons s.gamma0 l).d = l.d := rfl
      have e2 : (toCons s.gamma0 l).u = l.d * l.u := rfl
      have e3 : (toCons s.gamma0 l).v = l.d * l.v := rfl
      have e4 : (toCons s.gamma0 l).w = l.d * l.w := rfl
      simp only [e1, e2, e3, e4]
      ext <;> simp only []
      · field_simp; ring
      · field_simp; ring
      · field_simp; ring
      · field_simp; ring
      · cases d3
        · simp [h2]
        · simp only [if_true]; field_simp; ring
    · by_cases c3 : 0 < SR
      · have hf : ¬ 0 < r.d * (SR - r.u) / (SR - Sm) * Sm := by
          have : 0 < r.d * (SR - r.u) / (SR - Sm) := div_pos (mul_pos h3 (by linarith)) (by linarith)
          nlinarith
        simp only [c1, c2, c3, if_true, if_false, hf, hps2, starCons, hs_add, hs_sub, hs_smul, eulerFlux]
        generalize hE : (toCons s.gamma0 r).p = E
        have e1 : (toCons s.gamma0 r).d = r.d := rfl
        have e2 : (toCons s.gamma0 r).u = r.d * r.u := rfl
        have e3 : (toCons s.gamma0 r).v = r.d * r.v := rfl
        have e4 : (toCons s.gamma0 r).w = r.d * r.w := rfl
        simp only [e1, e2, e3, e4]
        ext <;> simp only []
        · field_simp; ring
        · field_simp; ring
        · field_simp; ring
        · field_simp; ring
        · cases d3
          · simp [h2]
          · simp only [if_true]; field_simp; ring
      · have hf : ¬ 0 < r.d * r.u := by nlinarith
        simp only [c1, c2, c3, if_false, hf, eulerFlux]
        ext <;> simp only []
        · ring
        · ring
        · cases d3 <;> simp [h2]

end

/-- **C49 (2D).** For physical states LLF, HLL and HLLC return the textbook fluxes, with the wave-speed
estimates `|u| + c` (LLF), and `min u - max c`, `max u + max c` (HLL: clipped at zero; HLLC). -/
theorem C49_textbook_2d {s : Settings ℝ} (hs : GoodSettings s) {l r : HS ℝ} (hl : Physical s l)
    (hr : Physical s r) (wl : Is2D l) (wr : Is2D r) (f0 : HS ℝ) :
    let c := max (soundSpeed s.gamma0 l) (soundSpeed s.gamma0 r)
    riemannHydro2 s .llf l r f0 = rusanovFlux s.gamma0
      (max (|l.u| + soundSpeed s.gamma0 l) (|r.u| + soundSpeed s.gamma0 r)) l r ∧
    riemannHydro2 s .hll l r f0 =
      hllFlux s.gamma0 (min (min l.u r.u - c) 0) (max (max l.u r.u + c) 0) l r ∧
    riemannHydro2 s .hllc l r f0 = hllcFlux s.gamma0 (min l.u r.u - c) (max l.u r.u + c) l r :=
  ⟨llf_textbook hs hl hr false (fun _ => ⟨wl, wr⟩), hll_textbook hs hl hr false (fun _ => ⟨wl, wr⟩),
    hllc_textbook hs hl hr false (fun _ => ⟨wl, wr⟩)⟩

/-- **C49 (3D).** -/
theorem C49_textbook_3d {s : Settings ℝ} (hs : GoodSettings s) {l r : HS ℝ} (hl : Physical s l)
    (hr : Physical s r) (f0 : HS ℝ) :
    let c := max (soundSpeed s.gamma0 l) (soundSpeed s.gamma0 r)
    riemannHydro3 s .llf l r f0 = rusanovFlux s.gamma0
      (max (|l.u| + soundSpeed s.gamma0 l) (|r.u| + soundSpeed s.gamma0 r)) l r ∧
    riemannHydro3 s .hllc l r f0 = hllcFlux s.gamma0 (min l.u r.u - c) (max l.u r.u + c) l r :=
  ⟨llf_textbook hs hl hr true (by simp), hllc_textbook hs hl hr true (by simp)⟩

/-- **C49 (upwinding).** Supersonic flow to the right (left): HLL and HLLC return the exact Euler flux of
the left (right) state. -/
theorem C49_supersonic_2d {s : Settings ℝ} (hs : GoodSettings s) {l r : HS ℝ} (hl : Physical s l)
    (hr : Physical s r) (wl : Is2D l) (wr : Is2D r) (f0 : HS ℝ) {rt : RiemannType}
    (hrt : rt = .hll ∨ rt = .hllc) :
    (max (soundSpeed s.gamma0 l) (soundSpeed s.gamma0 r) < min l.u r.u →
      riemannHydro2 s rt l r f0 = eulerFlux s.gamma0 l) ∧
    (max l.u r.u < -max (soundSpeed s.gamma0 l) (soundSpeed s.gamma0 r) →
      riemannHydro2 s rt l r f0 = eulerFlux s.gamma0 r) := by
  obtain ⟨-, h2, h3⟩ := C49_textbook_2d hs hl hr wl wr f0
  have hw := hllc_waves hs hl hr
  have hc1 : 0 < soundSpeed s.gamma0 l := sound_pos hs hl
  have hc : 0 < max (soundSpeed s.gamma0 l) (soundSpeed s.gamma0 r) := lt_of_lt_of_le hc1 (le_max_left _ _)
  generalize max (soundSpeed s.gamma0 l) (soundSpeed s.gamma0 r) = c at *
  have m : min l.u r.u ≤ max l.u r.u := min_le_max
  rcases hrt with rfl | rfl
  · rw [h2]
    constructor <;> intro h
    · rw [min_eq_right (by linarith), max_eq_left (by linarith)]
      have : max l.u r.u + c ≠ 0 := by intro h'; linarith
      unfold hllFlux
      generalize eulerFlux s.gamma0 l = F
      generalize eulerFlux s.gamma0 r = G
      generalize toCons s.gamma0 r - toCons s.gamma0 l = U
      simp only [hs_add, hs_sub, hs_smul]
      ext <;> simp only [] <;> field_simp <;> ring
    · rw [min_eq_left (by linarith), max_eq_right (by linarith)]
      have : min l.u r.u - c ≠ 0 := by intro h'; linarith
      unfold hllFlux
      generalize eulerFlux s.gamma0 l = F
      generalize eulerFlux s.gamma0 r = G
      generalize toCons s.gamma0 r - toCons s.gamma0 l = U
      simp only [hs_add, hs_sub, hs_smul]
      ext <;> simp only [] <;> field_simp <;> ring
  · rw [h3]
    constructor <;> intro h
    · unfold hllcFlux
      rw [if_pos (by linarith)]
    · obtain ⟨-, -, -, h7, -, -⟩ := hw
      unfold hllcFlux
      simp only
      rw [if_neg (by linarith), if_neg (by linarith), if_neg (by linarith)]

/-- the same in 3D (HLLC) -/
theorem C49_supersonic_3d {s : Settings ℝ} (hs : GoodSettings s) {l r : HS ℝ} (hl : Physical s l)
    (hr : Physical s r) (f0 : HS ℝ) :
    (max (soundSpeed s.gamma0 l) (soundSpeed s.gamma0 r) < min l.u r.u →
      riemannHydro3 s .hllc l r f0 = eulerFlux s.gamma0 l) ∧
    (max l.u r.u < -max (soundSpeed s.gamma0 l) (soundSpeed s.gamma0 r) →
      riemannHydro3 s .hllc l r f0 = eulerFlux s.gamma0 r) := by
  obtain ⟨-, h3⟩ := C49_textbook_3d hs hl hr f0
  obtain ⟨-, -, -, h7, -, -⟩ := hllc_waves hs hl hr
  have hc1 : 0 < soundSpeed s.gamma0 l := sound_pos hs hl
  have hc : 0 < max (soundSpeed s.gamma0 l) (soundSpeed s.gamma0 r) := lt_of_lt_of_le hc1 (le_max_left _ _)
  generalize max (soundSpeed s.gamma0 l) (soundSpeed s.gamma0 r) = c at *
  have m : min l.u r.u ≤ max l.u r.u := min_le_max
  rw [h3]
  unfold hllcFlux
  constructor <;> intro h
  · rw [if_pos (by linarith)]
  · simp only
    rw [if_neg (by linarith), if_neg (by linarith), if_neg (by linarith)]

/-! ## Contact discontinuities -/

section
variable {s : Settings ℝ} (hs : GoodSettings s) {l r : HS ℝ} (hl : Physical s l) (hr : Physical s r)
  (hu : r.u = l.u) (hp : r.p = l.p)
include hs hl hr hu hp

theorem hllc_contact (d3 : Bool) (h2 : d3 = false → l.w = 0 ∧ r.w = 0) :
    riemannHLLC d3 s l r = if 0 ≤ l.u then eulerFlux s.gamma0 l else eulerFlux s.gamma0 r := by
  have hw := hllc_waves hs hl hr
  rw [hllc_textbook hs hl hr d3 h2]
  have dl := phys_d hs hl
  have dr := phys_d hs hr
  simp only at hw
  generalize (min l.u r.u - _) = SL at *
  generalize (max l.u r.u + _) = SR at *
  obtain ⟨h4, h5, h6, h7, hSm, hden⟩ := hw
  have e : contactSpeed SL SR l r = l.u := by
    rw [← hSm, hu, hp, hu] at *
    field_simp; ring
  unfold hllcFlux
  simp only [e]
  rw [hu] at h5
  have sl : starCons s.gamma0 SL l.u l = toCons s.gamma0 l := by
    have : SL - l.u ≠ 0 := by intro h; linarith
    have := dl.ne'
    unfold starCons toCons
    simp only [hs_smul]
    ext <;> simp only [] <;> field_simp <;> ring
  have sr : starCons s.gamma0 SR l.u r = toCons s.gamma0 r := by
    have : SR - l.u ≠ 0 := by intro h; linarith
    have := dr.ne'
    unfold starCons toCons
    simp only [hs_smul, hu]
    ext <;> simp only [] <;> field_simp <;> ring
  have z : ∀ (c : ℝ) (a b : HS ℝ), a + c • (b - b) = a := by
    intro c a b; simp only [hs_add, hs_smul, hs_sub]; ext <;> simp
  rw [sl, sr, z, z]
  rcases lt_trichotomy l.u 0 with h | h | h
  · rw [if_neg (by linarith), if_neg (by linarith)]
    rw [if_neg (not_le.2 h)]
    split_ifs <;> rfl
  · have : eulerFlux s.gamma0 r = eulerFlux s.gamma0 l := by
      unfold eulerFlux
      rw [hu, hp, h]; ext <;> simp
    rw [this]
    split_ifs <;> rfl
  · rw [if_pos h, if_pos h.le]
    split_ifs <;> rfl

theorem approxNewton_contact {cl cr : ℝ} (h : 0 < l.p) (n : Nat) (conv : ℝ) :
    approxNewton s l.u l.p cl l.u l.p cr n l.p conv = l.p := by
  induction n generalizing conv with
  | zero => rfl
  | succ n ih =>
    unfold approxNewton
    split
    · simp only [RealOps.fmax_real, RealOps.fabs_real, RealOps.sqrt_real, RealOps.lit_real,
        Rat.cast_one, sub_self, zero_div, sub_zero, add_zero, mul_zero] at *
      rw [max_eq_left (by linarith), add_zero]
      exact ih _
    · rfl

theorem approx_contact (d3 : Bool) (h2 : d3 = false → l.w = 0 ∧ r.w = 0) :
    riemannApprox d3 s l r = if 0 ≤ l.u then eulerFlux s.gamma0 l else eulerFlux s.gamma0 r := by
  have dl := phys_d hs hl
  have dr := phys_d hs hr
  have pp := phys_p hs hl
  have hg := hs.gamma
  have e1 : max l.d s.smallr = l.d := max_eq_left hl.1
  have e2 : max l.p (l.d * s.smallp) = l.p := max_eq_left hl.2
  have e3 : max r.d s.smallr = r.d := max_eq_left hr.1
  have e4 : max l.p (r.d * s.smallp) = l.p := max_eq_left (hp ▸ hr.2)
  have hwl : 0 < Real.sqrt (s.gamma0 * l.p * l.d) := Real.sqrt_pos.2 (by positivity)
  have hwr : 0 < Real.sqrt (s.gamma0 * l.p * r.d) := Real.sqrt_pos.2 (by positivity)
  have hps : max ((Real.sqrt (s.gamma0 * l.p * r.d) * l.p + Real.sqrt (s.gamma0 * l.p * l.d) * l.p) /
      (Real.sqrt (s.gamma0 * l.p * l.d) + Real.sqrt (s.gamma0 * l.p * r.d))) 0 = l.p := by
    rw [max_eq_left]
    · field_simp; ring
    · positivity
  have hN := fun cl cr => approxNewton_contact hs hl hr hu hp (cl := cl) (cr := cr) pp 10 1
  have hst : approxState d3 s l r =
      if 0 ≤ l.u then { l with w := if d3 then l.w else 0 } else { r with w := if d3 then r.w else 0 } := by
    unfold approxState
    simp only [RealOps.fmax_real, RealOps.fmin_real, RealOps.lit_real, RealOps.sqrt_real, hu, hp, e1, e2,
      e3, e4, Rat.cast_zero, Rat.cast_one, sub_self, mul_zero, add_zero, hps, hN, zero_div,
      sub_zero, mul_one, div_one, RealOps.fabs_real, ite_self]
    have hu2 : ((1/2 : ℚ) : ℝ) * (l.u + l.u) = l.u := by push_cast; ring
    simp only [hu2, RealOps.copysign_real, abs_one]
    have mix : ∀ f x : ℝ, f * x + (1 - f) * x = x := by intros; ring
    by_cases h : 0 ≤ l.u
    · have t : gtb (1:ℝ) 0 = true := by simp
      simp only [h, if_true, t, e1, mix, ite_self]
    · have t : gtb (-1:ℝ) 0 = false := by
        rw [Bool.eq_false_iff]; simp
      simp only [h, if_false, t, Bool.false_eq_true, e3, mix, ite_self]
  unfold riemannApprox
  rw [hst]
  by_cases h : 0 ≤ l.u
  · rw [if_pos h, if_pos h, cmpflx_euler hs (q := { l with w := if d3 then l.w else 0 }) hl d3 (fun h => by simp [h])]
    cases d3
    · have := (h2 rfl).1
      unfold eulerFlux toCons
      simp [this]
    · simp
  · rw [if_neg h, if_neg h, cmpflx_euler hs (q := { r with w := if d3 then r.w else 0 }) hr d3 (fun h => by simp [h])]
    cases d3
    · have := (h2 rfl).2
      unfold eulerFlux toCons
      simp [this]
    · simp

end

/-- **C49 (contacts).** A contact or shear discontinuity (equal normal velocity and pressure; any densities
and tangential velocities) is resolved exactly by the approx and HLLC solvers: the flux is the Euler flux
of the upwind state; in particular a contact at rest is not smeared. -/
theorem C49_contact_2d {s : Settings ℝ} (hs : GoodSettings s) {l r : HS ℝ} (hl : Physical s l)
    (hr : Physical s r) (wl : Is2D l) (wr : Is2D r) (hu : r.u = l.u) (hp : r.p = l.p)
    {rt : RiemannType} (hrt : rt = .approx ∨ rt = .hllc) (f0 : HS ℝ) :
    riemannHydro2 s rt l r f0 = if 0 ≤ l.u then eulerFlux s.gamma0 l else eulerFlux s.gamma0 r := by
  rcases hrt with rfl | rfl
  · exact approx_contact hs hl hr hu hp false (fun _ => ⟨wl, wr⟩)
  · exact hllc_contact hs hl hr hu hp false (fun _ => ⟨wl, wr⟩)

theorem C49_contact_3d {s : Settings ℝ} (hs : GoodSettings s) {l r : HS ℝ} (hl : Physical s l)
    (hr : Physical s r) (hu : r.u = l.u) (hp : r.p = l.p)
    {rt : RiemannType} (hrt : rt = .approx ∨ rt = .hllc) (f0 : HS ℝ) :
    riemannHydro3 s rt l r f0 = if 0 ≤ l.u then eulerFlux s.gamma0 l else eulerFlux s.gamma0 r := by
  rcases hrt with rfl | rfl
  · exact approx_contact hs hl hr hu hp true (by simp)
  · exact hllc_contact hs hl hr hu hp true (by simp)

/-- non-vacuity: a supersonic pair of different states, and a contact at rest with density ratio 4 -/
example : let s := (sample .periodic .periodic).settings
    Physical s ⟨1, 1, 30, 1, 0⟩ ∧ Physical s ⟨2, 3, 20, 0, 0⟩ ∧
    max (soundSpeed s.gamma0 ⟨1, 1, 30, 1, 0⟩) (soundSpeed s.gamma0 ⟨2, 3, 20, 0, 0⟩) < min 30 20 := by
  refine ⟨by constructor <;> norm_num [sample, rawSample, Params.init],
    by constructor <;> norm_num [sample, rawSample, Params.init], ?_⟩
  rw [max_lt_iff]
  unfold soundSpeed
  constructor <;> rw [Real.sqrt_lt' (by norm_num)] <;> norm_num [sample, rawSample, Params.init]

example : riemannHydro2 (sample .periodic .periodic).settings .approx ⟨4, 1, 0, 5, 0⟩ ⟨1, 1, 0, -2, 0⟩
    HS.zero = ⟨0, 0, 1, 0, 0⟩ := by
  have h := C49_contact_2d (s := (sample .periodic .periodic).settings) (sample_good _ _ _ _)
    (l := ⟨4, 1, 0, 5, 0⟩) (r := ⟨1, 1, 0, -2, 0⟩)
    (by constructor <;> norm_num [sample, rawSample, Params.init])
    (by constructor <;> norm_num [sample, rawSample, Params.init]) (by simp [Is2D]) (by simp [Is2D]) rfl rfl
    (Or.inl rfl) HS.zero
  rw [h, if_pos le_rfl]
  unfold eulerFlux
  ext <;> simp

end EulerKokkos
