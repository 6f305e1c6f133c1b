import Verif.Model.RiemannMhd
import Verif.Spec.MhdRiemann

/-!
# The fast magnetosonic speed (exact arithmetic)
-/

set_option linter.unusedSimpArgs false
set_option linter.constructorNameAsVariable false
set_option linter.unusedSectionVars false

namespace EulerKokkos

open Spec

/-- square of the magnetic field -/
def MS.bsq (q : MS ℝ) : ℝ := q.a * q.a + q.b * q.b + q.c * q.c

theorem MS.normalB_sq_le (q : MS ℝ) (n : Nat) : q.normalB n * q.normalB n ≤ q.bsq := by
  unfold MS.normalB MS.bsq
  split <;> nlinarith [mul_self_nonneg q.a, mul_self_nonneg q.b, mul_self_nonneg q.c]

section
variable {s : Settings ℝ} {q : MS ℝ} (hg : 1 < s.gamma0) (hq : PhysM q) (n : Nat)
include hg hq

/-- the discriminant as it is computed -/
theorem fast_disc_nonneg :
    0 ≤ (1/2 * (q.bsq / q.d + s.gamma0 * q.p / q.d)) * (1/2 * (q.bsq / q.d + s.gamma0 * q.p / q.d)) -
      s.gamma0 * q.p / q.d * q.normalB n * q.normalB n / q.d := by
  have hd := hq.d
  have hp := hq.p
  have h1 := q.normalB_sq_le n
  have hc : 0 ≤ s.gamma0 * q.p / q.d := by positivity
  have h2 : q.normalB n * q.normalB n / q.d ≤ q.bsq / q.d := by gcongr
  have h3 : s.gamma0 * q.p / q.d * q.normalB n * q.normalB n / q.d =
      s.gamma0 * q.p / q.d * (q.normalB n * q.normalB n / q.d) := by ring
  rw [h3]
  generalize s.gamma0 * q.p / q.d = c at *
  generalize q.bsq / q.d = x at *
  generalize q.normalB n * q.normalB n / q.d = y at *
  nlinarith [mul_self_nonneg (x - c), mul_le_mul_of_nonneg_left h2 hc]

theorem fast_arg_pos :
    0 < 1/2 * (q.bsq / q.d + s.gamma0 * q.p / q.d) +
      Real.sqrt ((1/2 * (q.bsq / q.d + s.gamma0 * q.p / q.d)) *
        (1/2 * (q.bsq / q.d + s.gamma0 * q.p / q.d)) -
      s.gamma0 * q.p / q.d * q.normalB n * q.normalB n / q.d) := by
  have hd := hq.d
  have hp := hq.p
  have : 0 ≤ q.bsq := le_trans (mul_self_nonneg _) (q.normalB_sq_le n)
  have : 0 < q.bsq / q.d + s.gamma0 * q.p / q.d := by positivity
  have := Real.sqrt_nonneg ((1/2 * (q.bsq / q.d + s.gamma0 * q.p / q.d)) *
        (1/2 * (q.bsq / q.d + s.gamma0 * q.p / q.d)) -
      s.gamma0 * q.p / q.d * q.normalB n * q.normalB n / q.d)
  linarith

theorem findSpeedFast_real : findSpeedFast s n q =
    Real.sqrt (1/2 * (q.bsq / q.d + s.gamma0 * q.p / q.d) +
      Real.sqrt ((1/2 * (q.bsq / q.d + s.gamma0 * q.p / q.d)) *
        (1/2 * (q.bsq / q.d + s.gamma0 * q.p / q.d)) -
      s.gamma0 * q.p / q.d * q.normalB n * q.normalB n / q.d)) := by
  simp only [findSpeedFast, RealOps.sqrt_real, RealOps.lit_real, MS.bsq]
  norm_num

theorem fast_pos : 0 < findSpeedFast s n q := by
  rw [findSpeedFast_real hg hq n]
  exact Real.sqrt_pos.2 (fast_arg_pos hg hq n)

/-- `ρ c_f² ≥ γ p + B_t²` and `ρ c_f² ≥ B²` -/
theorem fast_lower : s.gamma0 * q.p + (q.bsq - q.normalB n * q.normalB n) ≤
      q.d * (findSpeedFast s n q * findSpeedFast s n q) ∧
    q.bsq ≤ q.d * (findSpeedFast s n q * findSpeedFast s n q) := by
  have hd := hq.d
  have hp := hq.p
  have h1 := q.normalB_sq_le n
  have hn := mul_self_nonneg (q.normalB n)
  rw [findSpeedFast_real hg hq n, Real.mul_self_sqrt (fast_arg_pos hg hq n).le]
  have hc : 0 < s.gamma0 * q.p / q.d := by positivity
  have h2 : q.normalB n * q.normalB n / q.d ≤ q.bsq / q.d := by gcongr
  have hy : 0 ≤ q.normalB n * q.normalB n / q.d := by positivity
  have h3 : s.gamma0 * q.p / q.d * q.normalB n * q.normalB n / q.d =
      s.gamma0 * q.p / q.d * (q.normalB n * q.normalB n / q.d) := by ring
  rw [h3]
  have e1 : s.gamma0 * q.p + (q.bsq - q.normalB n * q.normalB n) =
      q.d * (s.gamma0 * q.p / q.d + (q.bsq / q.d - q.normalB n * q.normalB n / q.d)) := by
    field_simp
  have e2 : q.bsq = q.d * (q.bsq / q.d) := by field_simp
  rw [e1]
  rw [show (q.bsq ≤ q.d * (1/2 * (q.bsq / q.d + s.gamma0 * q.p / q.d) +
      Real.sqrt ((1/2 * (q.bsq / q.d + s.gamma0 * q.p / q.d)) *
        (1/2 * (q.bsq / q.d + s.gamma0 * q.p / q.d)) -
      s.gamma0 * q.p / q.d * (q.normalB n * q.normalB n / q.d)))) =
      (q.d * (q.bsq / q.d) ≤ q.d * (1/2 * (q.bsq / q.d + s.gamma0 * q.p / q.d) +
      Real.sqrt ((1/2 * (q.bsq / q.d + s.gamma0 * q.p / q.d)) *
        (1/2 * (q.bsq / q.d + s.gamma0 * q.p / q.d)) -
      s.gamma0 * q.p / q.d * (q.normalB n * q.normalB n / q.d)))) from by rw [← e2]]
  generalize s.gamma0 * q.p / q.d = c at *
  generalize q.bsq / q.d = x at *
  generalize q.normalB n * q.normalB n / q.d = y at *
  constructor
  · refine mul_le_mul_of_nonneg_left ?_ hd.le
    have : 1/2 * (c + x) - y ≤ Real.sqrt (1/2 * (x + c) * (1/2 * (x + c)) - c * y) := by
      apply Real.le_sqrt_of_sq_le
      nlinarith [mul_nonneg hy (sub_nonneg.2 h2)]
    linarith
  · refine mul_le_mul_of_nonneg_left ?_ hd.le
    have : 1/2 * (x - c) ≤ Real.sqrt (1/2 * (x + c) * (1/2 * (x + c)) - c * y) := by
      apply Real.le_sqrt_of_sq_le
      nlinarith [mul_nonneg hc.le (sub_nonneg.2 h2)]
    linarith

/-- without transverse field and with a dominant normal field, `ρ c_f² = B_n²` -/
theorem fast_normal (ht : q.bsq = q.normalB n * q.normalB n)
    (hdom : s.gamma0 * q.p ≤ q.normalB n * q.normalB n) :
    q.d * (findSpeedFast s n q * findSpeedFast s n q) = q.normalB n * q.normalB n := by
  have hd := hq.d
  rw [findSpeedFast_real hg hq n, Real.mul_self_sqrt (fast_arg_pos hg hq n).le, ht]
  have h3 : s.gamma0 * q.p / q.d * q.normalB n * q.normalB n / q.d =
      s.gamma0 * q.p / q.d * (q.normalB n * q.normalB n / q.d) := by ring
  have h4 : s.gamma0 * q.p / q.d ≤ q.normalB n * q.normalB n / q.d := by gcongr
  have e2 : q.normalB n * q.normalB n = q.d * (q.normalB n * q.normalB n / q.d) := by field_simp
  rw [h3]
  have h5 : Real.sqrt (1/2 * (q.normalB n * q.normalB n / q.d + s.gamma0 * q.p / q.d) *
      (1/2 * (q.normalB n * q.normalB n / q.d + s.gamma0 * q.p / q.d)) -
      s.gamma0 * q.p / q.d * (q.normalB n * q.normalB n / q.d)) =
      1/2 * (q.normalB n * q.normalB n / q.d - s.gamma0 * q.p / q.d) := by
    generalize s.gamma0 * q.p / q.d = c at *
    generalize q.normalB n * q.normalB n / q.d = y at *
    rw [show 1/2 * (y + c) * (1/2 * (y + c)) - c * y = (1/2 * (y - c)) * (1/2 * (y - c)) by ring]
    exact Real.sqrt_mul_self (by linarith)
  rw [h5]
  field_simp
  ring

end

/-- the fast speed of the code is the textbook one -/
theorem findSpeedFast_spec {s : Settings ℝ} {q : MS ℝ} (hg : 1 < s.gamma0) (hq : PhysM q) (n : Nat) :
    findSpeedFast s n q = fastSpeed s.gamma0 (q.normalB n) q := by
  have hd := hq.d.ne'
  rw [findSpeedFast_real hg hq]
  unfold fastSpeed MS.bsq
  have e1 : (1/2 : ℝ) * ((q.a * q.a + q.b * q.b + q.c * q.c) / q.d + s.gamma0 * q.p / q.d) =
      (s.gamma0 * q.p + (q.a ^ 2 + q.b ^ 2 + q.c ^ 2)) / (2 * q.d) := by
    field_simp
    ring
  have e2 : s.gamma0 * q.p / q.d * q.normalB n * q.normalB n / q.d =
      s.gamma0 * q.p * q.normalB n ^ 2 / q.d ^ 2 := by
    field_simp
  rw [e1, e2, sq ((s.gamma0 * q.p + (q.a ^ 2 + q.b ^ 2 + q.c ^ 2)) / (2 * q.d))]

/-- two-sided contact speed lies strictly between the outer waves; the normal field `a` is common -/
theorem hlld_contact {g a rl ul pl tl rr ur pr tr c : ℝ} (hg : 1 < g) (hpl : 0 < pl) (hpr : 0 < pr)
    (htl : 0 ≤ tl) (htr : 0 ≤ tr) (hrl : 0 < rl) (hrr : 0 < rr) (hc : 0 < c)
    (hcl : g * pl + tl ≤ rl * (c * c)) (hcr : g * pr + tr ≤ rr * (c * c)) :
    let sl := min ul ur - c
    let sr := max ul ur + c
    let rcl := rl * (ul - sl)
    let rcr := rr * (sr - ur)
    let us := (rcr * ur + rcl * ul + (pl + 1/2 * (a * a + tl) - (pr + 1/2 * (a * a + tr)))) / (rcr + rcl)
    0 < rcl ∧ 0 < rcr ∧ sl < us ∧ us < sr := by
  intro sl sr rcl rcr us
  have h1 : sl ≤ ul - c := by simp only [sl]; linarith [min_le_left ul ur]
  have h2 : sl ≤ ur - c := by simp only [sl]; linarith [min_le_right ul ur]
  have h3 : ul + c ≤ sr := by simp only [sr]; linarith [le_max_left ul ur]
  have h4 : ur + c ≤ sr := by simp only [sr]; linarith [le_max_right ul ur]
  have k1 : 0 < rcl := mul_pos hrl (by linarith)
  have k2 : 0 < rcr := mul_pos hrr (by linarith)
  refine ⟨k1, k2, ?_, ?_⟩
  · rw [lt_div_iff₀ (by linarith)]
    have a1 : rl * (c * c) ≤ rcl * (ul - sl) := by
      have : c * c ≤ (ul - sl) * (ul - sl) := by nlinarith
      have := mul_le_mul_of_nonneg_left this hrl.le
      simp only [rcl]; linarith
    have a2 : rr * (c * c) ≤ rcr * (ur - sl) := by
      have : c * c ≤ (sr - ur) * (ur - sl) := by nlinarith
      have := mul_le_mul_of_nonneg_left this hrr.le
      simp only [rcr]; linarith
    nlinarith
  · rw [div_lt_iff₀ (by linarith)]
    have a1 : rl * (c * c) ≤ rcl * (sr - ul) := by
      have : c * c ≤ (ul - sl) * (sr - ul) := by nlinarith
      have := mul_le_mul_of_nonneg_left this hrl.le
      simp only [rcl]; linarith
    have a2 : rr * (c * c) ≤ rcr * (sr - ur) := by
      have : c * c ≤ (sr - ur) * (sr - ur) := by nlinarith
      have := mul_le_mul_of_nonneg_left this hrr.le
      simp only [rcr]; linarith
    nlinarith

/-- four-state contact speed (2D Riemann problem at an edge): the normal field is common to the two lower
and to the two upper states -/
theorem mag_contact {g aB aT dLL uLL pLL tLL dRL uRL pRL tRL dLR uLR pLR tLR dRR uRR pRR tRR c SL SR : ℝ}
    (hg : 1 < g) (hc : 0 < c)
    (hLL : 0 < dLL ∧ 0 < pLL ∧ 0 ≤ tLL ∧ g * pLL + tLL ≤ dLL * (c * c))
    (hRL : 0 < dRL ∧ 0 < pRL ∧ 0 ≤ tRL ∧ g * pRL + tRL ≤ dRL * (c * c))
    (hLR : 0 < dLR ∧ 0 < pLR ∧ 0 ≤ tLR ∧ g * pLR + tLR ≤ dLR * (c * c))
    (hRR : 0 < dRR ∧ 0 < pRR ∧ 0 ≤ tRR ∧ g * pRR + tRR ≤ dRR * (c * c))
    (sLL : SL ≤ uLL - c ∧ uLL + c ≤ SR) (sRL : SL ≤ uRL - c ∧ uRL + c ≤ SR)
    (sLR : SL ≤ uLR - c ∧ uLR + c ≤ SR) (sRR : SL ≤ uRR - c ∧ uRR + c ≤ SR) :
    let rcLL := dLL * (uLL - SL)
    let rcRL := dRL * (SR - uRL)
    let rcLR := dLR * (uLR - SL)
    let rcRR := dRR * (SR - uRR)
    let PLL := pLL + 1/2 * (aB * aB + tLL)
    let PRL := pRL + 1/2 * (aB * aB + tRL)
    let PLR := pLR + 1/2 * (aT * aT + tLR)
    let PRR := pRR + 1/2 * (aT * aT + tRR)
    let us := (rcLL * uLL + rcLR * uLR + rcRL * uRL + rcRR * uRR + (PLL - PRL + PLR - PRR)) /
      (rcLL + rcLR + rcRL + rcRR)
    0 < rcLL + rcLR + rcRL + rcRR ∧ SL < us ∧ us < SR := by
  intro rcLL rcRL rcLR rcRR PLL PRL PLR PRR us
  have left : ∀ {d u p t : ℝ}, (0 < d ∧ 0 < p ∧ 0 ≤ t ∧ g * p + t ≤ d * (c * c)) →
      (SL ≤ u - c ∧ u + c ≤ SR) → 0 < d * (u - SL) ∧ g * p + t ≤ d * (u - SL) * (u - SL) ∧
        g * p + t ≤ d * (u - SL) * (SR - u) := by
    intro d u p t h k
    refine ⟨mul_pos h.1 (by linarith [k.1]), ?_, ?_⟩
    · have : c * c ≤ (u - SL) * (u - SL) := by nlinarith [k.1, k.2]
      have := mul_le_mul_of_nonneg_left this h.1.le
      linarith [h.2.2.2]
    · have : c * c ≤ (u - SL) * (SR - u) := by nlinarith [k.1, k.2]
      have := mul_le_mul_of_nonneg_left this h.1.le
      linarith [h.2.2.2]
  have right : ∀ {d u p t : ℝ}, (0 < d ∧ 0 < p ∧ 0 ≤ t ∧ g * p + t ≤ d * (c * c)) →
      (SL ≤ u - c ∧ u + c ≤ SR) → 0 < d * (SR - u) ∧ g * p + t ≤ d * (SR - u) * (u - SL) ∧
        g * p + t ≤ d * (SR - u) * (SR - u) := by
    intro d u p t h k
    refine ⟨mul_pos h.1 (by linarith [k.2]), ?_, ?_⟩
    · have : c * c ≤ (SR - u) * (u - SL) := by nlinarith [k.1, k.2]
      have := mul_le_mul_of_nonneg_left this h.1.le
      linarith [h.2.2.2]
    · have : c * c ≤ (SR - u) * (SR - u) := by nlinarith [k.1, k.2]
      have := mul_le_mul_of_nonneg_left this h.1.le
      linarith [h.2.2.2]
  obtain ⟨a1, a2, a3⟩ := left hLL sLL
  obtain ⟨b1, b2, b3⟩ := left hLR sLR
  obtain ⟨c1, c2, c3⟩ := right hRL sRL
  obtain ⟨d1, d2, d3⟩ := right hRR sRR
  have e1 := mul_pos (sub_pos.2 hg) hLL.2.1
  have e2 := mul_pos (sub_pos.2 hg) hLR.2.1
  have e3 := mul_pos (sub_pos.2 hg) hRL.2.1
  have e4 := mul_pos (sub_pos.2 hg) hRR.2.1
  obtain ⟨-, f1, g1, -⟩ := hLL
  obtain ⟨-, f2, g2, -⟩ := hLR
  obtain ⟨-, f3, g3, -⟩ := hRL
  obtain ⟨-, f4, g4, -⟩ := hRR
  have hS : 0 < rcLL + rcLR + rcRL + rcRR := by
    simp only [rcLL, rcLR, rcRL, rcRR]; linarith
  refine ⟨hS, ?_, ?_⟩
  · rw [lt_div_iff₀ hS]
    simp only [rcLL, rcLR, rcRL, rcRR, PLL, PRL, PLR, PRR]
    linarith
  · rw [div_lt_iff₀ hS]
    simp only [rcLL, rcLR, rcRL, rcRR, PLL, PRL, PLR, PRR]
    linarith

end EulerKokkos
