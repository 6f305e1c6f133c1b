import Verif.Lemmas.MhdFast
import Verif.Spec.MhdEmf
import Mathlib.Tactic.LinearCombination

/-!
# `mag_riemann2d_hlld` against its specification (exact arithmetic)
-/

set_option linter.unusedSimpArgs false
set_option linter.constructorNameAsVariable false
set_option linter.unusedSectionVars false
set_option linter.unnecessarySeqFocus false

namespace EulerKokkos

open Spec

theorem fmax4_spec (a b c d : ℝ) : fmax4 a b c d = max4 a b c d := by
  have h : ∀ x y : ℝ, (if gtb y x = true then y else x) = max x y := by
    intro x y
    simp only [gtb, RealOps.lt_real]
    split_ifs with h
    · exact (max_eq_right h.le).symm
    · exact (max_eq_left (not_lt.1 h)).symm
  simp only [fmax4, max4, h]

theorem fmin4_spec (a b c d : ℝ) : fmin4 a b c d = min4 a b c d := by
  have h : ∀ x y : ℝ, (if RealOps.lt y x = true then y else x) = min x y := by
    intro x y
    simp only [RealOps.lt_real]
    split_ifs with h
    · exact (min_eq_right h.le).symm
    · exact (min_eq_left (not_lt.1 h)).symm
  simp only [fmin4, min4, h]

theorem fmax5_spec (a b c d e : ℝ) : fmax5 a b c d e = max (max (max a b) (max c d)) e := by
  have h : ∀ x y : ℝ, (if gtb y x = true then y else x) = max x y := by
    intro x y
    simp only [gtb, RealOps.lt_real]
    split_ifs with h
    · exact (max_eq_right h.le).symm
    · exact (max_eq_left (not_lt.1 h)).symm
  simp only [fmax5, h, max_assoc]

theorem posBit_spec (x : ℝ) : posBit x = decide (0 ≤ x) := by
  unfold posBit
  rw [RealOps.copysign_real]
  by_cases h : 0 ≤ x
  · rw [if_pos h, decide_eq_true h, RealOps.lt_real]
    simp [RealOps.lit_real]
  · rw [if_neg h, decide_eq_false h, ← Bool.not_eq_true, RealOps.lt_real]
    simp [RealOps.lit_real]

theorem bitR_one : (bitR true : ℝ) = 1 := by simp [bitR, RealOps.lit_real]
theorem bitR_zero : (bitR false : ℝ) = 0 := by simp [bitR, RealOps.lit_real]

theorem magStar_real (q : MS ℝ) (SX SY us vs : ℝ) :
    let k := cornerStar q SX SY us vs
    magStar q SX SY us vs = ⟨q.d * k.fx, k.B, q.d * k.fy, k.A, q.d * k.fx * k.fy, us * k.B - q.v * q.a,
      q.u * q.b - vs * k.A, us * k.B - vs * k.A⟩ := by
  intro k
  simp only [magStar, k, cornerStar, compression, mul_div_assoc]

theorem magSelect_real (SL SR SB ST SAL SAR SAB SAT : ℝ) (qLL qRL qLR qRR : MS ℝ)
    (LL RL LR RR : MagStar ℝ) (ELL ERL ELR ERR : ℝ) :
    magSelect SL SR SB ST SAL SAR SAB SAT qLL qRL qLR qRR LL RL LR RR ELL ERL ELR ERR =
    (if 0 ≤ SB then
      if 0 ≤ SL then ELL
      else if SR < 0 then ERL
      else hllEmf SAL SAR LL.Ex RL.Ex (qRL.b - qLL.b)
    else if ST < 0 then
      if 0 ≤ SL then ELR
      else if SR < 0 then ERR
      else hllEmf SAL SAR LR.Ex RR.Ex (qRR.b - qLR.b)
    else if 0 ≤ SL then hllEmf SAB SAT LL.Ey LR.Ey (-(qLR.a - qLL.a))
    else if SR < 0 then hllEmf SAB SAT RL.Ey RR.Ey (-(qRR.a - qRL.a))
    else
      (SAL * SAB * RR.E - SAL * SAT * RL.E - SAR * SAB * LR.E + SAR * SAT * LL.E) /
        ((SAR - SAL) * (SAT - SAB)) -
      SAT * SAB / (SAT - SAB) *
        ((SAR * RR.A - SAL * LR.A) / (SAR - SAL) - (SAR * RL.A - SAL * LL.A) / (SAR - SAL)) +
      SAR * SAL / (SAR - SAL) *
        ((SAT * RR.B - SAB * RL.B) / (SAT - SAB) - (SAT * LR.B - SAB * LL.B) / (SAT - SAB))) := by
  unfold magSelect hllEmf
  simp only [posBit_spec]
  by_cases h1 : 0 ≤ SB <;> by_cases h2 : 0 ≤ ST <;> by_cases h3 : 0 ≤ SL <;> by_cases h4 : 0 ≤ SR <;>
    simp only [h1, h2, h3, h4, not_le.1, not_lt.2, decide_true, decide_false, Bool.not_true, Bool.not_false,
      Bool.and_true, Bool.and_false, Bool.true_and, Bool.false_and, bitR_one, bitR_zero, if_true, if_false,
      ← not_le, not_true_eq_false, not_false_eq_true] <;>
    simp only [RealOps.lit_real, div_div] <;> push_cast <;> ring


theorem magRiemann_spec {s : Settings ℝ} (hg : 1 < s.gamma0) {q : Corners} (hq : q.Phys) :
    magRiemann2dHlld s q.LL q.RL q.LR q.RR (emfOf q.LL) (emfOf q.RL) (emfOf q.LR) (emfOf q.RR) =
      edgeEmf s.gamma0 s.smallc q := by
  obtain ⟨h1, h2, h3, h4⟩ := hq
  unfold magRiemann2dHlld
  simp only [findSpeedFast_spec hg h1, findSpeedFast_spec hg h2, findSpeedFast_spec hg h3,
    findSpeedFast_spec hg h4, fmax4_spec, fmin4_spec]
  simp only [show ∀ q : MS ℝ, q.normalB 0 = q.a from fun _ => rfl,
    show ∀ q : MS ℝ, q.normalB 1 = q.b from fun _ => rfl]
  have eL : min4 q.LL.u q.LR.u q.RL.u q.RR.u - max4 (fastSpeed s.gamma0 q.LL.a q.LL)
      (fastSpeed s.gamma0 q.LR.a q.LR) (fastSpeed s.gamma0 q.RL.a q.RL) (fastSpeed s.gamma0 q.RR.a q.RR) =
      q.SL s.gamma0 := rfl
  have eR : max4 q.LL.u q.LR.u q.RL.u q.RR.u + max4 (fastSpeed s.gamma0 q.LL.a q.LL)
      (fastSpeed s.gamma0 q.LR.a q.LR) (fastSpeed s.gamma0 q.RL.a q.RL) (fastSpeed s.gamma0 q.RR.a q.RR) =
      q.SR s.gamma0 := rfl
  have eB : min4 q.LL.v q.LR.v q.RL.v q.RR.v - max4 (fastSpeed s.gamma0 q.LL.b q.LL)
      (fastSpeed s.gamma0 q.LR.b q.LR) (fastSpeed s.gamma0 q.RL.b q.RL) (fastSpeed s.gamma0 q.RR.b q.RR) =
      q.SB s.gamma0 := rfl
  have eT : max4 q.LL.v q.LR.v q.RL.v q.RR.v + max4 (fastSpeed s.gamma0 q.LL.b q.LL)
      (fastSpeed s.gamma0 q.LR.b q.LR) (fastSpeed s.gamma0 q.RL.b q.RL) (fastSpeed s.gamma0 q.RR.b q.RR) =
      q.ST s.gamma0 := rfl
  rw [eL, eR, eB, eT]
  unfold magBody
  have hp : ∀ q : MS ℝ, magPtot q = totalPressure q := by
    intro q
    simp only [magPtot, totalPressure, magPressure, RealOps.lit_real]; push_cast; ring
  simp only [hp]
  have eu : (q.LL.d * (q.LL.u - q.SL s.gamma0) * q.LL.u + q.LR.d * (q.LR.u - q.SL s.gamma0) * q.LR.u +
      q.RL.d * (q.SR s.gamma0 - q.RL.u) * q.RL.u + q.RR.d * (q.SR s.gamma0 - q.RR.u) * q.RR.u +
      (totalPressure q.LL - totalPressure q.RL + totalPressure q.LR - totalPressure q.RR)) /
      (q.LL.d * (q.LL.u - q.SL s.gamma0) + q.LR.d * (q.LR.u - q.SL s.gamma0) +
        q.RL.d * (q.SR s.gamma0 - q.RL.u) + q.RR.d * (q.SR s.gamma0 - q.RR.u)) = q.ustar s.gamma0 := by
    unfold Corners.ustar
    dsimp only
    congr 1
    ring
  have ev : (q.LL.d * (q.LL.v - q.SB s.gamma0) * q.LL.v + q.LR.d * (q.ST s.gamma0 - q.LR.v) * q.LR.v +
      q.RL.d * (q.RL.v - q.SB s.gamma0) * q.RL.v + q.RR.d * (q.ST s.gamma0 - q.RR.v) * q.RR.v +
      (totalPressure q.LL - totalPressure q.LR + totalPressure q.RL - totalPressure q.RR)) /
      (q.LL.d * (q.LL.v - q.SB s.gamma0) + q.LR.d * (q.ST s.gamma0 - q.LR.v) +
        q.RL.d * (q.RL.v - q.SB s.gamma0) + q.RR.d * (q.ST s.gamma0 - q.RR.v)) = q.vstar s.gamma0 := by
    unfold Corners.vstar
    dsimp only
    congr 1
    ring
  rw [eu, ev]
  unfold magTail edgeEmf
  simp only [magStar_real, fmax5_spec, RealOps.fabs_real, RealOps.sqrt_real, magSelect_real,
    RealOps.fmin_real, RealOps.fmax_real]
  rw [RealOps.lit_real, Rat.cast_zero]
  generalize q.SL s.gamma0 = SL
  generalize q.SR s.gamma0 = SR
  generalize q.SB s.gamma0 = SB
  generalize q.ST s.gamma0 = ST
  generalize q.ustar s.gamma0 = us
  generalize q.vstar s.gamma0 = vs
  generalize cornerStar q.LL SL SB us vs = LL
  generalize cornerStar q.LR SL ST us vs = LR
  generalize cornerStar q.RL SR SB us vs = RL
  generalize cornerStar q.RR SR ST us vs = RR
  unfold alfvenX alfvenY
  rw [max_comm (max (|q.LR.a| / _) _) (max (|q.LL.a| / _) _),
    max_comm (max (|q.RR.a| / _) _) (max (|q.RL.a| / _) _)]

theorem emfOf_uniform {γ f : ℝ} (hg : 1 < γ) (hf : 0 < f) {q : MS ℝ} (hq : PhysM q) :
    edgeEmf γ f ⟨q, q, q, q⟩ = emfOf q := by
  let s : Settings ℝ := ⟨γ, 0, 0, 0, 0, 0, 0, 0, 0⟩
  have hx : 0 < fastSpeed γ q.a q := by
    have := fast_pos (s := s) hg hq 0
    rwa [findSpeedFast_spec (s := s) hg hq] at this
  have hy : 0 < fastSpeed γ q.b q := by
    have := fast_pos (s := s) hg hq 1
    rwa [findSpeedFast_spec (s := s) hg hq] at this
  have hd := hq.d
  have eL : Corners.SL γ ⟨q, q, q, q⟩ = q.u - fastSpeed γ q.a q := by
    simp [Corners.SL, Corners.fastX, min4, max4]
  have eR : Corners.SR γ ⟨q, q, q, q⟩ = q.u + fastSpeed γ q.a q := by
    simp [Corners.SR, Corners.fastX, max4]
  have eB : Corners.SB γ ⟨q, q, q, q⟩ = q.v - fastSpeed γ q.b q := by
    simp [Corners.SB, Corners.fastY, min4, max4]
  have eT : Corners.ST γ ⟨q, q, q, q⟩ = q.v + fastSpeed γ q.b q := by
    simp [Corners.ST, Corners.fastY, max4]
  have eu : Corners.ustar γ ⟨q, q, q, q⟩ = q.u := by
    unfold Corners.ustar
    rw [eL, eR]
    dsimp only
    have := mul_pos hd hx
    rw [div_eq_iff (by nlinarith)]
    ring
  have ev : Corners.vstar γ ⟨q, q, q, q⟩ = q.v := by
    unfold Corners.vstar
    rw [eB, eT]
    dsimp only
    have := mul_pos hd hy
    rw [div_eq_iff (by nlinarith)]
    ring
  have hc : ∀ S u : ℝ, S - u ≠ 0 → compression S u u = 1 := fun S u h => div_self h
  have c1 : ∀ S T : ℝ, S - q.u ≠ 0 → T - q.v ≠ 0 → cornerStar q S T q.u q.v = ⟨1, 1, q.b, q.a⟩ := by
    intro S T h1 h2
    unfold cornerStar
    rw [hc S q.u h1, hc T q.v h2, mul_one, mul_one]
  unfold edgeEmf
  rw [eL, eR, eB, eT, eu, ev]
  dsimp only
  rw [c1 _ _ (by linarith) (by linarith), c1 _ _ (by linarith) (by linarith),
    c1 _ _ (by linarith) (by linarith), c1 _ _ (by linarith) (by linarith)]
  dsimp only
  simp only [max_self, sub_self, mul_zero, neg_zero, add_zero, sub_zero]
  have gx : f ≤ max (alfvenX q ⟨1, 1, q.b, q.a⟩) f := le_max_right _ _
  have gy : f ≤ max (alfvenY q ⟨1, 1, q.b, q.a⟩) f := le_max_right _ _
  generalize max (alfvenX _ _) f = ax at *
  generalize max (alfvenY _ _) f = ay at *
  have wid : ∀ u a : ℝ, f ≤ a → max (u + a) 0 - min (u - a) 0 ≠ 0 := by
    intro u a h
    have h1 := le_max_left (u + a) 0
    have h2 := min_le_left (u - a) 0
    linarith
  have dx := wid q.u ax gx
  have dy := wid q.v ay gy
  generalize max (q.u + ax) 0 = SAR at *
  generalize min (q.u - ax) 0 = SAL at *
  generalize max (q.v + ay) 0 = SAT at *
  generalize min (q.v - ay) 0 = SAB at *
  have hE : q.u * q.b - q.v * q.a = emfOf q := rfl
  have same : ∀ S1 S2 E : ℝ, S2 - S1 ≠ 0 → hllEmf S1 S2 E E 0 = E := by
    intro S1 S2 E h
    unfold hllEmf
    rw [div_eq_iff h]
    ring
  rw [hE, same _ _ _ dx, same _ _ _ dy]
  have fin : (SAL * SAB * emfOf q - SAL * SAT * emfOf q - SAR * SAB * emfOf q + SAR * SAT * emfOf q) /
      ((SAR - SAL) * (SAT - SAB)) = emfOf q := by
    rw [div_eq_iff (mul_ne_zero dx dy)]
    ring
  rw [fin]
  simp only [ite_self]

/-! ### exchange of the axes -/

theorem max4_swap (a b c d : ℝ) : max4 a c b d = max4 a b c d := by
  unfold max4
  rw [max_assoc a c b, max_comm c b, ← max_assoc]

theorem min4_swap (a b c d : ℝ) : min4 a c b d = min4 a b c d := by
  unfold min4
  rw [min_assoc a c b, min_comm c b, ← min_assoc]

theorem totalPressure_transpose (q : MS ℝ) : totalPressure (transposeM q) = totalPressure q := by
  simp only [totalPressure, magPressure, transposeM]
  ring

theorem fastSpeed_transpose (γ bn : ℝ) (q : MS ℝ) : fastSpeed γ bn (transposeM q) = fastSpeed γ bn q := by
  simp only [fastSpeed, transposeM]
  rw [show q.b ^ 2 + q.a ^ 2 + q.c ^ 2 = q.a ^ 2 + q.b ^ 2 + q.c ^ 2 by ring]

theorem fastX_transpose (γ : ℝ) (q : Corners) : q.transpose.fastX γ = q.fastY γ := by
  unfold Corners.fastX Corners.fastY
  rw [← max4_swap]
  simp only [Corners.transpose, fastSpeed_transpose]
  rfl

theorem fastY_transpose (γ : ℝ) (q : Corners) : q.transpose.fastY γ = q.fastX γ := by
  unfold Corners.fastX Corners.fastY
  rw [← max4_swap]
  simp only [Corners.transpose, fastSpeed_transpose]
  rfl

theorem SL_transpose (γ : ℝ) (q : Corners) : q.transpose.SL γ = q.SB γ := by
  unfold Corners.SL Corners.SB
  rw [← min4_swap, fastX_transpose]; rfl
theorem SR_transpose (γ : ℝ) (q : Corners) : q.transpose.SR γ = q.ST γ := by
  unfold Corners.SR Corners.ST
  rw [← max4_swap, fastX_transpose]; rfl
theorem SB_transpose (γ : ℝ) (q : Corners) : q.transpose.SB γ = q.SL γ := by
  unfold Corners.SL Corners.SB
  rw [← min4_swap, fastY_transpose]; rfl
theorem ST_transpose (γ : ℝ) (q : Corners) : q.transpose.ST γ = q.SR γ := by
  unfold Corners.SR Corners.ST
  rw [← max4_swap, fastY_transpose]; rfl

theorem ustar_transpose (γ : ℝ) (q : Corners) : q.transpose.ustar γ = q.vstar γ := by
  unfold Corners.ustar Corners.vstar
  rw [SL_transpose, SR_transpose]
  simp only [Corners.transpose, totalPressure_transpose]
  simp only [transposeM]
  congr 1 <;> ring

theorem vstar_transpose (γ : ℝ) (q : Corners) : q.transpose.vstar γ = q.ustar γ := by
  unfold Corners.ustar Corners.vstar
  rw [SB_transpose, ST_transpose]
  simp only [Corners.transpose, totalPressure_transpose]
  simp only [transposeM]
  congr 1 <;> ring

/-- exchange of the axes of the star values -/
def swapStar (k : CornerStar) : CornerStar := ⟨k.fy, k.fx, k.A, k.B⟩

theorem alfvenX_swap (q : MS ℝ) (k : CornerStar) : alfvenX (transposeM q) (swapStar k) = alfvenY q k := by
  simp only [alfvenX, alfvenY, transposeM, swapStar, mul_right_comm]

theorem alfvenY_swap (q : MS ℝ) (k : CornerStar) : alfvenY (transposeM q) (swapStar k) = alfvenX q k := by
  simp only [alfvenX, alfvenY, transposeM, swapStar, mul_right_comm]

theorem emfOf_transpose (q : MS ℝ) : emfOf (transposeM q) = -emfOf q := by
  simp only [emfOf, transposeM]; ring

theorem hllEmf_neg (S1 S2 EL ER j : ℝ) : hllEmf S1 S2 (-EL) (-ER) (-j) = -hllEmf S1 S2 EL ER j := by
  unfold hllEmf
  rw [← neg_div]
  congr 1
  ring

theorem edgeEmf_transpose (γ f : ℝ) (q : Corners) : edgeEmf γ f q.transpose = -edgeEmf γ f q := by
  unfold edgeEmf
  rw [SL_transpose, SR_transpose, SB_transpose, ST_transpose, ustar_transpose, vstar_transpose]
  generalize q.SL γ = SL
  generalize q.SR γ = SR
  generalize q.SB γ = SB
  generalize q.ST γ = ST
  generalize q.ustar γ = us
  generalize q.vstar γ = vs
  have e : ∀ (k : MS ℝ) (X Y u v : ℝ), cornerStar (transposeM k) X Y u v = swapStar (cornerStar k Y X v u) := by
    intros; rfl
  simp only [Corners.transpose, e]
  generalize cornerStar q.LL SL SB us vs = LL
  generalize cornerStar q.LR SL ST us vs = LR
  generalize cornerStar q.RL SR SB us vs = RL
  generalize cornerStar q.RR SR ST us vs = RR
  simp only [alfvenX_swap, alfvenY_swap, emfOf_transpose]
  generalize max (max (alfvenX q.LL LL) _) f = aL
  generalize max (max (alfvenX q.RL RL) _) f = aR
  generalize max (max (alfvenY q.LL LL) _) f = aB
  generalize max (max (alfvenY q.LR LR) _) f = aT
  generalize min (us - aL) 0 = SAL
  generalize max (us + aR) 0 = SAR
  generalize min (vs - aB) 0 = SAB
  generalize max (vs + aT) 0 = SAT
  by_cases b1 : 0 ≤ SB <;> by_cases b2 : 0 ≤ SL <;> by_cases b3 : ST < 0 <;> by_cases b4 : SR < 0 <;>
    simp only [b1, b2, b3, b4, if_true, if_false] <;>
    first | rfl | (simp only [hllEmf, swapStar, transposeM]; ring)
end EulerKokkos
