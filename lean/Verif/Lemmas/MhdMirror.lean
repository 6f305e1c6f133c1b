import Verif.Lemmas.MhdHlld

/-!
# Mirror symmetry of the textbook MHD fluxes
-/

set_option linter.unusedSimpArgs false
set_option linter.constructorNameAsVariable false
set_option linter.unusedSectionVars false
set_option linter.unnecessarySeqFocus false

namespace EulerKokkos

open Spec

attribute [local ext] MS

theorem mhdFlux_mirror (γ : ℝ) (q : MS ℝ) : mhdFlux γ (mirrorM q) = mirrorFluxM (mhdFlux γ q) := by
  simp only [mhdFlux, mirrorM, mirrorFluxM, mhdEnergy, totalPressure, magPressure]
  ext <;> dsimp only <;> ring

theorem mhdCons_mirror (γ : ℝ) (q : MS ℝ) : mhdCons γ (mirrorM q) = mirrorM (mhdCons γ q) := by
  simp only [mhdCons, mirrorM, mhdEnergy, magPressure]
  ext <;> dsimp only <;> ring

theorem fanCons_mirror (q : MS ℝ) : fanCons (mirrorM q) = mirrorM (fanCons q) := by
  simp only [fanCons, mirrorM]
  ext <;> dsimp only <;> ring

theorem fastSpeed_mirror (γ bn : ℝ) (q : MS ℝ) : fastSpeed γ (-bn) (mirrorM q) = fastSpeed γ bn q := by
  simp only [fastSpeed, mirrorM, neg_sq]

theorem totalPressure_mirror (q : MS ℝ) : totalPressure (mirrorM q) = totalPressure q := by
  simp only [totalPressure, magPressure, mirrorM, neg_sq]

theorem maxFast_mirror (γ : ℝ) (l r : MS ℝ) : maxFast γ (mirrorM r) (mirrorM l) = maxFast γ l r := by
  unfold maxFast
  rw [max_comm]
  exact congrArg₂ max (fastSpeed_mirror γ l.a l) (fastSpeed_mirror γ r.a r)

theorem speedL_mirror (γ : ℝ) (l r : MS ℝ) : speedL γ (mirrorM r) (mirrorM l) = -speedR γ l r := by
  unfold speedL speedR
  rw [maxFast_mirror]
  change min (-r.u) (-l.u) - _ = _
  rw [min_neg_neg, max_comm]; ring

theorem speedR_mirror (γ : ℝ) (l r : MS ℝ) : speedR γ (mirrorM r) (mirrorM l) = -speedL γ l r := by
  unfold speedL speedR
  rw [maxFast_mirror]
  change max (-r.u) (-l.u) + _ = _
  rw [max_neg_neg, min_comm]; ring

theorem meanNormal_mirror (l r q : MS ℝ) :
    meanNormal (mirrorM r) (mirrorM l) (mirrorM q) = mirrorM (meanNormal l r q) := by
  simp only [meanNormal, mirrorM]
  ext <;> dsimp only <;> ring

theorem mirror_jump (f u : MS ℝ) (S : ℝ) :
    mirrorFluxM f + (-S) • mirrorM u = mirrorFluxM (f + S • u) := by
  simp only [mirrorFluxM, mirrorM, ms_add, ms_smul]
  ext <;> dsimp only <;> ring

theorem mhdRusanov_mirror (γ a : ℝ) (l r : MS ℝ) :
    mhdRusanov γ a (mirrorM r) (mirrorM l) = mirrorFluxM (mhdRusanov γ a l r) := by
  simp only [mhdRusanov, mhdFlux_mirror, mhdCons_mirror]
  generalize mhdFlux γ l = FL
  generalize mhdFlux γ r = FR
  generalize mhdCons γ l = UL
  generalize mhdCons γ r = UR
  simp only [mirrorFluxM, mirrorM, ms_add, ms_sub, ms_smul]
  ext <;> dsimp only <;> ring

theorem mhdHllFlux_mirror (γ SL SR : ℝ) (l r : MS ℝ) :
    mhdHllFlux γ (-SR) (-SL) (mirrorM r) (mirrorM l) = mirrorFluxM (mhdHllFlux γ SL SR l r) := by
  simp only [mhdHllFlux, mhdFlux_mirror, mhdCons_mirror]
  rw [show -SL - -SR = SR - SL by ring]
  generalize mhdFlux γ l = FL
  generalize mhdFlux γ r = FR
  generalize mhdCons γ l = UL
  generalize mhdCons γ r = UR
  simp only [mirrorFluxM, mirrorM, ms_add, ms_sub, ms_smul]
  ext <;> dsimp only <;> ring

theorem speedM_mirror (SL SR : ℝ) (l r : MS ℝ) :
    speedM (-SR) (-SL) (mirrorM r) (mirrorM l) = -speedM SL SR l r := by
  unfold speedM
  rw [totalPressure_mirror, totalPressure_mirror, ← neg_div]
  simp only [mirrorM]
  congr 1 <;> ring

theorem starPressure_mirror (SL SR : ℝ) (l r : MS ℝ) :
    starPressure (-SR) (-SL) (mirrorM r) (mirrorM l) = starPressure SL SR l r := by
  unfold starPressure
  rw [totalPressure_mirror, totalPressure_mirror]
  simp only [mirrorM]
  congr 1 <;> ring

theorem starState_mirror (γ S SM pT : ℝ) (q : MS ℝ) :
    starState γ (-S) (-SM) pT (mirrorM q) = mirrorM (starState γ S SM pT q) := by
  have hE : mhdEnergy γ (mirrorM q) = mhdEnergy γ q := by
    simp only [mhdEnergy, magPressure, mirrorM, neg_sq]
  unfold starState
  rw [totalPressure_mirror, hE]
  simp only [mirrorM]
  have e1 : q.d * (-S - -q.u) * (-S - -SM) - (-q.a) ^ 2 = q.d * (S - q.u) * (S - SM) - q.a ^ 2 := by ring
  have e2 : q.d * (-S - -q.u) ^ 2 - (-q.a) ^ 2 = q.d * (S - q.u) ^ 2 - q.a ^ 2 := by ring
  have e3 : ∀ x : ℝ, -q.a * x * (-SM - -q.u) = q.a * x * (SM - q.u) := by intro x; ring
  rw [e1, e2, e3, e3]
  generalize q.v - _ / _ = v'
  generalize q.w - _ / _ = w'
  generalize q.b * (_ / _) = b'
  generalize q.c * (_ / _) = c'
  have e4 : -S - -SM = -(S - SM) := by ring
  rw [e4]
  ext <;> dsimp only
  · rw [show q.d * (-S - -q.u) = -(q.d * (S - q.u)) by ring, neg_div_neg_eq]
  · rw [← neg_div_neg_eq, neg_neg]
    congr 1
    ring

theorem signOf_neg {a : ℝ} (h : a ≠ 0) : signOf (-a) = -signOf a := by
  unfold signOf
  rcases lt_or_gt_of_ne h with h | h
  · rw [if_pos (by linarith), if_neg (by linarith)]; norm_num
  · rw [if_neg (by linarith), if_pos (by linarith)]

theorem doubleStar_mirror (σ : ℝ) (l r k : MS ℝ) (h : k.a ≠ 0) :
    doubleStar (-σ) (mirrorM r) (mirrorM l) (mirrorM k) = mirrorM (doubleStar σ l r k) := by
  unfold doubleStar
  simp only [mirrorM, signOf_neg h]
  rw [add_comm (Real.sqrt r.d) (Real.sqrt l.d)]
  generalize Real.sqrt l.d = x
  generalize Real.sqrt r.d = y
  generalize signOf k.a = g
  have e1 : ∀ p q m n : ℝ, y * p + x * q + (m - n) * -g = x * q + y * p + (n - m) * g := by intros; ring
  have e2 : ∀ p q m n : ℝ, y * p + x * q + y * x * (m - n) * -g = x * q + y * p + x * y * (n - m) * g := by
    intros; ring
  rw [e1, e1, e2, e2]
  generalize (x * l.v + y * r.v + (r.b - l.b) * g) / (x + y) = v'
  generalize (x * l.w + y * r.w + (r.c - l.c) * g) / (x + y) = w'
  generalize (x * r.b + y * l.b + _) / (x + y) = b'
  generalize (x * r.c + y * l.c + _) / (x + y) = c'
  ext <;> dsimp only
  ring

/-- a fan read from the other side -/
theorem fan_mirror {α : Type} {s1 s2 s3 s4 s5 : ℝ} (o1 : s1 ≤ s2) (o2 : s2 ≤ s3) (o3 : s3 ≤ s4) (o4 : s4 ≤ s5)
    {A1 A2 A3 A4 A5 A6 : α} (h1 : s1 = 0 → A1 = A2) (h2 : s2 = 0 → A2 = A3) (h3 : s3 = 0 → A3 = A4)
    (h4 : s4 = 0 → A4 = A5) (h5 : s5 = 0 → A5 = A6) :
    (if 0 < -s5 then A6 else if 0 < -s4 then A5 else if 0 < -s3 then A4 else if 0 < -s2 then A3
      else if 0 < -s1 then A2 else A1) =
    (if 0 < s1 then A1 else if 0 < s2 then A2 else if 0 < s3 then A3 else if 0 < s4 then A4
      else if 0 < s5 then A5 else A6) := by
  by_cases a1 : 0 < s1
  · rw [if_pos a1, if_neg (by linarith), if_neg (by linarith), if_neg (by linarith), if_neg (by linarith),
      if_neg (by linarith)]
  rw [if_neg a1]
  have e1 : ¬ 0 < -s1 → A1 = A2 := fun h => h1 (by linarith)
  by_cases a2 : 0 < s2
  · rw [if_pos a2, if_neg (by linarith), if_neg (by linarith), if_neg (by linarith), if_neg (by linarith)]
    split_ifs with b1
    · rfl
    · exact e1 b1
  rw [if_neg a2]
  have e2 : ¬ 0 < -s2 → A2 = A3 := fun h => h2 (by linarith)
  by_cases a3 : 0 < s3
  · rw [if_pos a3, if_neg (by linarith), if_neg (by linarith), if_neg (by linarith)]
    split_ifs with b2 b1
    · rfl
    · exact e2 b2
    · exact (e1 b1).trans (e2 b2)
  rw [if_neg a3]
  have e3 : ¬ 0 < -s3 → A3 = A4 := fun h => h3 (by linarith)
  by_cases a4 : 0 < s4
  · rw [if_pos a4, if_neg (by linarith), if_neg (by linarith)]
    split_ifs with b3 b2 b1
    · rfl
    · exact e3 b3
    · exact (e2 b2).trans (e3 b3)
    · exact ((e1 b1).trans (e2 b2)).trans (e3 b3)
  rw [if_neg a4]
  have e4 : ¬ 0 < -s4 → A4 = A5 := fun h => h4 (by linarith)
  by_cases a5 : 0 < s5
  · rw [if_pos a5, if_neg (by linarith)]
    split_ifs with b4 b3 b2 b1
    · rfl
    · exact e4 b4
    · exact (e3 b3).trans (e4 b4)
    · exact ((e2 b2).trans (e3 b3)).trans (e4 b4)
    · exact (((e1 b1).trans (e2 b2)).trans (e3 b3)).trans (e4 b4)
  rw [if_neg a5]
  have e5 : ¬ 0 < -s5 → A5 = A6 := fun h => h5 (by linarith)
  split_ifs with b5 b4 b3 b2 b1
  · rfl
  · exact e5 b5
  · exact (e4 b4).trans (e5 b5)
  · exact ((e3 b3).trans (e4 b4)).trans (e5 b5)
  · exact (((e2 b2).trans (e3 b3)).trans (e4 b4)).trans (e5 b5)
  · exact ((((e1 b1).trans (e2 b2)).trans (e3 b3)).trans (e4 b4)).trans (e5 b5)

theorem mirrorFluxM_ite (c : Prop) [Decidable c] (x y : MS ℝ) :
    mirrorFluxM (if c then x else y) = if c then mirrorFluxM x else mirrorFluxM y := by
  split_ifs <;> rfl

/-- mirror symmetry of HLLD: the Alfven waves must lie inside the outer waves -/
theorem hlldFluxWith_mirror {γ SL SR : ℝ} {l r : MS ℝ} (hn : l.a = r.a) (hl : 0 < l.d) (hr : 0 < r.d)
    (hl1 : SL < l.u) (hr1 : r.u < SR) (hl2 : SL < speedM SL SR l r) (hr2 : speedM SL SR l r < SR)
    (hl3 : l.a ^ 2 < l.d * (SL - l.u) * (SL - speedM SL SR l r))
    (hr3 : r.a ^ 2 < r.d * (SR - r.u) * (SR - speedM SL SR l r)) :
    hlldFluxWith γ (-SR) (-SL) (mirrorM r) (mirrorM l) = mirrorFluxM (hlldFluxWith γ SL SR l r) := by
  obtain ⟨pl, pr⟩ := starPressure_side hl hr hl1 hr1
  have dl : 0 < (starState γ SL (speedM SL SR l r) (starPressure SL SR l r) l).d :=
    div_pos_of_neg_of_neg (mul_neg_of_pos_of_neg hl (by linarith)) (by linarith)
  have dr : 0 < (starState γ SR (speedM SL SR l r) (starPressure SL SR l r) r).d :=
    div_pos (mul_pos hr (by linarith)) (by linarith)
  have jl := star_jump (γ := γ) (S := SL) (SM := speedM SL SR l r) (q := l) (by linarith)
    (by linarith [hl3]) pl
  have jr := star_jump (γ := γ) (S := SR) (SM := speedM SL SR l r) (q := r) (by linarith)
    (by linarith [hr3]) pr
  have ul : (starState γ SL (speedM SL SR l r) (starPressure SL SR l r) l).u = speedM SL SR l r := rfl
  have ur : (starState γ SR (speedM SL SR l r) (starPressure SL SR l r) r).u = speedM SL SR l r := rfl
  have al : (starState γ SL (speedM SL SR l r) (starPressure SL SR l r) l).a = l.a := rfl
  have ar : (starState γ SR (speedM SL SR l r) (starPressure SL SR l r) r).a = r.a := rfl
  -- the Alfven waves lie inside
  have ol : SL ≤ speedM SL SR l r -
      |l.a| / Real.sqrt (starState γ SL (speedM SL SR l r) (starPressure SL SR l r) l).d := by
    have hs := Real.sqrt_pos.2 dl
    have : |l.a| / Real.sqrt (starState γ SL (speedM SL SR l r) (starPressure SL SR l r) l).d ≤
        speedM SL SR l r - SL := by
      rw [div_le_iff₀ hs, ← Real.sqrt_sq (sub_pos.2 hl2).le, ← Real.sqrt_mul (sq_nonneg _)]
      apply Real.le_sqrt_of_sq_le
      rw [sq_abs]
      refine hl3.le.trans (le_of_eq ?_)
      change _ = _ * (l.d * (SL - l.u) / (SL - speedM SL SR l r))
      have : SL - speedM SL SR l r ≠ 0 := by linarith
      field_simp
      ring
    linarith
  have orr : speedM SL SR l r +
      |l.a| / Real.sqrt (starState γ SR (speedM SL SR l r) (starPressure SL SR l r) r).d ≤ SR := by
    have hs := Real.sqrt_pos.2 dr
    have : |l.a| / Real.sqrt (starState γ SR (speedM SL SR l r) (starPressure SL SR l r) r).d ≤
        SR - speedM SL SR l r := by
      rw [div_le_iff₀ hs, ← Real.sqrt_sq (sub_pos.2 hr2).le, ← Real.sqrt_mul (sq_nonneg _)]
      apply Real.le_sqrt_of_sq_le
      rw [sq_abs, hn]
      refine hr3.le.trans (le_of_eq ?_)
      change _ = _ * (r.d * (SR - r.u) / (SR - speedM SL SR l r))
      have : SR - speedM SL SR l r ≠ 0 := by linarith
      field_simp
    linarith
  unfold hlldFluxWith
  simp only [speedM_mirror, starPressure_mirror, starState_mirror, mhdFlux_mirror, mhdCons_mirror,
    fanCons_mirror]
  generalize starState γ SL _ _ l = ls at *
  generalize starState γ SR _ _ r = rs at *
  have dll := dstar_jump_l (pT := starPressure SL SR l r) dl dr
  have drr := dstar_jump_r (pT := starPressure SL SR l r) dl dr
  rw [ul, al] at dll
  rw [ur, ar] at drr
  have e1 : -speedM SL SR l r - |(mirrorM r).a| / Real.sqrt (mirrorM rs).d =
      -(speedM SL SR l r + |r.a| / Real.sqrt rs.d) := by
    simp only [mirrorM, abs_neg]; ring
  have e2 : -speedM SL SR l r + |(mirrorM l).a| / Real.sqrt (mirrorM ls).d =
      -(speedM SL SR l r - |l.a| / Real.sqrt ls.d) := by
    simp only [mirrorM, abs_neg]; ring
  rw [e1, e2]
  simp only [mirrorFluxM_ite]
  rw [← hn] at drr ⊢
  have q1 : 0 ≤ |l.a| / Real.sqrt ls.d := div_nonneg (abs_nonneg _) (Real.sqrt_nonneg _)
  have q2 : 0 ≤ |l.a| / Real.sqrt rs.d := div_nonneg (abs_nonneg _) (Real.sqrt_nonneg _)
  have jumpR : ∀ S : ℝ, mirrorFluxM (mhdFlux γ r) + (-S) • (mirrorM (fanCons rs) - mirrorM (mhdCons γ r)) =
      mirrorFluxM (mhdFlux γ r + S • (fanCons rs - mhdCons γ r)) := by
    intro S
    simp only [mirrorFluxM, mirrorM, ms_add, ms_sub, ms_smul]
    ext <;> dsimp only <;> ring
  have jumpL : ∀ S : ℝ, mirrorFluxM (mhdFlux γ l) + (-S) • (mirrorM (fanCons ls) - mirrorM (mhdCons γ l)) =
      mirrorFluxM (mhdFlux γ l + S • (fanCons ls - mhdCons γ l)) := by
    intro S
    simp only [mirrorFluxM, mirrorM, ms_add, ms_sub, ms_smul]
    ext <;> dsimp only <;> ring
  rw [jumpR, jumpL]
  by_cases ha : l.a = 0
  · -- without normal field the double star regions are empty
    have z1 : |l.a| / Real.sqrt ls.d = 0 := by rw [ha]; simp
    have z2 : |l.a| / Real.sqrt rs.d = 0 := by rw [ha]; simp
    rw [z1, z2]
    simp only [sub_zero, add_zero]
    have hz : speedM SL SR l r = 0 → mirrorFluxM (mhdFlux γ l + SL • (fanCons ls - mhdCons γ l)) =
        mirrorFluxM (mhdFlux γ r + SR • (fanCons rs - mhdCons γ r)) := by
      intro h
      rw [← jl, ← jr]
      unfold fanFlux
      rw [ul, ur, al, ar, h, ← hn, ha]
      congr 1
      ext <;> dsimp only <;> ring
    have := fan_mirror (s1 := SL) (s2 := speedM SL SR l r) (s3 := speedM SL SR l r) (s4 := speedM SL SR l r)
      (s5 := SR) hl2.le le_rfl le_rfl hr2.le (A1 := mirrorFluxM (mhdFlux γ l))
      (A2 := mirrorFluxM (mhdFlux γ l + SL • (fanCons ls - mhdCons γ l)))
      (A3 := mirrorFluxM (mhdFlux γ l + SL • (fanCons ls - mhdCons γ l)))
      (A4 := mirrorFluxM (mhdFlux γ r + SR • (fanCons rs - mhdCons γ r)))
      (A5 := mirrorFluxM (mhdFlux γ r + SR • (fanCons rs - mhdCons γ r)))
      (A6 := mirrorFluxM (mhdFlux γ r))
      (by intro h; rw [h]; simp only [ms_add, ms_sub, ms_smul]; congr 1; ext <;> dsimp only <;> ring)
      (fun _ => rfl) hz (fun _ => rfl)
      (by intro h; rw [h]; simp only [ms_add, ms_sub, ms_smul]; congr 1; ext <;> dsimp only <;> ring)
    by_cases h0 : 0 < speedM SL SR l r
    · simp only [h0, if_true, not_lt.2 (show -speedM SL SR l r ≤ 0 by linarith), if_false] at this ⊢
      exact this
    · by_cases h1 : 0 < -speedM SL SR l r
      · simp only [h0, h1, if_true, if_false] at this ⊢
        exact this
      · simp only [h0, h1, if_false] at this ⊢
        exact this
  · have m1 : doubleStar (-1) (mirrorM rs) (mirrorM ls) (mirrorM rs) = mirrorM (doubleStar 1 ls rs rs) :=
      doubleStar_mirror 1 ls rs rs (by rw [ar, ← hn]; exact ha)
    have m2 : doubleStar 1 (mirrorM rs) (mirrorM ls) (mirrorM ls) = mirrorM (doubleStar (-1) ls rs ls) := by
      have := doubleStar_mirror (-1) ls rs ls (by rw [al]; exact ha)
      rwa [neg_neg] at this
    rw [m1, m2, fanCons_mirror, fanCons_mirror]
    have g1 : ∀ S T : ℝ, mirrorFluxM (mhdFlux γ r) + (-S) • mirrorM (fanCons (doubleStar 1 ls rs rs)) -
        (-S - -T) • mirrorM (fanCons rs) - (-T) • mirrorM (mhdCons γ r) =
        mirrorFluxM (mhdFlux γ r + S • fanCons (doubleStar 1 ls rs rs) - (S - T) • fanCons rs -
          T • mhdCons γ r) := by
      intro S T
      simp only [mirrorFluxM, mirrorM, ms_add, ms_sub, ms_smul]
      ext <;> dsimp only <;> ring
    have g2 : ∀ S T : ℝ, mirrorFluxM (mhdFlux γ l) + (-S) • mirrorM (fanCons (doubleStar (-1) ls rs ls)) -
        (-S - -T) • mirrorM (fanCons ls) - (-T) • mirrorM (mhdCons γ l) =
        mirrorFluxM (mhdFlux γ l + S • fanCons (doubleStar (-1) ls rs ls) - (S - T) • fanCons ls -
          T • mhdCons γ l) := by
      intro S T
      simp only [mirrorFluxM, mirrorM, ms_add, ms_sub, ms_smul]
      ext <;> dsimp only <;> ring
    rw [g1, g2]
    have lastL : mhdFlux γ l + (speedM SL SR l r - |l.a| / Real.sqrt ls.d) • fanCons (doubleStar (-1) ls rs ls) -
        (speedM SL SR l r - |l.a| / Real.sqrt ls.d - SL) • fanCons ls - SL • mhdCons γ l =
        fanFlux (starPressure SL SR l r) (doubleStar (-1) ls rs ls) := by
      rw [dll, jl]
      simp only [ms_add, ms_sub, ms_smul]
      ext <;> dsimp only <;> ring
    have lastR : mhdFlux γ r + (speedM SL SR l r + |l.a| / Real.sqrt rs.d) • fanCons (doubleStar 1 ls rs rs) -
        (speedM SL SR l r + |l.a| / Real.sqrt rs.d - SR) • fanCons rs - SR • mhdCons γ r =
        fanFlux (starPressure SL SR l r) (doubleStar 1 ls rs rs) := by
      rw [drr, jr]
      simp only [ms_add, ms_sub, ms_smul]
      ext <;> dsimp only <;> ring
    refine fan_mirror ol (by linarith) (by linarith) orr ?_ ?_ ?_ ?_ ?_
    · intro h; rw [h]; simp only [ms_add, ms_sub, ms_smul]; congr 1; ext <;> dsimp only <;> ring
    · intro h; rw [h]; simp only [ms_add, ms_sub, ms_smul]; congr 1; ext <;> dsimp only <;> ring
    · intro h
      rw [lastL, lastR]
      have ha' : ls.a = rs.a := by rw [al, ar, hn]
      unfold fanFlux doubleStar
      dsimp only
      rw [ul, ur, h, ha']
      congr 1
      ext <;> dsimp only <;> ring
    · intro h; rw [h]; simp only [ms_add, ms_sub, ms_smul]; congr 1; ext <;> dsimp only <;> ring
    · intro h; rw [h]; simp only [ms_add, ms_sub, ms_smul]; congr 1; ext <;> dsimp only <;> ring

end EulerKokkos
