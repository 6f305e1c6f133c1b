import Verif.Lemmas.CheckedMhd

/-!
# Checked arithmetic: the electromotive force
-/

set_option linter.unusedSimpArgs false
set_option linter.constructorNameAsVariable false
set_option linter.unusedSectionVars false

namespace EulerKokkos

open Chk Spec

theorem gt_sel (x y : ℝ) : (if gtb (ok x) (ok y) = true then ok x else ok y) =
    ok (if gtb x y = true then x else y) := ite_ok _ _ _

theorem lt_sel (x y : ℝ) : (if RealOps.lt (ok x) (ok y) = true then ok x else ok y) =
    ok (if RealOps.lt x y = true then x else y) := ite_ok _ _ _

theorem fmax4_ok (a b c d : ℝ) : fmax4 (ok a) (ok b) (ok c) (ok d) = ok (fmax4 a b c d) := by
  simp only [fmax4, gt_sel]
theorem fmin4_ok (a b c d : ℝ) : fmin4 (ok a) (ok b) (ok c) (ok d) = ok (fmin4 a b c d) := by
  simp only [fmin4, lt_sel]
theorem fmax5_ok (a b c d e : ℝ) : fmax5 (ok a) (ok b) (ok c) (ok d) (ok e) = ok (fmax5 a b c d e) := by
  simp only [fmax5, gt_sel]

theorem gt_sel_real (x y : ℝ) : (if gtb x y = true then x else y) = max x y := by
  simp only [gtb, RealOps.lt_real]
  rcases lt_or_ge y x with h | h
  · rw [if_pos h, max_eq_left h.le]
  · rw [if_neg (not_lt.2 h), max_eq_right h]

theorem lt_sel_real (x y : ℝ) : (if RealOps.lt x y = true then x else y) = min x y := by
  simp only [RealOps.lt_real]
  rcases lt_or_ge x y with h | h
  · rw [if_pos h, min_eq_left h.le]
  · rw [if_neg (not_lt.2 h), min_eq_right h]

theorem fmax4_real (a b c d : ℝ) : fmax4 a b c d = max d (max c (max b a)) := by
  simp only [fmax4, gt_sel_real]
theorem fmin4_real (a b c d : ℝ) : fmin4 a b c d = min d (min c (min b a)) := by
  simp only [fmin4, lt_sel_real]
theorem fmax5_real (a b c d e : ℝ) : fmax5 a b c d e = max e (max d (max c (max b a))) := by
  simp only [fmax5, gt_sel_real]

theorem posBit_ok (x : ℝ) : posBit (ok x) = posBit x := rfl

theorem bitR_ok (b : Bool) : (bitR b : Chk) = ok (bitR b) := rfl

/-- component-wise map -/
def MagStar.map {R S : Type} (f : R → S) (q : MagStar R) : MagStar S :=
  ⟨f q.rx, f q.B, f q.ry, f q.A, f q.r, f q.Ex, f q.Ey, f q.E⟩

theorem magSelect_ok {SL SR SB ST SAL SAR SAB SAT : ℝ} {qLL qRL qLR qRR : MS ℝ} {LL RL LR RR : MagStar ℝ}
    {ELL ERL ELR ERR : ℝ} (h1 : SAR - SAL ≠ 0) (h2 : SAT - SAB ≠ 0) :
    magSelect (ok SL) (ok SR) (ok SB) (ok ST) (ok SAL) (ok SAR) (ok SAB) (ok SAT) (qLL.map ok) (qRL.map ok)
      (qLR.map ok) (qRR.map ok) (LL.map ok) (RL.map ok) (LR.map ok) (RR.map ok) (ok ELL) (ok ERL) (ok ELR)
      (ok ERR) =
    ok (magSelect SL SR SB ST SAL SAR SAB SAT qLL qRL qLR qRR LL RL LR RR ELL ERL ELR ERR) := by
  unfold magSelect
  push_okm [MagStar.map, posBit_ok, bitR_ok]

theorem magStar_ok {q : MS ℝ} {SX SY us vs : ℝ} (h1 : SX - us ≠ 0) (h2 : SY - vs ≠ 0) :
    magStar (q.map ok) (ok SX) (ok SY) (ok us) (ok vs) = (magStar q SX SY us vs).map ok := by
  unfold magStar
  push_okm [MagStar.map]

theorem magStar_pos {q : MS ℝ} {SX SY us vs : ℝ} (hd : 0 < q.d) (h1 : 0 < (SX - q.u) / (SX - us))
    (h2 : 0 < (SY - q.v) / (SY - vs)) :
    0 < (magStar q SX SY us vs).rx ∧ 0 < (magStar q SX SY us vs).ry ∧ 0 < (magStar q SX SY us vs).r := by
  have e1 : (magStar q SX SY us vs).rx = q.d * ((SX - q.u) / (SX - us)) := mul_div_assoc _ _ _
  have e2 : (magStar q SX SY us vs).ry = q.d * ((SY - q.v) / (SY - vs)) := mul_div_assoc _ _ _
  have e3 : (magStar q SX SY us vs).r = q.d * ((SX - q.u) / (SX - us)) * ((SY - q.v) / (SY - vs)) := by
    change q.d * (SX - q.u) / (SX - us) * (SY - q.v) / (SY - vs) = _
    ring
  rw [e1, e2, e3]
  exact ⟨mul_pos hd h1, mul_pos hd h2, mul_pos (mul_pos hd h1) h2⟩

theorem alf_ok {a r : ℝ} (h : 0 < r) : fabs (ok a) / RealOps.sqrt (ok r) = ok (fabs a / RealOps.sqrt r) := by
  have h1 : RealOps.sqrt r ≠ 0 := (Real.sqrt_pos.2 h).ne'
  have h2 := h.le
  push_okm []

theorem magTail_ok {s : Settings ℝ} (hs : GoodSettings s) {qLL qRL qLR qRR : MS ℝ}
    {ELL ERL ELR ERR SL SR SB ST us vs : ℝ}
    (dLL : 0 < qLL.d) (dRL : 0 < qRL.d) (dLR : 0 < qLR.d) (dRR : 0 < qRR.d)
    (hL : SL < us) (hR : us < SR) (hB : SB < vs) (hT : vs < ST)
    (uLL : SL < qLL.u) (uLR : SL < qLR.u) (uRL : qRL.u < SR) (uRR : qRR.u < SR)
    (vLL : SB < qLL.v) (vRL : SB < qRL.v) (vLR : qLR.v < ST) (vRR : qRR.v < ST) :
    magTail (s.map ok) (qLL.map ok) (qRL.map ok) (qLR.map ok) (qRR.map ok) (ok ELL) (ok ERL) (ok ELR) (ok ERR)
      (ok SL) (ok SR) (ok SB) (ok ST) (ok us) (ok vs) =
    ok (magTail s qLL qRL qLR qRR ELL ERL ELR ERR SL SR SB ST us vs) := by
  have nL : SL - us ≠ 0 := ne_of_lt (by linarith)
  have nR : SR - us ≠ 0 := ne_of_gt (by linarith)
  have nB : SB - vs ≠ 0 := ne_of_lt (by linarith)
  have nT : ST - vs ≠ 0 := ne_of_gt (by linarith)
  have pLL := magStar_pos dLL (SX := SL) (SY := SB) (us := us) (vs := vs)
    (div_pos_of_neg_of_neg (by linarith) (by linarith)) (div_pos_of_neg_of_neg (by linarith) (by linarith))
  have pLR := magStar_pos dLR (SX := SL) (SY := ST) (us := us) (vs := vs)
    (div_pos_of_neg_of_neg (by linarith) (by linarith)) (div_pos (by linarith) (by linarith))
  have pRL := magStar_pos dRL (SX := SR) (SY := SB) (us := us) (vs := vs)
    (div_pos (by linarith) (by linarith)) (div_pos_of_neg_of_neg (by linarith) (by linarith))
  have pRR := magStar_pos dRR (SX := SR) (SY := ST) (us := us) (vs := vs)
    (div_pos (by linarith) (by linarith)) (div_pos (by linarith) (by linarith))
  unfold magTail
  simp only [magStar_ok nL nB, magStar_ok nL nT, magStar_ok nR nB, magStar_ok nR nT]
  generalize magStar qLL SL SB us vs = LL at *
  generalize magStar qLR SL ST us vs = LR at *
  generalize magStar qRL SR SB us vs = RL at *
  generalize magStar qRR SR ST us vs = RR at *
  have f1 : ∀ X : MagStar ℝ, (X.map ok).rx = ok X.rx := fun _ => rfl
  have f2 : ∀ X : MagStar ℝ, (X.map ok).ry = ok X.ry := fun _ => rfl
  have f3 : ∀ X : MagStar ℝ, (X.map ok).r = ok X.r := fun _ => rfl
  have f4 : ∀ X : MagStar ℝ, (X.map ok).A = ok X.A := fun _ => rfl
  have f5 : ∀ X : MagStar ℝ, (X.map ok).B = ok X.B := fun _ => rfl
  have f6 : ∀ q : MS ℝ, (q.map ok).a = ok q.a := fun _ => rfl
  have f7 : ∀ q : MS ℝ, (q.map ok).b = ok q.b := fun _ => rfl
  have f8 : (s.map ok).smallc = ok s.smallc := rfl
  simp only [f1, f2, f3, f4, f5, f6, f7, f8, alf_ok pLL.1, alf_ok pLL.2.1, alf_ok pLL.2.2, alf_ok pLR.1,
    alf_ok pLR.2.1, alf_ok pLR.2.2, alf_ok pRL.1, alf_ok pRL.2.1, alf_ok pRL.2.2, alf_ok pRR.1,
    alf_ok pRR.2.1, alf_ok pRR.2.2, fmax5_ok, ok_sub, ok_add, ok_lit, ok_fmin, ok_fmax]
  have hc := hs.smallc
  have key : ∀ a b c d a' b' c' d' x : ℝ,
      fmax (x + fmax5 a b c d s.smallc) (lit 0) - fmin (x - fmax5 a' b' c' d' s.smallc) (lit 0) ≠ 0 := by
    intro a b c d a' b' c' d' x
    rw [fmax5_real, fmax5_real, RealOps.fmax_real, RealOps.fmin_real]
    generalize max d (max c (max b a)) = m
    generalize max d' (max c' (max b' a')) = m'
    have h1 := le_max_left s.smallc m
    have h2 := le_max_left s.smallc m'
    have h3 := le_max_left (x + max s.smallc m) (lit 0)
    have h4 := min_le_left (x - max s.smallc m') (lit 0)
    apply ne_of_gt
    linarith
  exact magSelect_ok (key _ _ _ _ _ _ _ _ _) (key _ _ _ _ _ _ _ _ _)

/-- fields shared by the four states around an edge -/
structure EdgeFields (qLL qRL qLR qRR : MS ℝ) : Prop where
  aB : qLL.a = qRL.a
  aT : qLR.a = qRR.a
  bL : qLL.b = qLR.b
  bR : qRL.b = qRR.b

theorem magBody_ok {s : Settings ℝ} (hs : GoodSettings s) {qLL qRL qLR qRR : MS ℝ}
    {ELL ERL ELR ERR SL SR SB ST cx cy : ℝ} (he : EdgeFields qLL qRL qLR qRR) (hcx : 0 < cx) (hcy : 0 < cy)
    (hLL : PhysM qLL) (hRL : PhysM qRL) (hLR : PhysM qLR) (hRR : PhysM qRR)
    (hx : ∀ q, q = qLL ∨ q = qRL ∨ q = qLR ∨ q = qRR → SL ≤ q.u - cx ∧ q.u + cx ≤ SR ∧
      findSpeedFast s 0 q ≤ cx)
    (hy : ∀ q, q = qLL ∨ q = qRL ∨ q = qLR ∨ q = qRR → SB ≤ q.v - cy ∧ q.v + cy ≤ ST ∧
      findSpeedFast s 1 q ≤ cy) :
    magBody (s.map ok) (qLL.map ok) (qRL.map ok) (qLR.map ok) (qRR.map ok) (ok ELL) (ok ERL) (ok ELR) (ok ERR)
      (ok SL) (ok SR) (ok SB) (ok ST) =
    ok (magBody s qLL qRL qLR qRR ELL ERL ELR ERR SL SR SB ST) := by
  have hg := hs.gamma
  have low : ∀ (n : Nat) (q : MS ℝ) (c : ℝ), PhysM q → findSpeedFast s n q ≤ c →
      0 < q.d ∧ 0 < q.p ∧ 0 ≤ q.bsq - q.normalB n * q.normalB n ∧
        s.gamma0 * q.p + (q.bsq - q.normalB n * q.normalB n) ≤ q.d * (c * c) := by
    intro n q c hq h
    have h1 := (fast_lower hg hq n).1
    have h2 := fast_pos hg hq n
    exact ⟨hq.d, hq.p, sub_nonneg.2 (q.normalB_sq_le n),
      h1.trans (mul_le_mul_of_nonneg_left (mul_self_le_mul_self h2.le h) hq.d.le)⟩
  have xLL := hx qLL (by simp)
  have xRL := hx qRL (by simp)
  have xLR := hx qLR (by simp)
  have xRR := hx qRR (by simp)
  have yLL := hy qLL (by simp)
  have yRL := hy qRL (by simp)
  have yLR := hy qLR (by simp)
  have yRR := hy qRR (by simp)
  obtain ⟨A0, A1, A2⟩ := mag_contact (aB := qLL.a) (aT := qLR.a) hg hcx (low 0 _ _ hLL xLL.2.2) (low 0 _ _ hRL xRL.2.2)
    (low 0 _ _ hLR xLR.2.2) (low 0 _ _ hRR xRR.2.2) ⟨xLL.1, xLL.2.1⟩ ⟨xRL.1, xRL.2.1⟩ ⟨xLR.1, xLR.2.1⟩
    ⟨xRR.1, xRR.2.1⟩
  obtain ⟨B0, B1, B2⟩ := mag_contact (aB := qLL.b) (aT := qRL.b) hg hcy (low 1 _ _ hLL yLL.2.2) (low 1 _ _ hLR yLR.2.2)
    (low 1 _ _ hRL yRL.2.2) (low 1 _ _ hRR yRR.2.2) ⟨yLL.1, yLL.2.1⟩ ⟨yLR.1, yLR.2.1⟩ ⟨yRL.1, yRL.2.1⟩
    ⟨yRR.1, yRR.2.1⟩
  unfold magBody
  have f0 : ∀ q : MS ℝ, magPtot (q.map ok) = ok (magPtot q) := fun _ => rfl
  have f1 : ∀ q : MS ℝ, (q.map ok).d = ok q.d := fun _ => rfl
  have f2 : ∀ q : MS ℝ, (q.map ok).u = ok q.u := fun _ => rfl
  have f3 : ∀ q : MS ℝ, (q.map ok).v = ok q.v := fun _ => rfl
  have hA : qLL.d * (qLL.u - SL) + qLR.d * (qLR.u - SL) + qRL.d * (SR - qRL.u) + qRR.d * (SR - qRR.u) ≠ 0 :=
    A0.ne'
  have hB : qLL.d * (qLL.v - SB) + qLR.d * (ST - qLR.v) + qRL.d * (qRL.v - SB) + qRR.d * (ST - qRR.v) ≠ 0 := by
    intro h; linarith
  simp (disch := assumption) only [f0, f1, f2, f3, ok_sub, ok_mul, ok_add, ok_div]
  have eU : qLL.d * (qLL.u - SL) * qLL.u + qLR.d * (qLR.u - SL) * qLR.u + qRL.d * (SR - qRL.u) * qRL.u +
      qRR.d * (SR - qRR.u) * qRR.u + (magPtot qLL - magPtot qRL + magPtot qLR - magPtot qRR) =
      qLL.d * (qLL.u - SL) * qLL.u + qLR.d * (qLR.u - SL) * qLR.u + qRL.d * (SR - qRL.u) * qRL.u +
      qRR.d * (SR - qRR.u) * qRR.u +
      (qLL.p + 1/2 * (qLL.a * qLL.a + (qLL.bsq - qLL.normalB 0 * qLL.normalB 0)) -
        (qRL.p + 1/2 * (qLL.a * qLL.a + (qRL.bsq - qRL.normalB 0 * qRL.normalB 0))) +
        (qLR.p + 1/2 * (qLR.a * qLR.a + (qLR.bsq - qLR.normalB 0 * qLR.normalB 0))) -
        (qRR.p + 1/2 * (qLR.a * qLR.a + (qRR.bsq - qRR.normalB 0 * qRR.normalB 0)))) := by
    simp only [magPtot, MS.bsq, MS.normalB, he.aB, he.aT, RealOps.lit_real]
    push_cast
    ring
  have eV : (qLL.d * (qLL.v - SB) * qLL.v + qLR.d * (ST - qLR.v) * qLR.v + qRL.d * (qRL.v - SB) * qRL.v +
      qRR.d * (ST - qRR.v) * qRR.v + (magPtot qLL - magPtot qLR + magPtot qRL - magPtot qRR)) /
      (qLL.d * (qLL.v - SB) + qLR.d * (ST - qLR.v) + qRL.d * (qRL.v - SB) + qRR.d * (ST - qRR.v)) =
      (qLL.d * (qLL.v - SB) * qLL.v + qRL.d * (qRL.v - SB) * qRL.v + qLR.d * (ST - qLR.v) * qLR.v +
      qRR.d * (ST - qRR.v) * qRR.v +
      (qLL.p + 1/2 * (qLL.b * qLL.b + (qLL.bsq - qLL.normalB 1 * qLL.normalB 1)) -
        (qLR.p + 1/2 * (qLL.b * qLL.b + (qLR.bsq - qLR.normalB 1 * qLR.normalB 1))) +
        (qRL.p + 1/2 * (qRL.b * qRL.b + (qRL.bsq - qRL.normalB 1 * qRL.normalB 1))) -
        (qRR.p + 1/2 * (qRL.b * qRL.b + (qRR.bsq - qRR.normalB 1 * qRR.normalB 1))))) /
      (qLL.d * (qLL.v - SB) + qRL.d * (qRL.v - SB) + qLR.d * (ST - qLR.v) + qRR.d * (ST - qRR.v)) := by
    simp only [magPtot, MS.bsq, MS.normalB, he.bL, he.bR, RealOps.lit_real]
    push_cast
    congr 1 <;> ring
  rw [eU, eV]
  exact magTail_ok hs hLL.d hRL.d hLR.d hRR.d A1 A2 B1 B2 (by linarith [xLL.1]) (by linarith [xLR.1])
    (by linarith [xRL.2.1]) (by linarith [xRR.2.1]) (by linarith [yLL.1]) (by linarith [yRL.1])
    (by linarith [yLR.2.1]) (by linarith [yRR.2.1])

theorem mag_ok {s : Settings ℝ} (hs : GoodSettings s) {qLL qRL qLR qRR : MS ℝ}
    {ELL ERL ELR ERR : ℝ} (he : EdgeFields qLL qRL qLR qRR)
    (hLL : PhysM qLL) (hRL : PhysM qRL) (hLR : PhysM qLR) (hRR : PhysM qRR) :
    magRiemann2dHlld (s.map ok) (qLL.map ok) (qRL.map ok) (qLR.map ok) (qRR.map ok) (ok ELL) (ok ERL) (ok ELR)
      (ok ERR) = ok (magRiemann2dHlld s qLL qRL qLR qRR ELL ERL ELR ERR) := by
  have hg := hs.gamma
  unfold magRiemann2dHlld
  have f2 : ∀ q : MS ℝ, (q.map ok).u = ok q.u := fun _ => rfl
  have f3 : ∀ q : MS ℝ, (q.map ok).v = ok q.v := fun _ => rfl
  simp only [findSpeedFast_ok hs hLL, findSpeedFast_ok hs hLR, findSpeedFast_ok hs hRL,
    findSpeedFast_ok hs hRR, fmax4_ok, f2, f3, fmin4_ok, ok_sub, ok_add]
  refine magBody_ok hs he (cx := fmax4 (findSpeedFast s 0 qLL) (findSpeedFast s 0 qLR) (findSpeedFast s 0 qRL)
    (findSpeedFast s 0 qRR)) (cy := fmax4 (findSpeedFast s 1 qLL) (findSpeedFast s 1 qLR)
    (findSpeedFast s 1 qRL) (findSpeedFast s 1 qRR)) ?_ ?_ hLL hRL hLR hRR ?_ ?_
  · rw [fmax4_real]
    exact lt_max_of_lt_left (fast_pos hg hRR 0)
  · rw [fmax4_real]
    exact lt_max_of_lt_left (fast_pos hg hRR 1)
  · simp only [fmax4_real, fmin4_real]
    rintro q (rfl | rfl | rfl | rfl) <;> refine ⟨?_, ?_, ?_⟩ <;> simp
  · simp only [fmax4_real, fmin4_real]
    rintro q (rfl | rfl | rfl | rfl) <;> refine ⟨?_, ?_, ?_⟩ <;> simp

theorem PhysM_frame {q : MS ℝ} (h : PhysM q) (d : EmfDir) : PhysM (d.frame q) := by
  cases d <;> exact ⟨h.d, h.p⟩

theorem frame_ok (d : EmfDir) (q : MS ℝ) : d.frame (q.map ok) = (d.frame q).map ok := by
  cases d <;> rfl

/-- component-wise map -/
def Edge4.map {R S : Type} (f : R → S) (e : Edge4 R) : Edge4 S :=
  ⟨e.rt.map f, e.rb.map f, e.lt.map f, e.lb.map f⟩

theorem iso_ok (s : Settings ℝ) (q : MS ℝ) :
    (if gtb (s.map ok).cIso (lit 0) = true then (q.map ok).d * (s.map ok).cIso * (s.map ok).cIso
      else (q.map ok).p) = ok (if gtb s.cIso (lit 0) = true then q.d * s.cIso * s.cIso else q.p) :=
  ite_ok _ _ _

theorem iso_pos (s : Settings ℝ) {q : MS ℝ} (h : PhysM q) :
    0 < (if gtb s.cIso (lit 0) = true then q.d * s.cIso * s.cIso else q.p) := by
  have := h.d
  split_ifs with hc
  · have : 0 < s.cIso := by simpa [gtb] using hc
    positivity
  · exact h.p

theorem emf_ok {s : Settings ℝ} (hs : GoodSettings s) (dir : EmfDir) {e : Edge4 ℝ}
    (h1 : PhysM e.rt) (h2 : PhysM e.rb) (h3 : PhysM e.lt) (h4 : PhysM e.lb) :
    computeEmf (s.map ok) dir (e.map ok) = ok (computeEmf s dir e) := by
  unfold computeEmf
  simp only [Edge4.map, frame_ok, iso_ok]
  replace h1 := PhysM_frame h1 dir
  replace h2 := PhysM_frame h2 dir
  replace h3 := PhysM_frame h3 dir
  replace h4 := PhysM_frame h4 dir
  generalize dir.frame e.rt = rt at *
  generalize dir.frame e.rb = rb at *
  generalize dir.frame e.lt = lt at *
  generalize dir.frame e.lb = lb at *
  have p1 := iso_pos s h1
  have p2 := iso_pos s h2
  have p3 := iso_pos s h3
  have p4 := iso_pos s h4
  generalize (if gtb s.cIso (lit 0) = true then rt.d * s.cIso * s.cIso else rt.p) = x1 at *
  generalize (if gtb s.cIso (lit 0) = true then rb.d * s.cIso * s.cIso else rb.p) = x2 at *
  generalize (if gtb s.cIso (lit 0) = true then lt.d * s.cIso * s.cIso else lt.p) = x3 at *
  generalize (if gtb s.cIso (lit 0) = true then lb.d * s.cIso * s.cIso else lb.p) = x4 at *
  exact mag_ok hs (qLL := ⟨rt.d, x1, rt.u, rt.v, rt.w, lit (1/2) * (rt.a + lt.a), lit (1/2) * (rt.b + rb.b), rt.c⟩)
    (qRL := ⟨lt.d, x3, lt.u, lt.v, lt.w, lit (1/2) * (rt.a + lt.a), lit (1/2) * (lt.b + lb.b), lt.c⟩)
    (qLR := ⟨rb.d, x2, rb.u, rb.v, rb.w, lit (1/2) * (rb.a + lb.a), lit (1/2) * (rt.b + rb.b), rb.c⟩)
    (qRR := ⟨lb.d, x4, lb.u, lb.v, lb.w, lit (1/2) * (rb.a + lb.a), lit (1/2) * (lt.b + lb.b), lb.c⟩)
    ⟨rfl, rfl, rfl, rfl⟩ ⟨h1.d, p1⟩ ⟨h3.d, p3⟩ ⟨h2.d, p2⟩ ⟨h4.d, p4⟩

end EulerKokkos
