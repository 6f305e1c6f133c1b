import Verif.Lemmas.MhdReverse3D

/-!
# States without z dependence, z velocity and z field: the 3D MHD scheme against the 2D one
-/

set_option linter.constructorNameAsVariable false
set_option linter.unusedSectionVars false
set_option linter.unusedSimpArgs false

namespace EulerKokkos
open Spec

/-- no velocity and no field along z -/
def MS.Flat (q : MS ℝ) : Prop := q.w = 0 ∧ q.c = 0

/-! ## Riemann solvers on flat states -/

theorem findMhdFlux_flat {s : Settings ℝ} {q : MS ℝ} (h : q.Flat) :
    (findMhdFlux s q).1.Flat ∧ (findMhdFlux s q).2.Flat := by
  obtain ⟨h1, h2⟩ := h
  unfold findMhdFlux MS.Flat
  simp [h1, h2]

/-- sampled variables without velocity and field along z -/
def HlldOut.Flat (o : HlldOut ℝ) : Prop := o.wo = 0 ∧ o.co = 0

theorem hlldStar_flat {a r u v w b c etot ptot vdotb sk ustar ptotstar : ℝ} (hw : w = 0) (hc : c = 0) :
    (hlldStar a r u v w b c etot ptot vdotb sk ustar ptotstar).wstar = 0 ∧
    (hlldStar a r u v w b c etot ptot vdotb sk ustar ptotstar).cstar = 0 := by
  subst hw hc
  unfold hlldStar
  simp

theorem hlldBody_flat (a sg sl sr : ℝ) {l r : HlldOut ℝ} (hl : l.Flat) (hr : r.Flat) :
    (hlldBody a sg sl sr l r).Flat := by
  unfold hlldBody hlldTail
  extract_lets -merge _ _ u p L sal Rt sar ss
  have hL : L.wstar = 0 ∧ L.cstar = 0 := hlldStar_flat hl.1 hl.2
  have hR : Rt.wstar = 0 ∧ Rt.cstar = 0 := hlldStar_flat hr.1 hr.2
  have h1 : ss.1.Flat := by simp [ss, hlldSS, HlldOut.Flat, hL, hR]
  have h2 : ss.2.Flat := by simp [ss, hlldSS, HlldOut.Flat, hL, hR]
  have h3 : (hlldStarOut L u p).Flat := hL
  have h4 : (hlldStarOut Rt u p).Flat := hR
  have h : (hlldSample sl sal u sar sr l (hlldStarOut L u p) ss.1 ss.2 (hlldStarOut Rt u p) r).Flat := by
    unfold hlldSample
    split_ifs <;> assumption
  generalize hlldSample sl sal u sar sr l (hlldStarOut L u p) ss.1 ss.2 (hlldStarOut Rt u p) r = o at h ⊢
  obtain ⟨a1, a2⟩ := h
  simp [hlldFlux, MS.Flat, a1, a2]

theorem riemannMhd_flat (s : Settings ℝ) (t : RiemannType) {l r : MS ℝ} (hl : l.Flat) (hr : r.Flat) :
    (riemannMhd s t l r MS.zero).Flat := by
  have hz : (MS.zero : MS ℝ).Flat := by simp [MS.Flat, MS.zero]
  have A : ∀ (q : MS ℝ) (a : ℝ), q.Flat → ({ q with a := a } : MS ℝ).Flat := fun _ _ h => h
  cases t <;> simp only [riemannMhd] <;> try exact hz
  · unfold riemannMhdLlf
    generalize lit (1/2) * (l.a + r.a) = a
    obtain ⟨⟨a1, a2⟩, a3, a4⟩ := findMhdFlux_flat (s := s) (A l a hl)
    obtain ⟨⟨b1, b2⟩, b3, b4⟩ := findMhdFlux_flat (s := s) (A r a hr)
    dsimp only
    simp [MS.Flat, a1, a2, a3, a4, b1, b2, b3, b4]
  · unfold riemannMhdHll
    generalize lit (1/2) * (l.a + r.a) = a
    obtain ⟨⟨a1, a2⟩, a3, a4⟩ := findMhdFlux_flat (s := s) (A l a hl)
    obtain ⟨⟨b1, b2⟩, b3, b4⟩ := findMhdFlux_flat (s := s) (A r a hr)
    dsimp only
    simp [MS.Flat, a1, a2, a3, a4, b1, b2, b3, b4]
  · unfold riemannMhdHlld
    generalize lit (1/2) * (l.a + r.a) = a
    dsimp only
    refine hlldBody_flat _ _ _ _ ?_ ?_
    · have : (hlldIn s a l).Flat := by unfold hlldIn; dsimp only; split_ifs <;> exact hl
      exact this
    · have : (hlldIn s a r).Flat := by unfold hlldIn; dsimp only; split_ifs <;> exact hr
      exact this

theorem swapXY_flat {q : MS ℝ} (h : q.Flat) : q.swapXY.Flat := h

/-! ## No electric field in the plane -/

theorem fmin4_zero : fmin4 (0 : ℝ) 0 0 0 = 0 := by simp [fmin4]
theorem fmax4_zero : fmax4 (0 : ℝ) 0 0 0 = 0 := by simp [fmax4, gtb]

theorem star_sym (b c : ℝ) : b * (0 - c - 0) / (0 - c - 0) = b * (0 + c - 0) / (0 + c - 0) := by
  rw [sub_zero, sub_zero, zero_sub, zero_add, mul_div_assoc, mul_div_assoc, neg_div_neg_eq]

theorem magRiemann_zero_u (s : Settings ℝ) {P N : MS ℝ} (hP : P.u = 0 ∧ P.a = 0) (hN : N.u = 0 ∧ N.a = 0) :
    magRiemann2dHlld s P P N N 0 0 0 0 = 0 := by
  obtain ⟨p1, p2⟩ := hP
  obtain ⟨n1, n2⟩ := hN
  unfold magRiemann2dHlld
  simp only [p1, n1, fmin4_zero, fmax4_zero]
  generalize fmax4 (findSpeedFast s 0 P) (findSpeedFast s 0 N) (findSpeedFast s 0 P) (findSpeedFast s 0 N) = c
  generalize fmin4 P.v N.v P.v N.v - _ = SB
  generalize fmax4 P.v N.v P.v N.v + _ = ST
  unfold magBody
  extract_lets -merge P1 P2 P3 P4 c1 c2 c3 c4 c5 c6 c7 c8 u v
  have hu : u = 0 := by
    have : P1 - P3 + P2 - P4 = 0 := by simp only [P1, P2, P3, P4]; ring
    simp only [u, p1, n1, this]; ring
  rw [hu]
  generalize v = v
  unfold magTail
  extract_lets -merge LL LR RL RR cL cR cB cT AL AR AB AT
  have e1 : LL.B = RL.B := by simp only [LL, RL, magStar, p1]; exact star_sym _ _
  have e2 : LR.B = RR.B := by simp only [LR, RR, magStar, n1]; exact star_sym _ _
  have z : ∀ (q : MS ℝ) (SX SY : ℝ), q.a = 0 → q.u = 0 → (magStar q SX SY 0 v).A = 0 ∧ (magStar q SX SY 0 v).Ex = 0 ∧
      (magStar q SX SY 0 v).Ey = 0 ∧ (magStar q SX SY 0 v).E = 0 := by
    intro q SX SY h h'
    simp [magStar, h, h']
  obtain ⟨a1, a2, a3, a4⟩ : LL.A = 0 ∧ LL.Ex = 0 ∧ LL.Ey = 0 ∧ LL.E = 0 := z _ _ _ p2 p1
  obtain ⟨b1, b2, b3, b4⟩ : LR.A = 0 ∧ LR.Ex = 0 ∧ LR.Ey = 0 ∧ LR.E = 0 := z _ _ _ n2 n1
  obtain ⟨c1, c2, c3, c4⟩ : RL.A = 0 ∧ RL.Ex = 0 ∧ RL.Ey = 0 ∧ RL.E = 0 := z _ _ _ p2 p1
  obtain ⟨d1, d2, d3, d4⟩ : RR.A = 0 ∧ RR.Ex = 0 ∧ RR.Ey = 0 ∧ RR.E = 0 := z _ _ _ n2 n1
  unfold magSelect
  simp only [e1, e2, a1, a2, a3, a4, b1, b2, b3, b4, c1, c2, c3, c4, d1, d2, d3, d4, p2, n2, RealOps.lit_real]
  simp

theorem magRiemann_zero_v (s : Settings ℝ) {P N : MS ℝ} (hP : P.v = 0 ∧ P.b = 0) (hN : N.v = 0 ∧ N.b = 0) :
    magRiemann2dHlld s P N P N 0 0 0 0 = 0 := by
  obtain ⟨p1, p2⟩ := hP
  obtain ⟨n1, n2⟩ := hN
  unfold magRiemann2dHlld
  simp only [p1, n1, fmin4_zero, fmax4_zero]
  generalize fmax4 (findSpeedFast s 1 P) (findSpeedFast s 1 P) (findSpeedFast s 1 N) (findSpeedFast s 1 N) = c
  generalize fmin4 P.u P.u N.u N.u - _ = SL
  generalize fmax4 P.u P.u N.u N.u + _ = SR
  unfold magBody
  extract_lets -merge P1 P2 P3 P4 c1 c2 c3 c4 c5 c6 c7 c8 u v
  have hv : v = 0 := by
    have : P1 - P2 + P3 - P4 = 0 := by simp only [P1, P2, P3, P4]; ring
    simp only [v, p1, n1, this]; ring
  rw [hv]
  generalize u = u
  unfold magTail
  extract_lets -merge LL LR RL RR cL cR cB cT AL AR AB AT
  have e1 : LL.A = LR.A := by simp only [LL, LR, magStar, p1]; exact star_sym _ _
  have e2 : RL.A = RR.A := by simp only [RL, RR, magStar, n1]; exact star_sym _ _
  have z : ∀ (q : MS ℝ) (SX SY : ℝ), q.b = 0 → q.v = 0 → (magStar q SX SY u 0).B = 0 ∧ (magStar q SX SY u 0).Ex = 0 ∧
      (magStar q SX SY u 0).Ey = 0 ∧ (magStar q SX SY u 0).E = 0 := by
    intro q SX SY h h'
    simp [magStar, h, h']
  obtain ⟨a1, a2, a3, a4⟩ : LL.B = 0 ∧ LL.Ex = 0 ∧ LL.Ey = 0 ∧ LL.E = 0 := z _ _ _ p2 p1
  obtain ⟨b1, b2, b3, b4⟩ : LR.B = 0 ∧ LR.Ex = 0 ∧ LR.Ey = 0 ∧ LR.E = 0 := z _ _ _ p2 p1
  obtain ⟨c1, c2, c3, c4⟩ : RL.B = 0 ∧ RL.Ex = 0 ∧ RL.Ey = 0 ∧ RL.E = 0 := z _ _ _ n2 n1
  obtain ⟨d1, d2, d3, d4⟩ : RR.B = 0 ∧ RR.Ex = 0 ∧ RR.Ey = 0 ∧ RR.E = 0 := z _ _ _ n2 n1
  unfold magSelect
  simp only [e1, e2, a1, a2, a3, a4, b1, b2, b3, b4, c1, c2, c3, c4, d1, d2, d3, d4, p2, n2, RealOps.lit_real]
  simp

theorem emfY_flat (s : Settings ℝ) {X Y : MS ℝ} (hX : X.Flat) (hY : Y.Flat) :
    computeEmf s .y ⟨X, Y, X, Y⟩ = 0 := by
  obtain ⟨x1, x2⟩ := hX
  obtain ⟨y1, y2⟩ := hY
  unfold computeEmf EmfDir.frame
  dsimp only
  simp only [x1, x2, y1, y2, add_zero, mul_zero, zero_mul, sub_zero]
  exact magRiemann_zero_u s ⟨rfl, rfl⟩ ⟨rfl, rfl⟩

theorem emfX_flat (s : Settings ℝ) {X Y : MS ℝ} (hX : X.Flat) (hY : Y.Flat) :
    computeEmf s .x ⟨X, X, Y, Y⟩ = 0 := by
  obtain ⟨x1, x2⟩ := hX
  obtain ⟨y1, y2⟩ := hY
  unfold computeEmf EmfDir.frame
  dsimp only
  simp only [x1, x2, y1, y2, add_zero, mul_zero, zero_mul, sub_zero]
  exact magRiemann_zero_v s ⟨rfl, rfl⟩ ⟨rfl, rfl⟩
