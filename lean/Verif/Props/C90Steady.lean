import Verif.Lemmas.MhdRest3D
import Verif.Props.C42
import Verif.Props.C28

/-!
# C90 (continued): a magnetised fluid at rest, of any density, stays at rest

Whole runs of the 2D and 3D MHD solvers with HLLD: if the fluid is at rest, at uniform pressure, in a uniform field,
then whatever the density in each cell, nothing changes.
-/

set_option linter.constructorNameAsVariable false
set_option linter.unusedSectionVars false
set_option linter.unusedSimpArgs false

namespace EulerKokkos
open Spec

/-- the hypotheses of the rest theorems that concern one cell: density at or above its floor, pressure at least twice
its floor (the edge states of a step can hold twice the density of a cell) -/
def Spec.RestCell (s : Settings ℝ) (P ρ : ℝ) : Prop := s.smallr ≤ ρ ∧ 2 * ρ * s.smallp ≤ P

theorem restCell_bound {s : Settings ℝ} (hs : GoodSettings s) {P ρ : ℝ} (h : RestCell s P ρ) :
    s.smallr ≤ ρ ∧ ρ ≤ P / (2 * s.smallp) := by
  have hsp := hs.smallp_pos
  refine ⟨h.1, (le_div_iff₀ (by linarith)).2 ?_⟩
  have := h.2
  linarith

theorem restBound {s : Settings ℝ} (hs : GoodSettings s) (P : ℝ) : 2 * (P / (2 * s.smallp)) * s.smallp ≤ P := by
  have hsp := hs.smallp_pos
  rw [show 2 * (P / (2 * s.smallp)) * s.smallp = P by field_simp]

theorem signed_rest {b : Prop} [Decidable b] {A : ℝ} (h : b → A = 0) : signed b A = A := by
  unfold signed
  split_ifs with hb
  · rw [h hb, neg_zero]
  · rfl

/-- source coordinate of the ghost fill, made total -/
def srcTotal (b1 b2 : BC) (n gw i : Int) : Int :=
  if 0 ≤ i ∧ i < n + 2 * gw then srcCoord b1 b2 n gw i else gw

theorem srcTotal_mem {b1 b2 : BC} {n gw : Int} (hn : 0 < n)
    (H : ∀ i, 0 ≤ i → i < n + 2 * gw → gw ≤ srcCoord b1 b2 n gw i ∧ srcCoord b1 b2 n gw i < gw + n) (i : Int) :
    gw ≤ srcTotal b1 b2 n gw i ∧ srcTotal b1 b2 n gw i < gw + n := by
  by_cases h : 0 ≤ i ∧ i < n + 2 * gw
  · simp only [srcTotal, if_pos h]; exact H i h.1 h.2
  · simp only [srcTotal, if_neg h]; omega

theorem srcTotal_self {b1 b2 : BC} {n gw i : Int} (hg : 0 ≤ gw) (a : gw ≤ i) (b : i < gw + n) :
    srcTotal b1 b2 n gw i = i := by
  unfold srcTotal
  rw [if_pos (by omega)]
  unfold srcCoord; rw [if_neg (by omega), if_neg (by omega)]

theorem flips_wall {b1 b2 : BC} {n gw c : Int} (h : flips b1 b2 n gw c) : b1 = .dirichlet ∨ b2 = .dirichlet := by
  rcases h with ⟨_, h⟩ | ⟨_, h⟩
  · exact Or.inl h
  · exact Or.inr h

/-! ## Two dimensions -/

section
variable {p : Params ℝ} (hp : Mhd2 p) (hs : GoodSettings p.settings) (hiso : p.settings.cIso = 0)
  (hr : p.riemannSolverType = .hlld) {P A B C : ℝ}
  (hx : NoSwitch p.settings.gamma0 P A B C) (hy : NoSwitch p.settings.gamma0 P B A C)
  (wx : p.boundary_type_xmin = .dirichlet ∨ p.boundary_type_xmax = .dirichlet → A = 0)
  (wy : p.boundary_type_ymin = .dirichlet ∨ p.boundary_type_ymax = .dirichlet → B = 0)
include hp hs hiso hr hx hy wx wy

theorem fullStepM2_rest {ρ : Int → Int → ℝ} (hρ : ∀ i j, interior2 p i j → RestCell p.settings P (ρ i j))
    (dt : ℝ) {u : FldM2 ℝ}
    (hu : ∀ i j, interior2 p i j → u i j = restConsM2 p.settings.gamma0 P A B C (ρ i j)) :
    ∀ i j, interior2 p i j → fullStepM2 p dt u i j = restConsM2 p.settings.gamma0 P A B C (ρ i j) := by
  obtain ⟨f1, f2, f3, f4⟩ := hp.faces
  have n1 := hp.wf.nx_pos
  have n2 := hp.wf.ny_pos
  have hgw := hp.wf.gw_pos
  have hcx := srcTotal_mem (by omega) (fun i a b => srcCoord_interior n1 f1 f2 a b)
  have hcy := srcTotal_mem (by omega) (fun i a b => srcCoord_interior n2 f3 f4 a b)
  set cx := srcTotal p.boundary_type_xmin p.boundary_type_xmax p.nx p.ghostWidth with hcxd
  set cy := srcTotal p.boundary_type_ymin p.boundary_type_ymax p.ny p.ghostWidth with hcyd
  have hI : ∀ i j, interior2 p (cx i) (cy j) := fun i j => ⟨(hcx i).1, (hcx i).2, (hcy j).1, (hcy j).2⟩
  have key : ∀ i j, inGrid2 p i j →
      fillM2 p u i j = (fun i j => restConsM2 p.settings.gamma0 P A B C (ρ (cx i) (cy j))) i j := by
    intro i j hij
    obtain ⟨a, b, c, d⟩ := hij
    have ex : srcCoord p.boundary_type_xmin p.boundary_type_xmax p.nx p.ghostWidth i = cx i := by
      rw [hcxd, srcTotal, if_pos ⟨a, b⟩]
    have ey : srcCoord p.boundary_type_ymin p.boundary_type_ymax p.ny p.ghostWidth j = cy j := by
      rw [hcyd, srcTotal, if_pos ⟨c, d⟩]
    unfold fillM2 ghost2
    simp only [ex, ey, hu _ _ (hI i j)]
    have z0 : ∀ (b : Prop) [Decidable b], signed b (0 : ℝ) = 0 := fun b _ => signed_rest (fun _ => rfl)
    have fF : ∀ (b : Prop) [Decidable b] (x : ℝ), ¬ b → signed b x = x := fun b _ x h => signed_rest (fun hb => absurd hb h)
    refine MS.ext ?_ ?_ ?_ ?_ ?_ ?_ ?_ ?_
    · show _ = (ρ (cx i) (cy j))
      dsimp only
      rw [show (restConsM2 p.settings.gamma0 P A B C (ρ (cx i) (cy j))).get ID = (ρ (cx i) (cy j)) from rfl]
      rw [fF _ _ (by simp [normalVar, IU, IA]), fF _ _ (by simp [normalVar, IU, IA])]
    · show _ = (P / (p.settings.gamma0 - 1) + (A ^ 2 + B ^ 2 + C ^ 2) / 2)
      dsimp only
      rw [show (restConsM2 p.settings.gamma0 P A B C (ρ (cx i) (cy j))).get IP = (P / (p.settings.gamma0 - 1) + (A ^ 2 + B ^ 2 + C ^ 2) / 2) from rfl]
      rw [fF _ _ (by simp [normalVar, IU, IA]), fF _ _ (by simp [normalVar, IU, IA])]
    · show _ = 0
      dsimp only
      rw [show (restConsM2 p.settings.gamma0 P A B C (ρ (cx i) (cy j))).get IU = 0 from rfl]
      rw [z0, z0]
    · show _ = 0
      dsimp only
      rw [show (restConsM2 p.settings.gamma0 P A B C (ρ (cx i) (cy j))).get IV = 0 from rfl]
      rw [z0, z0]
    · show _ = 0
      dsimp only
      rw [show (restConsM2 p.settings.gamma0 P A B C (ρ (cx i) (cy j))).get IW = 0 from rfl]
      rw [z0, z0]
    · show _ = A
      dsimp only
      rw [show (restConsM2 p.settings.gamma0 P A B C (ρ (cx i) (cy j))).get IA = A from rfl]
      rw [fF _ _ (by simp [normalVar, IU, IA])]
      exact signed_rest (fun h => wx (flips_wall h.2))
    · show _ = B
      dsimp only
      rw [show (restConsM2 p.settings.gamma0 P A B C (ρ (cx i) (cy j))).get IB = B from rfl]
      rw [signed_rest (b := _ ∧ flips p.boundary_type_xmin _ _ _ _) (fun h => by simp [normalVar, IU, IA] at h)]
      exact signed_rest (fun h => wy (flips_wall h.2))
    · show _ = (2 * C)
      dsimp only
      rw [show (restConsM2 p.settings.gamma0 P A B C (ρ (cx i) (cy j))).get IC = (2 * C) from rfl]
      rw [fF _ _ (by simp [normalVar, IU, IA]), fF _ _ (by simp [normalVar, IU, IA])]
  intro i j hij
  unfold fullStepM2
  rw [stepM2_interior_congr hp key i j hij,
    stepM2_rest hs hiso hp.valid hr hx hy (fun i j => restCell_bound hs (hρ _ _ (hI i j))) (restBound hs P)]
  obtain ⟨a, b, c, d⟩ := hij
  simp only [hcxd, hcyd, srcTotal_self (by omega : 0 ≤ p.ghostWidth) a b,
    srcTotal_self (by omega : 0 ≤ p.ghostWidth) c d]

/-- **C90 (steady contacts, 2D).** HLLD, adiabatic: if every interior cell holds a fluid at rest at the same pressure
`P` in the same magnetic field `(A, B, C)`, with *any* density (floors satisfied), then after any number of steps (any
time steps, boundary conditions without field across a wall, slope type, implementation version, schedule) every
interior cell still holds exactly its initial content. -/
theorem C90_rest_2d (hi : p.implementationVersion = 0 ∨ p.implementationVersion = 1 ∨ p.implementationVersion = 2)
    {ρ : Int → Int → ℝ} (hρ : ∀ i j, interior2 p i j → RestCell p.settings P (ρ i j))
    (jk : JunkM ℝ) (dts : List ℝ) (n : Nat) {m m' : Mem Arr ℝ}
    (h0 : ∀ i j, interior2 p i j → ms2 m (pingIn n) i j = restConsM2 p.settings.gamma0 P A B C (ρ i j))
    (hm : mhdRun2 p jk n dts m m') :
    ∀ i j, interior2 p i j →
      ms2 m' (pingIn (n + dts.length)) i j = restConsM2 p.settings.gamma0 P A B C (ρ i j) := by
  intro i j hij
  rw [mhdRun2_result hp signLaws_real (mhdOK2_real hp hi) dts n hm i j hij]
  clear hm
  generalize ms2 m (pingIn n) = u at h0
  induction dts generalizing u with
  | nil => exact h0 i j hij
  | cons dt dts ih =>
    unfold iterStepM2
    exact ih _ (fullStepM2_rest hp hs hiso hr hx hy wx wy hρ dt h0)

end

/-! ## Three dimensions -/

section
variable {p : Params ℝ} (hp : Mhd3 p) (hs : GoodSettings p.settings) (hiso : p.settings.cIso = 0)
  (hr : p.riemannSolverType = .hlld) {P A B C : ℝ} (hP : p.settings.smallp ≤ P)
  (hx : NoSwitch p.settings.gamma0 P A B C) (hy : NoSwitch p.settings.gamma0 P B A C)
  (hz : NoSwitch p.settings.gamma0 P C A B)
  (wx : p.boundary_type_xmin = .dirichlet ∨ p.boundary_type_xmax = .dirichlet → A = 0)
  (wy : p.boundary_type_ymin = .dirichlet ∨ p.boundary_type_ymax = .dirichlet → B = 0)
  (wz : p.boundary_type_zmin = .dirichlet ∨ p.boundary_type_zmax = .dirichlet → C = 0)
include hp hs hiso hr hP hx hy hz wx wy wz

theorem fullStepM3_rest {ρ : Int → Int → Int → ℝ} (hρ : ∀ i j k, interior3 p i j k → RestCell p.settings P (ρ i j k))
    (dt : ℝ) {u : FldM3 ℝ}
    (hu : ∀ i j k, interior3 p i j k → u i j k = restConsM3 p.settings.gamma0 P A B C (ρ i j k)) :
    ∀ i j k, interior3 p i j k → fullStepM3 p dt u i j k = restConsM3 p.settings.gamma0 P A B C (ρ i j k) := by
  obtain ⟨⟨f1, f2, f3, f4⟩, f5, f6⟩ := hp.faces
  have n1 := hp.wf.nx_pos
  have n2 := hp.wf.ny_pos
  have n3 := hp.wf.nz_pos
  have hgw := hp.wf.gw_pos
  have hcx := srcTotal_mem (by omega) (fun i a b => srcCoord_interior n1 f1 f2 a b)
  have hcy := srcTotal_mem (by omega) (fun i a b => srcCoord_interior n2 f3 f4 a b)
  have hcz := srcTotal_mem (by omega) (fun i a b => srcCoord_interior n3 f5 f6 a b)
  set cx := srcTotal p.boundary_type_xmin p.boundary_type_xmax p.nx p.ghostWidth with hcxd
  set cy := srcTotal p.boundary_type_ymin p.boundary_type_ymax p.ny p.ghostWidth with hcyd
  set cz := srcTotal p.boundary_type_zmin p.boundary_type_zmax p.nz p.ghostWidth with hczd
  have hI : ∀ i j k, interior3 p (cx i) (cy j) (cz k) := fun i j k => ⟨hcx i, hcy j, hcz k⟩
  have key : ∀ i j k, inGrid3 p i j k →
      fillM3 p u i j k = (fun i j k => restConsM3 p.settings.gamma0 P A B C (ρ (cx i) (cy j) (cz k))) i j k := by
    intro i j k hij
    obtain ⟨⟨a, b⟩, ⟨c, d⟩, e, f⟩ := hij
    have ex : srcCoord p.boundary_type_xmin p.boundary_type_xmax p.nx p.ghostWidth i = cx i := by
      rw [hcxd, srcTotal, if_pos ⟨a, b⟩]
    have ey : srcCoord p.boundary_type_ymin p.boundary_type_ymax p.ny p.ghostWidth j = cy j := by
      rw [hcyd, srcTotal, if_pos ⟨c, d⟩]
    have ez : srcCoord p.boundary_type_zmin p.boundary_type_zmax p.nz p.ghostWidth k = cz k := by
      rw [hczd, srcTotal, if_pos ⟨e, f⟩]
    unfold fillM3 ghost3
    simp only [ex, ey, ez, hu _ _ _ (hI i j k)]
    have z0 : ∀ (b : Prop) [Decidable b], signed b (0 : ℝ) = 0 := fun b _ => signed_rest (fun _ => rfl)
    have fF : ∀ (b : Prop) [Decidable b] (x : ℝ), ¬ b → signed b x = x := fun b _ x h => signed_rest (fun hb => absurd hb h)
    refine MS.ext ?_ ?_ ?_ ?_ ?_ ?_ ?_ ?_
    · show _ = (ρ (cx i) (cy j) (cz k))
      dsimp only
      rw [show (restConsM3 p.settings.gamma0 P A B C (ρ (cx i) (cy j) (cz k))).get ID = (ρ (cx i) (cy j) (cz k)) from rfl]
      rw [fF _ _ (by simp [normalVar, IU, IA]), fF _ _ (by simp [normalVar, IU, IA]), fF _ _ (by simp [normalVar, IU, IA])]
    · show _ = (P / (p.settings.gamma0 - 1) + (A ^ 2 + B ^ 2 + C ^ 2) / 2)
      dsimp only
      rw [show (restConsM3 p.settings.gamma0 P A B C (ρ (cx i) (cy j) (cz k))).get IP = (P / (p.settings.gamma0 - 1) + (A ^ 2 + B ^ 2 + C ^ 2) / 2) from rfl]
      rw [fF _ _ (by simp [normalVar, IU, IA]), fF _ _ (by simp [normalVar, IU, IA]), fF _ _ (by simp [normalVar, IU, IA])]
    · show _ = 0
      dsimp only
      rw [show (restConsM3 p.settings.gamma0 P A B C (ρ (cx i) (cy j) (cz k))).get IU = 0 from rfl]
      rw [z0, z0, z0]
    · show _ = 0
      dsimp only
      rw [show (restConsM3 p.settings.gamma0 P A B C (ρ (cx i) (cy j) (cz k))).get IV = 0 from rfl]
      rw [z0, z0, z0]
    · show _ = 0
      dsimp only
      rw [show (restConsM3 p.settings.gamma0 P A B C (ρ (cx i) (cy j) (cz k))).get IW = 0 from rfl]
      rw [z0, z0, z0]
    · show _ = A
      dsimp only
      rw [show (restConsM3 p.settings.gamma0 P A B C (ρ (cx i) (cy j) (cz k))).get IA = A from rfl]
      rw [signed_rest (b := _ ∧ flips p.boundary_type_xmin _ _ _ _) (fun h => wx (flips_wall h.2)),
        fF _ _ (by simp [normalVar, IU, IA]), fF _ _ (by simp [normalVar, IU, IA])]
    · show _ = B
      dsimp only
      rw [show (restConsM3 p.settings.gamma0 P A B C (ρ (cx i) (cy j) (cz k))).get IB = B from rfl]
      rw [signed_rest (b := _ ∧ flips p.boundary_type_xmin _ _ _ _) (fun h => by simp [normalVar, IU, IA] at h),
        signed_rest (b := _ ∧ flips p.boundary_type_ymin _ _ _ _) (fun h => wy (flips_wall h.2)),
        fF _ _ (by simp [normalVar, IU, IA])]
    · show _ = C
      dsimp only
      rw [show (restConsM3 p.settings.gamma0 P A B C (ρ (cx i) (cy j) (cz k))).get IC = C from rfl]
      rw [signed_rest (b := _ ∧ flips p.boundary_type_xmin _ _ _ _) (fun h => by simp [normalVar, IU, IA] at h),
        signed_rest (b := _ ∧ flips p.boundary_type_ymin _ _ _ _) (fun h => by simp [normalVar, IU, IA] at h)]
      exact signed_rest (fun h => wz (flips_wall h.2))
  intro i j k hij
  unfold fullStepM3
  have hb := fun i j k => restCell_bound hs (hρ _ _ _ (hI i j k))
  have step : stepM3 p dt (fun i j k => restConsM3 p.settings.gamma0 P A B C (ρ (cx i) (cy j) (cz k))) =
      fun i j k => restConsM3 p.settings.gamma0 P A B C (ρ (cx i) (cy j) (cz k)) := by
    unfold stepM3 schemeM3
    split_ifs
    · exact stepV2_rest hs hiso hp.valid hr hx hy hz hb (restBound hs P) dt
    · exact stepV01_rest hs hiso hp.valid hr hx hy hz hb (restBound hs P) hP dt
  rw [stepM3_interior_congr hp key i j k hij, step]
  obtain ⟨⟨a, b⟩, ⟨c, d⟩, e, f⟩ := hij
  simp only [hcxd, hcyd, hczd, srcTotal_self (by omega : 0 ≤ p.ghostWidth) a b,
    srcTotal_self (by omega : 0 ≤ p.ghostWidth) c d, srcTotal_self (by omega : 0 ≤ p.ghostWidth) e f]

/-- **C90 (steady contacts, 3D).** The same, for the 3D solver. -/
theorem C90_rest_3d (hi : p.implementationVersion = 0 ∨ p.implementationVersion = 1 ∨ p.implementationVersion = 2)
    {ρ : Int → Int → Int → ℝ} (hρ : ∀ i j k, interior3 p i j k → RestCell p.settings P (ρ i j k))
    (jk : JunkM ℝ) (dts : List ℝ) (n : Nat) {m m' : Mem Arr ℝ}
    (h0 : ∀ i j k, interior3 p i j k → ms m (pingIn n) i j k = restConsM3 p.settings.gamma0 P A B C (ρ i j k))
    (hm : mhdRun3 p jk n dts m m') :
    ∀ i j k, interior3 p i j k →
      ms m' (pingIn (n + dts.length)) i j k = restConsM3 p.settings.gamma0 P A B C (ρ i j k) := by
  intro i j k hij
  rw [mhdRun3_result hp signLaws_real (mhdOK3_real hp hi) dts n hm i j k hij]
  clear hm
  generalize ms m (pingIn n) = u at h0
  induction dts generalizing u with
  | nil => exact h0 i j k hij
  | cons dt dts ih =>
    unfold iterStepM3
    exact ih _ (fullStepM3_rest hp hs hiso hr hP hx hy hz wx wy wz hρ dt h0)

end

/-! ## The hypotheses are met -/

/-- a density jump from 1 to 1/8 -/
noncomputable def jumpDensity (i : Int) : ℝ := if i ≤ 4 then 1 else 1/8

/-- Non-vacuity: density jump from 1 to 1/8 at pressure 1 in a field along x, between reflecting walls in y (and z);
a memory with this content on which the 2D and the 3D step run. -/
example (v : Int) :
    let p := sampleM .periodic .dirichlet v
    Mhd2 p ∧ Mhd3 p ∧ GoodSettings p.settings ∧ p.settings.cIso = 0 ∧ p.riemannSolverType = .hlld ∧
    p.settings.smallp ≤ 1 ∧
    NoSwitch p.settings.gamma0 1 (1/2) 0 0 ∧ NoSwitch p.settings.gamma0 1 0 (1/2) 0 ∧
    (p.boundary_type_xmin = .dirichlet ∨ p.boundary_type_xmax = .dirichlet → (1/2 : ℝ) = 0) ∧
    (∀ i, RestCell p.settings 1 (jumpDensity i)) ∧
    ∃ m : Mem Arr ℝ, (∀ i j, ms2 m .U i j = restConsM2 p.settings.gamma0 1 (1/2) 0 0 (jumpDensity i)) ∧
      (∀ i j k, ms m .U i j k = restConsM3 p.settings.gamma0 1 (1/2) 0 0 (jumpDensity i)) ∧
      (∃ m', mhdRun2 p (fun _ _ _ _ => MS.zero) 0 [1/100] m m') ∧
      ∃ m', mhdRun3 p (fun _ _ _ _ => MS.zero) 0 [1/100] m m' := by
  intro p
  refine ⟨sampleM_mhd2 _ _ _, sampleM_mhd3 _ _ _, (sampleM_goodGrid _ _ _).settings, rfl, rfl, ?_, ?_, ?_, ?_, ?_, ?_⟩
  · show ((1/1000 : ℝ) * (1/1000) / (7/5)) ≤ 1; norm_num
  · intro _ _; show (1/2 : ℝ) ^ 2 < 7/5 * 1; norm_num
  · intro h _; norm_num at h
  · intro h; rcases h with h | h <;> cases h
  · intro i
    unfold jumpDensity RestCell
    show (1/1000 : ℝ) ≤ _ ∧ 2 * _ * ((1/1000 : ℝ) * (1/1000) / (7/5)) ≤ 1
    split_ifs <;> norm_num
  · let m : Mem Arr ℝ := fun l => (restConsM2 p.settings.gamma0 1 (1/2) 0 0 (jumpDensity l.i)).get l.v
    refine ⟨m, fun i j => rfl, fun i j k => ?_, ?_, ?_⟩
    · show restConsM2 p.settings.gamma0 1 (1/2) 0 0 (jumpDensity i) = _
      simp [restConsM2, restConsM3]
    · obtain ⟨m', h⟩ := sampleM_step .periodic .dirichlet v m
      exact ⟨m', m', h, rfl⟩
    · obtain ⟨m', h⟩ := sampleM_step3 .periodic .dirichlet v m
      exact ⟨m', m', h, rfl⟩

end EulerKokkos
