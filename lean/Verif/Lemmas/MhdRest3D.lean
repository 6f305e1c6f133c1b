import Verif.Lemmas.MhdRest2D
import Verif.Lemmas.MhdFull3D

/-!
# One 3D MHD step on a magnetised fluid at rest
-/

set_option linter.constructorNameAsVariable false
set_option linter.unusedSectionVars false
set_option linter.unusedSimpArgs false

namespace EulerKokkos
open Spec

/-- what the 3D solver stores for a fluid at rest -/
noncomputable def Spec.restConsM3 (γ P A B C ρ : ℝ) : MS ℝ :=
  ⟨ρ, P / (γ - 1) + (A ^ 2 + B ^ 2 + C ^ 2) / 2, 0, 0, 0, A, B, C⟩

theorem flooredP_rest {s : Settings ℝ} (hsr : 0 < s.smallr) {P A B C r : ℝ} (hP : s.smallp ≤ P) :
    ∃ r', 0 < r' ∧ MS.flooredP s (restPrimM P A B C r) = restPrimM P A B C r' := by
  refine ⟨max s.smallr r, lt_of_lt_of_le hsr (le_max_left _ _), ?_⟩
  unfold MS.flooredP restPrimM
  simp only [RealOps.fmax_real]
  rw [max_eq_right hP]

variable {p : Params ℝ} (hs : GoodSettings p.settings) (hi : p.settings.cIso = 0) (hv : ValidM p)
  (hr : p.riemannSolverType = .hlld) {P A B C : ℝ}
include hs hi

theorem primM3_rest {ρ : Int → Int → Int → ℝ} {M : ℝ} (hρ : ∀ i j k, p.settings.smallr ≤ ρ i j k ∧ ρ i j k ≤ M)
    (hM : 2 * M * p.settings.smallp ≤ P) :
    primM3 p (fun i j k => restConsM3 p.settings.gamma0 P A B C (ρ i j k)) =
      fun i j k => restPrimM P A B C (ρ i j k) := by
  have hsp := hs.smallp_pos
  funext i j k
  unfold primM3 restConsM3
  refine constoprim_rest hs hi ⟨(hρ i j k).1, ?_⟩ (by ring) (by ring) (by ring)
  have := mul_le_mul_of_nonneg_right (hρ i j k).2 hsp.le
  linarith

include hv
theorem traceM3_rest {ρ : Int → Int → Int → ℝ} (hP : p.settings.smallp ≤ P) (dt : ℝ) (i j k : Int) :
    let T := traceM3 p dt (fun i j k => restPrimM P A B C (ρ i j k))
      (fun i j k => restConsM3 p.settings.gamma0 P A B C (ρ i j k)) i j k
    ∀ t ∈ [T.qmx, T.qpx, T.qmy, T.qpy, T.qmz, T.qpz, T.ex.rt, T.ex.rb, T.ex.lt, T.ex.lb,
      T.ey.rt, T.ey.rb, T.ey.lt, T.ey.lb, T.ez.rt, T.ez.rb, T.ez.lt, T.ez.lb],
      ∃ r, 0 < r ∧ t = restPrimM P A B C r := by
  have hsl := slope_realM hv.slope
  have hsr := hs.smallr
  have hcond : (RealOps.beq p.settings.slope_type (lit 1) || RealOps.beq p.settings.slope_type (lit 2)) = true := by
    simpa using hsl
  intro T
  unfold T traceM3 traceMhd3 sourceM3 slopeM7 traceInM3 elecM3 faceSlopeM3 avg4 avg2 MS.half
  simp only [hcond, if_true]
  simp only [restPrimM, restConsM3, slopeScalarDir_const, RealOps.lit_real, Rat.cast_zero, neg_zero,
    zero_mul, mul_zero, sub_zero, add_zero, zero_add, sub_self, zero_div, zero_sub]
  push_cast
  simp only [List.mem_cons, List.not_mem_nil, or_false]
  rintro t (rfl | rfl | rfl | rfl | rfl | rfl | rfl | rfl | rfl | rfl | rfl | rfl | rfl | rfl | rfl | rfl | rfl | rfl) <;>
    exact flooredP_rest hsr hP

/-- the step is the identity when the fluxes are uniform and the electromotive forces vanish -/
theorem stepOfM3_const {F : FluxM3 ℝ} {fx fy fz : MS ℝ} (hX : ∀ i j k, F.x i j k = fx)
    (hY : ∀ i j k, F.y i j k = fy) (hZ : ∀ i j k, F.z i j k = fz) (hE : ∀ d i j k, F.e d i j k = 0)
    (dt : ℝ) (u : FldM3 ℝ) : stepOfM3 p dt F u = u := by
  funext i j k
  unfold stepOfM3
  split_ifs
  · unfold ctUpdate3 fluxUpdateM3
    simp only [hX, hY, hZ, hE, MS.plus5, MS.minus5]
    ext <;> simp
  · rfl

variable (hx : NoSwitch p.settings.gamma0 P A B C) (hy : NoSwitch p.settings.gamma0 P B A C)
  (hz : NoSwitch p.settings.gamma0 P C A B)
include hr hx hy hz

theorem stepV01_rest {ρ : Int → Int → Int → ℝ} {M : ℝ}
    (hρ : ∀ i j k, p.settings.smallr ≤ ρ i j k ∧ ρ i j k ≤ M)
    (hM : 2 * M * p.settings.smallp ≤ P) (hP : p.settings.smallp ≤ P) (dt : ℝ) :
    stepOfM3 p dt (fluxesM3 p dt (fun i j k => restConsM3 p.settings.gamma0 P A B C (ρ i j k)))
      (fun i j k => restConsM3 p.settings.gamma0 P A B C (ρ i j k)) =
      fun i j k => restConsM3 p.settings.gamma0 P A B C (ρ i j k) := by
  have hP0 : 0 < P := lt_of_lt_of_le hs.smallp_pos hP
  unfold fluxesM3
  rw [primM3_rest hs hi hρ hM]
  have hT := traceM3_rest hs hi hv (A := A) (B := B) (C := C) (ρ := ρ) hP dt
  set u : FldM3 ℝ := fun i j k => restConsM3 p.settings.gamma0 P A B C (ρ i j k)
  set T := traceM3 p dt (fun i j k => restPrimM P A B C (ρ i j k)) u
  have hz' : NoSwitch p.settings.gamma0 P C B A := fun a b => hz b a
  refine stepOfM3_const hs hi hv (fx := restFluxM P A B C) (fy := (restFluxM P B A C).swapXY)
    (fz := (restFluxM P C B A).swapXZ) ?_ ?_ ?_ ?_ dt u
  · intro i j k
    obtain ⟨r1, h1, e1⟩ := hT (i - 1) j k (T (i - 1) j k).qmx (by simp [T])
    obtain ⟨r2, h2, e2⟩ := hT i j k (T i j k).qpx (by simp [T])
    unfold fluxOfTraces
    dsimp only
    rw [hr, e1, e2]
    exact hlld_at_rest hs hi hP0 h1 h2 hx _
  · intro i j k
    obtain ⟨r1, h1, e1⟩ := hT i (j - 1) k (T i (j - 1) k).qmy (by simp [T])
    obtain ⟨r2, h2, e2⟩ := hT i j k (T i j k).qpy (by simp [T])
    unfold fluxOfTraces
    dsimp only
    rw [hr, e1, e2]
    congr 1
    exact hlld_at_rest hs hi hP0 h1 h2 hy _
  · intro i j k
    obtain ⟨r1, h1, e1⟩ := hT i j (k - 1) (T i j (k - 1)).qmz (by simp [T])
    obtain ⟨r2, h2, e2⟩ := hT i j k (T i j k).qpz (by simp [T])
    unfold fluxOfTraces
    dsimp only
    rw [hr, e1, e2]
    congr 1
    exact hlld_at_rest hs hi hP0 h1 h2 hz' _
  · intro d i j k
    unfold fluxOfTraces
    cases d
    · obtain ⟨r1, h1, e1⟩ := hT i (j - 1) (k - 1) (T i (j - 1) (k - 1)).ex.rt (by simp [T])
      obtain ⟨r2, h2, e2⟩ := hT i (j - 1) k (T i (j - 1) k).ex.rb (by simp [T])
      obtain ⟨r3, h3, e3⟩ := hT i j (k - 1) (T i j (k - 1)).ex.lt (by simp [T])
      obtain ⟨r4, h4, e4⟩ := hT i j k (T i j k).ex.lb (by simp [T])
      exact emf_at_rest hs hi hP0 h1 h2 h3 h4 e1 e2 e3 e4
    · obtain ⟨r1, h1, e1⟩ := hT (i - 1) j (k - 1) (T (i - 1) j (k - 1)).ey.rt (by simp [T])
      obtain ⟨r2, h2, e2⟩ := hT i j (k - 1) (T i j (k - 1)).ey.lt (by simp [T])
      obtain ⟨r3, h3, e3⟩ := hT (i - 1) j k (T (i - 1) j k).ey.rb (by simp [T])
      obtain ⟨r4, h4, e4⟩ := hT i j k (T i j k).ey.lb (by simp [T])
      exact emf_at_rest hs hi hP0 h1 h2 h3 h4 e1 e2 e3 e4
    · obtain ⟨r1, h1, e1⟩ := hT (i - 1) (j - 1) k (T (i - 1) (j - 1) k).ez.rt (by simp [T])
      obtain ⟨r2, h2, e2⟩ := hT (i - 1) j k (T (i - 1) j k).ez.rb (by simp [T])
      obtain ⟨r3, h3, e3⟩ := hT i (j - 1) k (T i (j - 1) k).ez.lt (by simp [T])
      obtain ⟨r4, h4, e4⟩ := hT i j k (T i j k).ez.lb (by simp [T])
      exact emf_at_rest hs hi hP0 h1 h2 h3 h4 e1 e2 e3 e4

omit hr hx hy hz in
/-- version 2: slopes, half step and face field of a fluid at rest -/
theorem slopeV2_rest (ρ : Int → Int → Int → ℝ) (d : Dir) (i j k : Int) :
    slopeV2 p (fun i j k => restPrimM P A B C (ρ i j k))
      (fun i j k => restConsM3 p.settings.gamma0 P A B C (ρ i j k)) d i j k =
      ⟨slopeScalarDir p.settings.slope_type (ρ i j k) (ρ (i + d.delta.1) (j + d.delta.2.1) (k + d.delta.2.2))
        (ρ (i - d.delta.1) (j - d.delta.2.1) (k - d.delta.2.2)), 0, 0, 0, 0, 0, 0, 0⟩ := by
  have hcond : (RealOps.beq p.settings.slope_type (lit 1) || RealOps.beq p.settings.slope_type (lit 2)) = true := by
    simpa using slope_realM hv.slope
  unfold slopeV2 slopeM
  simp only [hcond, if_true]
  cases d <;> simp [restPrimM, restConsM3, slopeScalarDir_const, MS.setMag, MS.mag, Dir.delta]

omit hr hx hy hz in
theorem q2V2_rest (ρ : Int → Int → Int → ℝ) (dt : ℝ) :
    q2V2 p dt (fun i j k => restPrimM P A B C (ρ i j k))
      (fun i j k => restConsM3 p.settings.gamma0 P A B C (ρ i j k)) = fun i j k => restPrimM P A B C (ρ i j k) := by
  funext i j k
  unfold q2V2
  simp only [slopeV2_rest hs hi hv]
  unfold sourceM3 MS.addHalf
  simp [restPrimM, restConsM3]

omit hr hx hy hz in
theorem sFaceV2_rest (ρ : Int → Int → Int → ℝ) (dt : ℝ) (d : Dir) (i j k : Int) :
    sFaceV2 p dt (fun i j k => restPrimM P A B C (ρ i j k))
      (fun i j k => restConsM3 p.settings.gamma0 P A B C (ρ i j k)) d i j k = 0 := by
  unfold sFaceV2 elecM3 avg4 avg2
  cases d <;> simp [restPrimM, restConsM3]

omit hr hx hy hz in
theorem edgeV2_rest {ρ : Int → Int → Int → ℝ} {M : ℝ}
    (hρ : ∀ i j k, p.settings.smallr ≤ ρ i j k ∧ ρ i j k ≤ M)
    (hM : 2 * M * p.settings.smallp ≤ P) (dt : ℝ) {d0 d1 : Dir}
    (hd : (d0 = .x ∧ d1 = .y) ∨ (d0 = .x ∧ d1 = .z) ∨ (d0 = .y ∧ d1 = .z)) (i j k : Int) (e : EdgeLoc) :
    ∃ r, 0 < r ∧ edgeV2 p dt (fun i j k => restPrimM P A B C (ρ i j k))
      (fun i j k => restConsM3 p.settings.gamma0 P A B C (ρ i j k)) d0 d1 i j k e = restPrimM P A B C r := by
  have hsl := slope_realM hv.slope
  have hsr := hs.smallr
  have hsp := hs.smallp_pos
  have hMr : p.settings.smallr ≤ M := (hρ 0 0 0).1.trans (hρ 0 0 0).2
  have b0 := rest_bounds hsl (hρ i j k).2 (hρ (i + d0.delta.1) (j + d0.delta.2.1) (k + d0.delta.2.2)).2
    (hρ (i - d0.delta.1) (j - d0.delta.2.1) (k - d0.delta.2.2)).2 _ rfl
  have b1 := rest_bounds hsl (hρ i j k).2 (hρ (i + d1.delta.1) (j + d1.delta.2.1) (k + d1.delta.2.2)).2
    (hρ (i - d1.delta.1) (j - d1.delta.2.1) (k - d1.delta.2.2)).2 _ rfl
  have hpos := (hρ i j k).1
  unfold edgeV2
  simp only [slopeV2_rest hs hi hv, q2V2_rest hs hi hv, sFaceV2_rest hs hi hv]
  generalize slopeScalarDir p.settings.slope_type (ρ i j k) (ρ (i + d0.delta.1) (j + d0.delta.2.1) (k + d0.delta.2.2))
    (ρ (i - d0.delta.1) (j - d0.delta.2.1) (k - d0.delta.2.2)) = σ0 at *
  generalize slopeScalarDir p.settings.slope_type (ρ i j k) (ρ (i + d1.delta.1) (j + d1.delta.2.1) (k + d1.delta.2.2))
    (ρ (i - d1.delta.1) (j - d1.delta.2.1) (k - d1.delta.2.2)) = σ1 at *
  obtain ⟨r, h1, h2⟩ := floored_rest (A := A) (B := B) (C := C) (P := P) hsr hsp (M := M)
    (r := ρ i j k + lit (1/2) * (sgnMul e.right σ0 + sgnMul e.top σ1))
    (by cases e <;> simp [sgnMul, EdgeLoc.right, EdgeLoc.top] <;> linarith [b0.1, b0.2, b1.1, b1.2]) hMr hM
  refine ⟨r, h1, ?_⟩
  rw [← h2]
  congr 1
  rcases hd with ⟨rfl, rfl⟩ | ⟨rfl, rfl⟩ | ⟨rfl, rfl⟩ <;>
    simp [sgnMul, limSlopeV2, restPrimM, restConsM3, slopeScalarDir_const, MS.mag]

theorem stepV2_rest {ρ : Int → Int → Int → ℝ} {M : ℝ}
    (hρ : ∀ i j k, p.settings.smallr ≤ ρ i j k ∧ ρ i j k ≤ M)
    (hM : 2 * M * p.settings.smallp ≤ P) (dt : ℝ) :
    stepOfM3 p dt (fluxesV2M3 p dt (fun i j k => restConsM3 p.settings.gamma0 P A B C (ρ i j k)))
      (fun i j k => restConsM3 p.settings.gamma0 P A B C (ρ i j k)) =
      fun i j k => restConsM3 p.settings.gamma0 P A B C (ρ i j k) := by
  have hsl := slope_realM hv.slope
  have hsr := hs.smallr
  have hsp := hs.smallp_pos
  have hMr : p.settings.smallr ≤ M := (hρ 0 0 0).1.trans (hρ 0 0 0).2
  have hP0 : 0 < P := by
    have : 0 < 2 * M * p.settings.smallp := mul_pos (by linarith) hsp
    linarith
  have hz' : NoSwitch p.settings.gamma0 P C B A := fun a b => hz b a
  have face : ∀ (d : Dir) (i j k : Int), ∃ r r', 0 < r ∧ 0 < r' ∧
      fluxV2 p dt (fun i j k => restPrimM P A B C (ρ i j k))
        (fun i j k => restConsM3 p.settings.gamma0 P A B C (ρ i j k)) d i j k =
      (riemannMhd p.settings .hlld ((restPrimM P A B C r).swapDir d) ((restPrimM P A B C r').swapDir d)
        MS.zero).swapDir d := by
    intro d i j k
    have b0 := rest_bounds hsl (hρ i j k).2 (hρ (i + d.delta.1) (j + d.delta.2.1) (k + d.delta.2.2)).2
      (hρ (i - d.delta.1) (j - d.delta.2.1) (k - d.delta.2.2)).2 _ rfl
    have b1 := rest_bounds hsl (hρ (i - d.delta.1) (j - d.delta.2.1) (k - d.delta.2.2)).2
      (hρ (i - d.delta.1 + d.delta.1) (j - d.delta.2.1 + d.delta.2.1) (k - d.delta.2.2 + d.delta.2.2)).2
      (hρ (i - d.delta.1 - d.delta.1) (j - d.delta.2.1 - d.delta.2.1) (k - d.delta.2.2 - d.delta.2.2)).2 _ rfl
    have p1 := (hρ (i - d.delta.1) (j - d.delta.2.1) (k - d.delta.2.2)).1
    have p2 := (hρ i j k).1
    unfold fluxV2
    simp only [slopeV2_rest hs hi hv, q2V2_rest hs hi hv, sFaceV2_rest hs hi hv, hr]
    generalize slopeScalarDir p.settings.slope_type (ρ i j k) (ρ (i + d.delta.1) (j + d.delta.2.1) (k + d.delta.2.2))
      (ρ (i - d.delta.1) (j - d.delta.2.1) (k - d.delta.2.2)) = σ0 at *
    generalize slopeScalarDir p.settings.slope_type (ρ (i - d.delta.1) (j - d.delta.2.1) (k - d.delta.2.2))
      (ρ (i - d.delta.1 + d.delta.1) (j - d.delta.2.1 + d.delta.2.1) (k - d.delta.2.2 + d.delta.2.2))
      (ρ (i - d.delta.1 - d.delta.1) (j - d.delta.2.1 - d.delta.2.1) (k - d.delta.2.2 - d.delta.2.2)) = σ1 at *
    obtain ⟨r, h1, h2⟩ := floored_rest (A := A) (B := B) (C := C) (P := P) hsr hsp (M := M)
      (r := ρ (i - d.delta.1) (j - d.delta.2.1) (k - d.delta.2.2) + lit (1/2) * σ1)
      (by simp; linarith [b1.1]) hMr hM
    obtain ⟨r', h1', h2'⟩ := floored_rest (A := A) (B := B) (C := C) (P := P) hsr hsp (M := M)
      (r := ρ i j k - lit (1/2) * σ0)
      (by simp; linarith [b0.2]) hMr hM
    refine ⟨r, r', h1, h1', ?_⟩
    rw [← h2, ← h2']
    cases d <;> simp [MS.setMag, MS.mag, MS.subHalf, MS.addHalf, restPrimM, restConsM3, MS.floored]
  unfold fluxesV2M3
  rw [primM3_rest hs hi hρ hM]
  refine stepOfM3_const hs hi hv (fx := restFluxM P A B C) (fy := (restFluxM P B A C).swapXY)
    (fz := (restFluxM P C B A).swapXZ) ?_ ?_ ?_ ?_ dt _
  · intro i j k
    obtain ⟨r, r', h1, h2, e⟩ := face .x i j k
    dsimp only
    rw [e]
    exact hlld_at_rest hs hi hP0 h1 h2 hx MS.zero
  · intro i j k
    obtain ⟨r, r', h1, h2, e⟩ := face .y i j k
    dsimp only
    rw [e]
    exact congrArg MS.swapXY (hlld_at_rest hs hi hP0 h1 h2 hy _)
  · intro i j k
    obtain ⟨r, r', h1, h2, e⟩ := face .z i j k
    dsimp only
    rw [e]
    exact congrArg MS.swapXZ (hlld_at_rest hs hi hP0 h1 h2 hz' _)
  · intro d i j k
    have E := fun {d0 d1 : Dir} hd => edgeV2_rest hs hi hv (A := A) (B := B) (C := C) hρ hM dt (d0 := d0) (d1 := d1) hd
    cases d
    · have E := E (Or.inr (Or.inr ⟨rfl, rfl⟩))
      obtain ⟨r1, h1, e1⟩ := E i (j - 1) (k - 1) .rt
      obtain ⟨r2, h2, e2⟩ := E i (j - 1) k .rb
      obtain ⟨r3, h3, e3⟩ := E i j (k - 1) .lt
      obtain ⟨r4, h4, e4⟩ := E i j k .lb
      exact emf_at_rest hs hi hP0 h1 h2 h3 h4 e1 e2 e3 e4
    · have E := E (Or.inr (Or.inl ⟨rfl, rfl⟩))
      obtain ⟨r1, h1, e1⟩ := E (i - 1) j (k - 1) .rt
      obtain ⟨r2, h2, e2⟩ := E i j (k - 1) .lt
      obtain ⟨r3, h3, e3⟩ := E (i - 1) j k .rb
      obtain ⟨r4, h4, e4⟩ := E i j k .lb
      exact emf_at_rest hs hi hP0 h1 h2 h3 h4 e1 e2 e3 e4
    · have E := E (Or.inl ⟨rfl, rfl⟩)
      obtain ⟨r1, h1, e1⟩ := E (i - 1) (j - 1) k .rt
      obtain ⟨r2, h2, e2⟩ := E (i - 1) j k .rb
      obtain ⟨r3, h3, e3⟩ := E i (j - 1) k .lt
      obtain ⟨r4, h4, e4⟩ := E i j k .lb
      exact emf_at_rest hs hi hP0 h1 h2 h3 h4 e1 e2 e3 e4

end EulerKokkos
