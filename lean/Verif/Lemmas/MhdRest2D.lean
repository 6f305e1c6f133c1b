import Verif.Lemmas.MhdRest
import Verif.Lemmas.MhdFull2D

/-!
# One 2D MHD step on a magnetised fluid at rest
-/

set_option linter.constructorNameAsVariable false
set_option linter.unusedSectionVars false
set_option linter.unusedSimpArgs false

namespace EulerKokkos
open Spec

/-- what the 2D solver stores for a fluid at rest; it takes half the stored z component for the field (C81) -/
noncomputable def Spec.restConsM2 (γ P A B C ρ : ℝ) : MS ℝ :=
  ⟨ρ, P / (γ - 1) + (A ^ 2 + B ^ 2 + C ^ 2) / 2, 0, 0, 0, A, B, 2 * C⟩

/-- the assumptions of the rest theorems on settings, pressure and density -/
structure RestOk (s : Settings ℝ) (P ρ : ℝ) : Prop where
  r : s.smallr ≤ ρ
  p : 2 * ρ * s.smallp ≤ P

theorem slope_realM {s : Settings ℝ} (h : RealOps.beq s.slope_type (lit 1 : ℝ) = true ∨
      RealOps.beq s.slope_type (lit 2 : ℝ) = true) : s.slope_type = 1 ∨ s.slope_type = 2 := by simpa using h

theorem constoprim_rest {s : Settings ℝ} (hs : GoodSettings s) (hi : s.cIso = 0) {P A B C ρ a b c nx ny nz : ℝ}
    (h : RestOk s P ρ) (ha : (a + nx) / 2 = A) (hb : (b + ny) / 2 = B) (hc : (c + nz) / 2 = C) :
    (constoprimMhd s ⟨ρ, P / (s.gamma0 - 1) + (A ^ 2 + B ^ 2 + C ^ 2) / 2, 0, 0, 0, a, b, c⟩ ⟨nx, ny, nz⟩).1 =
      restPrimM P A B C ρ := by
  have hr := h.r
  have hp := h.p
  have hsr := hs.smallr
  have hsp := hs.smallp_pos
  have hg := hs.gamma
  have hρ : 0 < ρ := by linarith
  have half : ∀ x : ℝ, (lit (1/2) : ℝ) * x = x / 2 := by intro x; rw [RealOps.lit_real]; push_cast; ring
  have ni : ¬ gtb s.cIso (lit 0) = true := by simp [gtb, RealOps.lit_real, hi]
  unfold constoprimMhd
  simp only [if_neg ni, half, ha, hb, hc, RealOps.fmax_real, max_eq_left hr, zero_div, mul_zero, add_zero, sub_zero]
  have e : (s.gamma0 - lit 1) * ρ * ((P / (s.gamma0 - 1) + (A ^ 2 + B ^ 2 + C ^ 2) / 2 - (A * A + B * B + C * C) / 2) / ρ)
      = P := by
    rw [RealOps.lit_real]; push_cast
    have : s.gamma0 - 1 ≠ 0 := by linarith
    field_simp; ring
  rw [e, max_eq_left (by nlinarith)]
  rfl

variable {p : Params ℝ} (hs : GoodSettings p.settings) (hi : p.settings.cIso = 0) (hv : ValidM p)
  (hr : p.riemannSolverType = .hlld) {P A B C : ℝ}
  (hx : NoSwitch p.settings.gamma0 P A B C) (hy : NoSwitch p.settings.gamma0 P B A C)
include hs hi hv

theorem traceM2_rest {ρ : Int → Int → ℝ} {M : ℝ} (hρ : ∀ i j, p.settings.smallr ≤ ρ i j ∧ ρ i j ≤ M)
    (hM : 2 * M * p.settings.smallp ≤ P) (dt : ℝ) (i j : Int) :
    let T := tracesM2 p dt (fun i j => restConsM2 p.settings.gamma0 P A B C (ρ i j)) i j
    ∀ t ∈ [T.qmx, T.qpx, T.qmy, T.qpy, T.rt, T.rb, T.lt, T.lb], ∃ r, 0 < r ∧ t = restPrimM P A B C r := by
  have hsl := slope_realM hv.slope
  have hsr := hs.smallr
  have hsp := hs.smallp_pos
  have hMr : p.settings.smallr ≤ M := (hρ 0 0).1.trans (hρ 0 0).2
  have hprim : primM2 p (fun i j => restConsM2 p.settings.gamma0 P A B C (ρ i j)) =
      fun i j => restPrimM P A B C (ρ i j) := by
    funext i j
    unfold primM2 restConsM2
    refine constoprim_rest hs hi ⟨(hρ i j).1, ?_⟩ (by ring) (by ring) (by rw [RealOps.lit_real]; push_cast; ring)
    have := mul_le_mul_of_nonneg_right (hρ i j).2 hsp.le
    linarith
  intro T
  have eT : T = traceM2 p dt (fun i j => restPrimM P A B C (ρ i j))
      (fun i j => restConsM2 p.settings.gamma0 P A B C (ρ i j)) i j := by
    show tracesM2 _ _ _ _ _ = _
    unfold tracesM2
    rw [hprim]
  have bx := rest_bounds hsl (hρ i j).2 (hρ (i + 1) j).2 (hρ (i + -1) j).2 _ rfl
  have by' := rest_bounds hsl (hρ i j).2 (hρ i (j + 1)).2 (hρ i (j + -1)).2 _ rfl
  have hpos := (hρ i j).1
  rw [eT]
  unfold traceM2 traceMhd2 sourceM2 slopeM elecZ2 MS.half
  have hcond : (RealOps.beq p.settings.slope_type (lit 1) || RealOps.beq p.settings.slope_type (lit 2)) = true := by
    simpa using hsl
  simp only [hcond, if_true]
  simp only [restPrimM, restConsM2, slopeScalarDir_const, RealOps.lit_real, Rat.cast_zero, neg_zero,
    zero_mul, mul_zero, sub_zero, add_zero, zero_add, sub_self, zero_div, zero_sub]
  push_cast
  simp only [List.mem_cons, List.not_mem_nil, or_false]
  set σx := slopeScalarDir p.settings.slope_type (ρ i j) (ρ (i + 1) j) (ρ (i + -1) j)
  set σy := slopeScalarDir p.settings.slope_type (ρ i j) (ρ i (j + 1)) (ρ i (j + -1))
  rintro t (rfl | rfl | rfl | rfl | rfl | rfl | rfl | rfl) <;>
    refine floored_rest hsr hsp (M := M) ?_ hMr hM <;> linarith [bx.1, bx.2, by'.1, by'.2]

include hr hx hy
theorem stepM2_rest {ρ : Int → Int → ℝ} {M : ℝ} (hρ : ∀ i j, p.settings.smallr ≤ ρ i j ∧ ρ i j ≤ M)
    (hM : 2 * M * p.settings.smallp ≤ P) (dt : ℝ) :
    stepM2 p dt (fun i j => restConsM2 p.settings.gamma0 P A B C (ρ i j)) =
      fun i j => restConsM2 p.settings.gamma0 P A B C (ρ i j) := by
  have hsr := hs.smallr
  have hP : 0 < P := by
    have h1 := (hρ 0 0).1.trans (hρ 0 0).2
    have h2 := hs.smallp_pos
    have : 0 < 2 * M * p.settings.smallp := mul_pos (by linarith) h2
    linarith
  have hT := traceM2_rest hs hi hv (A := A) (B := B) (C := C) hρ hM dt
  set u : FldM2 ℝ := fun i j => restConsM2 p.settings.gamma0 P A B C (ρ i j)
  have hX : ∀ i j, fluxXM2 p (tracesM2 p dt u) i j = restFluxM P A B C := by
    intro i j
    obtain ⟨r1, h1, e1⟩ := hT (i - 1) j (tracesM2 p dt u (i - 1) j).qmx (by simp)
    obtain ⟨r2, h2, e2⟩ := hT i j (tracesM2 p dt u i j).qpx (by simp)
    unfold fluxXM2
    rw [hr, e1, e2]
    exact hlld_at_rest hs hi hP h1 h2 hx _
  have hY : ∀ i j, fluxYM2 p (tracesM2 p dt u) i j = (restFluxM P B A C).swapXY := by
    intro i j
    obtain ⟨r1, h1, e1⟩ := hT i (j - 1) (tracesM2 p dt u i (j - 1)).qmy (by simp)
    obtain ⟨r2, h2, e2⟩ := hT i j (tracesM2 p dt u i j).qpy (by simp)
    unfold fluxYM2
    rw [hr, e1, e2]
    congr 1
    exact hlld_at_rest hs hi hP h1 h2 hy _
  have hE : ∀ i j, emfM2 p (tracesM2 p dt u) i j = 0 := by
    intro i j
    obtain ⟨r1, h1, e1⟩ := hT (i - 1) (j - 1) (tracesM2 p dt u (i - 1) (j - 1)).rt (by simp)
    obtain ⟨r2, h2, e2⟩ := hT (i - 1) j (tracesM2 p dt u (i - 1) j).rb (by simp)
    obtain ⟨r3, h3, e3⟩ := hT i (j - 1) (tracesM2 p dt u i (j - 1)).lt (by simp)
    obtain ⟨r4, h4, e4⟩ := hT i j (tracesM2 p dt u i j).lb (by simp)
    exact emf_at_rest hs hi hP h1 h2 h3 h4 e1 e2 e3 e4
  funext i j
  unfold stepM2
  split_ifs
  · unfold ctUpdate2 fluxUpdateM2
    simp only [hX, hY, hE, MS.plus6, MS.minus6]
    ext <;> simp
  · rfl

end EulerKokkos
