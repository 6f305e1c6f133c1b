import Verif.Lemmas.MhdUnits
import Verif.Lemmas.MhdFull2D

/-!
# Change of units: the 2D MHD scheme
-/

set_option linter.constructorNameAsVariable false
set_option linter.unusedSectionVars false
set_option linter.unusedSimpArgs false

namespace EulerKokkos
open Spec

variable (U : MhdUnits)

/-- face-centred field in the new units -/
noncomputable def Spec.MhdUnits.bf (b : BF ℝ) : BF ℝ := ⟨U.B * b.x, U.B * b.y, U.B * b.z⟩

theorem constoprimMhd_units (s : Settings ℝ) (u : MS ℝ) (nb : BF ℝ) :
    constoprimMhd (U.settings s) (U.cons u) (U.bf nb) =
      (U.prim (constoprimMhd s u nb).1, U.V * (constoprimMhd s u nb).2) := by
  have hr := U.hr
  have hV := U.hV
  have hD : 0 < U.r ^ 2 := by positivity
  have hDV : 0 < U.r ^ 2 * U.V := by positivity
  have hP : 0 < U.r ^ 2 * U.V ^ 2 := by positivity
  have eB : U.B = U.r * U.V := rfl
  unfold constoprimMhd
  extract_lets d vx vy vz a b c ek em ei p d' vx' vy' vz' a' b' c' ek' em' ei' p'
  have h_d : d = U.r ^ 2 * d' := max_sc hD rfl rfl
  have h_vx : vx = U.V * vx' := div_sc hDV hD rfl h_d (by ring)
  have h_vy : vy = U.V * vy' := div_sc hDV hD rfl h_d (by ring)
  have h_vz : vz = U.V * vz' := div_sc hDV hD rfl h_d (by ring)
  have h_a : a = U.B * a' := by simp only [a, a', MhdUnits.cons, MhdUnits.bf]; ring
  have h_b : b = U.B * b' := by simp only [b, b', MhdUnits.cons, MhdUnits.bf]; ring
  have h_c : c = U.B * c' := by simp only [c, c', MhdUnits.cons, MhdUnits.bf]; ring
  have h_ek : ek = U.V ^ 2 * ek' := by simp only [ek, ek', h_vx, h_vy, h_vz]; ring
  have h_em : em = U.r ^ 2 * U.V ^ 2 * em' := by simp only [em, em', h_a, h_b, h_c, eB]; ring
  have h_ei : ei = U.V ^ 2 * ei' := by
    simp only [ei, ei']
    rw [div_sc (x := (U.cons u).p - em) (x' := u.p - em') hP hD (by rw [h_em]; simp only [MhdUnits.cons]; ring) h_d
      (c := U.V ^ 2) (by ring), h_ek]
    ring
  have h_p : p = U.r ^ 2 * U.V ^ 2 * p' := max_sc hP
    (by rw [h_d, h_ei]; simp only [MhdUnits.settings, MhdUnits.units, Units.settings]; ring)
    (by rw [h_d]; simp only [MhdUnits.settings, MhdUnits.units, Units.settings]; ring)
  rw [show gtb (U.settings s).cIso (lit 0) = gtb s.cIso (lit 0) from lt_sc hV (zero_sc _) rfl]
  split_ifs
  · rw [h_d, h_vx, h_vy, h_vz, h_a, h_b, h_c]
    refine Prod.ext (MS.ext ?_ ?_ ?_ ?_ ?_ ?_ ?_ ?_) rfl <;>
      simp only [MhdUnits.prim, MhdUnits.settings, MhdUnits.units, Units.settings]
    ring
  · rw [sqrt_sc (a := s.gamma0 * p' / d') hV, h_d, h_vx, h_vy, h_vz, h_a, h_b, h_c, h_p]
    · rfl
    · exact div_sc hP hD (by rw [h_p]; simp only [MhdUnits.settings, MhdUnits.units, Units.settings]; ring) h_d
        (by ring)

theorem primM_zero_units : U.prim MS.zero = MS.zero := by
  simp [MhdUnits.prim, MS.zero, RealOps.lit_real]

theorem slopeM_units (s : Settings ℝ) (q a b : MS ℝ) :
    slopeM (U.settings s) (U.prim q) (U.prim a) (U.prim b) MS.zero = U.prim (slopeM s q a b MS.zero) := by
  have hr := U.hr
  have hV := U.hV
  have hB := U.B_pos
  have hD : 0 < U.r ^ 2 := by positivity
  have hP : 0 < U.r ^ 2 * U.V ^ 2 := by positivity
  have e : (U.settings s).slope_type = s.slope_type := rfl
  unfold slopeM
  rw [e]
  split_ifs
  · simp only [MhdUnits.prim, slopeScalarDir_scale hD, slopeScalarDir_scale hV, slopeScalarDir_scale hP,
      slopeScalarDir_scale hB]
  · rw [primM_zero_units]

theorem floored_units (s : Settings ℝ) (q : MS ℝ) :
    MS.floored (U.settings s) (U.prim q) = U.prim (MS.floored s q) := by
  have hr := U.hr
  have hV := U.hV
  have hP : 0 < U.r ^ 2 * U.V ^ 2 := by positivity
  unfold MS.floored
  have h : fmax (U.settings s).smallr (U.prim q).d = U.r ^ 2 * fmax s.smallr q.d := max_sc (by positivity) rfl rfl
  rw [h]
  refine MS.ext rfl ?_ rfl rfl rfl rfl rfl rfl
  refine max_sc hP ?_ rfl
  simp only [MhdUnits.settings, MhdUnits.units, Units.settings]; ring

/-- a time derivative of a primitive state, over a Courant number -/
theorem sourceM2_units (s : Settings ℝ) (q dx dy : MS ℝ) (dA dB k l : ℝ) :
    sourceM2 (U.settings s) (U.prim q) (U.prim dx) (U.prim dy) (U.B * dA) (U.B * dB) (k / U.V) (l / U.V) =
      U.prim (sourceM2 s q dx dy dA dB k l) := by
  have hr := U.hr
  have hV := U.hV
  have hD : 0 < U.r ^ 2 := by positivity
  have hP : 0 < U.r ^ 2 * U.V ^ 2 := by positivity
  have eB : U.B = U.r * U.V := rfl
  have hdp : ∀ x d : ℝ, U.r ^ 2 * U.V ^ 2 * x / (U.r ^ 2 * d) = U.V ^ 2 * (x / d) := fun x d =>
    div_sc hP hD rfl rfl (by ring)
  have hdb : ∀ x y d : ℝ, U.B * x * (U.B * y) / (U.r ^ 2 * d) = U.V ^ 2 * (x * y / d) := fun x y d =>
    div_sc hP hD (by rw [eB]; ring) rfl (by ring)
  unfold sourceM2
  dsimp only [MhdUnits.prim]
  simp only [hdp, hdb, show (U.settings s).gamma0 = s.gamma0 from rfl]
  refine MS.ext ?_ ?_ ?_ ?_ ?_ ?_ ?_ ?_ <;> dsimp only <;> field_simp <;> ring

theorem elecZ2_units (q : Int × Int → MS ℝ) (b : Int × Int → BF ℝ) (x y : Int) :
    elecZ2 (fun o => U.prim (q o)) (fun o => U.bf (b o)) x y = U.B * U.V * elecZ2 q b x y := by
  simp only [elecZ2, MhdUnits.prim, MhdUnits.bf]; ring

/-- face and edge states in the new units -/
noncomputable def Spec.MhdUnits.trace2 (t : TraceM2 ℝ) : TraceM2 ℝ :=
  ⟨U.prim t.qmx, U.prim t.qpx, U.prim t.qmy, U.prim t.qpy, U.prim t.rt, U.prim t.rb, U.prim t.lt, U.prim t.lb⟩

theorem half_units (q : MS ℝ) : (U.prim q).half = U.prim q.half := by
  simp only [MS.half, MhdUnits.prim]
  refine MS.ext ?_ ?_ ?_ ?_ ?_ ?_ ?_ ?_ <;> dsimp only <;> ring

theorem emfStep_units (x k : ℝ) : U.B * U.V * x * (lit (1/2) : ℝ) * (k / U.V) = U.B * (x * lit (1/2) * k) := by
  have hV := U.hV
  field_simp

theorem traceMhd2_units (s : Settings ℝ) (q : Int × Int → MS ℝ) (b : Int × Int → BF ℝ) (k l : ℝ) :
    traceMhd2 (U.settings s) (fun o => U.prim (q o)) (fun o => U.bf (b o)) (k / U.V) (l / U.V) MS.zero MS.zero =
      U.trace2 (traceMhd2 s q b k l MS.zero MS.zero) := by
  have hB := U.B_pos
  unfold traceMhd2
  simp only [elecZ2_units, slopeM_units, half_units]
  dsimp only [MhdUnits.bf]
  rw [show (U.settings s).slope_type = s.slope_type from rfl]
  simp only [slopeScalarDir_scale hB]
  have hd : ∀ x y : ℝ, lit (1/2) * (U.B * x - U.B * y) = U.B * (lit (1/2) * (x - y)) := by intro x y; ring
  have hh : ∀ x : ℝ, lit (1/2) * (U.B * x) = U.B * (lit (1/2) * x) := by intro x; ring
  have he : ∀ x y : ℝ, U.B * U.V * x - U.B * U.V * y = U.B * U.V * (x - y) := by intro x y; ring
  have hn : ∀ x : ℝ, -(U.B * U.V * x) = U.B * U.V * (-x) := by intro x; ring
  simp only [hd, sourceM2_units, hh, he, hn, emfStep_units]
  generalize (slopeM s (q (0, 0)) (q (1, 0)) (q (-1, 0)) MS.zero).half = dx
  generalize (slopeM s (q (0, 0)) (q (0, 1)) (q (0, -1)) MS.zero).half = dy
  generalize sourceM2 s (q (0, 0)) dx dy _ _ k l = so
  unfold MhdUnits.trace2
  refine (TraceM2.mk.injEq ..).mpr ⟨?_, ?_, ?_, ?_, ?_, ?_, ?_, ?_⟩ <;>
    (rw [← floored_units]; refine congrArg _ ?_
     dsimp only [MhdUnits.prim]
     refine MS.ext ?_ ?_ ?_ ?_ ?_ ?_ ?_ ?_ <;> dsimp only <;> ring)

theorem primM2_units (p : Params ℝ) (u : FldM2 ℝ) :
    primM2 (U.params p) (fun i j => U.cons (u i j)) = fun i j => U.prim (primM2 p u i j) := by
  funext i j
  unfold primM2
  have h := congrArg Prod.fst (constoprimMhd_units U p.settings (u i j) ⟨(u (i + 1) j).a, (u i (j + 1)).b, lit 0⟩)
  dsimp only [MhdUnits.bf] at h
  rw [← zero_sc U.B] at h
  exact h

theorem tracesM2_units (p : Params ℝ) (dt : ℝ) (u : FldM2 ℝ) (i j : Int) :
    tracesM2 (U.params p) (U.T * dt) (fun i j => U.cons (u i j)) i j = U.trace2 (tracesM2 p dt u i j) := by
  unfold tracesM2 traceM2
  have e1 : U.T * dt / (U.params p).dx = dt / p.dx / U.V := courant_units U.units dt p.dx
  have e2 : U.T * dt / (U.params p).dy = dt / p.dy / U.V := courant_units U.units dt p.dy
  rw [primM2_units, ← traceMhd2_units, e1, e2]
  refine congrArg (fun b => traceMhd2 (U.settings p.settings) _ b (dt / p.dx / U.V) (dt / p.dy / U.V) MS.zero
    MS.zero) ?_
  rfl

theorem swapXY_prim (q : MS ℝ) : (U.prim q).swapXY = U.prim q.swapXY := rfl
theorem swapXY_flux (q : MS ℝ) : (U.flux q).swapXY = U.flux q.swapXY := rfl

theorem fluxXM2_units (p : Params ℝ) (T : Int → Int → TraceM2 ℝ) (i j : Int) :
    fluxXM2 (U.params p) (fun i j => U.trace2 (T i j)) i j = U.flux (fluxXM2 p T i j) :=
  riemannMhd_units U _ _ _ _

theorem fluxYM2_units (p : Params ℝ) (T : Int → Int → TraceM2 ℝ) (i j : Int) :
    fluxYM2 (U.params p) (fun i j => U.trace2 (T i j)) i j = U.flux (fluxYM2 p T i j) :=
  congrArg MS.swapXY (riemannMhd_units U p.settings p.riemannSolverType (T i (j - 1)).qmy.swapXY
    (T i j).qpy.swapXY)

theorem emfM2_units (p : Params ℝ) (T : Int → Int → TraceM2 ℝ) (i j : Int) :
    emfM2 (U.params p) (fun i j => U.trace2 (T i j)) i j = U.B * U.V * emfM2 p T i j :=
  computeEmf_units U _ _ ⟨_, _, _, _⟩

theorem fluxCour (x k : ℝ) : x * U.V * (k / U.V) = x * k := by
  have hV := U.hV
  field_simp

theorem stepM2_units (p : Params ℝ) (dt : ℝ) (u : FldM2 ℝ) (i j : Int) :
    stepM2 (U.params p) (U.T * dt) (fun i j => U.cons (u i j)) i j = U.cons (stepM2 p dt u i j) := by
  have hV := U.hV
  have hT : tracesM2 (U.params p) (U.T * dt) (fun i j => U.cons (u i j)) =
      fun i j => U.trace2 (tracesM2 p dt u i j) := by
    funext i j; exact tracesM2_units U p dt u i j
  unfold stepM2
  rw [hT]
  generalize tracesM2 p dt u = T
  by_cases h : interior2 p i j
  · rw [if_pos h, if_pos (show interior2 (U.params p) i j from h)]
    have e1 : U.T * dt / (U.params p).dx = dt / p.dx / U.V := courant_units U.units dt p.dx
    have e2 : U.T * dt / (U.params p).dy = dt / p.dy / U.V := courant_units U.units dt p.dy
    rw [e1, e2]
    generalize dt / p.dx = k
    generalize dt / p.dy = l
    unfold ctUpdate2 fluxUpdateM2 MS.plus6 MS.minus6
    simp only [fluxXM2_units, fluxYM2_units, emfM2_units]
    generalize fluxXM2 p T i j = a
    generalize fluxXM2 p T (i + 1) j = b
    generalize fluxYM2 p T i j = c
    generalize fluxYM2 p T i (j + 1) = d
    dsimp only [MhdUnits.flux, MhdUnits.cons]
    refine MS.ext ?_ ?_ ?_ ?_ ?_ ?_ ?_ ?_ <;> dsimp only <;> field_simp
  · rw [if_neg h, if_neg (show ¬ interior2 (U.params p) i j from h)]

theorem fillM2_units (p : Params ℝ) (u : FldM2 ℝ) :
    fillM2 (U.params p) (fun i j => U.cons (u i j)) = fun i j => U.cons (fillM2 p u i j) := by
  funext i j
  unfold fillM2 ghost2
  simp only [MhdUnits.cons, MS.get, ID, IP, IU, IV, IW, IA, IB, IC, signed_scale]
  rfl

theorem fullStepM2_units (p : Params ℝ) (dt : ℝ) (u : FldM2 ℝ) (i j : Int) :
    fullStepM2 (U.params p) (U.T * dt) (fun i j => U.cons (u i j)) i j = U.cons (fullStepM2 p dt u i j) := by
  unfold fullStepM2
  rw [fillM2_units, stepM2_units]

theorem fastSpeed_units (γ bn : ℝ) (q : MS ℝ) : fastSpeed γ (U.B * bn) (U.prim q) = U.V * fastSpeed γ bn q := by
  have hr := U.hr
  have hV := U.hV
  have hD : 0 < U.r ^ 2 := by positivity
  have hP : 0 < U.r ^ 2 * U.V ^ 2 := by positivity
  have eB : U.B = U.r * U.V := rfl
  have e1 : (γ * (U.prim q).p + ((U.prim q).a ^ 2 + (U.prim q).b ^ 2 + (U.prim q).c ^ 2)) / (2 * (U.prim q).d) =
      U.V ^ 2 * ((γ * q.p + (q.a ^ 2 + q.b ^ 2 + q.c ^ 2)) / (2 * q.d)) :=
    div_sc hP hD (by simp only [MhdUnits.prim, eB]; ring) (by simp only [MhdUnits.prim]; ring) (by ring)
  have e2 : γ * (U.prim q).p * (U.B * bn) ^ 2 / (U.prim q).d ^ 2 = U.V ^ 4 * (γ * q.p * bn ^ 2 / q.d ^ 2) :=
    div_sc (a := U.r ^ 4 * U.V ^ 4) (b := U.r ^ 4) (by positivity) (by positivity)
      (by simp only [MhdUnits.prim, eB]; ring) (by simp only [MhdUnits.prim]; ring) (by ring)
  unfold fastSpeed
  rw [e1, e2]
  refine sqrt_scale hV ?_
  rw [sqrt_scale (c := U.V ^ 2) (y := ((γ * q.p + (q.a ^ 2 + q.b ^ 2 + q.c ^ 2)) / (2 * q.d)) ^ 2 -
    γ * q.p * bn ^ 2 / q.d ^ 2) (by positivity) (by ring)]
  ring

theorem speedM_units (u γ bn : ℝ) (q : MS ℝ) :
    |U.V * u| + fastSpeed γ (U.B * bn) (U.prim q) = U.V * (|u| + fastSpeed γ bn q) := by
  rw [abs_scale U.hV, fastSpeed_units]; ring

theorem cflDtM2_units (p : Params ℝ) (u : FldM2 ℝ) :
    cflDtM2 (U.params p) (fun i j => U.cons (u i j)) = U.T * cflDtM2 p u := by
  have hT : 0 < U.T := U.units.T_pos
  have hrate : ∀ q : MS ℝ, mhdRate2 p.settings.gamma0 (U.L * p.dx) (U.L * p.dy) (U.prim q) =
      U.T⁻¹ * mhdRate2 p.settings.gamma0 p.dx p.dy q := by
    intro q
    unfold mhdRate2
    have e1 := speedM_units U q.u p.settings.gamma0 q.a q
    have e2 := speedM_units U q.v p.settings.gamma0 q.b q
    dsimp only [MhdUnits.prim] at e1 e2 ⊢
    rw [e1, e2, show U.T⁻¹ = U.units.T⁻¹ from rfl]
    have := rate_div U.units
    dsimp only [MhdUnits.units] at this
    rw [this, this, ← mul_add]; rfl
  unfold cflDtM2
  rw [fillM2_units, primM2_units]
  rw [sSup_scale (c := U.T⁻¹) (inv_pos.2 hT) (S := {r | ∃ i j, interior2 p i j ∧
    r = mhdRate2 p.settings.gamma0 p.dx p.dy (primM2 p (fillM2 p u) i j)})]
  · show p.settings.cfl / _ = _
    rw [div_mul_eq_div_div, div_inv_eq_mul]
    ring
  · intro r
    constructor
    · rintro ⟨i, j, hij, rfl⟩
      exact ⟨_, ⟨i, j, hij, rfl⟩, hrate _⟩
    · rintro ⟨_, ⟨i, j, hij, rfl⟩, rfl⟩
      exact ⟨i, j, hij, (hrate _).symm⟩

end EulerKokkos
