import Verif.Props.C56
import Verif.Props.C18
import Verif.Spec.Problems
import Verif.Lemmas.EulerPDE
import Verif.Lemmas.Init
import Mathlib.Analysis.SpecialFunctions.Log.Deriv
import Mathlib.Analysis.SpecialFunctions.Sqrt
import Mathlib.Analysis.SpecialFunctions.Complex.Arg
import Mathlib.Analysis.SpecialFunctions.Pow.Deriv
import Mathlib.Analysis.Complex.ExponentialBounds
import Mathlib.Analysis.Real.Pi.Bounds
import Mathlib.Tactic.LinearCombination

/-!
# C58: the provided problems set up the states they prescribe
-/

set_option linter.constructorNameAsVariable false
set_option linter.unusedSimpArgs false
set_option linter.unnecessarySeqFocus false

namespace EulerKokkos

open Spec Spmd

/-! ### Cell by cell -/

theorem gresho_profile_eq {M : MathLib ℝ} (hM : ExactMath M) (p0 r : ℝ) :
    greshoProfile M p0 r = (greshoVel r, greshoPres p0 r) := by
  unfold greshoProfile greshoVel greshoPres
  simp only [RealOps.lt_real, RealOps.lit_real, hM.log]
  push_cast
  split_ifs <;> refine Prod.ext ?_ ?_ <;> simp only <;> ring

theorem greshoVel_zero : greshoVel 0 = 0 := by
  unfold greshoVel
  norm_num

theorem angle_vel {M : MathLib ℝ} (hM : ExactMath M) (x y : ℝ) :
    Real.sin (M.atan2 y x) * greshoVel (Real.sqrt (x ^ 2 + y ^ 2)) =
      y / Real.sqrt (x ^ 2 + y ^ 2) * greshoVel (Real.sqrt (x ^ 2 + y ^ 2)) ∧
    Real.cos (M.atan2 y x) * greshoVel (Real.sqrt (x ^ 2 + y ^ 2)) =
      x / Real.sqrt (x ^ 2 + y ^ 2) * greshoVel (Real.sqrt (x ^ 2 + y ^ 2)) := by
  by_cases h : Real.sqrt (x ^ 2 + y ^ 2) = 0
  · rw [h, greshoVel_zero]; simp
  · constructor
    · congr 1
      rw [eq_div_iff h, mul_comm]
      exact hM.atan2_sin x y
    · congr 1
      rw [eq_div_iff h, mul_comm]
      exact hM.atan2_cos x y

theorem khRamp_eq {M : MathLib ℝ} (hM : ExactMath M) (δ y : ℝ) : khRamp M δ y = shearRamp δ y := by
  have e : ∀ a : ℝ, 2 * a / δ = a / (δ / 2) := fun a => by rw [div_div_eq_mul_div]; ring
  unfold khRamp shearRamp
  simp only [RealOps.lit_real, hM.exp]
  push_cast
  simp only [e, one_div]

theorem mul_self_sqrt' (x y : ℝ) : Real.sqrt (x * x + y * y) * Real.sqrt (x * x + y * y) = x ^ 2 + y ^ 2 := by
  rw [Real.mul_self_sqrt (add_nonneg (mul_self_nonneg _) (mul_self_nonneg _))]; ring

/-- the tabulated states are plane states with positive density and pressure -/
theorem lax2_sane (c : Int) (k : Nat) : ((lax2 (R := ℝ) c).getD lax2_default k).w = 0 ∧
    0 < ((lax2 (R := ℝ) c).getD lax2_default k).d ∧ 0 < ((lax2 (R := ℝ) c).getD lax2_default k).p := by
  have h1 : ∀ f : Nat → HS ℝ, lax2 c = some f → ∀ k, (f k).w = 0 ∧ 0 < (f k).d ∧ 0 < (f k).p := by
    intro f hf k
    unfold lax2 at hf
    split at hf <;> simp only [Option.some.injEq, reduceCtorEq] at hf <;> subst hf <;>
      (first
      | unfold lax2_0 | unfold lax2_1 | unfold lax2_2 | unfold lax2_3 | unfold lax2_4 | unfold lax2_5
      | unfold lax2_6 | unfold lax2_7 | unfold lax2_8 | unfold lax2_9 | unfold lax2_10 | unfold lax2_11
      | unfold lax2_12 | unfold lax2_13 | unfold lax2_14 | unfold lax2_15 | unfold lax2_16
      | unfold lax2_17 | unfold lax2_18) <;> split <;> norm_num [RealOps.lit_real]
  cases h : lax2 (R := ℝ) c with
  | some f => exact h1 f h k
  | none => simp only [Option.getD_none]; unfold lax2_default; split <;> norm_num [RealOps.lit_real]

/-- so are those of the 3D tables -/
theorem lax3_sane (c : Int) (k : Nat) : 0 < (getRiemannConfig3d (R := ℝ) c k).d ∧
    0 < (getRiemannConfig3d (R := ℝ) c k).p := by
  unfold getRiemannConfig3d
  split_ifs
  · unfold lax3_2; split <;> norm_num [RealOps.lit_real]
  · unfold lax3_3; split <;> norm_num [RealOps.lit_real]
  · unfold lax3_default; split <;> norm_num [RealOps.lit_real]

theorem cell2_prescribed {M : MathLib ℝ} (hM : ExactMath M) (p : Params ℝ) (n : Nat → ℝ) (x y : ℝ)
    {q : HydroProblem ℝ} (hq : Faithful2 q) :
    hydroCell2 M p n x y q = some (toCons p.settings.gamma0 (prescribed2 p n x y q)) := by
  cases q with
  | implode q =>
    obtain ⟨h1, h2⟩ := hq
    simp only [hydroCell2, Option.some.injEq, prescribed2, implode2]
    have e : ∀ (b : Bool) (P : Prop) [Decidable P], (b = true ↔ P) → ∀ s t : HS ℝ,
        (if b = true then s else t) = if P then s else t := fun b P _ h s t => by
      by_cases hP : P <;> simp [h, hP]
    rw [e _ (if q.shape = 1 then 1 / 2 < x + y ^ 2 ∧ x + y ^ 2 < 3 / 2
      else (p.xmin + p.xmax) / 2 + p.ymin < x + y)]
    · split_ifs
      all_goals
        simp only [toCons, RealOps.lit_real]
        rcases h1 with h1 | ⟨h1, h1'⟩ <;> rcases h2 with h2 | ⟨h2, h2'⟩ <;>
          simp only [h1, h2, HS.mk.injEq] <;> (try simp only [h1']) <;> (try simp only [h2']) <;> push_cast <;>
          refine ⟨?_, ?_, ?_, ?_, ?_⟩ <;> first | trivial | ring
    · split_ifs <;> simp [pow_two]
  | blast q =>
    have hr : 0 ≤ q.radius := hq
    have e : Real.sqrt ((x - q.center_x) ^ 2 + (y - q.center_y) ^ 2) < q.radius ↔
        (x - q.center_x) * (x - q.center_x) + (y - q.center_y) * (y - q.center_y) <
          q.radius * q.radius := by
      rw [Real.sqrt_lt (by positivity) hr]
      constructor <;> intro h <;> nlinarith
    simp only [hydroCell2, Option.some.injEq, prescribed2, blast2, RealOps.lt_real, e]
    split_ifs <;> simp [toCons, atRest]
  | kelvinHelmholtz q =>
    simp only [hydroCell2, kh2, prescribed2]
    by_cases hr : q.p_rand = true
    · simp only [hr, if_true, Option.some.injEq, Bool.or_eq_true, RealOps.lt_real, RealOps.lit_real]
      push_cast
      by_cases hs : 1 / 4 ≤ (y - p.ymin) / (p.ymax - p.ymin) ∧ (y - p.ymin) / (p.ymax - p.ymin) ≤ 3 / 4
      · have hs' : ¬ ((y - p.ymin) / (p.ymax - p.ymin) < 1 / 4 ∨ 3 / 4 < (y - p.ymin) / (p.ymax - p.ymin)) := by
          push Not; exact hs
        simp only [if_pos hs, if_neg hs', toCons, HS.mk.injEq]
        refine ⟨?_, ?_, ?_, ?_, ?_⟩ <;> first | trivial | ring
      · have hs' : (y - p.ymin) / (p.ymax - p.ymin) < 1 / 4 ∨ 3 / 4 < (y - p.ymin) / (p.ymax - p.ymin) := by
          by_contra h; push Not at h; exact hs h
        simp only [if_neg hs, if_pos hs', toCons, HS.mk.injEq]
        refine ⟨?_, ?_, ?_, ?_, ?_⟩ <;> first | trivial | ring
    · have hs : q.p_sine_rob = true := hq.resolve_left hr
      simp only [hr, hs, if_true, Bool.false_eq_true, if_false, Option.some.injEq, khRamp_eq hM, hM.sin,
        hM.pi, toCons, HS.mk.injEq, RealOps.lit_real, intLit]
      push_cast
      refine ⟨?_, ?_, ?_, ?_, ?_⟩ <;> first | trivial | ring
  | gresho q =>
    have hd : q.rho0 ≠ 0 := hq
    obtain ⟨a1, a2⟩ := angle_vel hM x y
    simp only [hydroCell2, gresho2, prescribed2, greshoState, gresho_profile_eq hM, Option.some.injEq,
      hM.sin, hM.cos, toCons, HS.mk.injEq, RealOps.lit_real, RealOps.sqrt_real]
    have e1 : x * x + y * y = x ^ 2 + y ^ 2 := by ring
    have e2 : p.settings.gamma0 * q.Ma * q.Ma = p.settings.gamma0 * q.Ma ^ 2 := by ring
    rw [e1, e2]
    rw [neg_mul, a1, a2]
    push_cast
    refine ⟨trivial, ?_, ?_, ?_, ?_⟩
    · field_simp; ring
    all_goals ring
  | fourQuadrant c xt yt zt =>
    have hc : c ≠ 18 := hq
    have e : ∀ k, getRiemannConfig2d (R := ℝ) c k = (lax2 c).getD lax2_default k := fun k => by
      unfold getRiemannConfig2d
      rw [if_neg hc]
      cases lax2 (R := ℝ) c <;> rfl
    have e0 := fun k => (lax2_sane c k).1
    simp only [hydroCell2, quadrant2, prescribed2, RealOps.lt_real, Option.some.injEq, e]
    split_ifs <;> simp only [primToCons2, toCons, e0, HS.mk.injEq, RealOps.lit_real] <;> push_cast <;>
      refine ⟨?_, ?_, ?_, ?_, ?_⟩ <;> first | trivial | ring
  | isentropicVortex q =>
    simp only [hydroCell2, vortex2, prescribed2, vortexState, vortexTemp, Option.some.injEq, hM.exp, hM.pi,
      hM.pow, toCons, HS.mk.injEq, RealOps.lit_real, RealOps.sqrt_real, mul_self_sqrt']
    push_cast
    have e1 : (8 : ℝ) * p.settings.gamma0 * Real.pi * Real.pi = 8 * p.settings.gamma0 * Real.pi ^ 2 := by ring
    have e2 : (p.settings.gamma0 - 1) * q.beta * q.beta = (p.settings.gamma0 - 1) * q.beta ^ 2 := by ring
    have e3 : (1 / 2 : ℝ) * (1 - ((x - q.vortex_x) ^ 2 + (y - q.vortex_y) ^ 2)) =
      (1 - ((x - q.vortex_x) ^ 2 + (y - q.vortex_y) ^ 2)) / 2 := by ring
    rw [e1, e2, e3]
    refine ⟨rfl, ?_, ?_, ?_, ?_⟩ <;> ring
  | rayleighTaylor q =>
    have ha : q.amplitude = 0 := hq
    simp only [hydroCell2, rayleigh2, prescribed2, Option.some.injEq, toCons, HS.mk.injEq, RealOps.lit_real,
      RealOps.lt_real, ha]
    push_cast
    by_cases hy : y ≤ (p.ymin + p.ymax) / 2
    · rw [if_pos hy, if_neg (not_lt.2 hy)]
      refine ⟨rfl, ?_, ?_, ?_, ?_⟩ <;> ring
    · rw [if_neg hy, if_pos (not_le.1 hy)]
      refine ⟨rfl, ?_, ?_, ?_, ?_⟩ <;> ring

theorem cell3_prescribed {M : MathLib ℝ} (hM : ExactMath M) (p : Params ℝ) (n : Nat → ℝ) (x y z : ℝ)
    {q : HydroProblem ℝ} (hq : Faithful3 q) :
    hydroCell3 M p n x y z q = some (toCons p.settings.gamma0 (prescribed3 p n x y z q)) := by
  cases q with
  | implode q =>
    obtain ⟨h1, h2⟩ := hq
    simp only [hydroCell3, Option.some.injEq, prescribed3, implode3]
    have e : ∀ (b : Bool) (P : Prop) [Decidable P], (b = true ↔ P) → ∀ s t : HS ℝ,
        (if b = true then s else t) = if P then s else t := fun b P _ h s t => by
      by_cases hP : P <;> simp [h, hP]
    rw [e _ (if q.shape = 1 then 1 / 2 < x + y + z ∧ x + y + z < 5 / 2
      else (p.xmin + p.xmax) / 2 + p.ymin + p.zmin < x + y + z)]
    · split_ifs
      all_goals
        simp only [toCons, RealOps.lit_real]
        rcases h1 with h1 | ⟨h1, h1', h1''⟩ <;> rcases h2 with h2 | ⟨h2, h2', h2''⟩ <;>
          simp only [h1, h2, HS.mk.injEq] <;> (try simp only [h1', h1'']) <;> (try simp only [h2', h2'']) <;>
          push_cast <;> refine ⟨?_, ?_, ?_, ?_, ?_⟩ <;> first | trivial | ring
    · split_ifs <;> simp [pow_two]
  | blast q =>
    have hr : 0 ≤ q.radius := hq
    have e : Real.sqrt ((x - q.center_x) ^ 2 + (y - q.center_y) ^ 2 + (z - q.center_z) ^ 2) < q.radius ↔
        (x - q.center_x) * (x - q.center_x) + (y - q.center_y) * (y - q.center_y) +
          (z - q.center_z) * (z - q.center_z) < q.radius * q.radius := by
      rw [Real.sqrt_lt (by positivity) hr]
      constructor <;> intro h <;> nlinarith
    simp only [hydroCell3, Option.some.injEq, prescribed3, blast3, RealOps.lt_real, e]
    split_ifs <;> simp [toCons, atRest]
  | kelvinHelmholtz q =>
    simp only [hydroCell3, kh3, prescribed3]
    by_cases hr : q.p_rand = true
    · simp only [hr, if_true, Option.some.injEq, Bool.or_eq_true, RealOps.lt_real, RealOps.lit_real]
      push_cast
      by_cases hs : 1 / 4 ≤ (z - p.zmin) / (p.zmax - p.zmin) ∧ (z - p.zmin) / (p.zmax - p.zmin) ≤ 3 / 4
      · have hs' : ¬ ((z - p.zmin) / (p.zmax - p.zmin) < 1 / 4 ∨ 3 / 4 < (z - p.zmin) / (p.zmax - p.zmin)) := by
          push Not; exact hs
        simp only [if_pos hs, if_neg hs', toCons, HS.mk.injEq]
        refine ⟨?_, ?_, ?_, ?_, ?_⟩ <;> first | trivial | ring
      · have hs' : (z - p.zmin) / (p.zmax - p.zmin) < 1 / 4 ∨ 3 / 4 < (z - p.zmin) / (p.zmax - p.zmin) := by
          by_contra h; push Not at h; exact hs h
        simp only [if_neg hs, if_pos hs', toCons, HS.mk.injEq]
        refine ⟨?_, ?_, ?_, ?_, ?_⟩ <;> first | trivial | ring
    · have hs : q.p_sine_rob = true := hq.resolve_left hr
      simp only [hr, hs, if_true, Bool.false_eq_true, if_false, Option.some.injEq, khRamp_eq hM, hM.sin,
        hM.pi, toCons, HS.mk.injEq, RealOps.lit_real, intLit]
      push_cast
      refine ⟨?_, ?_, ?_, ?_, ?_⟩ <;> first | trivial | ring
  | gresho q => exact hq.elim
  | fourQuadrant c xt yt zt =>
    simp only [hydroCell3, quadrant3, prescribed3, RealOps.lt_real, Option.some.injEq]
    split_ifs <;> simp only [primToCons3, toCons, HS.mk.injEq, RealOps.lit_real] <;> push_cast <;>
      refine ⟨?_, ?_, ?_, ?_, ?_⟩ <;> first | trivial | ring
  | isentropicVortex q => exact hq.elim
  | rayleighTaylor q =>
    have ha : q.amplitude = 0 := hq
    simp only [hydroCell3, rayleigh3, prescribed3, Option.some.injEq, toCons, HS.mk.injEq, RealOps.lit_real,
      RealOps.lt_real, ha]
    push_cast
    by_cases hy : z ≤ (p.zmin + p.zmax) / 2
    · rw [if_pos hy, if_neg (not_lt.2 hy)]
      refine ⟨rfl, ?_, ?_, ?_, ?_⟩ <;> ring
    · rw [if_neg hy, if_pos (not_le.1 hy)]
      refine ⟨rfl, ?_, ?_, ?_, ?_⟩ <;> ring

/-! ### The initial state of a run -/

theorem cellX_centre (p : Params ℝ) (i : Int) : cellX p (0, 0, 0) i = centre p.xmin p.dx p.ghostWidth i := by
  simp [cellX, intLit, centre]; ring

theorem cellY_centre (p : Params ℝ) (i : Int) : cellY p (0, 0, 0) i = centre p.ymin p.dy p.ghostWidth i := by
  simp [cellY, intLit, centre]; ring

theorem cellZ_centre (p : Params ℝ) (i : Int) : cellZ p (0, 0, 0) i = centre p.zmin p.dz p.ghostWidth i := by
  simp [cellZ, intLit, centre]; ring

/-- **C58, 2D**: every cell of the initial state (ghost cells included) holds the conservative variables of the
state the problem prescribes at the centre of the cell; so the solver's own conversion returns that state
wherever it is above the floors. -/
theorem C58_initial_state_2d {M : MathLib ℝ} (hM : ExactMath M) {p : Params ℝ} (hp : Hydro2 p)
    {rnd : Int → Int → Int → Nat → ℝ} {q : HydroProblem ℝ} (hq : Faithful2 q) {m : Mem Arr ℝ}
    (hm : runLaunches (initHydro2 M p (0, 0, 0) rnd q) freshMem m) {i j : Int} (hij : inGrid2 p i j) :
    let s := prescribed2 p (rnd i j 0) (centre p.xmin p.dx p.ghostWidth i) (centre p.ymin p.dy p.ghostWidth j) q
    hs2 m .U i j = toCons p.settings.gamma0 s ∧
    (GoodSettings p.settings → Physical p.settings s → (computePrimitives2 p.settings (hs2 m .U i j)).1 = s) := by
  intro s
  have hw := hp.wf
  rw [initHydro2_iff] at hm
  have h1 : (i, j) ∈ range2 p.isize p.jsize := by
    obtain ⟨a, b, c, d⟩ := hij
    have := hw.isize_eq
    have := hw.jsize_eq
    exact mem_range2.2 ⟨⟨by omega, by omega⟩, by omega, by omega⟩
  have key := cell2_prescribed hM p (rnd i j 0) (cellX p (0, 0, 0) i) (cellY p (0, 0, 0) j) hq
  rw [cellX_centre, cellY_centre] at key
  have hv : ∀ v < 4, m ⟨.U, i, j, 0, v⟩ = (toCons p.settings.gamma0 s).get v := by
    intro v hv
    rw [hm]
    beta_reduce
    rw [if_pos ⟨Or.inl rfl, h1⟩, run_hydroInit2_U _ _ _ _ _ _ _ _ _ hv, cellX_centre, cellY_centre, key]
  have hw0 : s.w = 0 := by
    show (prescribed2 _ _ _ _ q).w = 0
    cases q <;> simp only [prescribed2, atRest, greshoState, vortexState]
    case fourQuadrant c xt yt zt => exact (lax2_sane _ _).1
    all_goals (try split_ifs) <;> rfl
  have e : hs2 m .U i j = toCons p.settings.gamma0 s := by
    have e5 : (toCons p.settings.gamma0 s).w = 0 := by simp [toCons, hw0]
    refine HS.ext ?_ ?_ ?_ ?_ ?_
    · exact hv ID (by decide)
    · exact hv IP (by decide)
    · exact hv IU (by decide)
    · exact hv IV (by decide)
    · rw [e5]; simp [hs2]
  exact ⟨e, fun hs hph => by rw [e]; exact (C18_inverse_2d hs).1 s hph hw0⟩

/-- **C58, 3D**. -/
theorem C58_initial_state_3d {M : MathLib ℝ} (hM : ExactMath M) {p : Params ℝ} (hp : Hydro3 p)
    {rnd : Int → Int → Int → Nat → ℝ} {q : HydroProblem ℝ} (hq : Faithful3 q) {m : Mem Arr ℝ}
    (hm : runLaunches (initHydro3 M p (0, 0, 0) rnd q) freshMem m) {i j k : Int} (hij : inGrid3 p i j k) :
    let s := prescribed3 p (rnd i j k) (centre p.xmin p.dx p.ghostWidth i) (centre p.ymin p.dy p.ghostWidth j)
      (centre p.zmin p.dz p.ghostWidth k) q
    hs3 m .U i j k = toCons p.settings.gamma0 s ∧
    (GoodSettings p.settings → Physical p.settings s →
      (computePrimitives3 p.settings (hs3 m .U i j k)).1 = s) := by
  intro s
  have hw := hp.wf
  rw [initHydro3_iff] at hm
  have h1 : (i, j, k) ∈ range3 p.isize p.jsize p.ksize := by
    obtain ⟨⟨a, b⟩, ⟨c, d⟩, e, f⟩ := hij
    have := hw.isize_eq
    have := hw.jsize_eq
    have := hw.ksize_eq
    exact mem_range3.2 (by simp only; omega)
  have key := cell3_prescribed hM p (rnd i j k) (cellX p (0, 0, 0) i) (cellY p (0, 0, 0) j)
    (cellZ p (0, 0, 0) k) hq
  rw [cellX_centre, cellY_centre, cellZ_centre] at key
  have hv : ∀ v < 5, m ⟨.U, i, j, k, v⟩ = (toCons p.settings.gamma0 s).get v := by
    intro v hv
    rw [hm]
    beta_reduce
    rw [if_pos ⟨Or.inl rfl, h1⟩, run_hydroInit3_U _ _ _ _ _ _ _ _ _ _ hv, cellX_centre, cellY_centre,
      cellZ_centre, key]
  have e : hs3 m .U i j k = toCons p.settings.gamma0 s :=
    HS.ext (hv ID (by decide)) (hv IP (by decide)) (hv IU (by decide)) (hv IV (by decide)) (hv IW (by decide))
  exact ⟨e, fun hs hph => by rw [e]; exact (C18_inverse_3d hs).1 s hph⟩

/-! ### The vortices are exact solutions -/

/-- a differentiable field whose primitive variables obey the quasi-linear equations is a solution -/
theorem eulerAt_of_primitive {γ : ℝ} (hγ : γ ≠ 1) {W : ℝ → ℝ → ℝ → ℝ → HS ℝ} {x y z t : ℝ}
    {gx gy gz : HS ℝ} (hd : (W x y z t).d ≠ 0)
    (dx : HasDerivHS (fun ξ => W ξ y z t) gx x) (dy : HasDerivHS (fun η => W x η z t) gy y)
    (dz : HasDerivHS (fun ζ => W x y ζ t) gz z)
    (dt : HasDerivHS (fun τ => W x y z τ) (primRate γ (W x y z t) gx gy gz) t) :
    EulerAt γ W x y z t gx gy gz (primRate γ (W x y z t) gx gy gz) := by
  refine ⟨dx, dy, dz, dt, _, _, _, _, dt.toCons γ, dx.fluxX γ, dy.fluxY γ, dz.fluxZ γ, ?_⟩
  clear dx dy dz dt
  revert hd
  generalize W x y z t = q
  intro hd
  simp only [primRate, dE, Spec.toCons, hs_add, HS.mk.injEq]
  have hg : γ - 1 ≠ 0 := sub_ne_zero.mpr hγ
  refine ⟨?_, ?_, ?_, ?_, ?_⟩ <;> field_simp <;> ring

theorem Spec.HasDerivHS.congr {f : ℝ → HS ℝ} {a b : HS ℝ} {x : ℝ} (h : HasDerivHS f a x) (e : a = b) :
    HasDerivHS f b x := e ▸ h

theorem Spec.EulerAt.congr {γ : ℝ} {W : ℝ → ℝ → ℝ → ℝ → HS ℝ} {x y z t : ℝ} {gx gy gz a b : HS ℝ}
    (h : EulerAt γ W x y z t gx gy gz a) (e : a = b) : EulerAt γ W x y z t gx gy gz b := e ▸ h

/-- the vortex moving with the ambient flow -/
noncomputable def movingVortex (γ : ℝ) (q : VortexParams ℝ) (x y _z t : ℝ) : HS ℝ :=
  vortexState γ q (x - q.u_a * t) (y - q.v_a * t)

/-- directional derivative of the vortex along a line `(a + α s, b + β s)` through its plane -/
theorem vortex_deriv {γ : ℝ} (hγ : 1 < γ) {q : VortexParams ℝ} (hT : 0 < q.T_a)
    (hc : (γ - 1) * q.beta ^ 2 / (8 * γ * Real.pi ^ 2) * Real.exp 1 < q.T_a)
    {f g : ℝ → ℝ} {f' g' s : ℝ} (hf : HasDerivAt f f' s) (hg : HasDerivAt g g' s) :
    let a := f s - q.vortex_x
    let b := g s - q.vortex_y
    let S := vortexState γ q (f s) (g s)
    let T := vortexTemp γ q (a ^ 2 + b ^ 2)
    let ω := q.beta / (2 * Real.pi) * Real.exp ((1 - (a ^ 2 + b ^ 2)) / 2)
    let r' := a * f' + b * g'
    0 < T ∧
    HasDerivHS (fun t => vortexState γ q (f t) (g t))
      ⟨S.d * ω ^ 2 * r' / (γ * T), S.d * ω ^ 2 * r', -(g' * ω) + b * ω * r', f' * ω - a * ω * r', 0⟩ s := by
  intro a b S T ω r'
  have hγ1 : γ - 1 ≠ 0 := by linarith
  have hγ0 : 0 < γ := by linarith
  have hTpos : 0 < T := by
    have h1 : Real.exp (1 - (a ^ 2 + b ^ 2)) ≤ Real.exp 1 := Real.exp_le_exp.2 (by nlinarith)
    have h2 : 0 ≤ (γ - 1) * q.beta ^ 2 / (8 * γ * Real.pi ^ 2) := by
      have : 0 ≤ γ - 1 := by linarith
      positivity
    have := mul_le_mul_of_nonneg_left h1 h2
    simp only [T, vortexTemp]
    linarith
  refine ⟨hTpos, ?_⟩
  have ha : HasDerivAt (fun t => f t - q.vortex_x) f' s := hf.sub_const _
  have hb : HasDerivAt (fun t => g t - q.vortex_y) g' s := hg.sub_const _
  have hr : HasDerivAt (fun t => (f t - q.vortex_x) ^ 2 + (g t - q.vortex_y) ^ 2) (2 * r') s :=
    ((hasDerivAt_sq ha).add (hasDerivAt_sq hb)).congr_deriv (by simp only [r', a, b]; ring)
  have hT' : HasDerivAt (fun t => vortexTemp γ q ((f t - q.vortex_x) ^ 2 + (g t - q.vortex_y) ^ 2))
      ((γ - 1) / γ * ω ^ 2 * r') s := by
    have h := (((hr.const_sub 1).exp).const_mul ((γ - 1) * q.beta ^ 2 / (8 * γ * Real.pi ^ 2))).const_sub q.T_a
    refine h.congr_deriv ?_
    have e : ω ^ 2 = q.beta ^ 2 / (4 * Real.pi ^ 2) * Real.exp (1 - (a ^ 2 + b ^ 2)) := by
      simp only [ω]
      rw [mul_pow, ← Real.exp_nat_mul, div_pow]
      congr 2
      · ring
      · push_cast; ring
    rw [e]
    simp only [a, b]
    have := Real.pi_ne_zero
    field_simp
    ring
  have hω : HasDerivAt (fun t => q.beta / (2 * Real.pi) *
      Real.exp ((1 - ((f t - q.vortex_x) ^ 2 + (g t - q.vortex_y) ^ 2)) / 2)) (-(ω * r')) s := by
    have h := ((((hr.const_sub 1).div_const 2)).exp).const_mul (q.beta / (2 * Real.pi))
    refine h.congr_deriv ?_
    simp only [ω, a, b]
    ring
  have hρ : HasDerivAt (fun t => q.rho_a * (vortexTemp γ q ((f t - q.vortex_x) ^ 2 + (g t - q.vortex_y) ^ 2) /
      q.T_a) ^ (1 / (γ - 1))) (S.d * ω ^ 2 * r' / (γ * T)) s := by
    have hx : (fun t => vortexTemp γ q ((f t - q.vortex_x) ^ 2 + (g t - q.vortex_y) ^ 2) / q.T_a) s ≠ 0 :=
      (div_pos hTpos hT).ne'
    have h := ((hT'.div_const q.T_a).rpow_const (p := 1 / (γ - 1)) (Or.inl hx)).const_mul q.rho_a
    refine h.congr_deriv ?_
    have e2 : ∀ y : ℝ, 0 < y → y ^ (1 / (γ - 1) - 1) = y ^ (1 / (γ - 1)) / y := fun y hy => by
      rw [Real.rpow_sub hy, Real.rpow_one]
    rw [e2 _ (div_pos hTpos hT)]
    simp only [S, vortexState]
    change _ * (_ * _ * ((T / q.T_a) ^ (1 / (γ - 1)) / (T / q.T_a))) =
      q.rho_a * (T / q.T_a) ^ (1 / (γ - 1)) * ω ^ 2 * r' / (γ * T)
    have hTn := hTpos.ne'
    have hTa := hT.ne'
    generalize (T / q.T_a) ^ (1 / (γ - 1)) = Z
    field_simp
  refine ⟨hρ, (hρ.mul hT').congr_deriv ?_, ((hb.mul hω).const_sub q.u_a).congr_deriv ?_,
    ((ha.mul hω).const_add q.v_a).congr_deriv ?_, hasDerivAt_const _ _⟩
  · show _ * T + S.d * _ = _
    have hTn := hTpos.ne'
    have hg0 := hγ0.ne'
    field_simp
    ring
  · show -(g' * ω + b * -(ω * r')) = _
    ring
  · show f' * ω + a * -(ω * r') = _
    ring

/-- **C58, the isentropic vortex is exact**: the state the code sets up is the state at time `0` of a solution of
the Euler equations, the vortex carried by the ambient flow, smooth and with positive density and pressure
everywhere and at all times (if the vortex is weak enough for its temperature to be positive). -/
theorem C58_isentropic_vortex_exact {γ : ℝ} (hγ : 1 < γ) {q : VortexParams ℝ} (hT : 0 < q.T_a)
    (hρ : 0 < q.rho_a) (hc : (γ - 1) * q.beta ^ 2 / (8 * γ * Real.pi ^ 2) * Real.exp 1 < q.T_a) :
    (∀ x y z t, ∃ gx gy gz gt, EulerAt γ (movingVortex γ q) x y z t gx gy gz gt) ∧
    (∀ x y z t, 0 < (movingVortex γ q x y z t).d ∧ 0 < (movingVortex γ q x y z t).p) ∧
    ∀ (p : Params ℝ) (n : Nat → ℝ) (x y z : ℝ), p.settings.gamma0 = γ →
      prescribed2 p n x y (.isentropicVortex q) = movingVortex γ q x y z 0 := by
  have hpos : ∀ x y z t, 0 < (movingVortex γ q x y z t).d ∧ 0 < (movingVortex γ q x y z t).p := by
    intro x y z t
    obtain ⟨h, -⟩ := vortex_deriv hγ hT hc (hasDerivAt_const (0 : ℝ) (x - q.u_a * t))
      (hasDerivAt_const (0 : ℝ) (y - q.v_a * t))
    have h1 := mul_pos hρ (Real.rpow_pos_of_pos (div_pos h hT) (1 / (γ - 1)))
    exact ⟨h1, mul_pos h1 h⟩
  refine ⟨fun x y z t => ?_, hpos, fun p n x y z hp => by
    simp only [prescribed2, movingVortex, mul_zero, sub_zero, hp]⟩
  obtain ⟨hTp, dx⟩ := vortex_deriv (γ := γ) (q := q) (s := x) hγ hT hc
    (f := fun ξ => ξ - q.u_a * t) (g := fun _ => y - q.v_a * t) ((hasDerivAt_id x).sub_const _)
    (hasDerivAt_const _ _)
  obtain ⟨-, dy⟩ := vortex_deriv (γ := γ) (q := q) (s := y) hγ hT hc
    (f := fun _ => x - q.u_a * t) (g := fun η => η - q.v_a * t) (hasDerivAt_const _ _)
    ((hasDerivAt_id y).sub_const _)
  obtain ⟨-, dt⟩ := vortex_deriv (γ := γ) (q := q) (s := t) hγ hT hc
    (f := fun τ => x - q.u_a * τ) (g := fun τ => y - q.v_a * τ)
    (((hasDerivAt_id t).const_mul q.u_a).const_sub x) (((hasDerivAt_id t).const_mul q.v_a).const_sub y)
  have dz : HasDerivHS (fun ζ => movingVortex γ q x y ζ t) ⟨0, 0, 0, 0, 0⟩ z :=
    ⟨hasDerivAt_const _ _, hasDerivAt_const _ _, hasDerivAt_const _ _, hasDerivAt_const _ _,
      hasDerivAt_const _ _⟩
  refine ⟨_, _, _, _, eulerAt_of_primitive (by linarith) (hpos x y z t).1.ne' dx dy dz ?_⟩
  refine (show HasDerivHS (fun τ => movingVortex γ q x y z τ) _ t from dt).congr ?_
  have hd := (hpos x y z t).1.ne'
  have e1 : (movingVortex γ q x y z t).p = (movingVortex γ q x y z t).d * vortexTemp γ q
    ((x - q.u_a * t - q.vortex_x) ^ 2 + (y - q.v_a * t - q.vortex_y) ^ 2) := rfl
  have e2 : (movingVortex γ q x y z t).u = q.u_a - (y - q.v_a * t - q.vortex_y) * (q.beta / (2 * Real.pi) *
    Real.exp ((1 - ((x - q.u_a * t - q.vortex_x) ^ 2 + (y - q.v_a * t - q.vortex_y) ^ 2)) / 2)) := rfl
  have e3 : (movingVortex γ q x y z t).v = q.v_a + (x - q.u_a * t - q.vortex_x) * (q.beta / (2 * Real.pi) *
    Real.exp ((1 - ((x - q.u_a * t - q.vortex_x) ^ 2 + (y - q.v_a * t - q.vortex_y) ^ 2)) / 2)) := rfl
  have e4 : (movingVortex γ q x y z t).w = 0 := rfl
  have e5 : vortexState γ q (x - q.u_a * t) (y - q.v_a * t) = movingVortex γ q x y z t := rfl
  simp only [primRate, e5]
  rw [e1, e2, e3, e4]
  revert hd hTp
  generalize (movingVortex γ q x y z t).d = ρ
  generalize vortexTemp γ q ((x - q.u_a * t - q.vortex_x) ^ 2 + (y - q.v_a * t - q.vortex_y) ^ 2) = T
  generalize q.beta / (2 * Real.pi) *
    Real.exp ((1 - ((x - q.u_a * t - q.vortex_x) ^ 2 + (y - q.v_a * t - q.vortex_y) ^ 2)) / 2) = ω
  intro hTp hd
  have hγ0 : γ ≠ 0 := by linarith
  have hT0 := hTp.ne'
  refine HS.ext ?_ ?_ ?_ ?_ ?_ <;> simp only <;> field_simp <;> ring

/-- a steady rotating flow in mechanical equilibrium solves the Euler equations -/
theorem steady_rotation {γ ρ : ℝ} (hγ : γ ≠ 1) (hρ : ρ ≠ 0) {V P : ℝ → ℝ} {V' x y : ℝ} (z t : ℝ)
    (hV : HasDerivAt V V' (x ^ 2 + y ^ 2)) (hP : HasDerivAt P (ρ * V (x ^ 2 + y ^ 2) ^ 2 / 2) (x ^ 2 + y ^ 2)) :
    ∃ gx gy gz, EulerAt γ (fun x y _ _ => (⟨ρ, P (x ^ 2 + y ^ 2), -(y * V (x ^ 2 + y ^ 2)),
      x * V (x ^ 2 + y ^ 2), 0⟩ : HS ℝ)) x y z t gx gy gz ⟨0, 0, 0, 0, 0⟩ := by
  have sx : HasDerivAt (fun ξ : ℝ => ξ ^ 2 + y ^ 2) (2 * x) x := by
    simpa using (hasDerivAt_sq (hasDerivAt_id x)).add_const (y ^ 2)
  have sy : HasDerivAt (fun η : ℝ => x ^ 2 + η ^ 2) (2 * y) y := by
    simpa using (hasDerivAt_sq (hasDerivAt_id y)).const_add (x ^ 2)
  have Vx := hV.comp x sx
  have Vy := hV.comp y sy
  have Px := hP.comp x sx
  have Py := hP.comp y sy
  have dx : HasDerivHS (fun ξ => (⟨ρ, P (ξ ^ 2 + y ^ 2), -(y * V (ξ ^ 2 + y ^ 2)), ξ * V (ξ ^ 2 + y ^ 2), 0⟩ : HS ℝ))
      ⟨0, _, _, _, 0⟩ x :=
    ⟨hasDerivAt_const _ _, Px, (Vx.const_mul y).neg, (hasDerivAt_id x).mul Vx, hasDerivAt_const _ _⟩
  have dy : HasDerivHS (fun η => (⟨ρ, P (x ^ 2 + η ^ 2), -(η * V (x ^ 2 + η ^ 2)), x * V (x ^ 2 + η ^ 2), 0⟩ : HS ℝ))
      ⟨0, _, _, _, 0⟩ y :=
    ⟨hasDerivAt_const _ _, Py, ((hasDerivAt_id y).mul Vy).neg, Vy.const_mul x, hasDerivAt_const _ _⟩
  have d0 : ∀ (s : HS ℝ) (a : ℝ), HasDerivHS (fun _ => s) ⟨0, 0, 0, 0, 0⟩ a := fun s a =>
    ⟨hasDerivAt_const _ _, hasDerivAt_const _ _, hasDerivAt_const _ _, hasDerivAt_const _ _,
      hasDerivAt_const _ _⟩
  have e : primRate γ (⟨ρ, P (x ^ 2 + y ^ 2), -(y * V (x ^ 2 + y ^ 2)), x * V (x ^ 2 + y ^ 2), 0⟩ : HS ℝ)
      ⟨0, ρ * V (x ^ 2 + y ^ 2) ^ 2 / 2 * (2 * x), -(y * (V' * (2 * x))), 1 * V (x ^ 2 + y ^ 2) + x * (V' * (2 * x)), 0⟩
      ⟨0, ρ * V (x ^ 2 + y ^ 2) ^ 2 / 2 * (2 * y), -(1 * V (x ^ 2 + y ^ 2) + y * (V' * (2 * y))), x * (V' * (2 * y)), 0⟩
      ⟨0, 0, 0, 0, 0⟩ = ⟨0, 0, 0, 0, 0⟩ := by
    simp only [primRate, HS.mk.injEq]
    refine ⟨?_, ?_, ?_, ?_, ?_⟩ <;> field_simp <;> ring
  have h := eulerAt_of_primitive (γ := γ) (W := fun x y _ _ => (⟨ρ, P (x ^ 2 + y ^ 2),
    -(y * V (x ^ 2 + y ^ 2)), x * V (x ^ 2 + y ^ 2), 0⟩ : HS ℝ)) (t := t) hγ (by exact hρ) dx dy (d0 _ z)
    ((d0 _ t).congr e.symm)
  exact ⟨_, _, _, h.congr e⟩

theorem gresho_as_rotation (γ : ℝ) (q : GreshoParams ℝ) : greshoState γ q = fun x y =>
    (⟨q.rho0, (fun s => greshoPres (q.rho0 / (γ * q.Ma ^ 2)) (Real.sqrt s)) (x ^ 2 + y ^ 2),
      -(y * (fun s => greshoVel (Real.sqrt s) / Real.sqrt s) (x ^ 2 + y ^ 2)),
      x * (fun s => greshoVel (Real.sqrt s) / Real.sqrt s) (x ^ 2 + y ^ 2), 0⟩ : HS ℝ) := by
  funext x y
  simp only [greshoState, HS.mk.injEq]
  refine ⟨trivial, trivial, ?_, ?_, trivial⟩ <;> ring

open Filter Topology in
/-- **C58, the Gresho vortex is exact**: with unit density the 2D state is a steady solution of the Euler
equations in the core, in the ring and outside. -/
theorem C58_gresho_exact {γ : ℝ} (hγ : γ ≠ 1) {q : GreshoParams ℝ} (hq : q.rho0 = 1) {x y : ℝ}
    (hr0 : Real.sqrt (x ^ 2 + y ^ 2) ≠ 0) (hr1 : Real.sqrt (x ^ 2 + y ^ 2) ≠ 1 / 5)
    (hr2 : Real.sqrt (x ^ 2 + y ^ 2) ≠ 2 / 5) (z t : ℝ) :
    ∃ gx gy gz, EulerAt γ (fun x y _ _ => greshoState γ q x y) x y z t gx gy gz ⟨0, 0, 0, 0, 0⟩ := by
  rw [gresho_as_rotation]
  generalize q.rho0 / (γ * q.Ma ^ 2) = p0
  rw [hq]
  set s := x ^ 2 + y ^ 2 with hs
  have hs0 : s ≠ 0 := fun h => hr0 (by rw [h, Real.sqrt_zero])
  have hsp : 0 < s := lt_of_le_of_ne (by positivity) (Ne.symm hs0)
  have hrp : 0 < Real.sqrt s := Real.sqrt_pos.2 hsp
  have hc : ContinuousAt Real.sqrt s := Real.continuous_sqrt.continuousAt
  have hsq := Real.hasDerivAt_sqrt hs0
  have hss : Real.sqrt s ^ 2 = s := Real.sq_sqrt hsp.le
  have hspos : ∀ᶠ a in 𝓝 s, 0 < a := lt_mem_nhds hsp
  rcases lt_or_ge (Real.sqrt s) (1 / 5) with h1 | h1
  · have ev : ∀ᶠ a in 𝓝 s, 0 < a ∧ Real.sqrt a < 1 / 5 := hspos.and (hc.eventually (gt_mem_nhds h1))
    refine steady_rotation (V := fun s => greshoVel (Real.sqrt s) / Real.sqrt s)
        (P := fun s => greshoPres p0 (Real.sqrt s)) (x := x) (y := y) (V' := 0) hγ one_ne_zero z t ?_ ?_
    · refine (hasDerivAt_const s (5 : ℝ)).congr_of_eventuallyEq (ev.mono fun a ha => ?_)
      have := (Real.sqrt_pos.2 ha.1).ne'
      simp only [greshoVel, if_pos ha.2]
      field_simp
    · have hV : greshoVel (Real.sqrt s) / Real.sqrt s = 5 := by
        simp only [greshoVel, if_pos h1]
        field_simp
      simp only [← hs, hV]
      refine (((hasDerivAt_id s).const_mul (25 / 2 : ℝ)).const_add p0).congr_of_eventuallyEq
        (ev.mono fun a ha => ?_) |>.congr_deriv (by norm_num)
      simp only [greshoPres, if_pos ha.2, Real.sq_sqrt ha.1.le, id]
  · have h1' : 1 / 5 < Real.sqrt s := lt_of_le_of_ne h1 (Ne.symm hr1)
    have ev1 : ∀ᶠ a in 𝓝 s, 0 < a ∧ 1 / 5 < Real.sqrt a := hspos.and (hc.eventually (lt_mem_nhds h1'))
    rcases lt_or_ge (Real.sqrt s) (2 / 5) with h2 | h2
    · have ev : ∀ᶠ a in 𝓝 s, (0 < a ∧ 1 / 5 < Real.sqrt a) ∧ Real.sqrt a < 2 / 5 :=
        ev1.and (hc.eventually (gt_mem_nhds h2))
      have dV := ((hsq.inv hrp.ne').const_mul (2 : ℝ)).sub_const 5
      refine steady_rotation (V := fun s => greshoVel (Real.sqrt s) / Real.sqrt s)
        (P := fun s => greshoPres p0 (Real.sqrt s)) (x := x) (y := y) hγ one_ne_zero z t (dV.congr_of_eventuallyEq (ev.mono fun a ha => ?_)) ?_
      · have := (Real.sqrt_pos.2 ha.1.1).ne'
        simp only [greshoVel, if_neg (not_lt.2 ha.1.2.le), if_pos ha.2, Pi.inv_apply]
        field_simp
      · have hV : greshoVel (Real.sqrt s) / Real.sqrt s = 2 / Real.sqrt s - 5 := by
          simp only [greshoVel, if_neg (not_lt.2 h1), if_pos h2]
          field_simp
        simp only [← hs, hV]
        have dP := (((hasDerivAt_id s).const_mul (25 / 2 : ℝ)).const_add p0).add
          ((((hsq.const_mul (5 : ℝ)).const_sub 1).sub_const (Real.log (1 / 5))).add
            (hsq.log hrp.ne') |>.const_mul (4 : ℝ))
        refine dP.congr_of_eventuallyEq (ev.mono fun a ha => ?_) |>.congr_deriv ?_
        · simp only [greshoPres, if_neg (not_lt.2 ha.1.2.le), if_pos ha.2, Real.sq_sqrt ha.1.1.le, id,
            Pi.add_apply]
        · have e : (1 : ℝ) / s = 1 / Real.sqrt s ^ 2 := by rw [hss]
          field_simp
          ring
    · have h2' : 2 / 5 < Real.sqrt s := lt_of_le_of_ne h2 (Ne.symm hr2)
      have ev : ∀ᶠ a in 𝓝 s, (0 < a ∧ 1 / 5 < Real.sqrt a) ∧ 2 / 5 < Real.sqrt a :=
        ev1.and (hc.eventually (lt_mem_nhds h2'))
      refine steady_rotation (V := fun s => greshoVel (Real.sqrt s) / Real.sqrt s)
        (P := fun s => greshoPres p0 (Real.sqrt s)) (x := x) (y := y) (V' := 0) hγ one_ne_zero z t ?_ ?_
      · refine (hasDerivAt_const s (0 : ℝ)).congr_of_eventuallyEq (ev.mono fun a ha => ?_)
        simp only [greshoVel, if_neg (not_lt.2 ha.1.2.le), if_neg (not_lt.2 ha.2.le), zero_div]
      · have hV : greshoVel (Real.sqrt s) / Real.sqrt s = 0 := by
          simp only [greshoVel, if_neg (not_lt.2 h1), if_neg (not_lt.2 h2), zero_div]
        simp only [← hs, hV]
        refine (hasDerivAt_const s (p0 - 2 + 4 * Real.log 2)).congr_of_eventuallyEq
          (ev.mono fun a ha => ?_) |>.congr_deriv (by norm_num)
        simp only [greshoPres, if_neg (not_lt.2 ha.1.2.le), if_neg (not_lt.2 ha.2.le)]

/-! ### Where the code sets up something else -/

/-- **C58, implode**: the velocities of the configuration file are stored in the momentum components, so the run
starts with the velocity divided by the density. -/
theorem C58_implode_velocity_divided {M : MathLib ℝ} {p : Params ℝ} (n : Nat → ℝ) (x y : ℝ)
    {q : ImplodeParams ℝ} (ho : p.settings.smallr ≤ q.rho_out) (hi : p.settings.smallr ≤ q.rho_in) :
    ∃ U, hydroCell2 M p n x y (.implode q) = some U ∧
      let s := prescribed2 p n x y (.implode q)
      let r := (computePrimitives2 p.settings U).1
      r.d = s.d ∧ r.u = s.u / s.d ∧ r.v = s.v / s.d := by
  refine ⟨_, rfl, ?_⟩
  simp only [prescribed2, implode2]
  have e : ∀ (b : Bool) (P : Prop) [Decidable P], (b = true ↔ P) → ∀ s t : HS ℝ,
      (if b = true then s else t) = if P then s else t := fun b P _ h s t => by
    by_cases hP : P <;> simp [h, hP]
  rw [e _ (if q.shape = 1 then 1 / 2 < x + y ^ 2 ∧ x + y ^ 2 < 3 / 2
    else (p.xmin + p.xmax) / 2 + p.ymin < x + y) (by split_ifs <;> simp [pow_two])]
  split_ifs <;> simp [computePrimitives2, RealOps.fmax_real, ho, hi]

/-- **C58, Rayleigh-Taylor**: the energy leaves out the kinetic energy of the perturbation: where the result is
above the floors, the run starts with a pressure too low by `(γ - 1) ρ v² / 2`. -/
theorem C58_rayleigh_taylor_pressure_deficit {M : MathLib ℝ} (hM : ExactMath M) {p : Params ℝ}
    (hs : GoodSettings p.settings) (n : Nat → ℝ) (x y : ℝ) {q : RTParams ℝ} :
    ∃ U, hydroCell2 M p n x y (.rayleighTaylor q) = some U ∧
      let s := prescribed2 p n x y (.rayleighTaylor q)
      let deficit := (p.settings.gamma0 - 1) * s.d * s.v ^ 2 / 2
      p.settings.smallr ≤ s.d → s.d * p.settings.smallp ≤ s.p - deficit →
        (computePrimitives2 p.settings U).1 = { s with p := s.p - deficit } := by
  refine ⟨_, rfl, ?_⟩
  intro s deficit h1 h2
  have e : rayleigh2 M p q x y = toCons p.settings.gamma0 { s with p := s.p - deficit } := by
    have hg : p.settings.gamma0 - 1 ≠ 0 := by linarith [hs.gamma]
    simp only [deficit, s, rayleigh2, prescribed2, toCons, HS.mk.injEq, RealOps.lit_real, RealOps.lt_real,
      hM.cos, hM.pi]
    push_cast
    by_cases hy : y ≤ (p.ymin + p.ymax) / 2
    · rw [if_pos hy, if_neg (not_lt.2 hy)]
      refine ⟨rfl, ?_, ?_, ?_, ?_⟩ <;> field_simp <;> ring
    · rw [if_neg hy, if_pos (not_le.1 hy)]
      refine ⟨rfl, ?_, ?_, ?_, ?_⟩ <;> field_simp <;> ring
  rw [e]
  exact (C18_inverse_2d hs).1 _ ⟨h1, h2⟩ rfl

/-- **C58, Gresho 3D**: the third momentum receives the value of the second: the flow set up in 3D is not the
vortex, wherever the second velocity is not zero. -/
theorem C58_gresho_3d_wrong {M : MathLib ℝ} (hM : ExactMath M) {p : Params ℝ} (n : Nat → ℝ) (x y z : ℝ)
    {q : GreshoParams ℝ} (hd : q.rho0 ≠ 0) :
    ∃ U, hydroCell3 M p n x y z (.gresho q) = some U ∧
      U.w = U.v ∧ U.v = q.rho0 * (prescribed3 p n x y z (.gresho q)).v ∧
      ((prescribed3 p n x y z (.gresho q)).v ≠ 0 →
        U ≠ toCons p.settings.gamma0 (prescribed3 p n x y z (.gresho q))) := by
  refine ⟨_, rfl, rfl, ?_, ?_⟩
  all_goals
    obtain ⟨a1, a2⟩ := angle_vel hM x y
    have e1 : x * x + y * y = x ^ 2 + y ^ 2 := by ring
    simp only [prescribed3, greshoState, gresho3, gresho_profile_eq hM, hM.sin, hM.cos, RealOps.sqrt_real,
      toCons]
    rw [e1, a2]
  intro h hU
  have h5 := congrArg HS.w hU
  simp only [mul_zero] at h5
  exact mul_ne_zero hd h h5

/-- **C58, configuration 18**: the table has an entry, but its `case` falls through into the default. -/
theorem C58_configuration_18_ignored :
    getRiemannConfig2d (R := ℝ) 18 = lax2_default ∧ ∃ f, lax2 (R := ℝ) 18 = some f ∧ f 1 ≠ lax2_default 1 := by
  refine ⟨rfl, _, rfl, fun h => ?_⟩
  have := congrArg HS.d h
  norm_num [lax2_18, lax2_default, RealOps.lit_real] at this

/-- **C58, Kelvin-Helmholtz without a perturbation**: nothing is stored; the run starts from the zero state of
freshly allocated memory. -/
theorem C58_kelvin_helmholtz_unset {M : MathLib ℝ} {p : Params ℝ} {rnd : Int → Int → Int → Nat → ℝ}
    {q : KHParams ℝ} (h1 : q.p_rand = false) (h2 : q.p_sine_rob = false) {m : Mem Arr ℝ}
    (hm : runLaunches (initHydro2 M p (0, 0, 0) rnd (.kelvinHelmholtz q)) freshMem m) (i j : Int) :
    hs2 m .U i j = ⟨0, 0, 0, 0, 0⟩ := by
  rw [initHydro2_iff] at hm
  have hv : ∀ v < 4, m ⟨.U, i, j, 0, v⟩ = 0 := by
    intro v hv
    rw [hm]
    beta_reduce
    by_cases hc : (i, j) ∈ range2 p.isize p.jsize
    · rw [if_pos ⟨Or.inl rfl, hc⟩, run_hydroInit2_U _ _ _ _ _ _ _ _ _ hv]
      simp [hydroCell2, kh2, h1, h2, freshMem]
    · rw [if_neg (fun h => hc h.2)]
      simp [freshMem]
  refine HS.ext ?_ ?_ ?_ ?_ ?_
  · exact hv ID (by decide)
  · exact hv IP (by decide)
  · exact hv IU (by decide)
  · exact hv IV (by decide)
  · simp [hs2]

/-- the smooth shear layer mixes the two fluids: the density lies between the two given ones -/
theorem C58_shear_layer_density {p : Params ℝ} (n : Nat → ℝ) (x y : ℝ) {q : KHParams ℝ} (h1 : q.p_rand = false)
    (hδ : 0 < q.delta) :
    min q.d_in q.d_out ≤ (prescribed2 p n x y (.kelvinHelmholtz q)).d ∧
    (prescribed2 p n x y (.kelvinHelmholtz q)).d ≤ max q.d_in q.d_out := by
  have h : 0 < shearRamp q.delta y ∧ shearRamp q.delta y ≤ 1 := by
    unfold shearRamp
    have ha := Real.exp_pos ((y - 1 / 4) / (q.delta / 2))
    have hb := Real.exp_pos ((3 / 4 - y) / (q.delta / 2))
    have hab : 1 ≤ Real.exp ((y - 1 / 4) / (q.delta / 2)) * Real.exp ((3 / 4 - y) / (q.delta / 2)) := by
      rw [← Real.exp_add, Real.one_le_exp_iff, ← add_div]
      refine div_nonneg ?_ (by linarith)
      linarith
    revert ha hb hab
    generalize Real.exp ((y - 1 / 4) / (q.delta / 2)) = a
    generalize Real.exp ((3 / 4 - y) / (q.delta / 2)) = b
    intro ha hb hab
    refine ⟨by positivity, ?_⟩
    rw [inv_eq_one_div, inv_eq_one_div, div_add_div _ _ (by positivity) (by positivity), div_le_one (by positivity)]
    nlinarith
  obtain ⟨h0, h1'⟩ := h
  simp only [prescribed2, h1, Bool.false_eq_true, if_false]
  revert h0 h1'
  generalize shearRamp q.delta y = a
  intro h0 h1'
  have m1 := min_le_left q.d_in q.d_out
  have m2 := min_le_right q.d_in q.d_out
  have m3 := le_max_left q.d_in q.d_out
  have m4 := le_max_right q.d_in q.d_out
  constructor <;> nlinarith

/-- the mathematical functions -/
noncomputable def exactMath : MathLib ℝ where
  pi := Real.pi
  sin := Real.sin
  cos := Real.cos
  exp := Real.exp
  log := Real.log
  atan2 := fun y x => Complex.arg ⟨x, y⟩
  pow := fun x y => x ^ y
  asin := Real.arcsin
  narrow := id

theorem exactMath_exact : ExactMath exactMath := by
  refine ⟨rfl, rfl, rfl, rfl, rfl, fun _ _ => rfl, rfl, fun x y => ?_, fun x y => ?_⟩
  · have := Complex.norm_mul_cos_arg ⟨x, y⟩
    rwa [Complex.norm_eq_sqrt_sq_add_sq] at this
  · have := Complex.norm_mul_sin_arg ⟨x, y⟩
    rwa [Complex.norm_eq_sqrt_sq_add_sq] at this

/-- Non-vacuity: a blast on the sample grid starts from the prescribed state. -/
example : ∃ m : Mem Arr ℝ, runLaunches (initHydro2 exactMath (sample .periodic .periodic) (0, 0, 0)
      (fun _ _ _ _ => 0) (.blast ⟨1, 0, 0, 0, 2, 1, 10, 1, 0, 0, 0, 0, 0, 0⟩)) freshMem m ∧
    hs2 m .U 2 2 = toCons (sample .periodic .periodic).settings.gamma0
      (prescribed2 (sample .periodic .periodic) (fun _ => 0)
        (centre (sample .periodic .periodic).xmin (sample .periodic .periodic).dx
          (sample .periodic .periodic).ghostWidth 2)
        (centre (sample .periodic .periodic).ymin (sample .periodic .periodic).dy
          (sample .periodic .periodic).ghostWidth 2)
        (.blast ⟨1, 0, 0, 0, 2, 1, 10, 1, 0, 0, 0, 0, 0, 0⟩)) := by
  refine ⟨_, (initHydro2_iff _ _ _ _ _ _ _).2 rfl, ?_⟩
  refine (C58_initial_state_2d exactMath_exact (sample_hydro2 _ _) (q := .blast _) (rnd := fun _ _ _ _ => 0)
    (by show (0 : ℝ) ≤ 1; norm_num) ((initHydro2_iff _ _ _ _ _ _ _).2 rfl) (i := 2) (j := 2) ?_).1
  have hn : (sample .periodic .periodic).nx = 4 := rfl
  have hn' : (sample .periodic .periodic).ny = 3 := rfl
  have hg : (sample .periodic .periodic).ghostWidth = 2 := rfl
  refine ⟨by norm_num, ?_, by norm_num, ?_⟩ <;> simp only [hn, hn', hg] <;> norm_num

/-- Non-vacuity: the default vortex of the code (strength 5, γ = 1.4) satisfies the hypotheses of
`C58_isentropic_vortex_exact`. -/
example : let q : VortexParams ℝ := ⟨1, 1, 1, 1, 0, 0, 5⟩
    (7 / 5 - 1) * q.beta ^ 2 / (8 * (7 / 5) * Real.pi ^ 2) * Real.exp 1 < q.T_a := by
  intro q
  have h1 := Real.exp_one_lt_d9
  have h2 := Real.pi_gt_three
  simp only [q]
  rw [div_mul_eq_mul_div, div_lt_one (by positivity)]
  nlinarith

end EulerKokkos
