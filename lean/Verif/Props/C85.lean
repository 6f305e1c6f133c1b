import Verif.Lemmas.Wedge
import Verif.Props.C58
import Verif.Props.Sample

/-!
# C85 — the double Mach reflection border; the inflow states of the wedge and jet problems
-/

set_option linter.constructorNameAsVariable false
set_option linter.unusedSectionVars false
set_option linter.unusedSimpArgs false

namespace EulerKokkos
open Spec

section generic
variable {R : Type} [RealOps R]

/-- **C85, no out-of-bounds access**: no iteration of any face touches anything but cells of the grid. -/
theorem C85_in_bounds {p : Params R} (hw : p.WF) (hn : p.nbvar = 4) (w : WedgeParams R) (U : Arr) (f : Face)
    (t : Int) (ht : 0 ≤ t) :
    (makeBoundaryWedge p w U f t).Safe
      (fun l => l.arr = U ∧ l.k = 0 ∧ inGrid2 p l.i l.j ∧ l.v < 4) := by
  have hgw := hw.gw_pos
  have hx := hw.nx_pos
  have hy := hw.ny_pos
  have hI := hw.isize_eq
  have hJ := hw.jsize_eq
  obtain ⟨dec, enc, h1, h2, h3⟩ := wedgeCode w U hw f
  rw [h1 t ht]
  refine Prog.foot_ite (fun hg => ?_) (fun _ => Prog.foot_pure _ _ _ _)
  refine Prog.foot_mono (fun l h => h.2) ?_ (fun l h => h.elim) (wedgeCell_foot w U hw hn f _ hg)
  rintro ⟨a, i, j, k, v⟩ ⟨h4, h5, h6⟩
  rw [← h5] at hg
  simp only [cellOf] at hg
  refine ⟨h4, hg.1, ?_, h6⟩
  cases f <;> simp only [G2] at hg <;> (try exact hg.2.elim) <;>
    (refine ⟨?_, ?_, ?_, ?_⟩ <;> simp only <;> omega)

/-- **C85, the ghost cells**: whatever the schedule, filling the border gives one result: the interior and the
other arrays are untouched, and the grid holds the filled field of the specification — inflow on the left and on
the foot of the lower side, mirror image on the rest of the lower side, inflow behind the front on the upper
side, zero-gradient elsewhere. -/
theorem C85_ghost_fill {p : Params R} (hw : p.WF) (hn : p.nbvar = 4) (hS : SignLaws R)
    (w : WedgeParams R) (U : Arr) (m : Mem Arr R) :
    (∃ m', wedgeBoundaries p w U m m') ∧
    ∀ m', wedgeBoundaries p w U m m' →
      (∀ l : Loc Arr, (l.arr ≠ U ∨ interior2 p l.i l.j ∨ ¬ inGrid2 p l.i l.j ∨ l.k ≠ 0 ∨ 4 ≤ l.v) →
        m' l = m l) ∧
      ∀ i j v, inGrid2 p i j → v < 4 →
        m' ⟨U, i, j, 0, v⟩ = (wedgeFilled p (fun i => RealOps.lt (wedgeX p i) w.x_f = true)
          (fun i j => RealOps.lt (wedgeX p i) (w.x_f + wedgeY p j / w.slope_f + w.delta_x) = true) w.s1
          (hs2 m U) i j).get v := by
  have hgw := hw.gw_pos
  have hx := hw.nx_pos
  have hy := hw.ny_pos
  have hI := hw.isize_eq
  have hJ := hw.jsize_eq
  have hK := (wedgeK_is w U hw hn .xmin).seq ((wedgeK_is w U hw hn .xmax).seq
    ((wedgeK_is w U hw hn .ymin).seq ((wedgeK_is w U hw hn .ymax).seq Kern.Is.skip)))
  refine ⟨⟨_, (hK m _).2 rfl⟩, fun m' h => ?_⟩
  obtain rfl := (hK m m').1 h
  simp only [Function.comp, id]
  refine ⟨?_, ?_⟩
  · rintro ⟨a, i, j, k, v⟩ hl
    have hn : ∀ f : Face, ¬ (a = U ∧ G2 p f (i, j, k) ∧ v < 4) := by
      rintro f ⟨ha, hg, hv⟩
      simp only [inGrid2, interior2] at hl
      have := hg.1
      simp only at this
      rcases hl with hl | hl | hl | hl | hl
      · exact hl ha
      · cases f <;> simp only [G2] at hg <;> (try exact hg.2.elim) <;> omega
      · cases f <;> simp only [G2] at hg <;> (try exact hg.2.elim) <;> omega
      · exact hl this
      · omega
    rw [wedgeFace_off w U (hn .ymax), wedgeFace_off w U (hn .ymin), wedgeFace_off w U (hn .xmax),
      wedgeFace_off w U (hn .xmin)]
  · intro i j v hij hv
    obtain ⟨hi0, hi1, hj0, hj1⟩ := hij
    have hget : ∀ a b, (hs2 m U a b).get v = m ⟨U, a, b, 0, v⟩ := by
      intro a b
      match v, hv with
      | 0, _ | 1, _ | 2, _ | 3, _ => rfl
    -- rows after the two x faces
    have hX : ∀ a b, 0 ≤ a → a < p.isize → 0 ≤ b → b < p.jsize →
        wedgeFace p w U .xmax (wedgeFace p w U .xmin m) ⟨U, a, b, 0, v⟩ =
          (wedgeRow p w.s1 (hs2 m U) a b).get v := by
      intro a b ha0 ha1 hb0 hb1
      rw [wedgeFace_eval w U _ _ _ _ hv, wedgeFace_eval w U _ _ _ _ hv]
      unfold wedgeRow
      by_cases c1 : a < p.ghostWidth
      · rw [if_neg (by simp only [G2]; omega), if_pos ⟨rfl, ha0, c1, hb0, hb1⟩, if_pos c1]
        rfl
      · rw [if_neg c1]
        by_cases c2 : p.ghostWidth + p.nx ≤ a
        · rw [if_pos ⟨rfl, by simp only; omega, ha1, hb0, hb1⟩, if_pos c2, hget]
          simp only [wedgeVal]
          rw [wedgeFace_eval w U _ _ _ _ hv, if_neg (by simp only [G2]; omega)]
          congr 2; omega
        · rw [if_neg (by simp only [G2]; omega), if_neg (by simp only [G2]; omega), if_neg c2, hget]
    unfold wedgeFilled
    rw [wedgeFace_eval w U _ _ _ _ hv]
    by_cases c1 : j < p.ghostWidth
    · rw [if_neg (by simp only [G2]; omega), wedgeFace_eval w U _ _ _ _ hv,
        if_pos ⟨rfl, hj0, c1, hi0, by simp only; omega⟩, if_pos c1]
      simp only [wedgeVal]
      by_cases c2 : RealOps.lt (wedgeX p i) w.x_f = true
      · rw [if_pos c2, if_pos c2]
      · rw [if_neg c2, if_neg c2, hX i (2 * p.ghostWidth - 1 - j) hi0 (by omega) (by omega) (by omega)]
        match v, hv with
        | 0, _ | 1, _ | 2, _ => exact hS.mul_one _
        | 3, _ => exact hS.mul_neg_one _
    · rw [if_neg c1]
      by_cases c2 : p.ghostWidth + p.ny ≤ j
      · rw [if_pos ⟨rfl, by simp only; omega, by simp only; omega, hi0, by simp only; omega⟩, if_pos c2]
        simp only [wedgeVal]
        by_cases c3 : RealOps.lt (wedgeX p i) (w.x_f + wedgeY p j / w.slope_f + w.delta_x) = true
        · rw [if_pos c3, if_pos c3]
        · rw [if_neg c3, if_neg c3, wedgeFace_eval w U _ _ _ _ hv, if_neg (by simp only [G2]; omega),
            hX i (p.ny + p.ghostWidth - 1) hi0 (by omega) (by omega) (by omega)]
          congr 2; omega
      · rw [if_neg (by simp only [G2]; omega), wedgeFace_eval w U _ _ _ _ hv,
          if_neg (by simp only [G2]; omega), if_neg c2, hX i j hi0 (by omega) (by omega) (by omega)]

end generic

/-- the comparison of the upper side is the position relative to the moving front -/
theorem front_iff {x_f α S t x y : ℝ} (h0 : 0 < α) (h1 : α < Real.pi) :
    x < x_f + y / Real.tan α + S / Real.cos (Real.pi / 2 - α) * t ↔ Behind x_f α S t x y := by
  have hs := Real.sin_pos_of_pos_of_lt_pi h0 h1
  rw [Real.cos_pi_div_two_sub, Real.tan_eq_sin_div_cos]
  unfold Behind
  have e : x_f + y / (Real.sin α / Real.cos α) + S / Real.sin α * t =
      (x_f * Real.sin α + y * Real.cos α + S * t) / Real.sin α := by
    rw [div_div_eq_mul_div]; field_simp
  rw [e, lt_div_iff₀ hs]
  constructor <;> intro h <;> linarith

/-- **C85, the border of a run**: with the parameters read from the configuration at time `t`, on the upper side the
inflow state fills exactly the cells whose centre is behind the oblique shock front at time `t` — the front of the
configuration (position `front_x`, angle `front_angle`) after moving along its normal with the configured speed —
and on the lower side those left of `front_x`. -/
theorem C85_border_follows_the_shock {M : MathLib ℝ} (hM : ExactMath M) {tan : ℝ → ℝ} (htan : tan = Real.tan)
    (F : FloatLib ℝ) (c : Ini.Reader) (t : ℝ) {p : Params ℝ} (hw : p.WF) (hn : p.nbvar = 4) (U : Arr)
    (m m' : Mem Arr ℝ)
    (h0 : 0 < (wedgeParams F M tan c t).angle_f) (h1 : (wedgeParams F M tan c t).angle_f < Real.pi)
    (hm : wedgeBoundaries p (wedgeParams F M tan c t) U m m') :
    ∀ i j v, inGrid2 p i j → v < 4 →
      m' ⟨U, i, j, 0, v⟩ = (wedgeFilled p
        (fun i => centre p.xmin p.dx p.ghostWidth i < cfgFloat F c "wedge" "front_x" (1 / 10))
        (fun i j => Behind (cfgFloat F c "wedge" "front_x" (1 / 10)) (wedgeParams F M tan c t).angle_f
          (cfgFloat F c "wedge" "shock_speed" 10) t (centre p.xmin p.dx p.ghostWidth i)
          (centre p.ymin p.dy p.ghostWidth j))
        (wedgeParams F M tan c t).s1 (hs2 m U) i j).get v := by
  have h := ((C85_ghost_fill hw hn signLaws_real (wedgeParams F M tan c t) U m).2 m' hm).2
  have hX : ∀ i, wedgeX p i = centre p.xmin p.dx p.ghostWidth i := by
    intro i; simp [wedgeX, intLit, centre]; ring
  have hY : ∀ i, wedgeY p i = centre p.ymin p.dy p.ghostWidth i := by
    intro i; simp [wedgeY, intLit, centre]; ring
  have e1 : (fun i => RealOps.lt (wedgeX p i) (wedgeParams F M tan c t).x_f = true) =
      (fun i => centre p.xmin p.dx p.ghostWidth i < cfgFloat F c "wedge" "front_x" (1 / 10)) := by
    funext i; rw [hX]; simp [RealOps.lt_real, wedgeParams]
  have e2 : (fun i j => RealOps.lt (wedgeX p i) ((wedgeParams F M tan c t).x_f + wedgeY p j /
        (wedgeParams F M tan c t).slope_f + (wedgeParams F M tan c t).delta_x) = true) =
      (fun i j => Behind (cfgFloat F c "wedge" "front_x" (1 / 10)) (wedgeParams F M tan c t).angle_f
          (cfgFloat F c "wedge" "shock_speed" 10) t (centre p.xmin p.dx p.ghostWidth i)
          (centre p.ymin p.dy p.ghostWidth j)) := by
    funext i j
    rw [hX, hY, ← front_iff h0 h1]
    simp only [RealOps.lt_real, decide_eq_true_eq, eq_iff_iff]
    have : (wedgeParams F M tan c t).delta_x = cfgFloat F c "wedge" "shock_speed" 10 /
        Real.cos (Real.pi / 2 - (wedgeParams F M tan c t).angle_f) * t := by
      simp [wedgeParams, hM.pi, hM.cos]
    rw [this]
    simp only [wedgeParams, htan]
  rw [e1, e2] at h
  exact h

/-! ### The states -/

theorem bcState_eq (g r p u v w : ℝ) : bcState g r p u v w = toCons g ⟨r, p, u, v, w⟩ := by
  unfold bcState toCons
  refine HS.ext ?_ ?_ ?_ ?_ ?_ <;> simp only [RealOps.lit_real] <;> push_cast <;> ring

/-- the primitive state behind the shock the configuration asks for (keys `rho1, p1, u1, v1, w1`; the velocity
defaults to `8.25` along the normal of the front) -/
noncomputable def Spec.wedgeBehind (F : FloatLib ℝ) (M : MathLib ℝ) (c : Ini.Reader) (α : ℝ) : HS ℝ :=
  ⟨cfgFloat F c "wedge" "rho1" 8, cfgFloat F c "wedge" "p1" (1165 / 10),
    cfgFloatD F M c "wedge" "u1" (8.25 * Real.sin α), cfgFloatD F M c "wedge" "v1" (8.25 * (-Real.cos α)),
    cfgFloat F c "wedge" "w1" 0⟩

/-- the primitive state ahead of the shock -/
noncomputable def Spec.wedgeAhead (F : FloatLib ℝ) (c : Ini.Reader) : HS ℝ :=
  ⟨cfgFloat F c "wedge" "rho2" (14 / 10), cfgFloat F c "wedge" "p2" 1, cfgFloat F c "wedge" "u2" 0,
    cfgFloat F c "wedge" "v2" 0, cfgFloat F c "wedge" "w2" 0⟩

/-- **C85, wedge states**: the two stored states are the conserved variables of the configured primitive states,
with the adiabatic index of the solver. -/
theorem C85_wedge_states {M : MathLib ℝ} (hM : ExactMath M) (tan : ℝ → ℝ) (F : FloatLib ℝ) (c : Ini.Reader)
    (t : ℝ) :
    let w := wedgeParams F M tan c t
    let γ := (hydroParams F c).settings.gamma0
    w.s1 = toCons γ (wedgeBehind F M c w.angle_f) ∧ w.s2 = toCons γ (wedgeAhead F c) := by
  intro w γ
  have hγ : γ = cfgFloat F c "hydro" "gamma0" (14 / 10) := rfl
  constructor
  · show bcState _ _ _ _ _ _ = _
    rw [bcState_eq, hγ]
    congr 1
    unfold wedgeBehind
    have e1 : (lit (825 / 100) : ℝ) * M.cos (w.angle_f - M.pi / lit 2) = 8.25 * Real.sin w.angle_f := by
      rw [hM.cos, hM.pi]
      simp only [RealOps.lit_real]
      push_cast
      rw [Real.cos_sub_pi_div_two]; norm_num
    have e2 : (lit (825 / 100) : ℝ) * M.sin (w.angle_f - M.pi / lit 2) = 8.25 * (-Real.cos w.angle_f) := by
      rw [hM.sin, hM.pi]
      simp only [RealOps.lit_real]
      push_cast
      rw [Real.sin_sub_pi_div_two]; norm_num
    rw [← e1, ← e2]
    rfl
  · show bcState _ _ _ _ _ _ = _
    rw [bcState_eq, hγ]
    rfl

/-- **C85, the default states are a shock**: unless the file overrides the states, the speed or the adiabatic
index, the two sides of the front satisfy the Rankine–Hugoniot relations for the direction and the speed with which
the border moves the front — whatever the angle — and the shock runs at ten times the sound speed of the gas ahead
of it, which is at rest. -/
theorem C85_default_states_are_a_shock {M : MathLib ℝ} {F : FloatLib ℝ} (hE : ExactLiterals F M)
    (c : Ini.Reader) (α : ℝ)
    (h1 : ∀ k ∈ ["rho1", "p1", "u1", "v1", "w1", "rho2", "p2", "u2", "v2", "w2", "shock_speed"],
      Unset F c "wedge" k)
    (h2 : Unset F c "hydro" "gamma0") :
    let γ := (hydroParams F c).settings.gamma0
    let S := cfgFloat F c "wedge" "shock_speed" 10
    let a := wedgeBehind F M c α
    let b := wedgeAhead F c
    Jump γ (Real.sin α) (-Real.cos α) S a b ∧ b.u = 0 ∧ b.v = 0 ∧ S = 10 * Real.sqrt (γ * b.p / b.d) := by
  have f : ∀ k ∈ ["rho1", "p1", "u1", "v1", "w1", "rho2", "p2", "u2", "v2", "w2", "shock_speed"], ∀ q,
      cfgFloat F c "wedge" k q = (q : ℝ) := fun k hk q => by
    unfold cfgFloat; rw [h1 k hk, hE.single]
  have fd : ∀ k ∈ ["rho1", "p1", "u1", "v1", "w1", "rho2", "p2", "u2", "v2", "w2", "shock_speed"], ∀ x,
      cfgFloatD F M c "wedge" k x = x := fun k hk q => by
    unfold cfgFloatD; rw [h1 k hk, hE.narrow]
  intro γ S a b
  have hγ : γ = 7 / 5 := by
    show cfgFloat F c "hydro" "gamma0" (14 / 10) = _
    unfold cfgFloat; rw [h2, hE.single]; norm_num
  have hS : S = 10 := by show cfgFloat F c "wedge" _ _ = _; rw [f _ (by simp)]; norm_num
  have ha : a = ⟨8, 233 / 2, 33 / 4 * Real.sin α, -(33 / 4) * Real.cos α, 0⟩ := by
    show wedgeBehind F M c α = _
    unfold wedgeBehind
    rw [f _ (by simp), f _ (by simp), f _ (by simp), fd _ (by simp), fd _ (by simp)]
    refine HS.ext ?_ ?_ ?_ ?_ ?_ <;> simp only <;> norm_num
  have hb : b = ⟨7 / 5, 1, 0, 0, 0⟩ := by
    show wedgeAhead F c = _
    unfold wedgeAhead
    rw [f _ (by simp), f _ (by simp), f _ (by simp), f _ (by simp), f _ (by simp)]
    refine HS.ext ?_ ?_ ?_ ?_ ?_ <;> simp only <;> norm_num
  have hsc := Real.sin_sq_add_cos_sq α
  rw [hγ, hS, ha, hb]
  refine ⟨?_, rfl, rfl, ?_⟩
  · intro v hv
    have e1 : 33 / 4 * Real.sin α * Real.sin α + -(33 / 4) * Real.cos α * -Real.cos α = 33 / 4 := by
      linear_combination 33 / 4 * hsc
    have e2 : (33 / 4 * Real.sin α) ^ 2 + (-(33 / 4) * Real.cos α) ^ 2 + 0 ^ 2 = (33 / 4) ^ 2 := by
      linear_combination (33 / 4) ^ 2 * hsc
    match v, hv with
    | 0, _ => simp only [fluxThrough, toCons, HS.get]; rw [e1]; norm_num
    | 1, _ => simp only [fluxThrough, toCons, HS.get]; rw [e1, e2]; norm_num
    | 2, _ => simp only [fluxThrough, toCons, HS.get]; rw [e1]; ring
    | 3, _ => simp only [fluxThrough, toCons, HS.get]; rw [e1]; ring
    | 4, _ => simp only [fluxThrough, toCons, HS.get]; norm_num
  · norm_num

/-- **C85, what the 2D solver sees in an inflow cell**: the border stores four variables and an energy that
counts the z velocity `w1`: with `w1 = 0` the solver finds the configured density, pressure and velocity again;
in general the pressure it finds is larger by `(γ-1)/2 rho1 w1²`. -/
theorem C85_inflow_primitives {s : Settings ℝ} (hs : GoodSettings s) (q : HS ℝ) (hq : Physical s q) :
    (computePrimitives2 s (toCons s.gamma0 q)).1 =
      ⟨q.d, q.p + (s.gamma0 - 1) / 2 * q.d * q.w ^ 2, q.u, q.v, 0⟩ := by
  have hγ := hs.gamma
  set q' : HS ℝ := ⟨q.d, q.p + (s.gamma0 - 1) / 2 * q.d * q.w ^ 2, q.u, q.v, 0⟩ with hq'
  have hd : 0 < q.d := lt_of_lt_of_le hs.smallr hq.1
  have hph : Physical s q' := ⟨hq.1, le_trans hq.2 (by
    simp only [hq']
    have : 0 ≤ (s.gamma0 - 1) / 2 * q.d * q.w ^ 2 := by
      have : 0 < s.gamma0 - 1 := by linarith
      positivity
    linarith)⟩
  have h := (C18_inverse_2d hs).1 q' hph rfl
  rw [← h]
  have e : (toCons s.gamma0 q).trunc = (toCons s.gamma0 q').trunc := by
    have : s.gamma0 - 1 ≠ 0 := by linarith
    unfold toCons HS.trunc
    refine HS.ext ?_ ?_ ?_ ?_ ?_ <;> simp only [hq']
    field_simp; ring
  rw [computePrimitives2_eq3, computePrimitives2_eq3, e]

/-- **C85, jet states**: the two stored states are the conserved variables of the configured primitive states,
with the adiabatic index of the file; but a file without `gamma0` gives the jet `5/3` and the solver `1.4`. -/
theorem C85_jet_states (M : MathLib ℝ) (F : FloatLib ℝ) (c : Ini.Reader) :
    let j := jetParams F M c
    (∀ γ, (∀ d, c.getFloat F.strtof "hydro".toList "gamma0".toList d = γ) →
      (hydroParams F c).settings.gamma0 = γ ∧ j.s1 = toCons γ j.jet ∧ j.s2 = toCons γ j.bulk) ∧
    (ExactLiterals F M → Unset F c "hydro" "gamma0" →
      (hydroParams F c).settings.gamma0 = 7 / 5 ∧ j.s1 = toCons (5 / 3) j.jet ∧
      j.s2 = toCons (5 / 3) j.bulk) := by
  intro j
  have e0 : (hydroParams F c).settings.gamma0 = cfgFloat F c "hydro" "gamma0" (14 / 10) := rfl
  have e1 : j.s1 = toCons (cfgFloatD F M c "hydro" "gamma0" (lit 5 / lit 3)) j.jet := bcState_eq _ _ _ _ _ _
  have e2 : j.s2 = toCons (cfgFloatD F M c "hydro" "gamma0" (lit 5 / lit 3)) j.bulk := bcState_eq _ _ _ _ _ _
  refine ⟨fun γ h => ?_, fun hE h => ?_⟩
  · rw [e0, e1, e2]
    unfold cfgFloat cfgFloatD
    rw [h, h]
    exact ⟨rfl, rfl, rfl⟩
  · rw [e0, e1, e2]
    unfold cfgFloat cfgFloatD
    rw [h, h, hE.single, hE.narrow]
    simp only [RealOps.lit_real]
    norm_num

/-! ### The hypotheses are met -/

/-- exact arithmetic, decimal texts not needed -/
noncomputable def wedgeF : FloatLib ℝ := ⟨fun _ => none, fun q => (q : ℝ), fun x => ⌊x⌋⟩

/-- an empty file -/
def wedgeFile : Ini.Reader := ⟨fun _ => none, 0⟩

/-- a file without wedge section leaves everything to the program -/
example (s k : String) : Unset wedgeF wedgeFile s k := fun _ => rfl

/-- and the default angle `π/3` is between `0` and `π`, for every exact library -/
example {M : MathLib ℝ} (hM : ExactMath M) (hE : ExactLiterals wedgeF M) (t : ℝ) :
    0 < (wedgeParams wedgeF M Real.tan wedgeFile t).angle_f ∧
    (wedgeParams wedgeF M Real.tan wedgeFile t).angle_f < Real.pi := by
  have e : (wedgeParams wedgeF M Real.tan wedgeFile t).angle_f = Real.pi / 3 := by
    show M.narrow (M.pi / lit 3) = _
    rw [hE.narrow, hM.pi]; simp
  rw [e]
  have := Real.pi_pos
  constructor <;> linarith

/-- a 4 × 3 grid has a border -/
example (U : Arr) (m : Mem Arr ℝ) (w : WedgeParams ℝ) :
    ∃ m', wedgeBoundaries (sample .neumann .neumann) w U m m' :=
  (C85_ghost_fill (sample_wf _ _) (by simp [sample, rawSample, Params.init]) signLaws_real w U m).1

end EulerKokkos
