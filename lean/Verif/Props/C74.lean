import Verif.Lemmas.Positivity
import Verif.Props.C24
import Verif.Props.C49
import Verif.Props.C69
import Verif.Props.C30
import Verif.Props.C15
import Verif.Props.C22
import Verif.Props.C29
import Verif.Lemmas.RunSymmetry

/-!
# C74 — the first-order scheme keeps density and thermal energy positive

With `slope_type = 0` (piecewise constant reconstruction) and no gravity, one time step not longer than
the one `compute_dt` returns leaves positive density and positive thermal energy in every interior cell
whose content is above the floors, whatever the neighbouring cells contain, for LLF with `cfl ≤ 1/2` in 2D
and `cfl ≤ 1/3` in 3D, and for HLL and HLLC with `cfl ≤ 1/6` in 2D and HLLC with `cfl ≤ 1/8` in 3D.
-/

set_option linter.constructorNameAsVariable false
set_option linter.unusedSectionVars false
set_option linter.unusedSimpArgs false

namespace EulerKokkos
open Spec

/-! ## Specification -/

namespace Spec
/-- largest Courant number for which positivity is claimed, 2D -/
noncomputable def safeCfl2 : RiemannType → ℝ
  | .llf => 1 / 2
  | .hll => 1 / 6
  | .hllc => 1 / 6
  | _ => 0

/-- largest Courant number for which positivity is claimed, 3D -/
noncomputable def safeCfl3 : RiemannType → ℝ
  | .llf => 1 / 3
  | .hllc => 1 / 8
  | _ => 0

/-- content of a cell above the floors: density at least `smallr`, and the pressure of its thermal energy at
least `ρ smallp` -/
def AboveFloors (s : Settings ℝ) (u : HS ℝ) : Prop :=
  s.smallr ≤ u.d ∧ u.d * s.smallp ≤ (s.gamma0 - 1) * (u.p - (u.u ^ 2 + u.v ^ 2 + u.w ^ 2) / (2 * u.d))
end Spec

/-! ## Face fluxes -/

theorem cone_swapUV {a : HS ℝ} (h : Cone a) : Cone a.swapUV := by
  obtain ⟨h1, h2, h3⟩ := h
  refine ⟨h1, h2, ?_⟩
  unfold HS.swapUV
  dsimp only
  linarith

theorem cone_swapUW {a : HS ℝ} (h : Cone a) : Cone a.swapUW := by
  obtain ⟨h1, h2, h3⟩ := h
  refine ⟨h1, h2, ?_⟩
  unfold HS.swapUW
  dsimp only
  linarith

/-- speed bound of the flux of a face -/
noncomputable def splitSpeed (γ : ℝ) (rt : RiemannType) (l r : HS ℝ) : ℝ :=
  match rt with
  | .llf => max (|l.u| + soundSpeed γ l) (|r.u| + soundSpeed γ r) / 2
  | _ => (|l.u| + soundSpeed γ l) + (|r.u| + soundSpeed γ r)

noncomputable def splitTheta (rt : RiemannType) : ℝ :=
  match rt with
  | .llf => 1 / 2
  | _ => 1

theorem split2 {s : Settings ℝ} (hs : GoodSettings s) {l r : HS ℝ} (hl : Physical s l)
    (hr : Physical s r) (wl : Is2D l) (wr : Is2D r) (f0 : HS ℝ) {rt : RiemannType} (hrt : 0 < safeCfl2 rt) :
    FluxSplit s.gamma0 (splitTheta rt) (splitSpeed s.gamma0 rt l r) l r (riemannHydro2 s rt l r f0) Cone := by
  obtain ⟨h1, h2, h3⟩ := C49_textbook_2d hs hl hr wl wr f0
  cases rt <;> simp only [safeCfl2, lt_irrefl] at hrt
  · rw [h1]; exact (rusanov_split hs.gamma (phys_d hs hl) (phys_p hs hl) (phys_d hs hr) (phys_p hs hr) rfl).toCone
  · rw [h2]; exact hll_split hs.gamma (phys_d hs hl) (phys_p hs hl) (phys_d hs hr) (phys_p hs hr)
  · rw [h3]; exact hllc_split hs.gamma (phys_d hs hl) (phys_p hs hl) (phys_d hs hr) (phys_p hs hr)

theorem split3 {s : Settings ℝ} (hs : GoodSettings s) {l r : HS ℝ} (hl : Physical s l)
    (hr : Physical s r) (f0 : HS ℝ) {rt : RiemannType} (hrt : 0 < safeCfl3 rt) :
    FluxSplit s.gamma0 (splitTheta rt) (splitSpeed s.gamma0 rt l r) l r (riemannHydro3 s rt l r f0) Cone := by
  obtain ⟨h1, h3⟩ := C49_textbook_3d hs hl hr f0
  cases rt <;> simp only [safeCfl3, lt_irrefl] at hrt
  · rw [h1]; exact (rusanov_split hs.gamma (phys_d hs hl) (phys_p hs hl) (phys_d hs hr) (phys_p hs hr) rfl).toCone
  · rw [h3]; exact hllc_split hs.gamma (phys_d hs hl) (phys_p hs hl) (phys_d hs hr) (phys_p hs hr)

/-! ## Cells -/

theorem cflRate2_speed {p : Params ℝ} (q : HS ℝ) : cflRate2 p q =
    (|q.u| + soundSpeed p.settings.gamma0 q) / p.dx + (|q.v| + soundSpeed p.settings.gamma0 q) / p.dy := rfl

/-- the Courant condition holds in ghost cells as well -/
theorem ghost_rate2 {p : Params ℝ} (hp : Hydro2 p) (hg : GoodGrid p) {u : Fld2 ℝ} {b : ℝ}
    (h : ∀ i j, interior2 p i j → cflRate2 p (computePrimitives2 p.settings (u i j)).1 ≤ b) {i j : Int}
    (hij : inGrid2 p i j) : cflRate2 p (prim2 p (fill2 p u) i j) ≤ b := by
  obtain ⟨a, b', c, d⟩ := hij
  have hx := srcCoord_interior hp.wf.nx_pos hp.faces.1 hp.faces.2.1 a b'
  have hy := srcCoord_interior hp.wf.ny_pos hp.faces.2.2.1 hp.faces.2.2.2 c d
  refine le_trans (le_of_eq ?_) (h _ _ ⟨hx.1, hx.2, hy.1, hy.2⟩)
  unfold prim2 fill2 cflRate2 sound computePrimitives2 signed
  dsimp only
  split_ifs <;> simp [abs_neg, neg_div]


theorem toCons_swapUV (γ : ℝ) (q : HS ℝ) : toCons γ q.swapUV = (toCons γ q).swapUV := by
  unfold toCons HS.swapUV; refine HS.eqv rfl ?_ rfl rfl rfl; dsimp only; ring

theorem toCons_swapUW (γ : ℝ) (q : HS ℝ) : toCons γ q.swapUW = (toCons γ q).swapUW := by
  unfold toCons HS.swapUW; refine HS.eqv rfl ?_ rfl rfl rfl; dsimp only; ring

theorem pos_trunc {a : HS ℝ} (h : PosState a) : PosState a.trunc := by
  obtain ⟨h1, h2⟩ := h
  refine ⟨h1, ?_⟩
  unfold HS.trunc
  simp only [RealOps.lit_real]
  push_cast
  nlinarith [sq_nonneg a.w]

/-- sum of the two speeds of a direction, in Courant numbers -/
theorem dirBound {γ lam c : ℝ} {rt : RiemannType} {l q r : HS ℝ} (hlam : 0 ≤ lam)
    (hl : lam * (|l.u| + soundSpeed γ l) < c) (hq : lam * (|q.u| + soundSpeed γ q) < c)
    (hr : lam * (|r.u| + soundSpeed γ r) < c) :
    lam * (splitSpeed γ rt l q + splitSpeed γ rt q r) <
      if rt = .llf then c else 2 * c + 2 * (lam * (|q.u| + soundSpeed γ q)) := by
  have key : rt = .llf ∨ (rt ≠ .llf ∧ ∀ a b, splitSpeed γ rt a b =
      (|a.u| + soundSpeed γ a) + (|b.u| + soundSpeed γ b)) := by
    cases rt <;> simp [splitSpeed]
  rcases key with rfl | ⟨h, e⟩
  · rw [if_pos rfl]
    unfold splitSpeed
    have m1 : lam * max (|l.u| + soundSpeed γ l) (|q.u| + soundSpeed γ q) < c := by
      rw [mul_max_of_nonneg _ _ hlam]; exact max_lt hl hq
    have m2 : lam * max (|q.u| + soundSpeed γ q) (|r.u| + soundSpeed γ r) < c := by
      rw [mul_max_of_nonneg _ _ hlam]; exact max_lt hq hr
    dsimp only
    linarith
  · rw [if_neg h, e, e]
    linarith

/-- faces of the first-order scheme -/
theorem face2_flat {p : Params ℝ} (hs : GoodSettings p.settings) (h0 : p.settings.slope_type = 0)
    {g : GravityParams} (hg : g.enabled = false) (dt : ℝ) (gf : Grav2 ℝ) (u : Fld2 ℝ) (f : Face) (i j : Int) :
    face2 p g dt gf (prim2 p u) f i j = prim2 p u i j := by
  unfold face2 kick2 slopes2 slope2
  simp only [hg, h0, RealOps.lit_real, Bool.false_and, Bool.false_eq_true, if_false]
  simp only [Nat.cast_zero, Rat.cast_zero, RealOps.beq_real, decide_true, if_true]
  exact trace2_const (C18_primitives_positive_2d hs (u i j)).2.2.2.2.2 (by simp [Is2D, prim2, computePrimitives2]) _ _ _

/-- **One step of the first-order scheme on fields, 2D.** -/
theorem pos_step2 {p : Params ℝ} (hp : Hydro2 p) (hg : GoodGrid p) (h0 : p.settings.slope_type = 0)
    (hrt : 0 < safeCfl2 p.riemannSolverType) (hc : p.settings.cfl ≤ safeCfl2 p.riemannSolverType)
    {g : GravityParams} (hgr : g.enabled = false) {dt : ℝ} (hdt : 0 < dt) (gf : Grav2 ℝ) {u : Fld2 ℝ}
    (hb : ∀ i j, interior2 p i j → dt * cflRate2 p (computePrimitives2 p.settings (u i j)).1 ≤ p.settings.cfl)
    {i j : Int} (hij : interior2 p i j) (hw : (u i j).w = 0) (ha : AboveFloors p.settings (u i j)) :
    PosState (fullStep2 p g dt gf u i j) := by
  have hs := hg.settings
  obtain ⟨q, hq⟩ : ∃ q, q = prim2 p (fill2 p u) := ⟨_, rfl⟩
  have phys : ∀ i j, Physical p.settings (q i j) := fun i j => by
    rw [hq]; exact (C18_primitives_positive_2d hs (fill2 p u i j)).2.2.2.2.2
  have flat : ∀ i j, Is2D (q i j) := fun i j => by
    rw [hq]; simp [Is2D, prim2, computePrimitives2]
  have hx := hg.dx
  have hy := hg.dy
  have rate : ∀ i j, inGrid2 p i j →
      dt / p.dx * (|(q i j).u| + soundSpeed p.settings.gamma0 (q i j)) +
        dt / p.dy * (|(q i j).v| + soundSpeed p.settings.gamma0 (q i j)) ≤ p.settings.cfl := by
    intro i j hij
    have h1 := ghost_rate2 hp hg (u := u) (b := p.settings.cfl / dt) (fun i j h => by
      rw [le_div_iff₀ hdt, mul_comm]; exact hb i j h) hij
    rw [← hq, cflRate2_speed, le_div_iff₀ hdt] at h1
    refine le_trans (le_of_eq ?_) h1
    field_simp
  have snd : ∀ i j, 0 < soundSpeed p.settings.gamma0 (q i j) := fun i j =>
    soundSpeed_pos hs.gamma (phys_d hs (phys i j)) (phys_p hs (phys i j))
  have lx : 0 < dt / p.dx := div_pos hdt hx
  have ly : 0 < dt / p.dy := div_pos hdt hy
  have rx : ∀ i j, inGrid2 p i j →
      dt / p.dx * (|(q i j).u| + soundSpeed p.settings.gamma0 (q i j)) < p.settings.cfl := by
    intro i j h
    have h1 := rate i j h
    have h2 : 0 < dt / p.dy * (|(q i j).v| + soundSpeed p.settings.gamma0 (q i j)) :=
      mul_pos ly (add_pos_of_nonneg_of_pos (abs_nonneg _) (snd i j))
    linarith
  have ry : ∀ i j, inGrid2 p i j →
      dt / p.dy * (|(q i j).v| + soundSpeed p.settings.gamma0 (q i j)) < p.settings.cfl := by
    intro i j h
    have h1 := rate i j h
    have h2 : 0 < dt / p.dx * (|(q i j).u| + soundSpeed p.settings.gamma0 (q i j)) :=
      mul_pos lx (add_pos_of_nonneg_of_pos (abs_nonneg _) (snd i j))
    linarith
  have hgw := hp.wf.gw_pos
  obtain ⟨i1, i2, j1, j2⟩ := hij
  have G0 : inGrid2 p i j := ⟨by omega, by omega, by omega, by omega⟩
  have GW : inGrid2 p (i - 1) j := ⟨by omega, by omega, by omega, by omega⟩
  have GE : inGrid2 p (i + 1) j := ⟨by omega, by omega, by omega, by omega⟩
  have GS : inGrid2 p i (j - 1) := ⟨by omega, by omega, by omega, by omega⟩
  have GN : inGrid2 p i (j + 1) := ⟨by omega, by omega, by omega, by omega⟩
  have hin : interior2 p i j := ⟨i1, i2, j1, j2⟩
  -- the content of the cell
  have hU : fill2 p u i j = toCons p.settings.gamma0 (q i j) := by
    rw [fill2_on_interior hin hw, hq]
    unfold prim2
    rw [fill2_on_interior hin hw]
    obtain ⟨q', h1, h2⟩ := (C18_above_floors_iff hs (u i j)).2 ha
    refine ((C18_inverse_2d hs).2 _ ⟨q', h1, ?_, h2⟩).symm
    rw [h2] at hw
    unfold toCons at hw
    have := phys_d hs h1
    simpa [Is2D, this.ne'] using hw
  have sw : ∀ i j, Physical p.settings (q i j).swapUV := fun i j => phys i j
  have fw : ∀ i j, Is2D (q i j).swapUV := fun i j => flat i j
  obtain ⟨a1, Z1, b1, c1, e1⟩ := dir_contrib lx.le
    (split2 hs (phys (i - 1) j) (phys i j) (flat _ _) (flat _ _) HS.zero hrt)
    (split2 hs (phys i j) (phys (i + 1) j) (flat _ _) (flat _ _) HS.zero hrt)
  obtain ⟨a2, Z2, b2, c2, e2⟩ := dir_contrib ly.le
    (split2 hs (sw i (j - 1)) (sw i j) (fw _ _) (fw _ _) HS.zero hrt)
    (split2 hs (sw i j) (sw i (j + 1)) (fw _ _) (fw _ _) HS.zero hrt)
  have d1 := dirBound (rt := p.riemannSolverType) lx.le (rx _ _ GW) (rx _ _ G0) (rx _ _ GE)
  have d2 := dirBound (γ := p.settings.gamma0) (rt := p.riemannSolverType) (c := p.settings.cfl)
    (l := (q i (j - 1)).swapUV) (q := (q i j).swapUV) (r := (q i (j + 1)).swapUV) ly.le (ry _ _ GS) (ry _ _ G0) (ry _ _ GN)
  have r0 := rate _ _ G0
  have hlt : a1 + a2 < 1 := by
    by_cases h : p.riemannSolverType = .llf
    · rw [if_pos h] at d1 d2
      rw [h] at hc
      unfold safeCfl2 at hc
      dsimp only at hc
      linarith
    · rw [if_neg h] at d1 d2
      have hc' : p.settings.cfl ≤ 1 / 6 := by
        refine le_trans hc ?_
        cases hr : p.riemannSolverType <;> simp [safeCfl2] <;> simp_all
      have e : (q i j).swapUV.u = (q i j).v := rfl
      have e' : soundSpeed p.settings.gamma0 (q i j).swapUV = soundSpeed p.settings.gamma0 (q i j) := rfl
      rw [e, e'] at d2
      linarith
  -- the new content
  have key : fullStep2 p g dt gf u i j = ((1 - a1 - a2) • toCons p.settings.gamma0 (q i j) + (Z1 + Z2.swapUV)).trunc := by
    unfold fullStep2 step2
    rw [if_pos hin]
    simp only [hgr, Bool.false_eq_true, if_false]
    unfold fluxUpdate2 fluxX2 fluxY2
    simp only [face2_flat hs h0 hgr]
    rw [← hq, hU]
    have ei : i + 1 - 1 = i := by omega
    have ej : j + 1 - 1 = j := by omega
    rw [ei, ej]
    rw [toCons_swapUV] at e2
    have x1 := fun g : HS ℝ → ℝ => congrArg g e1
    have x2 := fun g : HS ℝ → ℝ => congrArg g e2
    simp only [hs_smul, hs_sub, hs_add] at x1 x2 ⊢
    have y1 := x1 HS.d
    have y2 := x1 HS.p
    have y3 := x1 HS.u
    have y4 := x1 HS.v
    have z1 := x2 HS.d
    have z2 := x2 HS.p
    have z3 := x2 HS.u
    have z4 := x2 HS.v
    clear x1 x2 e1 e2 d1 d2
    unfold HS.trunc HS.add HS.sub HS.smul HS.swapUV at *
    dsimp only at *
    refine HS.eqv ?_ ?_ ?_ ?_ rfl <;> dsimp only
    · linear_combination y1 + z1
    · linear_combination y2 + z2
    · linear_combination y3 + z4
    · linear_combination y4 + z3
  rw [key]
  exact pos_trunc (((toCons_pos hs.gamma (phys_d hs (phys i j)) (phys_p hs (phys i j))).smul (by linarith)).add
    (c1.add (cone_swapUV c2)))

/-! ## 3D -/

theorem cflRate3_speed {p : Params ℝ} (q : HS ℝ) : cflRate3 p q =
    (|q.u| + soundSpeed p.settings.gamma0 q) / p.dx + (|q.v| + soundSpeed p.settings.gamma0 q) / p.dy +
      (|q.w| + soundSpeed p.settings.gamma0 q) / p.dz := rfl

theorem ghost_rate3 {p : Params ℝ} (hp : Hydro3 p) {u : Fld3 ℝ} {b : ℝ}
    (h : ∀ i j k, interior3 p i j k → cflRate3 p (computePrimitives3 p.settings (u i j k)).1 ≤ b) {i j k : Int}
    (hij : inGrid3 p i j k) : cflRate3 p (prim3 p (fill3 p u) i j k) ≤ b := by
  obtain ⟨⟨a, b'⟩, ⟨c, d⟩, e, f⟩ := hij
  have hx := srcCoord_interior hp.wf.nx_pos hp.faces.1.1 hp.faces.1.2.1 a b'
  have hy := srcCoord_interior hp.wf.ny_pos hp.faces.1.2.2.1 hp.faces.1.2.2.2 c d
  have hz := srcCoord_interior hp.wf.nz_pos hp.faces.2.1 hp.faces.2.2 e f
  refine le_trans (le_of_eq ?_) (h _ _ _ ⟨⟨hx.1, hx.2⟩, ⟨hy.1, hy.2⟩, hz.1, hz.2⟩)
  unfold prim3 fill3 cflRate3 sound computePrimitives3 signed
  dsimp only
  split_ifs <;> simp [abs_neg, neg_div]

theorem trace3_flat {p : Params ℝ} (hs : GoodSettings p.settings) (h0 : p.settings.slope_type = 0)
    (dt : ℝ) (u : Fld3 ℝ) (f : Face) (i j k : Int) :
    trace3 p dt (prim3 p u) f i j k = prim3 p u i j k := by
  unfold trace3 slopes3 slope3
  simp only [h0, RealOps.lit_real]
  simp only [Nat.cast_zero, Rat.cast_zero, RealOps.beq_real, decide_true, if_true]
  exact trace3_const (C18_primitives_positive_3d hs (u i j k)).2.2.2.2.2 _ _ _ _

theorem face3_flat {p : Params ℝ} (hs : GoodSettings p.settings) (h0 : p.settings.slope_type = 0)
    {g : GravityParams} (hg : g.enabled = false) (dt : ℝ) (gf : Grav3 ℝ) (u : Fld3 ℝ) (f : Face) (i j k : Int) :
    face3 p g dt gf (prim3 p u) f i j k = prim3 p u i j k := by
  unfold face3 kick3
  simp only [hg, Bool.false_and, Bool.false_eq_true, if_false]
  exact trace3_flat hs h0 _ _ _ _ _ _

theorem three_pos {X Y Z c : ℝ} (hX : 0 < X) (hY : 0 < Y) (hZ : 0 < Z) (h : X + Y + Z ≤ c) :
    X < c ∧ Y < c ∧ Z < c := ⟨by linarith, by linarith, by linarith⟩

/-- **One step of the first-order scheme on fields, 3D.** -/
theorem pos_step3 {p : Params ℝ} (hp : Hydro3 p) (hg : GoodGrid p) (h0 : p.settings.slope_type = 0)
    (hrt : 0 < safeCfl3 p.riemannSolverType) (hc : p.settings.cfl ≤ safeCfl3 p.riemannSolverType)
    {g : GravityParams} (hgr : g.enabled = false) {dt : ℝ} (hdt : 0 < dt) (zk : Bool) (gf : Grav3 ℝ) {u : Fld3 ℝ}
    (hb : ∀ i j k, interior3 p i j k →
      dt * cflRate3 p (computePrimitives3 p.settings (u i j k)).1 ≤ p.settings.cfl)
    {i j k : Int} (hij : interior3 p i j k) (ha : AboveFloors p.settings (u i j k)) :
    PosState (fullStep3 zk p g dt gf u i j k) := by
  have hs := hg.settings
  obtain ⟨q, hq⟩ : ∃ q, q = prim3 p (fill3 p u) := ⟨_, rfl⟩
  have phys : ∀ i j k, Physical p.settings (q i j k) := fun i j k => by
    rw [hq]; exact (C18_primitives_positive_3d hs (fill3 p u i j k)).2.2.2.2.2
  have hx := hg.dx
  have hy := hg.dy
  have hz := hg.dz
  have snd : ∀ i j k, 0 < soundSpeed p.settings.gamma0 (q i j k) := fun i j k =>
    soundSpeed_pos hs.gamma (phys_d hs (phys i j k)) (phys_p hs (phys i j k))
  have lx : 0 < dt / p.dx := div_pos hdt hx
  have ly : 0 < dt / p.dy := div_pos hdt hy
  have lz : 0 < dt / p.dz := div_pos hdt hz
  have rate : ∀ i j k, inGrid3 p i j k →
      dt / p.dx * (|(q i j k).u| + soundSpeed p.settings.gamma0 (q i j k)) +
        dt / p.dy * (|(q i j k).v| + soundSpeed p.settings.gamma0 (q i j k)) +
        dt / p.dz * (|(q i j k).w| + soundSpeed p.settings.gamma0 (q i j k)) ≤ p.settings.cfl := by
    intro i j k hij
    have h1 := ghost_rate3 hp (u := u) (b := p.settings.cfl / dt) (fun i j k h => by
      rw [le_div_iff₀ hdt, mul_comm]; exact hb i j k h) hij
    rw [← hq, cflRate3_speed, le_div_iff₀ hdt] at h1
    refine le_trans (le_of_eq ?_) h1
    field_simp
  have rs := fun i j k h => three_pos
    (mul_pos lx (add_pos_of_nonneg_of_pos (abs_nonneg (q i j k).u) (snd i j k)))
    (mul_pos ly (add_pos_of_nonneg_of_pos (abs_nonneg (q i j k).v) (snd i j k)))
    (mul_pos lz (add_pos_of_nonneg_of_pos (abs_nonneg (q i j k).w) (snd i j k))) (rate i j k h)
  have hgw := hp.wf.gw_pos
  have hin := hij
  obtain ⟨⟨i1, i2⟩, ⟨j1, j2⟩, k1, k2⟩ := hij
  have G0 : inGrid3 p i j k := ⟨⟨by omega, by omega⟩, ⟨by omega, by omega⟩, by omega, by omega⟩
  have GW : inGrid3 p (i - 1) j k := ⟨⟨by omega, by omega⟩, ⟨by omega, by omega⟩, by omega, by omega⟩
  have GE : inGrid3 p (i + 1) j k := ⟨⟨by omega, by omega⟩, ⟨by omega, by omega⟩, by omega, by omega⟩
  have GS : inGrid3 p i (j - 1) k := ⟨⟨by omega, by omega⟩, ⟨by omega, by omega⟩, by omega, by omega⟩
  have GN : inGrid3 p i (j + 1) k := ⟨⟨by omega, by omega⟩, ⟨by omega, by omega⟩, by omega, by omega⟩
  have GB : inGrid3 p i j (k - 1) := ⟨⟨by omega, by omega⟩, ⟨by omega, by omega⟩, by omega, by omega⟩
  have GT : inGrid3 p i j (k + 1) := ⟨⟨by omega, by omega⟩, ⟨by omega, by omega⟩, by omega, by omega⟩
  have hU : fill3 p u i j k = toCons p.settings.gamma0 (q i j k) := by
    rw [fill3_on_interior hin, hq]
    unfold prim3
    rw [fill3_on_interior hin]
    obtain ⟨q', h1, h2⟩ := (C18_above_floors_iff hs (u i j k)).2 ha
    exact ((C18_inverse_3d hs).2 _ ⟨q', h1, h2⟩).symm
  have sw : ∀ i j k, Physical p.settings (q i j k).swapUV := fun i j k => phys i j k
  have sz : ∀ i j k, Physical p.settings (q i j k).swapUW := fun i j k => phys i j k
  obtain ⟨a1, Z1, b1, c1, e1⟩ := dir_contrib lx.le
    (split3 hs (phys (i - 1) j k) (phys i j k) HS.zero hrt)
    (split3 hs (phys i j k) (phys (i + 1) j k) HS.zero hrt)
  obtain ⟨a2, Z2, b2, c2, e2⟩ := dir_contrib ly.le
    (split3 hs (sw i (j - 1) k) (sw i j k) HS.zero hrt)
    (split3 hs (sw i j k) (sw i (j + 1) k) HS.zero hrt)
  obtain ⟨a3, Z3, b3, c3, e3⟩ := dir_contrib lz.le
    (split3 hs (sz i j (k - 1)) (sz i j k) HS.zero hrt)
    (split3 hs (sz i j k) (sz i j (k + 1)) HS.zero hrt)
  have d1 := dirBound (rt := p.riemannSolverType) lx.le (rs _ _ _ GW).1 (rs _ _ _ G0).1 (rs _ _ _ GE).1
  have d2 := dirBound (γ := p.settings.gamma0) (rt := p.riemannSolverType) (c := p.settings.cfl)
    (l := (q i (j - 1) k).swapUV) (q := (q i j k).swapUV) (r := (q i (j + 1) k).swapUV) ly.le
    (rs _ _ _ GS).2.1 (rs _ _ _ G0).2.1 (rs _ _ _ GN).2.1
  have d3 := dirBound (γ := p.settings.gamma0) (rt := p.riemannSolverType) (c := p.settings.cfl)
    (l := (q i j (k - 1)).swapUW) (q := (q i j k).swapUW) (r := (q i j (k + 1)).swapUW) lz.le
    (rs _ _ _ GB).2.2 (rs _ _ _ G0).2.2 (rs _ _ _ GT).2.2
  have r0 := rate _ _ _ G0
  have hlt : a1 + a2 + a3 < 1 := by
    by_cases h : p.riemannSolverType = .llf
    · rw [if_pos h] at d1 d2 d3
      rw [h] at hc
      unfold safeCfl3 at hc
      dsimp only at hc
      linarith
    · rw [if_neg h] at d1 d2 d3
      have hc' : p.settings.cfl ≤ 1 / 8 := by
        refine le_trans hc ?_
        cases hr : p.riemannSolverType <;> simp [safeCfl3] <;> simp_all
      have e : (q i j k).swapUV.u = (q i j k).v := rfl
      have e' : soundSpeed p.settings.gamma0 (q i j k).swapUV = soundSpeed p.settings.gamma0 (q i j k) := rfl
      have f : (q i j k).swapUW.u = (q i j k).w := rfl
      have f' : soundSpeed p.settings.gamma0 (q i j k).swapUW = soundSpeed p.settings.gamma0 (q i j k) := rfl
      rw [e, e'] at d2
      rw [f, f'] at d3
      linarith
  have key : fullStep3 zk p g dt gf u i j k =
      (1 - a1 - a2 - a3) • toCons p.settings.gamma0 (q i j k) + (Z1 + Z2.swapUV + Z3.swapUW) := by
    unfold fullStep3 step3
    rw [if_pos hin]
    simp only [hgr, Bool.false_eq_true, if_false]
    unfold fluxUpdate3 fluxX3 fluxY3 fluxZ3
    simp only [face3_flat hs h0 hgr, trace3_flat hs h0, ite_self]
    rw [← hq, hU]
    have ei : i + 1 - 1 = i := by omega
    have ej : j + 1 - 1 = j := by omega
    have ek : k + 1 - 1 = k := by omega
    rw [ei, ej, ek]
    rw [toCons_swapUV] at e2
    rw [toCons_swapUW] at e3
    have x1 := fun g : HS ℝ → ℝ => congrArg g e1
    have x2 := fun g : HS ℝ → ℝ => congrArg g e2
    have x3 := fun g : HS ℝ → ℝ => congrArg g e3
    simp only [hs_smul, hs_sub, hs_add] at x1 x2 x3 ⊢
    have y1 := x1 HS.d
    have y2 := x1 HS.p
    have y3 := x1 HS.u
    have y4 := x1 HS.v
    have y5 := x1 HS.w
    have z1 := x2 HS.d
    have z2 := x2 HS.p
    have z3 := x2 HS.u
    have z4 := x2 HS.v
    have z5 := x2 HS.w
    have w1 := x3 HS.d
    have w2 := x3 HS.p
    have w3 := x3 HS.u
    have w4 := x3 HS.v
    have w5 := x3 HS.w
    clear x1 x2 x3 e1 e2 e3 d1 d2 d3
    unfold HS.add HS.sub HS.smul HS.swapUV HS.swapUW at *
    dsimp only at *
    refine HS.eqv ?_ ?_ ?_ ?_ ?_ <;> dsimp only
    · linear_combination y1 + z1 + w1
    · linear_combination y2 + z2 + w2
    · linear_combination y3 + z4 + w5
    · linear_combination y4 + z3 + w4
    · linear_combination y5 + z5 + w3
  rw [key]
  exact ((toCons_pos hs.gamma (phys_d hs (phys i j k)) (phys_p hs (phys i j k))).smul (by linarith)).add
    ((c1.add (cone_swapUV c2)).add (cone_swapUW c3))

/-! ## C74 -/

/-- **C74 (2D).** First-order scheme, no gravity: after a time step not longer than the one `compute_dt`
returned for the same state, every interior cell that was above the floors has positive density and an energy
larger than its kinetic energy; the content of the other cells is arbitrary. -/
theorem C74_positive_2d {p : Params ℝ} (hp : Hydro2 p) (hg : GoodGrid p) (h0 : p.settings.slope_type = 0)
    (hi : p.implementationVersion = 0 ∨ p.implementationVersion = 1 ∨ p.implementationVersion = 2)
    (hrt : p.riemannSolverType = .llf ∧ p.settings.cfl ≤ 1 / 2 ∨
      (p.riemannSolverType = .hll ∨ p.riemannSolverType = .hllc) ∧ p.settings.cfl ≤ 1 / 6)
    {g : GravityParams} (hgr : g.enabled = false) {ident : ℝ} (hid : ident ≤ 0) {n : Nat} (jk : Junk ℝ)
    {m m' : Mem Arr ℝ} {dt dt0 : ℝ} (hdt0 : computeDtLocal2 p g ident n m dt0) (hdt : 0 < dt) (hle : dt ≤ dt0)
    (hm : godunov2 p g dt jk (pingIn n) (pingOut n) m m') {i j : Int} (hij : interior2 p i j)
    (hd : p.settings.smallr ≤ m ⟨pingIn n, i, j, 0, ID⟩)
    (he : m ⟨pingIn n, i, j, 0, ID⟩ * p.settings.smallp ≤ (p.settings.gamma0 - 1) *
      (m ⟨pingIn n, i, j, 0, IP⟩ - (m ⟨pingIn n, i, j, 0, IU⟩ ^ 2 + m ⟨pingIn n, i, j, 0, IV⟩ ^ 2) /
        (2 * m ⟨pingIn n, i, j, 0, ID⟩))) :
    0 < m' ⟨pingOut n, i, j, 0, ID⟩ ∧
    (m' ⟨pingOut n, i, j, 0, IU⟩ ^ 2 + m' ⟨pingOut n, i, j, 0, IV⟩ ^ 2) / (2 * m' ⟨pingOut n, i, j, 0, ID⟩) <
      m' ⟨pingOut n, i, j, 0, IP⟩ := by
  obtain ⟨hpos, hcfl, -⟩ := C24_cfl_2d hp.wf hg.settings hg.dx hg.dy hg.cfl hgr hid hdt0
  have hpp : PingPong (pingIn n) (pingOut n) := by
    unfold PingPong pingIn pingOut
    by_cases h : n % 2 = 0 <;> simp [h]
  have hs : 0 < safeCfl2 p.riemannSolverType ∧ p.settings.cfl ≤ safeCfl2 p.riemannSolverType := by
    rcases hrt with ⟨h, c⟩ | ⟨h | h, c⟩ <;> rw [h] <;> unfold safeCfl2 <;> dsimp only <;>
      exact ⟨by norm_num, c⟩
  have key := pos_step2 hp hg h0 hs.1 hs.2 hgr hdt (gravOf m .grav) (u := hs2 m (pingIn n)) (fun i j h => by
    refine le_trans ?_ (hcfl i j h)
    exact mul_le_mul_of_nonneg_right hle (cflRate2_pos hg.settings hg.dx hg.dy m (pingIn n) i j).le)
    hij (by simp [hs2]) ⟨hd, by simpa [hs2] using he⟩
  rw [← C04_all_versions_agree hp hi g dt jk hpp hm i j (interior_inGrid2 hp.wf hij)] at key
  obtain ⟨k1, k2⟩ := key
  simp only [hs2, RealOps.lit_real] at k1 k2
  refine ⟨k1, ?_⟩
  rw [div_lt_iff₀ (by linarith)]
  norm_num at k2
  linarith

/-- **C74 (3D).** LLF with `cfl ≤ 1/3`, HLLC with `cfl ≤ 1/8`. -/
theorem C74_positive_3d {p : Params ℝ} (hp : Hydro3 p) (hg : GoodGrid p) (h0 : p.settings.slope_type = 0)
    (hi : p.implementationVersion = 0 ∨ p.implementationVersion = 1 ∨ p.implementationVersion = 2)
    (hrt : p.riemannSolverType = .llf ∧ p.settings.cfl ≤ 1 / 3 ∨
      p.riemannSolverType = .hllc ∧ p.settings.cfl ≤ 1 / 8)
    {g : GravityParams} (hgr : g.enabled = false) {ident : ℝ} (hid : ident ≤ 0) {n : Nat} (jk : Junk ℝ)
    {m m' : Mem Arr ℝ} {dt dt0 : ℝ} (hdt0 : computeDtLocal3 p g ident n m dt0) (hdt : 0 < dt) (hle : dt ≤ dt0)
    (hm : godunov3 p g dt jk (pingIn n) (pingOut n) m m') {i j k : Int} (hij : interior3 p i j k)
    (hd : p.settings.smallr ≤ m ⟨pingIn n, i, j, k, ID⟩)
    (he : m ⟨pingIn n, i, j, k, ID⟩ * p.settings.smallp ≤ (p.settings.gamma0 - 1) *
      (m ⟨pingIn n, i, j, k, IP⟩ - (m ⟨pingIn n, i, j, k, IU⟩ ^ 2 + m ⟨pingIn n, i, j, k, IV⟩ ^ 2 +
        m ⟨pingIn n, i, j, k, IW⟩ ^ 2) / (2 * m ⟨pingIn n, i, j, k, ID⟩))) :
    0 < m' ⟨pingOut n, i, j, k, ID⟩ ∧
    (m' ⟨pingOut n, i, j, k, IU⟩ ^ 2 + m' ⟨pingOut n, i, j, k, IV⟩ ^ 2 + m' ⟨pingOut n, i, j, k, IW⟩ ^ 2) /
      (2 * m' ⟨pingOut n, i, j, k, ID⟩) < m' ⟨pingOut n, i, j, k, IP⟩ := by
  obtain ⟨hpos, hcfl, -⟩ := C24_cfl_3d hp.wf hg.settings hg.dx hg.dy hg.dz hg.cfl hgr hid hdt0
  have hpp : PingPong (pingIn n) (pingOut n) := by
    unfold PingPong pingIn pingOut
    by_cases h : n % 2 = 0 <;> simp [h]
  have hs : 0 < safeCfl3 p.riemannSolverType ∧ p.settings.cfl ≤ safeCfl3 p.riemannSolverType := by
    rcases hrt with ⟨h, c⟩ | ⟨h, c⟩ <;> rw [h] <;> unfold safeCfl3 <;> dsimp only <;>
      exact ⟨by norm_num, c⟩
  have key := pos_step3 hp hg h0 hs.1 hs.2 hgr hdt (zKick p.implementationVersion) (gravOf3 m .grav)
    (u := hs3 m (pingIn n)) (fun i j k h => by
    refine le_trans ?_ (hcfl i j k h)
    exact mul_le_mul_of_nonneg_right hle (cflRate3_pos hg.settings hg.dx hg.dy hg.dz m (pingIn n) i j k).le)
    hij ⟨hd, by simpa [hs3] using he⟩
  rw [← (godunov3_result hp signLaws_real (schemeOK3_real hp hi) hpp hm).2.2 i j k (interior_inGrid3 hp.wf hij)] at key
  obtain ⟨k1, k2⟩ := key
  simp only [hs3] at k1 k2
  refine ⟨k1, ?_⟩
  rw [div_lt_iff₀ (by linarith)]
  linarith

/-- the sample with piecewise constant reconstruction and the LLF solver -/
noncomputable def sampleFlat : Params ℝ :=
  { sample .dirichlet .neumann with
    riemannSolverType := .llf
    settings := { (sample .dirichlet .neumann).settings with slope_type := 0 } }

/-- Non-vacuity: the default Courant number `1/2`, a near-vacuum next to dense gas moving away from it, and
both operations have executions. -/
example : ∃ m : Mem Arr ℝ, Hydro2 sampleFlat ∧ GoodGrid sampleFlat ∧ sampleFlat.settings.slope_type = 0 ∧
    sampleFlat.settings.cfl = 1 / 2 ∧ (∃ dt0, computeDtLocal2 sampleFlat ⟨false, false⟩ (-1) 0 m dt0) ∧
    (∀ dt, ∃ m', godunov2 sampleFlat ⟨false, false⟩ dt (fun _ _ _ _ => HS.zero) .U .U2 m m') ∧
    interior2 sampleFlat 2 2 ∧
    AboveFloors sampleFlat.settings (hs2 m .U 2 2) ∧ (hs2 m .U 3 2).d = 1000 ∧ (hs2 m .U 3 2).u = 5000 := by
  have hw : sampleFlat.WF := by
    have h := sample_wf .dirichlet .neumann
    exact ⟨h.nx_pos, h.ny_pos, h.nz_pos, h.gw_pos, h.imin_eq, h.jmin_eq, h.kmin_eq, h.imax_eq,
      h.jmax_eq, h.kmax_eq, h.isize_eq, h.jsize_eq, h.ksize_eq⟩
  have hh : Hydro2 sampleFlat := ⟨hw, rfl, ⟨by left; simp [sampleFlat], by simp [sampleFlat]⟩,
    (sample_hydro2 .dirichlet .neumann).faces⟩
  have hgood : GoodGrid sampleFlat := by
    obtain ⟨a, b, c, d, e⟩ := sample_goodGrid .dirichlet .neumann
    exact ⟨⟨a.gamma, a.smallr, a.smallc, a.smallp, a.smallpp, a.gamma6⟩, b, c, d, e⟩
  refine ⟨fun l => if l.i = 2 then (if l.v = ID then 1/100 else if l.v = IP then 1 else 0)
      else (if l.v = ID then 1000 else if l.v = IP then 20000 else 5000), hh, hgood, rfl,
    by norm_num [sampleFlat, sample, rawSample, Params.init], ?_, ?_, ?_, ?_, ?_, ?_⟩
  · obtain ⟨r, hr⟩ := parReduce_exists (range2 sampleFlat.isize sampleFlat.jsize)
      (computeDt2 sampleFlat (pingIn 0)) kokkosMaxJoin (-1) _
    exact ⟨_, r, by simpa using hr, rfl⟩
  · exact fun dt => (C02_step_deterministic hw hh.faces (Or.inl rfl) _ _ _ (Or.inl ⟨rfl, rfl⟩) _).exists
  · norm_num [interior2, sampleFlat, sample, rawSample, Params.init]
  · have : (sampleFlat.settings.smallp) = (sample .dirichlet .neumann).settings.smallp := rfl
    refine ⟨by norm_num [hs2, sampleFlat, sample, rawSample, Params.init, ID], ?_⟩
    norm_num [hs2, sampleFlat, sample, rawSample, Params.init, ID, IP, IU, IV]
  · norm_num [hs2, ID]
  · norm_num [hs2, IU, ID, IP]

end EulerKokkos
