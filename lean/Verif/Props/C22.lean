import Verif.Props.C20
import Verif.Props.C05
import Verif.Props.C29

/-!
# C22 — a uniform flow is an exact steady state of the scheme
-/

set_option linter.constructorNameAsVariable false
set_option linter.unusedSectionVars false
set_option linter.unusedSimpArgs false

namespace EulerKokkos
open Spec

/-- The boundary conditions are compatible with the uniform state `q` (2D): no reflecting wall,
or no velocity normal to it.  Periodic and absorbing faces impose nothing. -/
def Spec.WallsAligned2 (p : Params ℝ) (q : HS ℝ) : Prop :=
  ((p.boundary_type_xmin = .dirichlet ∨ p.boundary_type_xmax = .dirichlet) → q.u = 0) ∧
  ((p.boundary_type_ymin = .dirichlet ∨ p.boundary_type_ymax = .dirichlet) → q.v = 0)

/-- The same in 3D. -/
def Spec.WallsAligned3 (p : Params ℝ) (q : HS ℝ) : Prop :=
  WallsAligned2 p q ∧
  ((p.boundary_type_zmin = .dirichlet ∨ p.boundary_type_zmax = .dirichlet) → q.w = 0)

theorem signed_flips_const {b1 b2 : BC} {n gw c : Int} {x r : ℝ}
    (h : (b1 = .dirichlet ∨ b2 = .dirichlet) → x = 0) :
    signed (flips b1 b2 n gw c) (r * x) = r * x := by
  unfold signed
  by_cases hf : flips b1 b2 n gw c
  · rw [if_pos hf, h (by unfold flips at hf; tauto)]; simp
  · rw [if_neg hf]

theorem slopeScalarDir_const (θ q : ℝ) : slopeScalarDir θ q q q = 0 := by
  unfold slopeScalarDir
  simp

theorem slope2_const (s : Settings ℝ) (q : HS ℝ) :
    slope2 s q q q q q HS.zero HS.zero = (HS.zero, HS.zero) := by
  unfold slope2 slopeScalar2
  simp only [slopeScalarDir_const]
  split_ifs <;> simp [HS.zero]

theorem slope3_const (s : Settings ℝ) (q : HS ℝ) :
    slope3 s q q q q q q q ⟨HS.zero, HS.zero, HS.zero⟩ = ⟨HS.zero, HS.zero, HS.zero⟩ := by
  unfold slope3
  simp only [slopeScalarDir_const]
  split_ifs <;> simp [HS.zero]

theorem trace2_const {s : Settings ℝ} {q : HS ℝ} (hq : Physical s q) (h2 : Is2D q) (a b : ℝ)
    (f : Face) : traceAlongDir2 s q HS.zero HS.zero a b f = q := by
  have := max_eq_right hq.1
  unfold Is2D at h2
  cases f <;> simp only [traceAlongDir2, HS.zero] <;> ext <;> simp [this, h2]

theorem trace3_const {s : Settings ℝ} {q : HS ℝ} (hq : Physical s q) (a b c : ℝ)
    (f : Face) : traceAlongDir3 s q ⟨HS.zero, HS.zero, HS.zero⟩ a b c f = q := by
  have := max_eq_right hq.1
  cases f <;> simp only [traceAlongDir3, HS.zero] <;> simp [this]

/-- The reference step on a uniform field, 2D. -/
theorem fullStep2_const {p : Params ℝ} (hs : GoodSettings p.settings)
    {q : HS ℝ} (hq : Physical p.settings q) (h2 : Is2D q) (hb : WallsAligned2 p q)
    {g : GravityParams} (hg : g.enabled = false) (dt : ℝ) (gf : Grav2 ℝ) :
    fullStep2 p g dt gf (fun _ _ => toCons p.settings.gamma0 q) =
      fun _ _ => toCons p.settings.gamma0 q := by
  have hfill : fill2 p (fun _ _ => toCons p.settings.gamma0 q) =
      fun _ _ => toCons p.settings.gamma0 q := by
    funext i j
    unfold fill2
    simp only [toCons]
    rw [signed_flips_const hb.1, signed_flips_const hb.2]
    unfold Is2D at h2
    simp [h2]
  have hprim : prim2 p (fun _ _ => toCons p.settings.gamma0 q) = fun _ _ => q := by
    funext i j
    exact (C18_inverse_2d hs).1 q hq h2
  have hface : ∀ f i j, face2 p g dt gf (fun _ _ => q) f i j = q := by
    intro f i j
    simp only [face2, kick2, hg, Bool.false_and, Bool.false_eq_true, if_false, slopes2, slope2_const]
    exact trace2_const hq h2 _ _ f
  unfold fullStep2 step2
  rw [hfill]
  funext i j
  simp only [hg, Bool.false_eq_true, if_false]
  split_ifs with hint
  · simp only [hprim]
    have hX : ∀ i j, fluxX2 p g dt gf (fun _ _ => q) i j = fluxX2 p g dt gf (fun _ _ => q) 0 0 := by
      intro i j; unfold fluxX2; simp only [hface]
    have hY : ∀ i j, fluxY2 p g dt gf (fun _ _ => q) i j = fluxY2 p g dt gf (fun _ _ => q) 0 0 := by
      intro i j; unfold fluxY2; simp only [hface]
    unfold fluxUpdate2
    rw [hX i j, hX (i + 1) j, hY i j, hY i (j + 1)]
    have h2' : q.w = 0 := h2
    simp only [HS.add, HS.sub, HS.trunc, toCons, h2', RealOps.lit_real]
    ext <;> simp
  · rfl

/-- The reference step on a uniform field, 3D. -/
theorem fullStep3_const {zk : Bool} {p : Params ℝ} (hs : GoodSettings p.settings)
    {q : HS ℝ} (hq : Physical p.settings q) (hb : WallsAligned3 p q)
    {g : GravityParams} (hg : g.enabled = false) (dt : ℝ) (gf : Grav3 ℝ) :
    fullStep3 zk p g dt gf (fun _ _ _ => toCons p.settings.gamma0 q) =
      fun _ _ _ => toCons p.settings.gamma0 q := by
  have hfill : fill3 p (fun _ _ _ => toCons p.settings.gamma0 q) =
      fun _ _ _ => toCons p.settings.gamma0 q := by
    funext i j k
    unfold fill3
    simp only [toCons]
    rw [signed_flips_const hb.1.1, signed_flips_const hb.1.2, signed_flips_const hb.2]
  have hprim : prim3 p (fun _ _ _ => toCons p.settings.gamma0 q) = fun _ _ _ => q := by
    funext i j k
    exact (C18_inverse_3d hs).1 q hq
  have htr : ∀ f i j k, trace3 p dt (fun _ _ _ => q) f i j k = q := by
    intro f i j k
    simp only [trace3, slopes3, slope3_const]
    exact trace3_const hq _ _ _ f
  have hface : ∀ f i j k, face3 p g dt gf (fun _ _ _ => q) f i j k = q := by
    intro f i j k
    simp only [face3, kick3, hg, Bool.false_and, Bool.false_eq_true, if_false, htr]
  unfold fullStep3 step3
  rw [hfill]
  funext i j k
  simp only [hg, Bool.false_eq_true, if_false]
  split_ifs with hint
  · simp only [hprim]
    have hX : ∀ i j k, fluxX3 p g dt gf (fun _ _ _ => q) i j k =
        fluxX3 p g dt gf (fun _ _ _ => q) 0 0 0 := by
      intro i j k; unfold fluxX3; simp only [hface]
    have hY : ∀ i j k, fluxY3 p g dt gf (fun _ _ _ => q) i j k =
        fluxY3 p g dt gf (fun _ _ _ => q) 0 0 0 := by
      intro i j k; unfold fluxY3; simp only [hface]
    have hZ : ∀ i j k, fluxZ3 zk p g dt gf (fun _ _ _ => q) i j k =
        fluxZ3 zk p g dt gf (fun _ _ _ => q) 0 0 0 := by
      intro i j k; unfold fluxZ3; simp only [hface, htr]
    unfold fluxUpdate3
    rw [hX i j k, hX (i + 1) j k, hY i j k, hY i (j + 1) k, hZ i j k, hZ i j (k + 1)]
    simp only [HS.add, HS.sub]
    ext <;> simp
  · rfl

theorem iterStep2_const {p : Params ℝ} (hs : GoodSettings p.settings)
    {q : HS ℝ} (hq : Physical p.settings q) (h2 : Is2D q) (hb : WallsAligned2 p q)
    {g : GravityParams} (hg : g.enabled = false) (gf : Grav2 ℝ) (dts : List ℝ) :
    iterStep2 p g gf dts (fun _ _ => toCons p.settings.gamma0 q) =
      fun _ _ => toCons p.settings.gamma0 q := by
  induction dts with
  | nil => rfl
  | cons dt dts ih => unfold iterStep2; rw [fullStep2_const hs hq h2 hb hg]; exact ih

theorem iterStep3_const {zk : Bool} {p : Params ℝ} (hs : GoodSettings p.settings)
    {q : HS ℝ} (hq : Physical p.settings q) (hb : WallsAligned3 p q)
    {g : GravityParams} (hg : g.enabled = false) (gf : Grav3 ℝ) (dts : List ℝ) :
    iterStep3 zk p g gf dts (fun _ _ _ => toCons p.settings.gamma0 q) =
      fun _ _ _ => toCons p.settings.gamma0 q := by
  induction dts with
  | nil => rfl
  | cons dt dts ih => unfold iterStep3; rw [fullStep3_const hs hq hb hg]; exact ih

/-- Only interior cells matter to a full step: the ghost fill overwrites the rest. -/
theorem fill2_congr_interior {p : Params ℝ} (hp : Hydro2 p) {u u' : Fld2 ℝ}
    (h : ∀ i j, interior2 p i j → u i j = u' i j) (i j : Int) (hij : inGrid2 p i j) :
    fill2 p u i j = fill2 p u' i j := by
  obtain ⟨f1, f2, f3, f4⟩ := hp.faces
  obtain ⟨h3, h4, h5, h6⟩ := hij
  have sx := srcCoord_interior hp.wf.nx_pos f1 f2 h3 h4
  have sy := srcCoord_interior hp.wf.ny_pos f3 f4 h5 h6
  unfold fill2
  rw [h _ _ ⟨by omega, by omega, by omega, by omega⟩]

theorem fill3_congr_interior {p : Params ℝ} (hp : Hydro3 p) {u u' : Fld3 ℝ}
    (h : ∀ i j k, interior3 p i j k → u i j k = u' i j k) (i j k : Int) (hij : inGrid3 p i j k) :
    fill3 p u i j k = fill3 p u' i j k := by
  obtain ⟨⟨f1, f2, f3, f4⟩, f5, f6⟩ := hp.faces
  obtain ⟨⟨h3, h4⟩, ⟨h5, h6⟩, h7, h8⟩ := hij
  have sx := srcCoord_interior hp.wf.nx_pos f1 f2 h3 h4
  have sy := srcCoord_interior hp.wf.ny_pos f3 f4 h5 h6
  have sz := srcCoord_interior hp.wf.nz_pos f5 f6 h7 h8
  unfold fill3
  rw [h _ _ _ ⟨⟨by omega, by omega⟩, ⟨by omega, by omega⟩, by omega, by omega⟩]

/-- **C22 (2D).** If every interior cell holds the conservative variables of the same physical
primitive state `q`, there is no gravity, and no reflecting wall stands across the flow, then after
any run of any number of steps (any `dt`s, any implementation version, any schedule, any Riemann
solver of the hydro wrapper) every interior cell still holds exactly that state. -/
theorem C22_uniform_flow_2d {p : Params ℝ} (hp : Hydro2 p) (hs : GoodSettings p.settings)
    (hi : p.implementationVersion = 0 ∨ p.implementationVersion = 1 ∨
      p.implementationVersion = 2)
    {g : GravityParams} (hg : g.enabled = false)
    {q : HS ℝ} (hq : Physical p.settings q) (h2 : Is2D q) (hb : WallsAligned2 p q)
    (jk : Junk ℝ) (dts : List ℝ) (n : Nat) {m m' : Mem Arr ℝ}
    (h0 : ∀ i j, interior2 p i j → hs2 m (pingIn n) i j = toCons p.settings.gamma0 q)
    (hm : hydroRun2 p g jk n dts m m') :
    ∀ i j, interior2 p i j → hs2 m' (pingIn (n + dts.length)) i j = toCons p.settings.gamma0 q := by
  intro i j hij
  have hgrid : inGrid2 p i j := by
    obtain ⟨a, b, c, d⟩ := hij
    have := hp.wf.gw_pos
    exact ⟨by omega, by omega, by omega, by omega⟩
  rw [(hydroRun2_result hp signLaws_real (schemeOK2_real hp hi) dts n hm).1 i j hgrid]
  cases dts with
  | nil => exact h0 i j hij
  | cons dt dts =>
    have : ∀ i j, inGrid2 p i j →
        fullStep2 p g dt (gravOf m .grav) (hs2 m (pingIn n)) i j = toCons p.settings.gamma0 q := by
      intro i j hij
      have := congrFun (congrFun (fullStep2_const hs hq h2 hb hg dt (gravOf m .grav)) i) j
      rw [← this]
      exact step2_grid_congr hp.wf (fill2_congr_interior hp h0) i j hij
    unfold iterStep2
    rw [iterStep2_congr hp dts this i j hgrid, iterStep2_const hs hq h2 hb hg]

/-- **C22 (3D).** -/
theorem C22_uniform_flow_3d {p : Params ℝ} (hp : Hydro3 p) (hs : GoodSettings p.settings)
    (hi : p.implementationVersion = 0 ∨ p.implementationVersion = 1 ∨
      p.implementationVersion = 2)
    {g : GravityParams} (hg : g.enabled = false)
    {q : HS ℝ} (hq : Physical p.settings q) (hb : WallsAligned3 p q)
    (jk : Junk ℝ) (dts : List ℝ) (n : Nat) {m m' : Mem Arr ℝ}
    (h0 : ∀ i j k, interior3 p i j k → hs3 m (pingIn n) i j k = toCons p.settings.gamma0 q)
    (hm : hydroRun3 p g jk n dts m m') :
    ∀ i j k, interior3 p i j k →
      hs3 m' (pingIn (n + dts.length)) i j k = toCons p.settings.gamma0 q := by
  intro i j k hij
  have hgrid : inGrid3 p i j k := by
    obtain ⟨⟨a, b⟩, ⟨c, d⟩, e, f⟩ := hij
    have := hp.wf.gw_pos
    exact ⟨⟨by omega, by omega⟩, ⟨by omega, by omega⟩, by omega, by omega⟩
  rw [(hydroRun3_result hp signLaws_real (schemeOK3_real hp hi) dts n hm).1 i j k hgrid]
  cases dts with
  | nil => exact h0 i j k hij
  | cons dt dts =>
    have : ∀ i j k, inGrid3 p i j k →
        fullStep3 (zKick p.implementationVersion) p g dt (gravOf3 m .grav) (hs3 m (pingIn n)) i j k
          = toCons p.settings.gamma0 q := by
      intro i j k hij
      have := congrFun (congrFun (congrFun (fullStep3_const
        (zk := zKick p.implementationVersion) hs hq hb hg dt (gravOf3 m .grav)) i) j) k
      rw [← this]
      exact step3_grid_congr hp.wf (fill3_congr_interior hp h0) i j k hij
    unfold iterStep3
    rw [iterStep3_congr hp dts this i j k hgrid, iterStep3_const hs hq hb hg]

/-- Non-vacuity: a uniform oblique flow on a periodic 4 × 3 grid. -/
example : Hydro2 (sample .periodic .periodic) ∧ GoodSettings (sample .periodic .periodic).settings ∧
    Physical (sample .periodic .periodic).settings ⟨1, 1, 3, -2, 0⟩ ∧
    Is2D (⟨1, 1, 3, -2, 0⟩ : HS ℝ) ∧ WallsAligned2 (sample .periodic .periodic) ⟨1, 1, 3, -2, 0⟩ :=
  ⟨sample_hydro2 _ _, sample_good _ _ _ _,
    by constructor <;> norm_num [sample, rawSample, Params.init], by simp [Is2D],
    by simp [WallsAligned2, sample, rawSample, Params.init]⟩

/-- Non-vacuity: flow along a channel with reflecting walls in y. -/
example : WallsAligned2 (sample .neumann .dirichlet) ⟨1, 1, 3, 0, 0⟩ := by
  simp [WallsAligned2, sample, rawSample, Params.init]

/-- Non-vacuity, 3D. -/
example : Hydro3 (sample3 .periodic .periodic) ∧
    GoodSettings (sample3 .periodic .periodic).settings ∧
    WallsAligned3 (sample3 .periodic .periodic) ⟨1, 1, 3, -2, 5⟩ :=
  ⟨sample_hydro3 _ _, sample_good _ _ _ _,
    by simp [WallsAligned3, WallsAligned2, sample3, rawSample, Params.init]⟩

end EulerKokkos
