import Verif.Spec.Dependence
import Verif.Lemmas.HydroStep2D
import Verif.Lemmas.HydroStep3D
import Verif.Lemmas.MhdFull2D
import Verif.Lemmas.MhdFull3D
import Verif.Props.Sample
import Verif.Props.C02

/-!
# C87: domain of dependence

With given time steps, the contents of a cell after `N` steps depend only on the initial contents of the
cells within `2 N` cells (hydro), or `2 N` below and `3 N` above (MHD), along every axis, counted round
periodic axes.
-/

set_option linter.constructorNameAsVariable false
set_option linter.unusedSectionVars false
set_option linter.unusedSimpArgs false

namespace EulerKokkos

open Spec
variable {R : Type} [RealOps R]

theorem reach_self {b1 b2 : BC} {n lo hi c : Int} (hl : 0 ≤ lo) (hh : 0 ≤ hi) : Reach b1 b2 n lo hi c c :=
  ⟨0, Or.inl rfl, by omega, by omega⟩

theorem Spec.Reach.trans {b1 b2 : BC} {n lo hi lo' hi' c b a : Int} (h : Reach b1 b2 n lo hi c b)
    (h' : Reach b1 b2 n lo' hi' b a) : Reach b1 b2 n (lo + lo') (hi + hi') c a := by
  obtain ⟨s, hs, h1, h2⟩ := h
  obtain ⟨s', hs', h3, h4⟩ := h'
  refine ⟨s + s', ?_, ?_, ?_⟩
  · rcases hs with rfl | hs
    · rcases hs' with rfl | hs'
      · exact Or.inl rfl
      · exact Or.inr hs'
    · exact Or.inr hs
  · rw [Int.add_mul]; omega
  · rw [Int.add_mul]; omega

/-- the cell a ghost cell of the stencil takes its value from is within reach -/
theorem reach_srcCoord {b1 b2 : BC} {n gw lo hi c x : Int} (h1 : hi ≤ lo + 1) (h2 : lo ≤ hi)
    (hl : 0 ≤ lo) (hc : gw ≤ c) (hc' : c < gw + n) (hx : c - lo ≤ x) (hx' : x ≤ c + hi) :
    Reach b1 b2 n lo hi c (srcCoord b1 b2 n gw x) := by
  unfold srcCoord
  split_ifs with ha hb
  · cases b1 <;> simp only
    case dirichlet => exact ⟨0, Or.inl rfl, by omega, by omega⟩
    case neumann => exact ⟨0, Or.inl rfl, by omega, by omega⟩
    all_goals exact ⟨-1, Or.inr (Or.inl ⟨by simp, by simp⟩), by omega, by omega⟩
  · cases b2 <;> simp only
    case dirichlet => exact ⟨0, Or.inl rfl, by omega, by omega⟩
    case neumann => exact ⟨0, Or.inl rfl, by omega, by omega⟩
    all_goals exact ⟨1, Or.inr (Or.inr ⟨by simp, by simp⟩), by omega, by omega⟩
  · exact ⟨0, Or.inl rfl, by omega, by omega⟩

/-! ### 2D hydro -/

theorem fullStep2_reach {p : Params R} (hp : Hydro2 p) {g : GravityParams} {dt : R} {gf gf' : Grav2 R}
    (hg : g.enabled = true → gf = gf') {u u' : Fld2 R} {i j : Int} (hij : interior2 p i j)
    (h : ∀ a b, interior2 p a b → Reach2 p 2 2 i j a b → u a b = u' a b) :
    fullStep2 p g dt gf u i j = fullStep2 p g dt gf' u' i j := by
  have hgw := hp.wf.gw_pos
  obtain ⟨f1, f2, f3, f4⟩ := hp.faces
  obtain ⟨i1, i2, j1, j2⟩ := hij
  unfold fullStep2
  refine step2_congr (fun a b a1 a2 b1 b2 => ?_) (fun e a b _ _ _ _ => by rw [hg e])
  have sx := srcCoord_interior (c := a) hp.wf.nx_pos f1 f2 (by omega) (by omega)
  have sy := srcCoord_interior (c := b) hp.wf.ny_pos f3 f4 (by omega) (by omega)
  unfold fill2
  simp only
  rw [h _ _ ⟨sx.1, sx.2, sy.1, sy.2⟩ ⟨reach_srcCoord (by omega) (by omega) (by omega) i1 i2 a1 a2,
    reach_srcCoord (by omega) (by omega) (by omega) j1 j2 b1 b2⟩]

theorem iterStep2_reach {p : Params R} (hp : Hydro2 p) {g : GravityParams} {gf gf' : Grav2 R}
    (hg : g.enabled = true → gf = gf') (dts : List R) {u u' : Fld2 R} {i j : Int} (hij : interior2 p i j)
    (h : ∀ a b, interior2 p a b → Reach2 p (2 * dts.length) (2 * dts.length) i j a b → u a b = u' a b) :
    iterStep2 p g gf dts u i j = iterStep2 p g gf' dts u' i j := by
  induction dts generalizing u u' with
  | nil => exact h i j hij ⟨reach_self (by simp) (by simp), reach_self (by simp) (by simp)⟩
  | cons dt dts ih =>
    refine ih (fun a b hab r => ?_)
    refine fullStep2_reach hp hg hab (fun c d hcd r' => h c d hcd ?_)
    have e : ((dt :: dts).length : Int) = dts.length + 1 := by simp
    obtain ⟨r1, r2⟩ := r
    obtain ⟨s1, s2⟩ := r'
    have t1 := r1.trans s1
    have t2 := r2.trans s2
    have e' : 2 * ((dt :: dts).length : Int) = 2 * (dts.length : Int) + 2 := by omega
    rw [e']
    exact ⟨t1, t2⟩

/-- **C87, 2D hydro.** Two runs with the same time steps, on any schedules and with any contents of
uninitialised locals, whose initial states agree in the cells within `2 N` cells of cell `(i, j)`, agree in
that cell after `N` steps.  Any arithmetic; the atomic version needs exact additions. -/
theorem C87_domain_of_dependence_2d {p : Params R} (hp : Hydro2 p) (hS : SignLaws R)
    (hi : p.implementationVersion = 0 ∨ p.implementationVersion = 1 ∨
      (p.implementationVersion = 2 ∧ ExactAdd R))
    {g : GravityParams} {jk jk' : Junk R} (dts : List R) (n : Nat) {m m' w w' : Mem Arr R}
    (hm : hydroRun2 p g jk n dts m m') (hw : hydroRun2 p g jk' n dts w w')
    (hg : g.enabled = true → gravOf m .grav = gravOf w .grav) {i j : Int} (hij : interior2 p i j)
    (h : ∀ a b, interior2 p a b → Reach2 p (2 * dts.length) (2 * dts.length) i j a b →
      hs2 m (pingIn n) a b = hs2 w (pingIn n) a b) :
    hs2 m' (pingIn (n + dts.length)) i j = hs2 w' (pingIn (n + dts.length)) i j := by
  have hK : SchemeOK2 p := by
    rcases hi with h | h | ⟨h, hE⟩
    · exact schemeOK2_01 hp (Or.inl h)
    · exact schemeOK2_01 hp (Or.inr h)
    · exact schemeOK2_exact hp (Or.inr (Or.inr h))
  have hgr : inGrid2 p i j := by
    have := hp.wf.gw_pos
    obtain ⟨a, b, c, d⟩ := hij
    exact ⟨by omega, by omega, by omega, by omega⟩
  rw [(hydroRun2_result hp hS hK dts n hm).1 i j hgr, (hydroRun2_result hp hS hK dts n hw).1 i j hgr]
  exact iterStep2_reach hp hg dts hij h

/-! ### 3D hydro -/

theorem fullStep3_reach {zk : Bool} {p : Params R} (hp : Hydro3 p) {g : GravityParams} {dt : R}
    {gf gf' : Grav3 R} (hg : g.enabled = true → gf = gf') {u u' : Fld3 R} {i j k : Int}
    (hij : interior3 p i j k)
    (h : ∀ a b c, interior3 p a b c → Reach3 p 2 2 i j k a b c → u a b c = u' a b c) :
    fullStep3 zk p g dt gf u i j k = fullStep3 zk p g dt gf' u' i j k := by
  have hgw := hp.wf.gw_pos
  obtain ⟨⟨f1, f2, f3, f4⟩, f5, f6⟩ := hp.faces
  obtain ⟨⟨i1, i2⟩, ⟨j1, j2⟩, k1, k2⟩ := hij
  unfold fullStep3
  refine step3_congr (fun a b c a1 a2 b1 b2 c1 c2 => ?_) (fun e a b c _ _ _ _ _ _ => by rw [hg e])
  have sx := srcCoord_interior (c := a) hp.wf.nx_pos f1 f2 (by omega) (by omega)
  have sy := srcCoord_interior (c := b) hp.wf.ny_pos f3 f4 (by omega) (by omega)
  have sz := srcCoord_interior (c := c) hp.wf.nz_pos f5 f6 (by omega) (by omega)
  unfold fill3
  simp only
  rw [h _ _ _ ⟨sx, sy, sz⟩ ⟨reach_srcCoord (by omega) (by omega) (by omega) i1 i2 a1 a2,
    reach_srcCoord (by omega) (by omega) (by omega) j1 j2 b1 b2,
    reach_srcCoord (by omega) (by omega) (by omega) k1 k2 c1 c2⟩]

theorem iterStep3_reach {zk : Bool} {p : Params R} (hp : Hydro3 p) {g : GravityParams} {gf gf' : Grav3 R}
    (hg : g.enabled = true → gf = gf') (dts : List R) {u u' : Fld3 R} {i j k : Int}
    (hij : interior3 p i j k)
    (h : ∀ a b c, interior3 p a b c → Reach3 p (2 * dts.length) (2 * dts.length) i j k a b c →
      u a b c = u' a b c) :
    iterStep3 zk p g gf dts u i j k = iterStep3 zk p g gf' dts u' i j k := by
  induction dts generalizing u u' with
  | nil => exact h i j k hij ⟨reach_self (by simp) (by simp), reach_self (by simp) (by simp),
      reach_self (by simp) (by simp)⟩
  | cons dt dts ih =>
    refine ih (fun a b c hab r => ?_)
    refine fullStep3_reach hp hg hab (fun x y z hcd r' => h x y z hcd ?_)
    have e : ((dt :: dts).length : Int) = dts.length + 1 := by simp
    obtain ⟨r1, r2, r3⟩ := r
    obtain ⟨s1, s2, s3⟩ := r'
    have t1 := r1.trans s1
    have t2 := r2.trans s2
    have t3 := r3.trans s3
    have e' : 2 * ((dt :: dts).length : Int) = 2 * (dts.length : Int) + 2 := by omega
    rw [e']
    exact ⟨t1, t2, t3⟩

/-- **C87, 3D hydro.** -/
theorem C87_domain_of_dependence_3d {p : Params R} (hp : Hydro3 p) (hS : SignLaws R)
    (hi : p.implementationVersion = 0 ∨ p.implementationVersion = 1 ∨
      (p.implementationVersion = 2 ∧ ExactAdd R))
    {g : GravityParams} {jk jk' : Junk R} (dts : List R) (n : Nat) {m m' w w' : Mem Arr R}
    (hm : hydroRun3 p g jk n dts m m') (hw : hydroRun3 p g jk' n dts w w')
    (hg : g.enabled = true → gravOf3 m .grav = gravOf3 w .grav) {i j k : Int} (hij : interior3 p i j k)
    (h : ∀ a b c, interior3 p a b c → Reach3 p (2 * dts.length) (2 * dts.length) i j k a b c →
      hs3 m (pingIn n) a b c = hs3 w (pingIn n) a b c) :
    hs3 m' (pingIn (n + dts.length)) i j k = hs3 w' (pingIn (n + dts.length)) i j k := by
  have hK : SchemeOK3 (zKick p.implementationVersion) p := by
    rcases hi with h | h | ⟨h, hE⟩
    · exact schemeOK3_01 hp (Or.inl h)
    · exact schemeOK3_01 hp (Or.inr h)
    · exact schemeOK3_exact hp (Or.inr (Or.inr h))
  have hgr : inGrid3 p i j k := by
    have := hp.wf.gw_pos
    obtain ⟨⟨a, b⟩, ⟨c, d⟩, e, f⟩ := hij
    exact ⟨⟨by omega, by omega⟩, ⟨by omega, by omega⟩, by omega, by omega⟩
  rw [(hydroRun3_result hp hS hK dts n hm).1 i j k hgr, (hydroRun3_result hp hS hK dts n hw).1 i j k hgr]
  exact iterStep3_reach hp hg dts hij h

/-! ### 2D MHD -/

theorem fullStepM2_reach {p : Params R} (hp : Mhd2 p) {dt : R} {u u' : FldM2 R} {i j : Int}
    (hij : interior2 p i j)
    (h : ∀ a b, interior2 p a b → Reach2 p 2 3 i j a b → u a b = u' a b) :
    fullStepM2 p dt u i j = fullStepM2 p dt u' i j := by
  have hgw := hp.gw
  obtain ⟨f1, f2, f3, f4⟩ := hp.faces
  obtain ⟨i1, i2, j1, j2⟩ := hij
  unfold fullStepM2
  refine stepM2_congr hp.valid (fun a b a1 a2 b1 b2 => ?_)
  have sx := srcCoord_interior (c := a) hp.wf.nx_pos f1 f2 (by omega) (by omega)
  have sy := srcCoord_interior (c := b) hp.wf.ny_pos f3 f4 (by omega) (by omega)
  unfold fillM2 ghost2
  simp only
  rw [h _ _ ⟨sx.1, sx.2, sy.1, sy.2⟩ ⟨reach_srcCoord (by omega) (by omega) (by omega) i1 i2 a1 a2,
    reach_srcCoord (by omega) (by omega) (by omega) j1 j2 b1 b2⟩]

theorem iterStepM2_reach {p : Params R} (hp : Mhd2 p) (dts : List R) {u u' : FldM2 R} {i j : Int}
    (hij : interior2 p i j)
    (h : ∀ a b, interior2 p a b → Reach2 p (2 * dts.length) (3 * dts.length) i j a b → u a b = u' a b) :
    iterStepM2 p dts u i j = iterStepM2 p dts u' i j := by
  induction dts generalizing u u' with
  | nil => exact h i j hij ⟨reach_self (by simp) (by simp), reach_self (by simp) (by simp)⟩
  | cons dt dts ih =>
    refine ih (fun a b hab r => ?_)
    refine fullStepM2_reach hp hab (fun c d hcd r' => h c d hcd ?_)
    have e : ((dt :: dts).length : Int) = dts.length + 1 := by simp
    obtain ⟨r1, r2⟩ := r
    obtain ⟨s1, s2⟩ := r'
    have t1 := r1.trans s1
    have t2 := r2.trans s2
    have e' : 2 * ((dt :: dts).length : Int) = 2 * (dts.length : Int) + 2 := by omega
    have e3 : 3 * ((dt :: dts).length : Int) = 3 * (dts.length : Int) + 3 := by omega
    rw [e', e3]
    exact ⟨t1, t2⟩

theorem mhd_dependence_2d {p : Params R} (hp : Mhd2 p) (hS : SignLaws R) (hK : MhdOK2 p)
    {jk jk' : JunkM R} (dts : List R) (n : Nat) {m m' w w' : Mem Arr R}
    (hm : mhdRun2 p jk n dts m m') (hw : mhdRun2 p jk' n dts w w') {i j : Int} (hij : interior2 p i j)
    (h : ∀ a b, interior2 p a b → Reach2 p (2 * dts.length) (3 * dts.length) i j a b →
      ms2 m (pingIn n) a b = ms2 w (pingIn n) a b) :
    ms2 m' (pingIn (n + dts.length)) i j = ms2 w' (pingIn (n + dts.length)) i j := by
  rw [mhdRun2_result hp hS hK dts n hm i j hij, mhdRun2_result hp hS hK dts n hw i j hij]
  exact iterStepM2_reach hp dts hij h

/-- **C87, 2D MHD, version 0, any arithmetic.** -/
theorem C87_mhd_domain_of_dependence_2d_v0 {p : Params R} (hp : Mhd2 p) (hS : SignLaws R)
    (hi : p.implementationVersion = 0)
    {jk jk' : JunkM R} (dts : List R) (n : Nat) {m m' w w' : Mem Arr R}
    (hm : mhdRun2 p jk n dts m m') (hw : mhdRun2 p jk' n dts w w') {i j : Int} (hij : interior2 p i j)
    (h : ∀ a b, interior2 p a b → Reach2 p (2 * dts.length) (3 * dts.length) i j a b →
      ms2 m (pingIn n) a b = ms2 w (pingIn n) a b) :
    ms2 m' (pingIn (n + dts.length)) i j = ms2 w' (pingIn (n + dts.length)) i j :=
  mhd_dependence_2d hp hS (mhdOK2_0 hp hi) dts n hm hw hij h

/-- **C87, 2D MHD, every version, exact arithmetic.** -/
theorem C87_mhd_domain_of_dependence_2d {p : Params ℝ} (hp : Mhd2 p)
    (hi : p.implementationVersion = 0 ∨ p.implementationVersion = 1 ∨ p.implementationVersion = 2)
    {jk jk' : JunkM ℝ} (dts : List ℝ) (n : Nat) {m m' w w' : Mem Arr ℝ}
    (hm : mhdRun2 p jk n dts m m') (hw : mhdRun2 p jk' n dts w w') {i j : Int} (hij : interior2 p i j)
    (h : ∀ a b, interior2 p a b → Reach2 p (2 * dts.length) (3 * dts.length) i j a b →
      ms2 m (pingIn n) a b = ms2 w (pingIn n) a b) :
    ms2 m' (pingIn (n + dts.length)) i j = ms2 w' (pingIn (n + dts.length)) i j :=
  mhd_dependence_2d hp signLaws_real (mhdOK2_real hp hi) dts n hm hw hij h

/-! ### 3D MHD -/

theorem fullStepM3_reach {p : Params R} (hp : Mhd3 p) {dt : R} {u u' : FldM3 R} {i j k : Int}
    (hij : interior3 p i j k)
    (h : ∀ a b c, interior3 p a b c → Reach3 p 2 3 i j k a b c → u a b c = u' a b c) :
    fullStepM3 p dt u i j k = fullStepM3 p dt u' i j k := by
  have hgw := hp.gw
  obtain ⟨⟨f1, f2, f3, f4⟩, f5, f6⟩ := hp.faces
  obtain ⟨⟨i1, i2⟩, ⟨j1, j2⟩, k1, k2⟩ := hij
  unfold fullStepM3
  refine stepM3_congr (fun a b c a1 a2 b1 b2 c1 c2 => ?_)
  have sx := srcCoord_interior (c := a) hp.wf.nx_pos f1 f2 (by omega) (by omega)
  have sy := srcCoord_interior (c := b) hp.wf.ny_pos f3 f4 (by omega) (by omega)
  have sz := srcCoord_interior (c := c) hp.wf.nz_pos f5 f6 (by omega) (by omega)
  unfold fillM3 ghost3
  simp only
  rw [h _ _ _ ⟨sx, sy, sz⟩ ⟨reach_srcCoord (by omega) (by omega) (by omega) i1 i2 a1 a2,
    reach_srcCoord (by omega) (by omega) (by omega) j1 j2 b1 b2,
    reach_srcCoord (by omega) (by omega) (by omega) k1 k2 c1 c2⟩]

theorem iterStepM3_reach {p : Params R} (hp : Mhd3 p) (dts : List R) {u u' : FldM3 R} {i j k : Int}
    (hij : interior3 p i j k)
    (h : ∀ a b c, interior3 p a b c → Reach3 p (2 * dts.length) (3 * dts.length) i j k a b c →
      u a b c = u' a b c) :
    iterStepM3 p dts u i j k = iterStepM3 p dts u' i j k := by
  induction dts generalizing u u' with
  | nil => exact h i j k hij ⟨reach_self (by simp) (by simp), reach_self (by simp) (by simp),
      reach_self (by simp) (by simp)⟩
  | cons dt dts ih =>
    refine ih (fun a b c hab r => ?_)
    refine fullStepM3_reach hp hab (fun x y z hcd r' => h x y z hcd ?_)
    have e : ((dt :: dts).length : Int) = dts.length + 1 := by simp
    obtain ⟨r1, r2, r3⟩ := r
    obtain ⟨s1, s2, s3⟩ := r'
    have t1 := r1.trans s1
    have t2 := r2.trans s2
    have t3 := r3.trans s3
    have e' : 2 * ((dt :: dts).length : Int) = 2 * (dts.length : Int) + 2 := by omega
    have e3 : 3 * ((dt :: dts).length : Int) = 3 * (dts.length : Int) + 3 := by omega
    rw [e', e3]
    exact ⟨t1, t2, t3⟩

/-- **C87, 3D MHD.** Any arithmetic for version 0; versions 1 and 2 accumulate with atomic additions and need
exact additions. -/
theorem C87_mhd_domain_of_dependence_3d {p : Params R} (hp : Mhd3 p) (hS : SignLaws R)
    (hi : p.implementationVersion = 0 ∨
      ((p.implementationVersion = 1 ∨ p.implementationVersion = 2) ∧ ExactAdd R))
    {jk jk' : JunkM R} (dts : List R) (n : Nat) {m m' w w' : Mem Arr R}
    (hm : mhdRun3 p jk n dts m m') (hw : mhdRun3 p jk' n dts w w') {i j k : Int} (hij : interior3 p i j k)
    (h : ∀ a b c, interior3 p a b c → Reach3 p (2 * dts.length) (3 * dts.length) i j k a b c →
      ms m (pingIn n) a b c = ms w (pingIn n) a b c) :
    ms m' (pingIn (n + dts.length)) i j k = ms w' (pingIn (n + dts.length)) i j k := by
  have hK : MhdOK3 p := by
    rcases hi with h | ⟨h, hE⟩
    · exact mhdOK3_0 hp h
    · exact mhdOK3_exact hp (Or.inr h)
  rw [mhdRun3_result hp hS hK dts n hm i j k hij, mhdRun3_result hp hS hK dts n hw i j k hij]
  exact iterStepM3_reach hp dts hij h

/-! ### A local change stays local -/

/-- **C87, perturbation, 2D hydro.** If two initial states differ in one cell `(a, b)` only, then after `N`
steps they differ only in the cells that have `(a, b)` within `2 N` cells; without periodic faces that is a
square of `4 N + 1` cells. -/
theorem C87_perturbation_stays_local_2d {p : Params R} (hp : Hydro2 p) (hS : SignLaws R)
    (hi : p.implementationVersion = 0 ∨ p.implementationVersion = 1 ∨
      (p.implementationVersion = 2 ∧ ExactAdd R))
    (hx : (p.boundary_type_xmin = .dirichlet ∨ p.boundary_type_xmin = .neumann) ∧
      (p.boundary_type_xmax = .dirichlet ∨ p.boundary_type_xmax = .neumann))
    (hy : (p.boundary_type_ymin = .dirichlet ∨ p.boundary_type_ymin = .neumann) ∧
      (p.boundary_type_ymax = .dirichlet ∨ p.boundary_type_ymax = .neumann))
    {g : GravityParams} {jk jk' : Junk R} (dts : List R) (n : Nat) {m m' w w' : Mem Arr R}
    (hm : hydroRun2 p g jk n dts m m') (hw : hydroRun2 p g jk' n dts w w')
    (hg : g.enabled = true → gravOf m .grav = gravOf w .grav) {a b : Int}
    (h : ∀ i j, interior2 p i j → (i, j) ≠ (a, b) → hs2 m (pingIn n) i j = hs2 w (pingIn n) i j)
    {i j : Int} (hij : interior2 p i j)
    (hfar : 2 * (dts.length : Int) < |i - a| ∨ 2 * (dts.length : Int) < |j - b|) :
    hs2 m' (pingIn (n + dts.length)) i j = hs2 w' (pingIn (n + dts.length)) i j := by
  refine C87_domain_of_dependence_2d hp hS hi dts n hm hw hg hij (fun c d hcd r => h c d hcd ?_)
  intro e
  rw [Prod.mk.injEq] at e
  obtain ⟨rfl, rfl⟩ := e
  obtain ⟨r1, r2⟩ := r
  rw [reach_plain hx.1 hx.2] at r1
  rw [reach_plain hy.1 hy.2] at r2
  rcases hfar with hf | hf
  · exact absurd (abs_le.2 ⟨by omega, by omega⟩) (not_le.2 hf)
  · exact absurd (abs_le.2 ⟨by omega, by omega⟩) (not_le.2 hf)

/-- **C87, perturbation, 3D MHD.** -/
theorem C87_mhd_perturbation_stays_local_3d {p : Params R} (hp : Mhd3 p) (hS : SignLaws R)
    (hi : p.implementationVersion = 0 ∨
      ((p.implementationVersion = 1 ∨ p.implementationVersion = 2) ∧ ExactAdd R))
    {jk jk' : JunkM R} (dts : List R) (n : Nat) {m m' w w' : Mem Arr R}
    (hm : mhdRun3 p jk n dts m m') (hw : mhdRun3 p jk' n dts w w') {a b c : Int}
    (h : ∀ i j k, interior3 p i j k → (i, j, k) ≠ (a, b, c) → ms m (pingIn n) i j k = ms w (pingIn n) i j k)
    {i j k : Int} (hij : interior3 p i j k)
    (hfar : ¬ Reach3 p (2 * dts.length) (3 * dts.length) i j k a b c) :
    ms m' (pingIn (n + dts.length)) i j k = ms w' (pingIn (n + dts.length)) i j k := by
  refine C87_mhd_domain_of_dependence_3d hp hS hi dts n hm hw hij (fun x y z hcd r => h x y z hcd ?_)
  intro e
  rw [Prod.mk.injEq, Prod.mk.injEq] at e
  obtain ⟨rfl, rfl, rfl⟩ := e
  exact hfar r

/-! ### Non-vacuity -/

/-- the hypotheses on the parameters are met, a run exists from every memory, and on a grid of 40 cells with
reflecting faces the last cells are out of reach of the first ones for several steps -/
example (m : Mem Arr ℝ) : Hydro2 (sample .periodic .dirichlet) ∧
    (∃ m', hydroRun2 (sample .periodic .dirichlet) ⟨false, false⟩ (fun _ _ _ _ => HS.zero) 0 [1] m m') ∧
    ¬ Reach .dirichlet .neumann 40 4 4 2 30 ∧ Reach .periodic .periodic 40 4 4 2 41 := by
  refine ⟨sample_hydro2 _ _, ?_, ?_, ?_⟩
  · obtain ⟨m1, h1, _⟩ := C02_step_deterministic (sample_wf .periodic .dirichlet)
      (sample_hydro2 .periodic .dirichlet).faces (Or.inl rfl) ⟨false, false⟩ 1 (fun _ _ _ _ => HS.zero)
      (pingPong 0) m
    exact ⟨m1, m1, h1, rfl⟩
  · rw [reach_plain (Or.inl rfl) (Or.inr rfl)]; omega
  · exact ⟨-1, Or.inr (Or.inl ⟨by simp, by simp⟩), by omega, by omega⟩

end EulerKokkos
