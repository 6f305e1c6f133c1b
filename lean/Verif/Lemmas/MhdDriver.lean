import Verif.Model.DriverMhd
import Verif.Spec.MhdSimulation
import Verif.Lemmas.CheckedMhdStep3
import Verif.Lemmas.MhdFull2D
import Verif.Lemmas.MhdFull3D
import Verif.Props.C39
import Verif.Props.C44
import Verif.Props.C15

/-!
# MHD time step and MHD runs
-/

set_option linter.constructorNameAsVariable false
set_option linter.unusedSectionVars false
set_option linter.unusedSimpArgs false

namespace EulerKokkos
open Spec Prog

theorem fastSpeed_pos {γ : ℝ} (hγ : 1 < γ) {q : MS ℝ} (hq : PhysM q) (b : ℝ) : 0 < fastSpeed γ b q := by
  have hd := hq.d
  have hp := hq.p
  unfold fastSpeed
  refine Real.sqrt_pos.2 (add_pos_of_pos_of_nonneg ?_ (Real.sqrt_nonneg _))
  have : 0 < γ * q.p := by positivity
  positivity

/-- `find_speed_info` computes velocity plus fast speed along each axis -/
theorem findSpeedInfo_spec {s : Settings ℝ} (hg : 1 < s.gamma0) {q : MS ℝ} (hq : PhysM q) :
    findSpeedInfo s q = (|q.u| + fastSpeed s.gamma0 q.a q, |q.v| + fastSpeed s.gamma0 q.b q,
      |q.w| + fastSpeed s.gamma0 q.c q) := by
  have e : findSpeedInfo s q = (findSpeedFast s 0 q + fabs q.u, findSpeedFast s 1 q + fabs q.v,
    findSpeedFast s 2 q + fabs q.w) := rfl
  rw [e, findSpeedFast_spec hg hq, findSpeedFast_spec hg hq, findSpeedFast_spec hg hq]
  simp only [RealOps.fabs_real]
  rw [add_comm, add_comm (fastSpeed _ (q.normalB 1) _), add_comm (fastSpeed _ (q.normalB 2) _)]
  rfl

theorem mhdRate2_pos {p : Params ℝ} (hg : GoodGrid p) {q : MS ℝ} (hq : PhysM q) :
    0 < mhdRate2 p.settings.gamma0 p.dx p.dy q := by
  have := hg.dx
  have := hg.dy
  have := fastSpeed_pos hg.settings.gamma hq q.a
  have := fastSpeed_pos hg.settings.gamma hq q.b
  unfold mhdRate2
  positivity

theorem mhdRate3_pos {p : Params ℝ} (hg : GoodGrid p) {q : MS ℝ} (hq : PhysM q) :
    0 < mhdRate3 p.settings.gamma0 p.dx p.dy p.dz q := by
  have := hg.dx
  have := hg.dy
  have := hg.dz
  have := fastSpeed_pos hg.settings.gamma hq q.a
  have := fastSpeed_pos hg.settings.gamma hq q.b
  have := fastSpeed_pos hg.settings.gamma hq q.c
  unfold mhdRate3
  positivity

theorem computeDtMhd2_run {p : Params ℝ} (hg : 1 < p.settings.gamma0) (Q : Arr) (t : Int × Int) (a : ℝ)
    (m : Mem Arr ℝ) (hq : cellGuard2 p t → PhysM (ms2 m Q t.1 t.2)) :
    ((computeDtMhd2 p Q t a).run m).1 =
      if cellGuard2 p t then max a (mhdRate2 p.settings.gamma0 p.dx p.dy (ms2 m Q t.1 t.2)) else a := by
  unfold computeDtMhd2
  split_ifs with h
  · simp only [run_bind, run_getMS, run_pure]
    have e := findSpeedInfo_spec hg (hq h)
    unfold ms2 at e ⊢
    rw [e]
    rfl
  · rfl

theorem computeDtMhd3_run {p : Params ℝ} (hg : 1 < p.settings.gamma0) (Q : Arr) (t : Int × Int × Int) (a : ℝ)
    (m : Mem Arr ℝ) (hq : cellGuard3 p t → PhysM (ms m Q t.1 t.2.1 t.2.2)) :
    ((computeDtMhd3 p Q t a).run m).1 =
      if cellGuard3 p t then max a (mhdRate3 p.settings.gamma0 p.dx p.dy p.dz (ms m Q t.1 t.2.1 t.2.2))
      else a := by
  unfold computeDtMhd3
  split_ifs with h
  · simp only [run_bind, run_getMS, run_pure]
    rw [findSpeedInfo_spec hg (hq h)]
    rfl
  · rfl

/-- every schedule of the reduction returns the CFL time step of the stored primitive field (2D) -/
theorem dtLocalM2_eq {p : Params ℝ} (hw : p.WF) (hg : GoodGrid p) {ident : ℝ} (hid : ident ≤ 0)
    {m : Mem Arr ℝ} {Q : FldM2 ℝ} (hQ : ∀ i j, interior2 p i j → ms2 m .Q i j = Q i j)
    (hph : ∀ i j, interior2 p i j → PhysM (Q i j)) {dt : ℝ}
    (h : computeDtLocalMhd2 p ident m dt) :
    dt = p.settings.cfl / sSup {r | ∃ i j, interior2 p i j ∧
      r = mhdRate2 p.settings.gamma0 p.dx p.dy (Q i j)} ∧ 0 < dt := by
  obtain ⟨r, h, rfl⟩ := h
  have hp' : ∀ t, cellGuard2 p t → PhysM (ms2 m .Q t.1 t.2) := fun t ht => by
    have hi := (cellGuard2_interior hw t).1 ht
    rw [hQ _ _ hi]; exact hph _ _ hi
  obtain ⟨k1, t, ht, gt, k2⟩ := parReduce_max (fun t => cellGuard2 p t)
    (fun t => mhdRate2 p.settings.gamma0 p.dx p.dy (ms2 m .Q t.1 t.2))
    (fun t a gt => by rw [computeDtMhd2_run hg.settings.gamma _ _ _ _ (hp' t), if_pos gt])
    (fun t a gt => by rw [computeDtMhd2_run hg.settings.gamma _ _ _ _ (hp' t), if_neg gt])
    ⟨(p.ghostWidth, p.ghostWidth), interior2_range hw (interior2_first hw),
        (cellGuard2_interior hw _).2 (interior2_first hw)⟩
    (fun t _ ht => hid.trans (mhdRate2_pos hg (hp' t ht)).le) h
  have hpos : 0 < r := k2 ▸ mhdRate2_pos hg (hp' t gt)
  refine ⟨?_, div_pos hg.cfl hpos⟩
  congr 1
  refine (IsGreatest.csSup_eq ⟨?_, ?_⟩).symm
  · have hi := (cellGuard2_interior hw t).1 gt
    exact ⟨t.1, t.2, hi, by rw [k2, hQ _ _ hi]⟩
  · rintro _ ⟨i, j, hij, rfl⟩
    rw [← hQ i j hij]
    exact k1 (i, j) (interior2_range hw hij) ((cellGuard2_interior hw (i, j)).2 hij)

/-- every schedule of the reduction returns the CFL time step of the stored primitive field (3D) -/
theorem dtLocalM3_eq {p : Params ℝ} (hw : p.WF) (hg : GoodGrid p) {ident : ℝ} (hid : ident ≤ 0)
    {m : Mem Arr ℝ} {Q : FldM3 ℝ} (hQ : ∀ i j k, interior3 p i j k → ms m .Q i j k = Q i j k)
    (hph : ∀ i j k, interior3 p i j k → PhysM (Q i j k)) {dt : ℝ}
    (h : computeDtLocalMhd3 p ident m dt) :
    dt = p.settings.cfl / sSup {r | ∃ i j k, interior3 p i j k ∧
      r = mhdRate3 p.settings.gamma0 p.dx p.dy p.dz (Q i j k)} ∧ 0 < dt := by
  obtain ⟨r, h, rfl⟩ := h
  have hp' : ∀ t, cellGuard3 p t → PhysM (ms m .Q t.1 t.2.1 t.2.2) := fun t ht => by
    have hi := (cellGuard3_interior hw t).1 ht
    rw [hQ _ _ _ hi]; exact hph _ _ _ hi
  obtain ⟨k1, t, ht, gt, k2⟩ := parReduce_max (fun t => cellGuard3 p t)
    (fun t => mhdRate3 p.settings.gamma0 p.dx p.dy p.dz (ms m .Q t.1 t.2.1 t.2.2))
    (fun t a gt => by rw [computeDtMhd3_run hg.settings.gamma _ _ _ _ (hp' t), if_pos gt])
    (fun t a gt => by rw [computeDtMhd3_run hg.settings.gamma _ _ _ _ (hp' t), if_neg gt])
    ⟨(p.ghostWidth, p.ghostWidth, p.ghostWidth), interior3_range hw (interior3_first hw),
        (cellGuard3_interior hw _).2 (interior3_first hw)⟩
    (fun t _ ht => hid.trans (mhdRate3_pos hg (hp' t ht)).le) h
  have hpos : 0 < r := k2 ▸ mhdRate3_pos hg (hp' t gt)
  refine ⟨?_, div_pos hg.cfl hpos⟩
  congr 1
  refine (IsGreatest.csSup_eq ⟨?_, ?_⟩).symm
  · have hi := (cellGuard3_interior hw t).1 gt
    exact ⟨t.1, t.2.1, t.2.2, hi, by rw [k2, hQ _ _ _ hi]⟩
  · rintro _ ⟨i, j, k, hij, rfl⟩
    rw [← hQ i j k hij]
    exact k1 (i, j, k) (interior3_range hw hij) ((cellGuard3_interior hw (i, j, k)).2 hij)

/-- after the first part of an iteration the primitive view holds the primitive variables of the filled
field (2D), any arithmetic -/
theorem preMhd2_prim {R : Type} [RealOps R] {p : Params R} (hp : Mhd2 p) (hS : SignLaws R) {inA outA : Arr}
    (hpp : PingPong inA outA) {m m' : Mem Arr R} (hm : runLaunches (preMhd2 p inA outA) m m') {x : FldM2 R}
    (hx : ∀ i j, interior2 p i j → ms2 m inA i j = x i j) (i j : Int) (hij : interior2 p i j) :
    ms2 m' .Q i j = primM2 p (fillM2 p x) i j := by
  obtain ⟨_, b2, _, _, b5⟩ := preMhd2_result hp hS hpp hm
  have e1 := hp.wf.isize_eq
  have e2 := hp.wf.jsize_eq
  have e3 := hp.gw
  have hF := fillM2_congr hp.wf hp.faces hx
  have key : ∀ a b, inGrid2 p a b → ms2 m' inA a b = fillM2 p x a b :=
    fun a b h => (b2 a b h).trans (hF a b h)
  obtain ⟨h1, h2, h3, h4⟩ := hij
  rw [b5 i j (by omega) (by omega) (by omega) (by omega)]
  exact primM2_congr (fun a b _ _ _ _ => key a b ⟨by omega, by omega, by omega, by omega⟩)

theorem preMhd3_prim {R : Type} [RealOps R] {p : Params R} (hp : Mhd3 p) (hS : SignLaws R) {inA outA : Arr}
    (hpp : PingPong inA outA) {m m' : Mem Arr R} (hm : runLaunches (preMhd3 p inA outA) m m') {x : FldM3 R}
    (hx : ∀ i j k, interior3 p i j k → ms m inA i j k = x i j k) (i j k : Int) (hij : interior3 p i j k) :
    ms m' .Q i j k = primM3 p (fillM3 p x) i j k := by
  obtain ⟨_, b2, _, _, b5⟩ := preMhd3_result hp hS hpp hm
  have e1 := hp.wf.isize_eq
  have e2 := hp.wf.jsize_eq
  have e2' := hp.wf.ksize_eq
  have e3 := hp.gw
  have hF := fillM3_congr hp.wf hp.faces hx
  have key : ∀ a b c, inGrid3 p a b c → ms m' inA a b c = fillM3 p x a b c :=
    fun a b c h => (b2 a b c h).trans (hF a b c h)
  obtain ⟨⟨h1, h2⟩, ⟨h3, h4⟩, h5, h6⟩ := hij
  rw [b5 i j k (by omega) (by omega) (by omega) (by omega) (by omega) (by omega)]
  exact primM3_congr (fun a b c _ _ _ _ _ _ =>
    key a b c ⟨⟨by omega, by omega⟩, ⟨by omega, by omega⟩, by omega, by omega⟩)

/-- memory at the start of iteration `n`: the interior cells hold `u` (2D) -/
def MhdInv2 (p : Params ℝ) (n : Nat) (m : Mem Arr ℝ) (u : FldM2 ℝ) : Prop :=
  ∀ i j, interior2 p i j → ms2 m (pingIn n) i j = u i j

/-- memory at the start of iteration `n`: the interior cells hold `u` (3D) -/
def MhdInv3 (p : Params ℝ) (n : Nat) (m : Mem Arr ℝ) (u : FldM3 ℝ) : Prop :=
  ∀ i j k, interior3 p i j k → ms m (pingIn n) i j k = u i j k

theorem refines_mhd2 {p : Params ℝ} (hp : Mhd2 p)
    (hi : p.implementationVersion = 0 ∨ p.implementationVersion = 1 ∨ p.implementationVersion = 2)
    (hg : GoodGrid p) {ident : ℝ} (hid : ident ≤ 0) (jk : JunkM ℝ) :
    Refines p (mhdOps2 p ident jk) (mhd2 p) (MhdInv2 p) (ShowsM2 p) where
  view n m x h i j hij := by rw [← h i j hij]; rfl
  dt n m x m₁ d h hpre hd :=
    (dtLocalM2_eq hp.wf hg hid (preMhd2_prim hp signLaws_real (pingPong n) hpre h)
      (fun i j _ => primM2_phys hg.settings _ i j) hd).1
  post n m x m₁ d m₃ h hpre hpost i j hij := by
    have := (godunovMhd2_result hp signLaws_real (mhdOK2_real hp hi) (pingPong n)
      (show godunovMhd2 p d jk (pingIn n) (pingOut n) m m₃ from ⟨m₁, hpre, hpost⟩)).2 i j hij
    rw [← pingOut_succ, this]
    exact fullStepM2_congr hp h i j hij

theorem refines_mhd3 {p : Params ℝ} (hp : Mhd3 p)
    (hi : p.implementationVersion = 0 ∨ p.implementationVersion = 1 ∨ p.implementationVersion = 2)
    (hg : GoodGrid p) {ident : ℝ} (hid : ident ≤ 0) (jk : JunkM ℝ) :
    Refines p (mhdOps3 p ident jk) (mhd3 p) (MhdInv3 p) (ShowsM3 p) where
  view n m x h i j k hij := by rw [← h i j k hij]; rfl
  dt n m x m₁ d h hpre hd :=
    (dtLocalM3_eq hp.wf hg hid (preMhd3_prim hp signLaws_real (pingPong n) hpre h)
      (fun i j k _ => primM3_phys hg.settings _ i j k) hd).1
  post n m x m₁ d m₃ h hpre hpost i j k hij := by
    have := (godunovMhd3_result hp signLaws_real (mhdOK3_real hp hi) (pingPong n)
      (show godunovMhd3 p d jk (pingIn n) (pingOut n) m m₃ from ⟨m₁, hpre, hpost⟩)).2 i j k hij
    rw [← pingOut_succ, this]
    exact fullStepM3_congr hp h i j k hij

/-- what the constructor leaves: the initial field in the interior cells -/
theorem setup_mhd2 {R : Type} [RealOps R] {p : Params R} (hp : Mhd2 p) (hS : SignLaws R) {ident : R} {jk : JunkM R}
    {m m₁ : Mem Arr R} (h : (mhdOps2 p ident jk).setup m m₁) (i j : Int) (hij : interior2 p i j) :
    ms2 m₁ .U i j = ms2 m .U i j :=
  (preMhd2_result hp hS (.inl ⟨rfl, rfl⟩) h).2.2.1 i j hij

theorem setup_mhd3 {R : Type} [RealOps R] {p : Params R} (hp : Mhd3 p) (hS : SignLaws R) {ident : R} {jk : JunkM R}
    {m m₁ : Mem Arr R} (h : (mhdOps3 p ident jk).setup m m₁) (i j k : Int) (hij : interior3 p i j k) :
    ms m₁ .U i j k = ms m .U i j k :=
  (preMhd3_result hp hS (.inl ⟨rfl, rfl⟩) h).2.2.1 i j k hij

theorem total_mhd2 {p : Params ℝ} (hw : p.WF) (hf : Faces2Ok p) (ident : ℝ) (jk : JunkM ℝ) :
    (mhdOps2 p ident jk).Total where
  pre n m := (det_runLaunches (det_preMhd2 hw hf (pingPong n)) m).exists
  dt n m := by
    obtain ⟨r, hr⟩ := parReduce_exists (range2 p.isize p.jsize) (computeDtMhd2 p .Q) kokkosMaxJoin ident m
    exact ⟨_, r, hr, rfl⟩
  post n d m := (det_runLaunches (det_postMhd2_real p d jk (pingPong n)) m).exists
  setup m := (det_runLaunches (det_preMhd2 hw hf (.inl ⟨rfl, rfl⟩)) m).exists

theorem total_mhd3 {p : Params ℝ} (hw : p.WF) (hf : Faces3Ok p) (ident : ℝ) (jk : JunkM ℝ) :
    (mhdOps3 p ident jk).Total where
  pre n m := (det_runLaunches (det_preMhd3 hw hf (pingPong n)) m).exists
  dt n m := by
    obtain ⟨r, hr⟩ := parReduce_exists (range3 p.isize p.jsize p.ksize) (computeDtMhd3 p .Q) kokkosMaxJoin ident m
    exact ⟨_, r, hr, rfl⟩
  post n d m := (det_runLaunches (det_postMhd3_real p d jk (pingPong n)) m).exists
  setup m := (det_runLaunches (det_preMhd3 hw hf (.inl ⟨rfl, rfl⟩)) m).exists

end EulerKokkos
