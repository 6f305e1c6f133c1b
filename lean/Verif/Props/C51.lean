import Verif.Lemmas.CheckedRun
import Verif.Props.C29

/-!
# C51 — a hydro run never performs an undefined operation

`Chk` (`Core/Checked.lean`) is exact arithmetic in which a division by zero and the square root of a
negative number give a contagious value `bad` (IEEE: infinity or NaN).  The programs below are the same
generic models, run with `Chk`.
-/

set_option linter.unusedSimpArgs false
set_option linter.constructorNameAsVariable false

namespace EulerKokkos

open Chk Spec

/-- **C51 (Riemann solvers).** For every pair of states — any real numbers, physical or not — each hydro
solver returns numbers, those of exact arithmetic. -/
theorem C51_riemann_defined {s : Settings ℝ} (hs : GoodSettings s) (rt : RiemannType) (l r f : HS ℝ) :
    riemannHydro2 (s.map ok) rt (l.map ok) (r.map ok) (f.map ok) = (riemannHydro2 s rt l r f).map ok ∧
    riemannHydro3 (s.map ok) rt (l.map ok) (r.map ok) (f.map ok) = (riemannHydro3 s rt l r f).map ok :=
  ⟨riemannHydro2_ok hs rt l r f, riemannHydro3_ok hs rt l r f⟩

/-- **C51 (one step, 2D).** Whatever numbers the interior cells hold (vacuum, negative pressure, any
velocity, any `dt`), every schedule of the step, with any of the three implementation versions, writes numbers in every
cell, and they are those of exact arithmetic. -/
theorem C51_step_defined_2d {p : Params ℝ} (hp : Hydro2 p) (hg : GoodGrid p)
    (hi : p.implementationVersion = 0 ∨ p.implementationVersion = 1 ∨ p.implementationVersion = 2) (g : GravityParams) (dt : ℝ)
    (jk : Junk Chk) {inA outA : Arr} (hpp : PingPong inA outA) {m m' : Mem Arr Chk}
    (hm : godunov2 (p.map ok) g (ok dt) jk inA outA m m')
    (hU : ∀ i j, interior2 p i j → (hs2 m inA i j).IsNum) (hG : GravNum2 p g m)
    (i j : Int) (hij : inGrid2 p i j) :
    hs2 m' outA i j =
      (fullStep2 p g dt (gravOf (reals m) .grav) (hs2 (reals m) inA) i j).map ok := by
  rw [(godunov2_result hp.mapOk signLaws_chk (schemeOK2_exact hp.mapOk hi) hpp hm).2.2 i j hij]
  exact fullStep2_ok hp.wf hp.faces hg.settings hg.dx.ne' hg.dy.ne' g dt
    (fun i j h => hs2_reals (hU i j h)) (gravOf_reals hG) i j hij

/-- **C51 (one step, 3D)**: the same, except that with gravity the 3D source term divides by the new
density, which must not be zero. -/
theorem C51_step_defined_3d {p : Params ℝ} (hp : Hydro3 p) (hg : GoodGrid p)
    (hi : p.implementationVersion = 0 ∨ p.implementationVersion = 1 ∨ p.implementationVersion = 2) (g : GravityParams) (dt : ℝ)
    (jk : Junk Chk) {inA outA : Arr} (hpp : PingPong inA outA) {m m' : Mem Arr Chk}
    (hm : godunov3 (p.map ok) g (ok dt) jk inA outA m m')
    (hU : ∀ i j k, interior3 p i j k → (hs3 m inA i j k).IsNum) (hG : GravNum3 p g m)
    (i j k : Int) (hij : inGrid3 p i j k)
    (hnew : g.enabled = true → interior3 p i j k → (fullStep3 (p.implementationVersion != 1) p g dt
      (gravOf3 (reals m) .grav) (hs3 (reals m) inA) i j k).d ≠ 0) :
    hs3 m' outA i j k = (fullStep3 (p.implementationVersion != 1) p g dt (gravOf3 (reals m) .grav)
      (hs3 (reals m) inA) i j k).map ok := by
  have hK := schemeOK3_exact hp.mapOk hi
  have hz : zKick (p.map ok).implementationVersion = (p.implementationVersion != 1) := by
    change zKick p.implementationVersion = _
    rcases hi with h | h | h <;> simp [zKick, h]
  rw [hz] at hK
  rw [(godunov3_result hp.mapOk signLaws_chk hK hpp hm).2.2 i j k hij]
  exact fullStep3_ok hp.wf hp.faces hg.settings hg.dx.ne' hg.dy.ne' hg.dz.ne' g _ dt
    (fun i j k h => hs3_reals (hU i j k h)) (gravOf3_reals hG) i j k hij hnew

/-- **C51 (finding, 3D gravity).** When the new density of a cell is zero the 3D source term stores an
undefined energy; the 2D source term, which floors the density, stores a number for every density. -/
theorem C51_gravity_zero_density {p : Params ℝ} (hs : GoodSettings p.settings) (dt gx gy gz : ℝ)
    (uo u : HS ℝ) :
    (u.d = 0 → (gravity3 (ok dt) (ok gx, ok gy, ok gz) (uo.map ok) (u.map ok)).p = bad) ∧
    (gravity2 (p.map ok) (ok dt) (ok gx, ok gy) (uo.map ok) (u.map ok)).IsNum := by
  constructor
  · intro h
    simp only [gravity3, HS.map, h, ok_mul, ok_add, ok_lit, Chk.div_zero, Chk.bad_sub, Chk.add_bad]
  · rw [gravity2_ok hs]
    exact HS.isNum_map _

/-- **C51 (time step).** The CFL time step of every schedule of the reduction is a positive number (2D). -/
theorem C51_dt_defined_2d {p : Params ℝ} (hw : p.WF) (hg : GoodGrid p) {g : GravityParams} {ident : ℝ}
    (hid : ident ≤ 0) {n : Nat} {m : Mem Arr Chk}
    (hm : ∀ i j, interior2 p i j → (hs2 m (pingIn n) i j).IsNum) (hG : GravNum2 p g m) {d : Chk}
    (h : computeDtLocal2 (p.map ok) g (ok ident) n m d) :
    ∃ x : ℝ, d = ok x ∧ 0 < x := by
  obtain ⟨x, e, h'⟩ := dtLocal2_ok hw hg hid hm hG h
  exact ⟨x, e, (dtLocal2_eq hw hg hid h').2⟩

/-- **C51 (time step, 3D).** -/
theorem C51_dt_defined_3d {p : Params ℝ} (hw : p.WF) (hg : GoodGrid p) {g : GravityParams} {ident : ℝ}
    (hid : ident ≤ 0) {n : Nat} {m : Mem Arr Chk}
    (hm : ∀ i j k, interior3 p i j k → (hs3 m (pingIn n) i j k).IsNum) (hG : GravNum3 p g m) {d : Chk}
    (h : computeDtLocal3 (p.map ok) g (ok ident) n m d) :
    ∃ x : ℝ, d = ok x ∧ 0 < x := by
  obtain ⟨x, e, h'⟩ := dtLocal3_ok hw hg hid hm hG h
  exact ⟨x, e, (dtLocal3_eq hw hg hid h').2⟩

/-! ## Runs -/

/-- the numbers of a run at the start of iteration `n` (2D) -/
def NumInv2 (p : Params ℝ) (g : GravityParams) (n : Nat) (m : Mem Arr Chk) : Prop :=
  (∀ i j, inGrid2 p i j → (hs2 m (pingIn n) i j).IsNum) ∧ GravNum2 p g m

/-- all cells of a saved view are numbers (2D) -/
def NumView2 (p : Params ℝ) (d : Loc Unit → Chk) : Prop :=
  ∀ i j v, inGrid2 p i j → v < 4 → (d ⟨(), i, j, 0, v⟩).IsNum

/-- the numbers of a run at the start of iteration `n` (3D) -/
def NumInv3 (p : Params ℝ) (g : GravityParams) (n : Nat) (m : Mem Arr Chk) : Prop :=
  (∀ i j k, inGrid3 p i j k → (hs3 m (pingIn n) i j k).IsNum) ∧ GravNum3 p g m

/-- all cells of a saved view are numbers (3D) -/
def NumView3 (p : Params ℝ) (d : Loc Unit → Chk) : Prop :=
  ∀ i j k v, inGrid3 p i j k → v < 5 → (d ⟨(), i, j, k, v⟩).IsNum

theorem gravNum2_congr {p : Params ℝ} {g : GravityParams} {m m' : Mem Arr Chk}
    (h : gravOf m' .grav = gravOf m .grav) (hG : GravNum2 p g m) : GravNum2 p g m' := by
  intro he i j hij
  rw [h]
  exact hG he i j hij

theorem gravNum3_congr {p : Params ℝ} {g : GravityParams} {m m' : Mem Arr Chk}
    (h : gravOf3 m' .grav = gravOf3 m .grav) (hG : GravNum3 p g m) : GravNum3 p g m' := by
  intro he i j k hij
  rw [h]
  exact hG he i j k hij

theorem keepsNum2 {p : Params ℝ} (hp : Hydro2 p) (hg : GoodGrid p)
    (hi : p.implementationVersion = 0 ∨ p.implementationVersion = 1 ∨ p.implementationVersion = 2) (g : GravityParams)
    {ident : ℝ} (hid : ident ≤ 0) (jk : Junk Chk) :
    KeepsNum (hydroOps2 (p.map ok) g (ok ident) jk) (NumInv2 p g) (NumView2 p) where
  view n m h i j v hij hv := by
    obtain ⟨h1, h2, h3, h4, _⟩ := h.1 i j hij
    rcases v with _ | _ | _ | _ | v
    · exact h1
    · exact h2
    · exact h3
    · exact h4
    · omega
  dt n m m₁ d h hpre hd := by
    cases hpre
    obtain ⟨x, e, _⟩ := C51_dt_defined_2d hp.wf hg hid
      (fun i j hij => h.1 i j (interior_inGrid2 hp.wf hij)) h.2 hd
    exact ⟨x, e⟩
  post n m m₁ d m₃ h hpre hpost := by
    cases hpre
    have hs := (godunov2_result hp.mapOk signLaws_chk (schemeOK2_exact hp.mapOk hi) (pingPong n) hpost).1
    refine ⟨fun i j hij => ?_, gravNum2_congr (hs.grav ?_) h.2⟩
    · rw [← pingOut_succ]
      rw [C51_step_defined_2d hp hg hi g d jk (pingPong n) hpost
        (fun i j hij => h.1 i j (interior_inGrid2 hp.wf hij)) h.2 i j hij]
      exact HS.isNum_map _
    · rcases pingPong n with ⟨e1, e2⟩ | ⟨e1, e2⟩ <;> rw [e1, e2] <;> simp [SchemeOuts]

theorem keepsNum3 {p : Params ℝ} (hp : Hydro3 p) (hg : GoodGrid p)
    (hi : p.implementationVersion = 0 ∨ p.implementationVersion = 1 ∨ p.implementationVersion = 2) {g : GravityParams}
    (hoff : g.enabled = false) {ident : ℝ} (hid : ident ≤ 0) (jk : Junk Chk) :
    KeepsNum (hydroOps3 (p.map ok) g (ok ident) jk) (NumInv3 p g) (NumView3 p) where
  view n m h i j k v hij hv := by
    obtain ⟨h1, h2, h3, h4, h5⟩ := h.1 i j k hij
    rcases v with _ | _ | _ | _ | _ | v
    · exact h1
    · exact h2
    · exact h3
    · exact h4
    · exact h5
    · omega
  dt n m m₁ d h hpre hd := by
    cases hpre
    obtain ⟨x, e, _⟩ := C51_dt_defined_3d hp.wf hg hid
      (fun i j k hij => h.1 i j k (interior_inGrid3 hp.wf hij)) h.2 hd
    exact ⟨x, e⟩
  post n m m₁ d m₃ h hpre hpost := by
    cases hpre
    refine ⟨fun i j k hij => ?_, fun he => absurd (hoff.symm.trans he) (by decide)⟩
    rw [← pingOut_succ]
    rw [C51_step_defined_3d hp hg hi g d jk (pingPong n) hpost
      (fun i j k hij => h.1 i j k (interior_inGrid3 hp.wf hij)) h.2 i j k hij
      (fun he => absurd (hoff.symm.trans he) (by decide))]
    exact HS.isNum_map _

/-- **C51 (complete runs, 2D).** A run of the program, with any of the three implementation versions, from any initial state made of
numbers (interior cells; gravity field if enabled), for any schedule, any number of steps, any output
settings: the final time, the time step, every number of every output file and of the final state are
numbers — no division by zero or square root of a negative number ever contributed to them. -/
theorem C51_run_defined_2d {p : Params ℝ} (hp : Hydro2 p) (hg : GoodGrid p)
    (hi : p.implementationVersion = 0 ∨ p.implementationVersion = 1 ∨ p.implementationVersion = 2) (g : GravityParams)
    {ident : ℝ} (hid : ident ≤ 0) (jk : Junk Chk) {m : Mem Arr Chk} {t : ℝ} {sv : Int}
    {s' : RunState Chk} (h : runMain (p.map ok) (hydroOps2 (p.map ok) g (ok ident) jk) m (ok t) sv s')
    (hU : ∀ i j, interior2 p i j → (hs2 m .U i j).IsNum) (hG : GravNum2 p g m) :
    s'.t.IsNum ∧ s'.dt.IsNum ∧ (∀ o ∈ s'.outputs, o.time.IsNum ∧ NumView2 p o.data) ∧
    ∀ i j, inGrid2 p i j → (hs2 s'.mem (pingIn s'.iteration) i j).IsNum := by
  have hK := keepsNum2 hp hg hi g hid jk
  have key := runNum_main (p := p) hK (t := t) ?_ ?_ h
  · exact ⟨key.t, key.dt, key.files, key.inv.1⟩
  · rintro m₁ ⟨mb, hb, hc⟩
    obtain ⟨b1, b2⟩ := makeBoundaries2_hs2 hp.mapOk signLaws_chk hb
    have hc' : m₁ = fun l => if l.arr = .U2 then mb { l with arr := .U } else mb l := hc
    have e1 : ∀ i j, hs2 m₁ .U i j = hs2 mb .U i j := by intro i j; rw [hc']; rfl
    have e2 : gravOf m₁ .grav = gravOf mb .grav := by rw [hc']; rfl
    refine ⟨fun i j hij => ?_, gravNum2_congr (e2.trans (b1.grav (by decide))) hG⟩
    change (hs2 m₁ .U i j).IsNum
    rw [e1, b2 i j hij, fill2_ok hp.wf hp.faces (u := hs2 (reals m) .U)
      (fun i j hij => hs2_reals (hU i j hij)) i j hij]
    exact HS.isNum_map _
  · intro m₁ d _ hI hd
    exact hK.dt 0 m₁ m₁ d hI rfl hd

/-- **C51 (complete runs, 3D without gravity).** -/
theorem C51_run_defined_3d {p : Params ℝ} (hp : Hydro3 p) (hg : GoodGrid p)
    (hi : p.implementationVersion = 0 ∨ p.implementationVersion = 1 ∨ p.implementationVersion = 2) {g : GravityParams}
    (hoff : g.enabled = false)
    {ident : ℝ} (hid : ident ≤ 0) (jk : Junk Chk) {m : Mem Arr Chk} {t : ℝ} {sv : Int}
    {s' : RunState Chk} (h : runMain (p.map ok) (hydroOps3 (p.map ok) g (ok ident) jk) m (ok t) sv s')
    (hU : ∀ i j k, interior3 p i j k → (hs3 m .U i j k).IsNum) :
    s'.t.IsNum ∧ s'.dt.IsNum ∧ (∀ o ∈ s'.outputs, o.time.IsNum ∧ NumView3 p o.data) ∧
    ∀ i j k, inGrid3 p i j k → (hs3 s'.mem (pingIn s'.iteration) i j k).IsNum := by
  have hK := keepsNum3 hp hg hi hoff hid jk
  have key := runNum_main (p := p) hK (t := t) ?_ ?_ h
  · exact ⟨key.t, key.dt, key.files, key.inv.1⟩
  · rintro m₁ ⟨mb, hb, hc⟩
    obtain ⟨b1, b2⟩ := makeBoundaries3_hs3 hp.mapOk signLaws_chk hb
    have hc' : m₁ = fun l => if l.arr = .U2 then mb { l with arr := .U } else mb l := hc
    have e1 : ∀ i j k, hs3 m₁ .U i j k = hs3 mb .U i j k := by intro i j k; rw [hc']; rfl
    refine ⟨fun i j k hij => ?_, fun he => absurd (hoff.symm.trans he) (by decide)⟩
    change (hs3 m₁ .U i j k).IsNum
    rw [e1, b2 i j k hij, fill3_ok hp.wf hp.faces (u := hs3 (reals m) .U)
      (fun i j k hij => hs3_reals (hU i j k hij)) i j k hij]
    exact HS.isNum_map _
  · intro m₁ d _ hI hd
    exact hK.dt 0 m₁ m₁ d hI rfl hd

/-- Non-vacuity: the sample parameters, gravity on, and a state with a vacuum cell, negative energy and
large velocities meet the hypotheses of the 2D run theorem. -/
example : Hydro2 (sample .periodic .dirichlet) ∧ GoodGrid (sample .periodic .dirichlet) ∧
    (sample .periodic .dirichlet).implementationVersion = 0 ∧
    ∃ m : Mem Arr Chk, (∀ i j, (hs2 m .U i j).IsNum) ∧ GravNum2 (sample .periodic .dirichlet)
      ⟨true, true⟩ m ∧ (hs2 m .U 3 3).d = ok 0 ∧ (hs2 m .U 3 3).p = ok (-5) :=
  ⟨sample_hydro2 _ _, sample_goodGrid _ _, rfl,
    fun l => if l.v = 0 then ok 0 else if l.v = 1 then ok (-5) else ok 1000,
    fun _ _ => ⟨⟨_, rfl⟩, ⟨_, rfl⟩, ⟨_, rfl⟩, ⟨_, rfl⟩, ⟨_, rfl⟩⟩,
    fun _ _ _ _ => ⟨⟨_, rfl⟩, ⟨_, rfl⟩⟩, rfl, rfl⟩

end EulerKokkos
