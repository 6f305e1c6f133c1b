import Verif.Lemmas.Refine

/-!
# C15 — a run of the program is the plain algorithm: fill, CFL, advance, write

The ping-pong buffers, the schedules of the kernels, the uninitialised locals and the implementation
version disappear: `main` with the 2D (3D) hydro solver performs the iterations of the sequential
algorithm `Spec.Sim` with the mathematical step `fullStep2` (`fullStep3`) and writes its files.  In
particular each file shows the solution of one single time, the latest one.
-/

set_option linter.constructorNameAsVariable false
set_option linter.unusedSectionVars false
set_option linter.unusedSimpArgs false

namespace EulerKokkos
open Spec Prog

namespace Spec
/-- inverse time step required by one cell (2D): the CFL rate, or with gravity the corrected one -/
noncomputable def rate2 (p : Params ℝ) (g : GravityParams) (gf : Grav2 ℝ) (u : Fld2 ℝ) (i j : Int) : ℝ :=
  let q := (computePrimitives2 p.settings (u i j)).1
  if g.enabled then
    gravVel p.settings.cfl (min p.dx p.dy)
      ((|q.u| + sound p.settings q) + (|q.v| + sound p.settings q)) (|(gf i j).1| + |(gf i j).2|) /
      min p.dx p.dy
  else cflRate2 p q

/-- inverse time step required by one cell (3D) -/
noncomputable def rate3 (p : Params ℝ) (g : GravityParams) (gf : Grav3 ℝ) (u : Fld3 ℝ)
    (i j k : Int) : ℝ :=
  let q := (computePrimitives3 p.settings (u i j k)).1
  if g.enabled then
    gravVel p.settings.cfl (min (min p.dx p.dy) p.dz)
      ((|q.u| + sound p.settings q) + (|q.v| + sound p.settings q) + (|q.w| + sound p.settings q))
      (|(gf i j k).1| + |(gf i j k).2.1| + |(gf i j k).2.2|) / min (min p.dx p.dy) p.dz
  else cflRate3 p q

/-- the CFL time step of a field: `cfl` over the largest rate of the interior cells (2D) -/
noncomputable def cflDt2 (p : Params ℝ) (g : GravityParams) (gf : Grav2 ℝ) (u : Fld2 ℝ) : ℝ :=
  p.settings.cfl / sSup {r | ∃ i j, interior2 p i j ∧ r = rate2 p g gf u i j}

/-- the CFL time step of a field (3D) -/
noncomputable def cflDt3 (p : Params ℝ) (g : GravityParams) (gf : Grav3 ℝ) (u : Fld3 ℝ) : ℝ :=
  p.settings.cfl / sSup {r | ∃ i j k, interior3 p i j k ∧ r = rate3 p g gf u i j k}

/-- the 2D hydro method -/
noncomputable def hydro2 (p : Params ℝ) (g : GravityParams) (gf : Grav2 ℝ) : Method (Fld2 ℝ) where
  cflDt := cflDt2 p g gf
  advance dt u := fullStep2 p g dt gf u

/-- the 3D hydro method; `zk`: the gravity predictor is applied on both sides of z-faces (see C29) -/
noncomputable def hydro3 (zk : Bool) (p : Params ℝ) (g : GravityParams) (gf : Grav3 ℝ) :
    Method (Fld3 ℝ) where
  cflDt := cflDt3 p g gf
  advance dt u := fullStep3 zk p g dt gf u

/-- the saved view shows the field `u` in every cell of the grid (2D) -/
def Shows2 (p : Params ℝ) (data : Loc Unit → ℝ) (u : Fld2 ℝ) : Prop :=
  ∀ i j, inGrid2 p i j → (⟨data ⟨(), i, j, 0, ID⟩, data ⟨(), i, j, 0, IP⟩, data ⟨(), i, j, 0, IU⟩,
    data ⟨(), i, j, 0, IV⟩, 0⟩ : HS ℝ) = u i j

/-- the saved view shows the field `u` in every cell of the grid (3D) -/
def Shows3 (p : Params ℝ) (data : Loc Unit → ℝ) (u : Fld3 ℝ) : Prop :=
  ∀ i j k, inGrid3 p i j k → (⟨data ⟨(), i, j, k, ID⟩, data ⟨(), i, j, k, IP⟩,
    data ⟨(), i, j, k, IU⟩, data ⟨(), i, j, k, IV⟩, data ⟨(), i, j, k, IW⟩⟩ : HS ℝ) = u i j k
end Spec

/-- `cfl > 0`, positive spacings and sane settings -/
structure GoodGrid (p : Params ℝ) : Prop where
  settings : GoodSettings p.settings
  cfl : 0 < p.settings.cfl
  dx : 0 < p.dx
  dy : 0 < p.dy
  dz : 0 < p.dz

theorem rate2_pos {p : Params ℝ} (hg : GoodGrid p) (g : GravityParams) (gf : Grav2 ℝ)
    (u : Fld2 ℝ) (i j : Int) : 0 < rate2 p g gf u i j := by
  have hd : 0 < min p.dx p.dy := lt_min hg.dx hg.dy
  obtain ⟨h1, h2, h3, _⟩ := C18_primitives_positive_2d hg.settings (u i j)
  have hr := hg.settings.smallr
  have hgm := hg.settings.gamma
  have hs : 0 < sound p.settings (computePrimitives2 p.settings (u i j)).1 := by
    unfold sound
    refine Real.sqrt_pos.2 (div_pos (mul_pos (by linarith) ?_) ?_) <;> linarith
  unfold rate2
  simp only
  split_ifs
  · exact div_pos (gravVel_bound (dt := 0) hg.cfl hd (by positivity) le_rfl
      (by simp [hg.cfl.le])).1 hd
  · unfold cflRate2
    have := hg.dx
    have := hg.dy
    positivity

theorem rate3_pos {p : Params ℝ} (hg : GoodGrid p) (g : GravityParams) (gf : Grav3 ℝ)
    (u : Fld3 ℝ) (i j k : Int) : 0 < rate3 p g gf u i j k := by
  have hd : 0 < min (min p.dx p.dy) p.dz := lt_min (lt_min hg.dx hg.dy) hg.dz
  obtain ⟨h1, h2, h3, _⟩ := C18_primitives_positive_3d hg.settings (u i j k)
  have hr := hg.settings.smallr
  have hgm := hg.settings.gamma
  have hs : 0 < sound p.settings (computePrimitives3 p.settings (u i j k)).1 := by
    unfold sound
    refine Real.sqrt_pos.2 (div_pos (mul_pos (by linarith) ?_) ?_) <;> linarith
  unfold rate3
  simp only
  split_ifs
  · exact div_pos (gravVel_bound (dt := 0) hg.cfl hd (by positivity) le_rfl
      (by simp [hg.cfl.le])).1 hd
  · unfold cflRate3
    have := hg.dx
    have := hg.dy
    have := hg.dz
    positivity

/-- every schedule of the reduction returns the CFL time step (2D, with or without gravity) -/
theorem dtLocal2_eq {p : Params ℝ} (hw : p.WF) (hg : GoodGrid p) {g : GravityParams}
    {ident : ℝ} (hid : ident ≤ 0) {n : Nat} {m : Mem Arr ℝ} {dt : ℝ}
    (h : computeDtLocal2 p g ident n m dt) :
    dt = cflDt2 p g (gravOf m .grav) (hs2 m (pingIn n)) ∧ 0 < dt := by
  obtain ⟨r, h, rfl⟩ := h
  have key : (∀ t ∈ range2 p.isize p.jsize, cellGuard2 p t →
      rate2 p g (gravOf m .grav) (hs2 m (pingIn n)) t.1 t.2 ≤ r) ∧
      ∃ t ∈ range2 p.isize p.jsize, cellGuard2 p t ∧
        r = rate2 p g (gravOf m .grav) (hs2 m (pingIn n)) t.1 t.2 := by
    have hne : ∃ t ∈ range2 p.isize p.jsize, cellGuard2 p t :=
      ⟨(p.ghostWidth, p.ghostWidth), interior2_range hw (interior2_first hw),
        (cellGuard2_interior hw _).2 (interior2_first hw)⟩
    split_ifs at h with he
    · exact parReduce_max (fun t => cellGuard2 p t)
        (fun t => rate2 p g (gravOf m .grav) (hs2 m (pingIn n)) t.1 t.2)
        (fun t a gt => by
          rw [computeDtGravity2_run, if_pos gt]; simp only [rate2, he, if_true]; rfl)
        (fun t a gt => by rw [computeDtGravity2_run, if_neg gt]) hne
        (fun t _ _ => hid.trans (rate2_pos hg _ _ _ _ _).le) h
    · exact parReduce_max (fun t => cellGuard2 p t)
        (fun t => rate2 p g (gravOf m .grav) (hs2 m (pingIn n)) t.1 t.2)
        (fun t a gt => by
          rw [computeDt2_run, if_pos gt]; simp only [rate2, he]; rfl)
        (fun t a gt => by rw [computeDt2_run, if_neg gt]) hne
        (fun t _ _ => hid.trans (rate2_pos hg _ _ _ _ _).le) h
  obtain ⟨k1, t, ht, gt, k2⟩ := key
  have hpos : 0 < r := k2 ▸ rate2_pos hg _ _ _ _ _
  refine ⟨?_, div_pos hg.cfl hpos⟩
  unfold cflDt2
  congr 1
  refine (IsGreatest.csSup_eq ⟨?_, ?_⟩).symm
  · exact ⟨t.1, t.2, (cellGuard2_interior hw t).1 gt, k2⟩
  · rintro x ⟨i, j, hij, rfl⟩
    exact k1 (i, j) (interior2_range hw hij) ((cellGuard2_interior hw _).2 hij)

/-- every schedule of the reduction returns the CFL time step (3D, with or without gravity) -/
theorem dtLocal3_eq {p : Params ℝ} (hw : p.WF) (hg : GoodGrid p) {g : GravityParams}
    {ident : ℝ} (hid : ident ≤ 0) {n : Nat} {m : Mem Arr ℝ} {dt : ℝ}
    (h : computeDtLocal3 p g ident n m dt) :
    dt = cflDt3 p g (gravOf3 m .grav) (hs3 m (pingIn n)) ∧ 0 < dt := by
  obtain ⟨r, h, rfl⟩ := h
  have key : (∀ t ∈ range3 p.isize p.jsize p.ksize, cellGuard3 p t →
      rate3 p g (gravOf3 m .grav) (hs3 m (pingIn n)) t.1 t.2.1 t.2.2 ≤ r) ∧
      ∃ t ∈ range3 p.isize p.jsize p.ksize, cellGuard3 p t ∧
        r = rate3 p g (gravOf3 m .grav) (hs3 m (pingIn n)) t.1 t.2.1 t.2.2 := by
    have hne : ∃ t ∈ range3 p.isize p.jsize p.ksize, cellGuard3 p t :=
      ⟨(p.ghostWidth, p.ghostWidth, p.ghostWidth), interior3_range hw (interior3_first hw),
        (cellGuard3_interior hw _).2 (interior3_first hw)⟩
    split_ifs at h with he
    · exact parReduce_max (fun t => cellGuard3 p t)
        (fun t => rate3 p g (gravOf3 m .grav) (hs3 m (pingIn n)) t.1 t.2.1 t.2.2)
        (fun t a gt => by
          rw [computeDtGravity3_run, if_pos gt]; simp only [rate3, he, if_true]; rfl)
        (fun t a gt => by rw [computeDtGravity3_run, if_neg gt]) hne
        (fun t _ _ => hid.trans (rate3_pos hg _ _ _ _ _ _).le) h
    · exact parReduce_max (fun t => cellGuard3 p t)
        (fun t => rate3 p g (gravOf3 m .grav) (hs3 m (pingIn n)) t.1 t.2.1 t.2.2)
        (fun t a gt => by
          rw [computeDt3_run, if_pos gt]; simp only [rate3, he]; rfl)
        (fun t a gt => by rw [computeDt3_run, if_neg gt]) hne
        (fun t _ _ => hid.trans (rate3_pos hg _ _ _ _ _ _).le) h
  obtain ⟨k1, t, ht, gt, k2⟩ := key
  have hpos : 0 < r := k2 ▸ rate3_pos hg _ _ _ _ _ _
  refine ⟨?_, div_pos hg.cfl hpos⟩
  unfold cflDt3
  congr 1
  refine (IsGreatest.csSup_eq ⟨?_, ?_⟩).symm
  · exact ⟨t.1, t.2.1, t.2.2, (cellGuard3_interior hw t).1 gt, k2⟩
  · rintro x ⟨i, j, k, hij, rfl⟩
    exact k1 (i, j, k) (interior3_range hw hij) ((cellGuard3_interior hw _).2 hij)

theorem cflDt2_congr {p : Params ℝ} {g : GravityParams} {gf : Grav2 ℝ} {u u' : Fld2 ℝ}
    (h : ∀ i j, interior2 p i j → u i j = u' i j) : cflDt2 p g gf u = cflDt2 p g gf u' := by
  unfold cflDt2
  congr 2
  ext r
  constructor <;> rintro ⟨i, j, hij, rfl⟩ <;> refine ⟨i, j, hij, ?_⟩ <;> unfold rate2 <;>
    rw [h i j hij]

theorem cflDt3_congr {p : Params ℝ} {g : GravityParams} {gf : Grav3 ℝ} {u u' : Fld3 ℝ}
    (h : ∀ i j k, interior3 p i j k → u i j k = u' i j k) :
    cflDt3 p g gf u = cflDt3 p g gf u' := by
  unfold cflDt3
  congr 2
  ext r
  constructor <;> rintro ⟨i, j, k, hij, rfl⟩ <;> refine ⟨i, j, k, hij, ?_⟩ <;> unfold rate3 <;>
    rw [h i j k hij]

/-- memory at the start of iteration `n` (2D) -/
def HydroInv2 (p : Params ℝ) (gf : Grav2 ℝ) (n : Nat) (m : Mem Arr ℝ) (u : Fld2 ℝ) : Prop :=
  (∀ i j, inGrid2 p i j → hs2 m (pingIn n) i j = u i j) ∧ gravOf m .grav = gf

/-- memory at the start of iteration `n` (3D) -/
def HydroInv3 (p : Params ℝ) (gf : Grav3 ℝ) (n : Nat) (m : Mem Arr ℝ) (u : Fld3 ℝ) : Prop :=
  (∀ i j k, inGrid3 p i j k → hs3 m (pingIn n) i j k = u i j k) ∧ gravOf3 m .grav = gf

theorem interior_inGrid2 {p : Params ℝ} (hw : p.WF) {i j : Int} (h : interior2 p i j) :
    inGrid2 p i j := by
  have := hw.isize_eq
  have := hw.jsize_eq
  have := hw.gw_pos
  obtain ⟨a, b, c, d⟩ := h
  exact ⟨by omega, by omega, by omega, by omega⟩

theorem interior_inGrid3 {p : Params ℝ} (hw : p.WF) {i j k : Int} (h : interior3 p i j k) :
    inGrid3 p i j k := by
  have := hw.isize_eq
  have := hw.jsize_eq
  have := hw.ksize_eq
  have := hw.gw_pos
  obtain ⟨⟨a, b⟩, ⟨c, d⟩, e, f⟩ := h
  exact ⟨⟨by omega, by omega⟩, ⟨by omega, by omega⟩, by omega, by omega⟩

theorem pingIn_eq (n : Nat) : (if n % 2 = 0 then Arr.U else .U2) = pingIn n := rfl

theorem refines_hydro2 {p : Params ℝ} (hp : Hydro2 p)
    (hi : p.implementationVersion = 0 ∨ p.implementationVersion = 1 ∨ p.implementationVersion = 2)
    (hg : GoodGrid p) (g : GravityParams) {ident : ℝ} (hid : ident ≤ 0) (jk : Junk ℝ)
    (gf : Grav2 ℝ) :
    Refines p (hydroOps2 p g ident jk) (hydro2 p g gf) (HydroInv2 p gf) (Shows2 p) where
  view n m x h i j hij := by
    rw [← h.1 i j hij]
    simp [viewOf, hs2]
  dt n m x m₁ d h hpre hd := by
    cases hpre
    obtain ⟨e, _⟩ := dtLocal2_eq hp.wf hg hid hd
    rw [e, h.2]
    exact cflDt2_congr (fun i j hij => h.1 i j (interior_inGrid2 hp.wf hij))
  post n m x m₁ d m₃ h hpre hpost := by
    cases hpre
    obtain ⟨s1, _, s2⟩ := godunov2_result hp signLaws_real (schemeOK2_real hp hi) (pingPong n) hpost
    have g1 : gravOf m₃ .grav = gravOf m .grav := s1.grav (by
      rcases pingPong n with ⟨e1, e2⟩ | ⟨e1, e2⟩ <;> rw [e1, e2] <;> simp [SchemeOuts])
    refine ⟨fun i j hij => ?_, g1.trans h.2⟩
    rw [← pingOut_succ, s2 i j hij, h.2]
    exact fullStep2_congr hp h.1 i j hij

theorem refines_hydro3 {p : Params ℝ} (hp : Hydro3 p)
    (hi : p.implementationVersion = 0 ∨ p.implementationVersion = 1 ∨ p.implementationVersion = 2)
    (hg : GoodGrid p) (g : GravityParams) {ident : ℝ} (hid : ident ≤ 0) (jk : Junk ℝ)
    (gf : Grav3 ℝ) :
    Refines p (hydroOps3 p g ident jk) (hydro3 (zKick p.implementationVersion) p g gf)
      (HydroInv3 p gf) (Shows3 p) where
  view n m x h i j k hij := by
    rw [← h.1 i j k hij]
    simp [viewOf, hs3]
  dt n m x m₁ d h hpre hd := by
    cases hpre
    obtain ⟨e, _⟩ := dtLocal3_eq hp.wf hg hid hd
    rw [e, h.2]
    exact cflDt3_congr (fun i j k hij => h.1 i j k (interior_inGrid3 hp.wf hij))
  post n m x m₁ d m₃ h hpre hpost := by
    cases hpre
    obtain ⟨s1, _, s2⟩ := godunov3_result hp signLaws_real (schemeOK3_real hp hi) (pingPong n) hpost
    have g1 : gravOf3 m₃ .grav = gravOf3 m .grav := s1.grav3 (by
      rcases pingPong n with ⟨e1, e2⟩ | ⟨e1, e2⟩ <;> rw [e1, e2] <;> simp [SchemeOuts3])
    refine ⟨fun i j k hij => ?_, g1.trans h.2⟩
    rw [← pingOut_succ, s2 i j k hij, h.2]
    exact fullStep3_congr hp h.1 i j k hij


/-- what the constructor leaves in the views: the initial field with its ghost cells filled -/
theorem setup_hydro2 {p : Params ℝ} (hp : Hydro2 p) {g : GravityParams} {ident : ℝ} {jk : Junk ℝ}
    {m m₁ : Mem Arr ℝ} (h : (hydroOps2 p g ident jk).setup m m₁) :
    HydroInv2 p (gravOf m .grav) 0 m₁ (fill2 p (hs2 m .U)) := by
  obtain ⟨mb, hb, hc⟩ := h
  obtain ⟨b1, b2⟩ := makeBoundaries2_hs2 hp signLaws_real hb
  have hc' : m₁ = fun l => if l.arr = .U2 then mb { l with arr := .U } else mb l := hc
  have e1 : ∀ i j, hs2 m₁ .U i j = hs2 mb .U i j := by intro i j; rw [hc']; rfl
  refine ⟨fun i j hij => (e1 i j).trans (b2 i j hij), ?_⟩
  have e2 : gravOf m₁ .grav = gravOf mb .grav := by rw [hc']; rfl
  exact e2.trans (b1.grav (by decide))

theorem setup_hydro3 {p : Params ℝ} (hp : Hydro3 p) {g : GravityParams} {ident : ℝ} {jk : Junk ℝ}
    {m m₁ : Mem Arr ℝ} (h : (hydroOps3 p g ident jk).setup m m₁) :
    HydroInv3 p (gravOf3 m .grav) 0 m₁ (fill3 p (hs3 m .U)) := by
  obtain ⟨mb, hb, hc⟩ := h
  obtain ⟨b1, b2⟩ := makeBoundaries3_hs3 hp signLaws_real hb
  have hc' : m₁ = fun l => if l.arr = .U2 then mb { l with arr := .U } else mb l := hc
  have e1 : ∀ i j k, hs3 m₁ .U i j k = hs3 mb .U i j k := by intro i j k; rw [hc']; rfl
  refine ⟨fun i j k hij => (e1 i j k).trans (b2 i j k hij), ?_⟩
  have e2 : gravOf3 m₁ .grav = gravOf3 mb .grav := by rw [hc']; rfl
  exact e2.trans (b1.grav3 (by decide))

/-- **C15 (2D).** Every complete run of the program (any schedule of any kernel, any implementation
version, any content of uninitialised locals, with or without gravity) makes exactly the iterations
of the sequential algorithm from the initial field, ends at its time, and writes exactly its files:
same numbers, same times, and the contents of each file are the solution at that time. -/
theorem C15_run_is_algorithm_2d {p : Params ℝ} (hp : Hydro2 p)
    (hi : p.implementationVersion = 0 ∨ p.implementationVersion = 1 ∨ p.implementationVersion = 2)
    (hg : GoodGrid p) (he : p.enableOutput = decide (p.nOutput ≠ 0)) (g : GravityParams)
    {ident : ℝ} (hid : ident ≤ 0) (jk : Junk ℝ) {m : Mem Arr ℝ} {t : ℝ} {sv : Int}
    {s' : RunState ℝ} (h : runMain p (hydroOps2 p g ident jk) m t sv s') :
    let M := hydro2 p g (gravOf m .grav)
    let x := fill2 p (hs2 m .U)
    let r := Sim.result p M x t sv s'.iteration
    Sim.Length p M x t sv s'.iteration ∧ s'.t = r.t ∧
    List.Forall₂ (fun (o : Output ℝ) (f : Int × ℝ × Fld2 ℝ) =>
      o.number = f.1 ∧ o.time = f.2.1 ∧ Shows2 p o.data f.2.2) s'.outputs r.files ∧
    ∀ i j, inGrid2 p i j → hs2 s'.mem (pingIn s'.iteration) i j = r.x i j := by
  obtain ⟨h1, h2⟩ := refine_run (refines_hydro2 hp hi hg g hid jk (gravOf m .grav)) he
    (fun m₁ hm => setup_hydro2 hp hm) h
  exact ⟨h1, h2.t, h2.files, h2.inv.1⟩

/-- **C15 (3D).** -/
theorem C15_run_is_algorithm_3d {p : Params ℝ} (hp : Hydro3 p)
    (hi : p.implementationVersion = 0 ∨ p.implementationVersion = 1 ∨ p.implementationVersion = 2)
    (hg : GoodGrid p) (he : p.enableOutput = decide (p.nOutput ≠ 0)) (g : GravityParams)
    {ident : ℝ} (hid : ident ≤ 0) (jk : Junk ℝ) {m : Mem Arr ℝ} {t : ℝ} {sv : Int}
    {s' : RunState ℝ} (h : runMain p (hydroOps3 p g ident jk) m t sv s') :
    let M := hydro3 (zKick p.implementationVersion) p g (gravOf3 m .grav)
    let x := fill3 p (hs3 m .U)
    let r := Sim.result p M x t sv s'.iteration
    Sim.Length p M x t sv s'.iteration ∧ s'.t = r.t ∧
    List.Forall₂ (fun (o : Output ℝ) (f : Int × ℝ × Fld3 ℝ) =>
      o.number = f.1 ∧ o.time = f.2.1 ∧ Shows3 p o.data f.2.2) s'.outputs r.files ∧
    ∀ i j k, inGrid3 p i j k → hs3 s'.mem (pingIn s'.iteration) i j k = r.x i j k := by
  obtain ⟨h1, h2⟩ := refine_run (refines_hydro3 hp hi hg g hid jk (gravOf3 m .grav)) he
    (fun m₁ hm => setup_hydro3 hp hm) h
  exact ⟨h1, h2.t, h2.files, h2.inv.1⟩

theorem forall₂_both {α β γ : Type} {r : α → γ → Prop} {r' : β → γ → Prop} {q : α → β → Prop}
    (hq : ∀ a b c, r a c → r' b c → q a b) {l : List α} {l' : List β} {l'' : List γ}
    (h : List.Forall₂ r l l'') (h' : List.Forall₂ r' l' l'') : List.Forall₂ q l l' := by
  induction h generalizing l' with
  | nil => cases h'; exact .nil
  | cons a _ ih =>
    cases h' with
    | cons b h' => exact .cons (hq _ _ _ a b) (ih h')

/-- the method does not depend on the implementation version (2D) -/
theorem result_version2 {p : Params ℝ} (v : Int) (g : GravityParams) (gf : Grav2 ℝ) (x : Fld2 ℝ)
    (t : ℝ) (sv : Int) (k : Nat) :
    Sim.result { p with implementationVersion := v }
      (hydro2 { p with implementationVersion := v } g gf) x t sv k =
      Sim.result p (hydro2 p g gf) x t sv k ∧
    (Sim.Length { p with implementationVersion := v }
      (hydro2 { p with implementationVersion := v } g gf) x t sv k ↔
      Sim.Length p (hydro2 p g gf) x t sv k) := by
  have e : hydro2 { p with implementationVersion := v } g gf = hydro2 p g gf := rfl
  rw [e]
  exact ⟨rfl, Iff.rfl⟩

/-- **C15, corollary: runs are reproducible (2D).** Two runs from the same initial state, with
different schedules, implementation versions and uninitialised locals, make the same number of
iterations, end at the same time and write the same files (numbers, times, and the four variables in
every cell). -/
theorem C15_reproducible_2d {p q : Params ℝ} (hp : Hydro2 p)
    (hi : p.implementationVersion = 0 ∨ p.implementationVersion = 1 ∨ p.implementationVersion = 2)
    (hi' : q.implementationVersion = 0 ∨ q.implementationVersion = 1 ∨ q.implementationVersion = 2)
    (hq : q = { p with implementationVersion := q.implementationVersion })
    (hg : GoodGrid p) (he : p.enableOutput = decide (p.nOutput ≠ 0)) (g : GravityParams)
    {ident ident' : ℝ} (hid : ident ≤ 0) (hid' : ident' ≤ 0) (jk jk' : Junk ℝ) {m : Mem Arr ℝ}
    {t : ℝ} {sv : Int} {a b : RunState ℝ} (ha : runMain p (hydroOps2 p g ident jk) m t sv a)
    (hb : runMain q (hydroOps2 q g ident' jk') m t sv b) :
    a.iteration = b.iteration ∧ a.t = b.t ∧
    List.Forall₂ (fun o o' : Output ℝ => o.number = o'.number ∧ o.time = o'.time ∧
      ∀ i j v, inGrid2 p i j → v < 4 → o.data ⟨(), i, j, 0, v⟩ = o'.data ⟨(), i, j, 0, v⟩)
      a.outputs b.outputs := by
  obtain ⟨a1, a2, a3, _⟩ := C15_run_is_algorithm_2d hp hi hg he g hid jk ha
  obtain ⟨v, hv⟩ : ∃ v, q = { p with implementationVersion := v } := ⟨_, hq⟩
  clear hq
  subst hv
  have hp' : Hydro2 { p with implementationVersion := v } := by
    obtain ⟨⟨w1, w2, w3, w4, w5, w6, w7, w8, w9, w10, w11, w12, w13⟩, nb, ⟨v1, v2⟩, f⟩ := hp
    exact ⟨⟨w1, w2, w3, w4, w5, w6, w7, w8, w9, w10, w11, w12, w13⟩, nb, ⟨v1, v2⟩, f⟩
  have hg' : GoodGrid { p with implementationVersion := v } :=
    ⟨hg.settings, hg.cfl, hg.dx, hg.dy, hg.dz⟩
  obtain ⟨b1, b2, b3, _⟩ := C15_run_is_algorithm_2d hp' hi' hg' he g hid' jk' hb
  have hfill : fill2 { p with implementationVersion := v } (hs2 m .U) = fill2 p (hs2 m .U) := rfl
  rw [hfill] at b1 b2 b3
  have hk : a.iteration = b.iteration := a1.unique ((result_version2 v g _ _ _ _ _).2.1 b1)
  rw [(result_version2 v g _ _ _ _ _).1, ← hk] at b2 b3
  refine ⟨hk, a2.trans b2.symm, forall₂_both ?_ a3 b3⟩
  rintro o o' ⟨n, t, u⟩ ⟨h1, h2, h3⟩ ⟨h1', h2', h3'⟩
  refine ⟨h1.trans h1'.symm, h2.trans h2'.symm, fun i j v hij hv => ?_⟩
  have e := (h3 i j hij).trans (h3' i j hij).symm
  rw [HS.mk.injEq] at e
  obtain ⟨e1, e2, e3, e4, _⟩ := e
  have hv' : v = ID ∨ v = IP ∨ v = IU ∨ v = IV := by
    simp only [ID, IP, IU, IV]; omega
  rcases hv' with rfl | rfl | rfl | rfl
  · exact e1
  · exact e2
  · exact e3
  · exact e4

/-! ## The hydro solvers: unconditional forms of C13, C14 -/

theorem total_hydro2 {p : Params ℝ} (hw : p.WF) (hf : Faces2Ok p) (g : GravityParams) (ident : ℝ)
    (jk : Junk ℝ) : (hydroOps2 p g ident jk).Total where
  pre n m := ⟨m, rfl⟩
  dt n m := by
    show ∃ d, computeDtLocal2 p g ident n m d
    unfold computeDtLocal2
    by_cases hg : g.enabled = true
    · obtain ⟨r, hr⟩ := parReduce_exists (range2 p.isize p.jsize)
        (computeDtGravity2 p p.settings.cfl .grav (pingIn n)) kokkosMaxJoin ident m
      exact ⟨_, r, by rw [if_pos hg]; exact hr, rfl⟩
    · obtain ⟨r, hr⟩ := parReduce_exists (range2 p.isize p.jsize)
        (computeDt2 p (pingIn n)) kokkosMaxJoin ident m
      exact ⟨_, r, by rw [if_neg hg]; exact hr, rfl⟩
  post n d m := (C03_atomic_step_deterministic hw hf g d jk (pingPong n) m).exists
  setup m := by
    obtain ⟨F, hF, _⟩ := makeBoundaries2_is hw hf false .U
    exact ⟨_, _, (hF m _).2 rfl, rfl⟩

theorem total_hydro3 {p : Params ℝ} (hw : p.WF) (hf : Faces3Ok p) (g : GravityParams) (ident : ℝ)
    (jk : Junk ℝ) : (hydroOps3 p g ident jk).Total where
  pre n m := ⟨m, rfl⟩
  dt n m := by
    show ∃ d, computeDtLocal3 p g ident n m d
    unfold computeDtLocal3
    by_cases hg : g.enabled = true
    · obtain ⟨r, hr⟩ := parReduce_exists (range3 p.isize p.jsize p.ksize)
        (computeDtGravity3 p p.settings.cfl .grav (pingIn n)) kokkosMaxJoin ident m
      exact ⟨_, r, by rw [if_pos hg]; exact hr, rfl⟩
    · obtain ⟨r, hr⟩ := parReduce_exists (range3 p.isize p.jsize p.ksize)
        (computeDt3 p (pingIn n)) kokkosMaxJoin ident m
      exact ⟨_, r, by rw [if_neg hg]; exact hr, rfl⟩
  post n d m := (C29_atomic_step_deterministic_3d hw hf g d jk (pingPong n) m).exists
  setup m := by
    obtain ⟨F, hF, _⟩ := makeBoundaries3_is hw hf false .U
    exact ⟨_, _, (hF m _).2 rfl, rfl⟩

/-- **C13 for the hydro solvers**, no hypothesis on the time steps: the time never passes `tEnd`,
every turn advances it strictly, a turn whose CFL step would overshoot lands on `tEnd`, and the run
then stops. -/
theorem C13_hydro {p : Params ℝ} (hw : p.WF) (hg : GoodGrid p) {g : GravityParams} {ident : ℝ}
    (hid : ident ≤ 0) {jk : Junk ℝ} {S : SolverOps ℝ}
    (hS : S = hydroOps2 p g ident jk ∨ S = hydroOps3 p g ident jk) {m : Mem Arr ℝ} {t : ℝ}
    {sv : Int} (ht : t ≤ p.tEnd) :
    (∀ k s, reaches p S m t sv k s → t ≤ s.t ∧ s.t ≤ p.tEnd) ∧
    (∀ s s', ¬ finished p s → nextIteration p S s s' →
      s.t < s'.t ∧ (s'.t = p.tEnd → finished p s')) ∧
    ∀ s', runMain p S m t sv s' → s'.t ≤ p.tEnd ∧
      (p.tEnd - 1 / 100000000000000 ≤ s'.t ∨ (s'.iteration : Int) = max p.nStepmax 0) := by
  have hpos : ∀ n m d, S.dtLocal n m d → 0 < d := by
    rcases hS with rfl | rfl
    · exact fun n m d h => (dtLocal2_eq hw hg hid h).2
    · exact fun n m d h => (dtLocal3_eq hw hg hid h).2
  have hnn : ∀ n m d, S.dtLocal n m d → 0 ≤ d := fun n m d h => (hpos n m d h).le
  refine ⟨fun k s h => ?_, fun s s' hf h => ?_, fun s' h => ?_⟩
  · obtain ⟨a, b, _⟩ := C13_time_bounded hnn h
    exact ⟨a, by rwa [max_eq_right ht] at b⟩
  · obtain ⟨m1, d, h1, _, _, _, _, h2, h3⟩ := C13_one_turn hnn hf h
    exact ⟨h2 (hpos _ _ _ h1), h3⟩
  · exact (C13_final_time hnn ht h).2

/-- **C14 for the hydro solvers**: a run from any initial memory completes. -/
theorem C14_hydro_completes {p : Params ℝ} (hw : p.WF) (hf : Faces3Ok p) (g : GravityParams)
    (ident : ℝ) (jk : Junk ℝ) (hn : p.nlog ≠ 0) (m : Mem Arr ℝ) (t : ℝ) (sv : Int) :
    (∃ s', runMain p (hydroOps2 p g ident jk) m t sv s') ∧
    ∃ s', runMain p (hydroOps3 p g ident jk) m t sv s' := by
  constructor
  · have hT := total_hydro2 hw hf.1 g ident jk
    obtain ⟨s, hs⟩ := C14_starts (p := p) hT m t sv
    obtain ⟨_, s', _, _, h⟩ := C14_completes hT hn hs
    exact ⟨_, h⟩
  · have hT := total_hydro3 hw hf g ident jk
    obtain ⟨s, hs⟩ := C14_starts (p := p) hT m t sv
    obtain ⟨_, s', _, _, h⟩ := C14_completes hT hn hs
    exact ⟨_, h⟩

/-- **Determinism of whole runs for any arithmetic is reduced to the time step**: nothing else in the
driver is schedule dependent (2D, versions 0 and 1, IEEE included): from the same state and the same
value of `compute_dt_local` a turn has exactly one outcome. -/
theorem C15_turn_deterministic {R : Type} [RealOps R] {p : Params R} (hw : p.WF) (hf : Faces2Ok p)
    (hi : p.implementationVersion = 0 ∨ p.implementationVersion = 1) {g : GravityParams}
    {ident : R} {jk : Junk R} {s a b : RunState R}
    (ha : nextIteration p (hydroOps2 p g ident jk) s a)
    (hb : nextIteration p (hydroOps2 p g ident jk) s b) (hdt : a.dt = b.dt) : a = b := by
  obtain ⟨_, m1, d, m3, h1, _, h3, rfl⟩ := nextIteration_iff.1 ha
  obtain ⟨_, m1', d', m3', h1', _, h3', rfl⟩ := nextIteration_iff.1 hb
  cases h1
  cases h1'
  simp only at hdt
  rw [← hdt] at h3'
  obtain rfl := (C02_step_deterministic hw hf hi g _ jk (pingPong s.iteration) _).unique h3 h3'
  rw [← hdt]

/-- Non-vacuity: the sample run (5 outputs, at most 10 steps) satisfies all hypotheses and has an
execution. -/
theorem sample_goodGrid (a b : BC) : GoodGrid (sample a b) where
  settings := sample_good a b 2 4
  cfl := by norm_num [sample, rawSample, Params.init]
  dx := by norm_num [sample, rawSample, Params.init, intLit]
  dy := by norm_num [sample, rawSample, Params.init, intLit]
  dz := by norm_num [sample, rawSample, Params.init, intLit]

example (m : Mem Arr ℝ) (jk : Junk ℝ) :
    ∃ s', runMain (sample .periodic .dirichlet) (hydroOps2 (sample .periodic .dirichlet)
      ⟨true, true⟩ (-1) jk) m 0 0 s' :=
  (C14_hydro_completes (sample_wf _ _) (sample_faces3 _ _) _ _ _ (by simp [sample, rawSample, Params.init])
    m 0 0).1

example : (sample .periodic .dirichlet).enableOutput = decide ((sample .periodic .dirichlet).nOutput ≠ 0) ∧
    0 < (sample .periodic .dirichlet).nOutput ∧ 0 < (sample .periodic .dirichlet).tEnd := by
  simp [sample, rawSample, Params.init]

/-- Non-vacuity of C17: with one output interval (`noutput = 1`) the bound `D = tEnd` on the steps
always holds for the hydro solver. -/
example (p : Params ℝ) (hw : p.WF) (hg : GoodGrid p) (hE : 0 < p.tEnd) (g : GravityParams)
    (jk : Junk ℝ) (m : Mem Arr ℝ) : Spec.StepsAtMost p (hydroOps2 p g (-1) jk) m p.tEnd := by
  intro k s s' h hf hn
  have hnn : ∀ n m d, (hydroOps2 p g (-1) jk).dtLocal n m d → 0 ≤ d :=
    fun n m d h => (dtLocal2_eq hw hg (by norm_num) h).2.le
  obtain ⟨a, _, _⟩ := C13_time_bounded hnn h
  obtain ⟨_, _, _, _, e, _, e', _⟩ := C13_one_turn hnn hf hn
  rw [e]; linarith

end EulerKokkos
