import Verif.Lemmas.CheckedStep

/-!
# Checked arithmetic: memory, the time step and complete runs
-/

set_option linter.unusedSimpArgs false
set_option linter.constructorNameAsVariable false
set_option linter.unusedSectionVars false

namespace EulerKokkos

open Chk Spec Prog

/-- the value is a number: no undefined operation contributed to it -/
def Chk.IsNum (x : Chk) : Prop := ∃ r : ℝ, x = ok r

/-- the number (0 for `bad`) -/
def Chk.val : Chk → ℝ
  | ok x => x
  | bad => 0

theorem Chk.IsNum.eq {x : Chk} (h : x.IsNum) : x = ok x.val := by
  obtain ⟨r, rfl⟩ := h
  rfl

/-- the numbers stored in a memory -/
def reals (m : Mem Arr Chk) : Mem Arr ℝ := fun l => (m l).val

/-- all components are numbers -/
def HS.IsNum (q : HS Chk) : Prop := q.d.IsNum ∧ q.p.IsNum ∧ q.u.IsNum ∧ q.v.IsNum ∧ q.w.IsNum

theorem HS.isNum_map (q : HS ℝ) : (q.map ok).IsNum := ⟨⟨_, rfl⟩, ⟨_, rfl⟩, ⟨_, rfl⟩, ⟨_, rfl⟩, ⟨_, rfl⟩⟩

theorem hs2_reals {m : Mem Arr Chk} {a : Arr} {i j : Int} (h : (hs2 m a i j).IsNum) :
    hs2 m a i j = (hs2 (reals m) a i j).map ok := by
  obtain ⟨h1, h2, h3, h4, h5⟩ := h
  exact hs_ext h1.eq h2.eq h3.eq h4.eq rfl

theorem hs3_reals {m : Mem Arr Chk} {a : Arr} {i j k : Int} (h : (hs3 m a i j k).IsNum) :
    hs3 m a i j k = (hs3 (reals m) a i j k).map ok := by
  obtain ⟨h1, h2, h3, h4, h5⟩ := h
  exact hs_ext h1.eq h2.eq h3.eq h4.eq h5.eq

/-- the gravity field of a cell is numbers (2D) -/
def GravNum2 (p : Params ℝ) (g : GravityParams) (m : Mem Arr Chk) : Prop :=
  g.enabled = true → ∀ i j, inGrid2 p i j → (gravOf m .grav i j).1.IsNum ∧ (gravOf m .grav i j).2.IsNum

/-- the gravity field of a cell is numbers (3D) -/
def GravNum3 (p : Params ℝ) (g : GravityParams) (m : Mem Arr Chk) : Prop :=
  g.enabled = true → ∀ i j k, inGrid3 p i j k → (gravOf3 m .grav i j k).1.IsNum ∧
    (gravOf3 m .grav i j k).2.1.IsNum ∧ (gravOf3 m .grav i j k).2.2.IsNum

theorem gravOf_reals {p : Params ℝ} {g : GravityParams} {m : Mem Arr Chk} (h : GravNum2 p g m)
    (he : g.enabled = true) (i j : Int) (hij : inGrid2 p i j) :
    gravOf m .grav i j = (ok (gravOf (reals m) .grav i j).1, ok (gravOf (reals m) .grav i j).2) := by
  obtain ⟨h1, h2⟩ := h he i j hij
  exact Prod.ext h1.eq h2.eq

theorem gravOf3_reals {p : Params ℝ} {g : GravityParams} {m : Mem Arr Chk} (h : GravNum3 p g m)
    (he : g.enabled = true) (i j k : Int) (hij : inGrid3 p i j k) :
    gravOf3 m .grav i j k = (ok (gravOf3 (reals m) .grav i j k).1, ok (gravOf3 (reals m) .grav i j k).2.1,
      ok (gravOf3 (reals m) .grav i j k).2.2) := by
  obtain ⟨h1, h2, h3⟩ := h he i j k hij
  exact Prod.ext h1.eq (Prod.ext h2.eq h3.eq)

theorem Hydro2.mapOk {p : Params ℝ} (hp : Hydro2 p) : Hydro2 (p.map ok) := by
  obtain ⟨⟨w1, w2, w3, w4, w5, w6, w7, w8, w9, w10, w11, w12, w13⟩, nb, ⟨v1, v2⟩, f⟩ := hp
  exact ⟨⟨w1, w2, w3, w4, w5, w6, w7, w8, w9, w10, w11, w12, w13⟩, nb, ⟨v1, v2⟩, f⟩

theorem Hydro3.mapOk {p : Params ℝ} (hp : Hydro3 p) : Hydro3 (p.map ok) := by
  obtain ⟨⟨w1, w2, w3, w4, w5, w6, w7, w8, w9, w10, w11, w12, w13⟩, nb, ⟨v1, v2⟩, f⟩ := hp
  exact ⟨⟨w1, w2, w3, w4, w5, w6, w7, w8, w9, w10, w11, w12, w13⟩, nb, ⟨v1, v2⟩, f⟩

/-! ## The CFL time step -/

theorem kokkosMaxJoin_ok (a b : ℝ) : kokkosMaxJoin (ok a) (ok b) = ok (kokkosMaxJoin a b) := by
  unfold kokkosMaxJoin
  rw [ok_lt]
  exact ite_ok _ _ _

/-- a reduction over numbers is the exact reduction -/
theorem reduce_ok {ι : Type} {body : ι → Chk → Prog Arr Chk Chk} {body' : ι → ℝ → Prog Arr ℝ ℝ}
    {m : Mem Arr Chk} {m' : Mem Arr ℝ} {ident : ℝ}
    (hb : ∀ i a, ((body i (ok a)).run m).1 = ok ((body' i a).run m').1) {l : List ι} {r : Chk}
    (h : Reduce body kokkosMaxJoin (ok ident) m l r) :
    ∃ r', r = ok r' ∧ Reduce body' kokkosMaxJoin ident m' l r' := by
  induction h with
  | init => exact ⟨_, rfl, .init⟩
  | iter i _ ih =>
    obtain ⟨r', rfl, h⟩ := ih
    exact ⟨_, hb i r', .iter i h⟩
  | join _ _ ih ih' =>
    obtain ⟨r', rfl, h⟩ := ih
    obtain ⟨r'', rfl, h'⟩ := ih'
    exact ⟨_, kokkosMaxJoin_ok _ _, .join h h'⟩

theorem parReduce_ok {ι : Type} {F : Finset ι} {body : ι → Chk → Prog Arr Chk Chk}
    {body' : ι → ℝ → Prog Arr ℝ ℝ} {m : Mem Arr Chk} {m' : Mem Arr ℝ} {ident : ℝ}
    (hb : ∀ i a, ((body i (ok a)).run m).1 = ok ((body' i a).run m').1) {r : Chk}
    (h : ParReduce F body kokkosMaxJoin (ok ident) m r) :
    ∃ r', r = ok r' ∧ ParReduce F body' kokkosMaxJoin ident m' r' := by
  obtain ⟨l, h1, h2, h3⟩ := h
  obtain ⟨r', e, h4⟩ := reduce_ok hb h3
  exact ⟨r', e, l, h1, h2, h4⟩

/-- the kernel of the velocity with gravity -/
def gravSpeed {R : Type} [RealOps R] (cfl dx velocity k : R) : R :=
  let k := k * (cfl * dx / (velocity * velocity))
  let k := fmax k (lit (1/10000))
  let velocity := velocity * (k / (RealOps.sqrt (lit 1 + lit 2 * k) - lit 1))
  velocity / dx

theorem gravSpeed_ok {cfl dx v k : ℝ} (hv : v ≠ 0) (hd : dx ≠ 0) :
    gravSpeed (ok cfl) (ok dx) (ok v) (ok k) = ok (gravSpeed cfl dx v k) := by
  have hvv : v * v ≠ 0 := mul_ne_zero hv hv
  unfold gravSpeed
  simp (disch := assumption) only [ok_mul, ok_div, ok_fmax, ok_lit]
  have hk : 0 < fmax (k * (cfl * dx / (v * v))) (lit (1 / 10000)) := lt_max_of_lt_right (by norm_num)
  generalize fmax (k * (cfl * dx / (v * v))) (lit (1 / 10000)) = q at *
  have h1 : 0 ≤ lit 1 + lit 2 * q := by simp only [RealOps.lit_real]; push_cast; positivity
  have h2 : RealOps.sqrt (lit 1 + lit 2 * q) - lit 1 ≠ 0 := by
    simp only [RealOps.lit_real, RealOps.sqrt_real] at h1 ⊢
    push_cast at h1 ⊢
    have : 1 < Real.sqrt (1 + 2 * q) := by
      rw [Real.lt_sqrt (by norm_num)]
      linarith
    linarith
  simp (disch := assumption) only [ok_mul, ok_add, ok_sub, ok_div, ok_sqrt]

theorem computeDt2_ok {p : Params ℝ} (hg : GoodGrid p) {m : Mem Arr Chk} {U : Arr} {t : Int × Int}
    (h : cellGuard2 p t → (hs2 m U t.1 t.2).IsNum) (a : ℝ) :
    ((computeDt2 (p.map ok) U t (ok a)).run m).1 = ok ((computeDt2 p U t a).run (reals m)).1 := by
  unfold computeDt2
  by_cases hc : cellGuard2 p t
  · have hc' : cellGuard2 (p.map ok) t := hc
    rw [if_pos hc, if_pos hc']
    simp only [run_bind, run_getHS2, run_pure]
    rw [hs2_reals (h hc)]
    have hx := hg.dx.ne'
    have hy := hg.dy.ne'
    have e := computePrimitives2_ok hg.settings (hs2 (reals m) U t.1 t.2)
    simp only [Params.map] at e ⊢
    rw [e]
    simp (disch := assumption) only [HS.map, ok_fmax, ok_add, ok_fabs, ok_div]
  · have hc' : ¬ cellGuard2 (p.map ok) t := hc
    rw [if_neg hc, if_neg hc']
    rfl

theorem computeDt3_ok {p : Params ℝ} (hg : GoodGrid p) {m : Mem Arr Chk} {U : Arr} {t : Int × Int × Int}
    (h : cellGuard3 p t → (hs3 m U t.1 t.2.1 t.2.2).IsNum) (a : ℝ) :
    ((computeDt3 (p.map ok) U t (ok a)).run m).1 = ok ((computeDt3 p U t a).run (reals m)).1 := by
  unfold computeDt3
  by_cases hc : cellGuard3 p t
  · have hc' : cellGuard3 (p.map ok) t := hc
    rw [if_pos hc, if_pos hc']
    simp only [run_bind, run_getHS3, run_pure]
    rw [hs3_reals (h hc)]
    have hx := hg.dx.ne'
    have hy := hg.dy.ne'
    have hz := hg.dz.ne'
    have e := computePrimitives3_ok hg.settings (hs3 (reals m) U t.1 t.2.1 t.2.2)
    simp only [Params.map] at e ⊢
    rw [e]
    simp (disch := assumption) only [HS.map, ok_fmax, ok_add, ok_fabs, ok_div]
  · have hc' : ¬ cellGuard3 (p.map ok) t := hc
    rw [if_neg hc, if_neg hc']
    rfl

theorem prim2_sound_pos {s : Settings ℝ} (hs : GoodSettings s) (u : HS ℝ) :
    0 < (computePrimitives2 s u).2 := by
  have hd : 0 < max u.d s.smallr := lt_max_of_lt_right hs.smallr
  have hp := hs.smallp_pos
  have hg := hs.gamma
  refine Real.sqrt_pos.2 (div_pos (mul_pos (by linarith) (lt_max_of_lt_right (mul_pos hd hp))) hd)

theorem prim3_sound_pos {s : Settings ℝ} (hs : GoodSettings s) (u : HS ℝ) :
    0 < (computePrimitives3 s u).2 := by
  have hd : 0 < max u.d s.smallr := lt_max_of_lt_right hs.smallr
  have hp := hs.smallp_pos
  have hg := hs.gamma
  refine Real.sqrt_pos.2 (div_pos (mul_pos (by linarith) (lt_max_of_lt_right (mul_pos hd hp))) hd)

theorem computeDtGravity2_ok {p : Params ℝ} (hg : GoodGrid p) {m : Mem Arr Chk} {U : Arr} {t : Int × Int}
    (h : cellGuard2 p t → (hs2 m U t.1 t.2).IsNum ∧ (gravOf m .grav t.1 t.2).1.IsNum ∧
      (gravOf m .grav t.1 t.2).2.IsNum) (a : ℝ) :
    ((computeDtGravity2 (p.map ok) (ok p.settings.cfl) .grav U t (ok a)).run m).1 =
      ok ((computeDtGravity2 p p.settings.cfl .grav U t a).run (reals m)).1 := by
  unfold computeDtGravity2
  by_cases hc : cellGuard2 p t
  · have hc' : cellGuard2 (p.map ok) t := hc
    rw [if_pos hc, if_pos hc']
    obtain ⟨h1, h2, h3⟩ := h hc
    simp only [run_bind, run_getHS2, run_pure, run_rd]
    rw [hs2_reals h1]
    have k2 : m ⟨.grav, t.1, t.2, 0, IX⟩ = ok (reals m ⟨.grav, t.1, t.2, 0, IX⟩) := h2.eq
    have k3 : m ⟨.grav, t.1, t.2, 0, IY⟩ = ok (reals m ⟨.grav, t.1, t.2, 0, IY⟩) := h3.eq
    rw [k2, k3]
    have hdx : fmin p.dx p.dy ≠ 0 := (lt_min hg.dx hg.dy).ne'
    have e := computePrimitives2_ok hg.settings (hs2 (reals m) U t.1 t.2)
    have hcs := prim2_sound_pos hg.settings (hs2 (reals m) U t.1 t.2)
    simp only [Params.map] at e ⊢
    rw [e]
    generalize computePrimitives2 p.settings (hs2 (reals m) U t.1 t.2) = q at *
    have hv : lit 0 + (q.2 + fabs q.1.u) + (q.2 + fabs q.1.v) ≠ 0 := by
      simp only [RealOps.lit_real, RealOps.fabs_real, Rat.cast_zero]
      have := abs_nonneg q.1.u
      have := abs_nonneg q.1.v
      positivity
    simp only [HS.map, ok_fmin, ok_lit, ok_add, ok_fabs]
    exact congrArg (fmax (ok a)) (gravSpeed_ok hv hdx)
  · have hc' : ¬ cellGuard2 (p.map ok) t := hc
    rw [if_neg hc, if_neg hc']
    rfl

theorem computeDtGravity3_ok {p : Params ℝ} (hg : GoodGrid p) {m : Mem Arr Chk} {U : Arr}
    {t : Int × Int × Int}
    (h : cellGuard3 p t → (hs3 m U t.1 t.2.1 t.2.2).IsNum ∧ (gravOf3 m .grav t.1 t.2.1 t.2.2).1.IsNum ∧
      (gravOf3 m .grav t.1 t.2.1 t.2.2).2.1.IsNum ∧ (gravOf3 m .grav t.1 t.2.1 t.2.2).2.2.IsNum) (a : ℝ) :
    ((computeDtGravity3 (p.map ok) (ok p.settings.cfl) .grav U t (ok a)).run m).1 =
      ok ((computeDtGravity3 p p.settings.cfl .grav U t a).run (reals m)).1 := by
  unfold computeDtGravity3
  by_cases hc : cellGuard3 p t
  · have hc' : cellGuard3 (p.map ok) t := hc
    rw [if_pos hc, if_pos hc']
    obtain ⟨h1, h2, h3, h4⟩ := h hc
    simp only [run_bind, run_getHS3, run_pure, run_rd]
    rw [hs3_reals h1]
    have k2 : m ⟨.grav, t.1, t.2.1, t.2.2, IX⟩ = ok (reals m ⟨.grav, t.1, t.2.1, t.2.2, IX⟩) := h2.eq
    have k3 : m ⟨.grav, t.1, t.2.1, t.2.2, IY⟩ = ok (reals m ⟨.grav, t.1, t.2.1, t.2.2, IY⟩) := h3.eq
    have k4 : m ⟨.grav, t.1, t.2.1, t.2.2, IZ⟩ = ok (reals m ⟨.grav, t.1, t.2.1, t.2.2, IZ⟩) := h4.eq
    rw [k2, k3, k4]
    have hdx : fmin (fmin p.dx p.dy) p.dz ≠ 0 := (lt_min (lt_min hg.dx hg.dy) hg.dz).ne'
    have e := computePrimitives3_ok hg.settings (hs3 (reals m) U t.1 t.2.1 t.2.2)
    have hcs := prim3_sound_pos hg.settings (hs3 (reals m) U t.1 t.2.1 t.2.2)
    simp only [Params.map] at e ⊢
    rw [e]
    generalize computePrimitives3 p.settings (hs3 (reals m) U t.1 t.2.1 t.2.2) = q at *
    have hv : lit 0 + (q.2 + fabs q.1.u) + (q.2 + fabs q.1.v) + (q.2 + fabs q.1.w) ≠ 0 := by
      simp only [RealOps.lit_real, RealOps.fabs_real, Rat.cast_zero]
      have := abs_nonneg q.1.u
      have := abs_nonneg q.1.v
      have := abs_nonneg q.1.w
      positivity
    simp only [HS.map, ok_fmin, ok_lit, ok_add, ok_fabs]
    exact congrArg (fmax (ok a)) (gravSpeed_ok hv hdx)
  · have hc' : ¬ cellGuard3 (p.map ok) t := hc
    rw [if_neg hc, if_neg hc']
    rfl

theorem dtLocal2_ok {p : Params ℝ} (hw : p.WF) (hg : GoodGrid p) {g : GravityParams} {ident : ℝ}
    (hid : ident ≤ 0) {n : Nat} {m : Mem Arr Chk}
    (hm : ∀ i j, interior2 p i j → (hs2 m (pingIn n) i j).IsNum) (hG : GravNum2 p g m) {d : Chk}
    (h : computeDtLocal2 (p.map ok) g (ok ident) n m d) :
    ∃ x : ℝ, d = ok x ∧ computeDtLocal2 p g ident n (reals m) x := by
  obtain ⟨r, h, rfl⟩ := h
  have key : ∃ r', r = ok r' ∧ computeDtLocal2 p g ident n (reals m) (p.settings.cfl / r') := by
    by_cases he : g.enabled = true
    · rw [if_pos he] at h
      obtain ⟨r', e, h'⟩ := parReduce_ok (body' := computeDtGravity2 p p.settings.cfl .grav (pingIn n))
        (m' := reals m) (fun t a => computeDtGravity2_ok hg (fun hc =>
          have hi := (cellGuard2_interior hw t).1 hc
          ⟨hm _ _ hi, hG he _ _ (interior_inGrid2 hw hi)⟩) a) h
      exact ⟨r', e, r', by rw [if_pos he]; exact h', rfl⟩
    · rw [if_neg he] at h
      obtain ⟨r', e, h'⟩ := parReduce_ok (body' := computeDt2 p (pingIn n)) (m' := reals m)
        (fun t a => computeDt2_ok hg (fun hc => hm _ _ ((cellGuard2_interior hw t).1 hc)) a) h
      exact ⟨r', e, r', by rw [if_neg he]; exact h', rfl⟩
  obtain ⟨r', rfl, h'⟩ := key
  refine ⟨_, ok_div ?_, h'⟩
  rintro rfl
  have := (dtLocal2_eq hw hg hid h').2
  simp at this

theorem dtLocal3_ok {p : Params ℝ} (hw : p.WF) (hg : GoodGrid p) {g : GravityParams} {ident : ℝ}
    (hid : ident ≤ 0) {n : Nat} {m : Mem Arr Chk}
    (hm : ∀ i j k, interior3 p i j k → (hs3 m (pingIn n) i j k).IsNum) (hG : GravNum3 p g m) {d : Chk}
    (h : computeDtLocal3 (p.map ok) g (ok ident) n m d) :
    ∃ x : ℝ, d = ok x ∧ computeDtLocal3 p g ident n (reals m) x := by
  obtain ⟨r, h, rfl⟩ := h
  have key : ∃ r', r = ok r' ∧ computeDtLocal3 p g ident n (reals m) (p.settings.cfl / r') := by
    by_cases he : g.enabled = true
    · rw [if_pos he] at h
      obtain ⟨r', e, h'⟩ := parReduce_ok (body' := computeDtGravity3 p p.settings.cfl .grav (pingIn n))
        (m' := reals m) (fun t a => computeDtGravity3_ok hg (fun hc =>
          have hi := (cellGuard3_interior hw t).1 hc
          ⟨hm _ _ _ hi, hG he _ _ _ (interior_inGrid3 hw hi)⟩) a) h
      exact ⟨r', e, r', by rw [if_pos he]; exact h', rfl⟩
    · rw [if_neg he] at h
      obtain ⟨r', e, h'⟩ := parReduce_ok (body' := computeDt3 p (pingIn n)) (m' := reals m)
        (fun t a => computeDt3_ok hg (fun hc => hm _ _ _ ((cellGuard3_interior hw t).1 hc)) a) h
      exact ⟨r', e, r', by rw [if_neg he]; exact h', rfl⟩
  obtain ⟨r', rfl, h'⟩ := key
  refine ⟨_, ok_div ?_, h'⟩
  rintro rfl
  have := (dtLocal3_eq hw hg hid h').2
  simp at this

/-! ## Runs -/

/-- the kernels of a solver keep `Inv` and compute numbers -/
structure KeepsNum (S : SolverOps Chk) (Inv : Nat → Mem Arr Chk → Prop)
    (View : (Loc Unit → Chk) → Prop) : Prop where
  view : ∀ n m, Inv n m → View (viewOf m (pingIn n))
  dt : ∀ n m m₁ d, Inv n m → S.pre n m m₁ → S.dtLocal n m₁ d → d.IsNum
  post : ∀ n m m₁ (d : ℝ) m₃, Inv n m → S.pre n m m₁ → S.post n (ok d) m₁ m₃ → Inv (n + 1) m₃

/-- a state of the run in which all numbers are defined -/
structure RunNum (Inv : Nat → Mem Arr Chk → Prop) (View : (Loc Unit → Chk) → Prop)
    (s : RunState Chk) : Prop where
  inv : Inv s.iteration s.mem
  t : s.t.IsNum
  dt : s.dt.IsNum
  files : ∀ o ∈ s.outputs, o.time.IsNum ∧ View o.data

section
variable {p : Params ℝ} {S : SolverOps Chk} {Inv : Nat → Mem Arr Chk → Prop}
  {View : (Loc Unit → Chk) → Prop}

theorem RunNum.save (hK : KeepsNum S Inv View) {s : RunState Chk} (h : RunNum Inv View s) :
    RunNum Inv View (saveSolution s) := by
  refine ⟨h.inv, h.t, h.dt, fun o ho => ?_⟩
  rcases List.mem_append.1 ho with ho | ho
  · exact h.files o ho
  · rw [List.mem_singleton] at ho
    subst ho
    exact ⟨h.t, hK.view _ _ h.inv⟩

theorem clipDt_num {t d : Chk} (ht : t.IsNum) (hd : d.IsNum) : (clipDt (p.map ok) t d).IsNum := by
  obtain ⟨t, rfl⟩ := ht
  obtain ⟨d, rfl⟩ := hd
  unfold clipDt
  split_ifs
  · exact ⟨_, rfl⟩
  · exact ⟨_, rfl⟩

theorem RunNum.step (hK : KeepsNum S Inv View) {s s' : RunState Chk} (h : RunNum Inv View s)
    (hs : nextIteration (p.map ok) S s s') : RunNum Inv View s' := by
  obtain ⟨_, m1, d, m3, h1, h2, h3, rfl⟩ := nextIteration_iff.1 hs
  have hd := clipDt_num (p := p) h.t (hK.dt _ _ _ _ h.inv h1 h2)
  obtain ⟨x, hx⟩ := hd
  have ht : (s.t + clipDt (p.map ok) s.t d).IsNum := by
    obtain ⟨t, ht⟩ := h.t
    rw [ht] at hx ⊢
    rw [hx]
    exact ⟨_, rfl⟩
  refine ⟨?_, ht, ⟨x, hx⟩, ?_⟩
  · rw [hx] at h3
    exact hK.post _ _ _ _ _ h.inv h1 h3
  · have hl : RunNum Inv View (logLine (p.map ok) s) := by
      unfold logLine
      split_ifs
      · exact ⟨h.inv, h.t, h.dt, h.files⟩
      · exact h
    have hm : RunNum Inv View (maybeSave (p.map ok) (logLine (p.map ok) s)) := by
      unfold maybeSave
      split_ifs
      · exact hl.save hK
      · exact hl
    exact hm.files

/-- every number of a run is defined -/
theorem runNum_main (hK : KeepsNum S Inv View) {m : Mem Arr Chk} {t : ℝ} {sv : Int}
    {s' : RunState Chk} (hinit : ∀ m₁, S.setup m m₁ → Inv 0 m₁)
    (hdt : ∀ m₁ d, S.setup m m₁ → Inv 0 m₁ → S.dtLocal 0 m₁ d → d.IsNum)
    (h : runMain (p.map ok) S m (ok t) sv s') : RunNum Inv View s' := by
  have hsave : ∀ s, RunNum Inv View s → RunNum Inv View (mainSave (p.map ok) s) := by
    intro s hs
    unfold mainSave
    split_ifs
    · exact hs.save hK
    · exact hs
  obtain ⟨s0, s1, ⟨m1, hm1, d, hd, rfl⟩, ⟨k, h1, hfin⟩, rfl⟩ := h
  apply hsave
  have hi := hinit m1 hm1
  have h0 : RunNum Inv View (RunState.mk m1 (ok t) (clipDt (p.map ok) (ok t) d) 0 sv [] []) :=
    ⟨hi, ⟨_, rfl⟩, clipDt_num ⟨_, rfl⟩ (hdt _ _ hm1 hi hd), by simp⟩
  have h0' := hsave _ h0
  clear h0 hd hm1 hi hfin
  change Turns (p.map ok) S k (mainSave (p.map ok) (RunState.mk m1 (ok t)
    (clipDt (p.map ok) (ok t) d) 0 sv [] [])) s1 at h1
  generalize mainSave (p.map ok) (RunState.mk m1 (ok t)
    (clipDt (p.map ok) (ok t) d) 0 sv [] []) = s at h1 h0'
  induction h1 with
  | zero => exact h0'
  | succ _ _ hn ih => exact (ih h0').step hK hn

end

end EulerKokkos
