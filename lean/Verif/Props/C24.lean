import Verif.Model.ComputeDt
import Verif.Props.C22

/-!
# C24, C25 — the CFL time step
-/

set_option linter.constructorNameAsVariable false
set_option linter.unusedSectionVars false
set_option linter.unusedSimpArgs false

namespace EulerKokkos
open Spec Prog

namespace Spec
/-- speed of sound of a primitive state -/
noncomputable def sound (s : Settings ℝ) (q : HS ℝ) : ℝ := Real.sqrt (s.gamma0 * q.p / q.d)

/-- cells crossed per unit time, summed over the directions (2D) -/
noncomputable def cflRate2 (p : Params ℝ) (q : HS ℝ) : ℝ :=
  (|q.u| + sound p.settings q) / p.dx + (|q.v| + sound p.settings q) / p.dy

/-- cells crossed per unit time, summed over the directions (3D) -/
noncomputable def cflRate3 (p : Params ℝ) (q : HS ℝ) : ℝ :=
  (|q.u| + sound p.settings q) / p.dx + (|q.v| + sound p.settings q) / p.dy +
    (|q.w| + sound p.settings q) / p.dz

/-- primitive state of the contents of an interior cell (2D) -/
noncomputable def cellPrim2 (p : Params ℝ) (m : Mem Arr ℝ) (U : Arr) (i j : Int) : HS ℝ :=
  (computePrimitives2 p.settings (hs2 m U i j)).1

/-- primitive state of the contents of an interior cell (3D) -/
noncomputable def cellPrim3 (p : Params ℝ) (m : Mem Arr ℝ) (U : Arr) (i j k : Int) : HS ℝ :=
  (computePrimitives3 p.settings (hs3 m U i j k)).1
end Spec

/-! ## Max reductions -/

theorem kokkosMaxJoin_real (a b : ℝ) : kokkosMaxJoin a b = max a b := by
  unfold kokkosMaxJoin
  split_ifs with h
  · rw [RealOps.lt_real] at h; exact (max_eq_right h.le).symm
  · rw [RealOps.lt_real] at h; exact (max_eq_left (not_lt.1 h)).symm

theorem reduce_max {A ι : Type} [DecidableEq A] {body : ι → ℝ → Prog A ℝ ℝ} {ident : ℝ}
    {m : Mem A ℝ} (G : ι → Prop) (f : ι → ℝ)
    (hG : ∀ i a, G i → ((body i a).run m).1 = max a (f i))
    (hN : ∀ i a, ¬ G i → ((body i a).run m).1 = a)
    {l : List ι} {r : ℝ} (h : Reduce body kokkosMaxJoin ident m l r) :
    ident ≤ r ∧ (∀ i ∈ l, G i → f i ≤ r) ∧ (r = ident ∨ ∃ i ∈ l, G i ∧ r = f i) := by
  induction h with
  | init => exact ⟨le_rfl, by simp, Or.inl rfl⟩
  | @iter l a i h ih =>
    obtain ⟨h1, h2, h3⟩ := ih
    by_cases g : G i
    · rw [hG i a g]
      refine ⟨h1.trans (le_max_left _ _), ?_, ?_⟩
      · intro j hj gj
        rcases List.mem_cons.1 hj with rfl | hj
        · exact le_max_right _ _
        · exact (h2 j hj gj).trans (le_max_left _ _)
      · rcases max_choice a (f i) with e | e <;> rw [e]
        · rcases h3 with h3 | ⟨j, hj, h3⟩
          · exact Or.inl h3
          · exact Or.inr ⟨j, by simp [hj], h3⟩
        · exact Or.inr ⟨i, by simp, g, rfl⟩
    · rw [hN i a g]
      refine ⟨h1, ?_, ?_⟩
      · intro j hj gj
        rcases List.mem_cons.1 hj with rfl | hj
        · exact absurd gj g
        · exact h2 j hj gj
      · rcases h3 with h3 | ⟨j, hj, h3⟩
        · exact Or.inl h3
        · exact Or.inr ⟨j, by simp [hj], h3⟩
  | @join l l' a b _ _ ih ih' =>
    obtain ⟨h1, h2, h3⟩ := ih
    obtain ⟨h1', h2', h3'⟩ := ih'
    rw [kokkosMaxJoin_real]
    refine ⟨h1.trans (le_max_left _ _), ?_, ?_⟩
    · intro j hj gj
      rcases List.mem_append.1 hj with hj | hj
      · exact (h2 j hj gj).trans (le_max_left _ _)
      · exact (h2' j hj gj).trans (le_max_right _ _)
    · rcases max_choice a b with e | e <;> rw [e]
      · rcases h3 with h3 | ⟨j, hj, h3⟩
        · exact Or.inl h3
        · exact Or.inr ⟨j, by simp [hj], h3⟩
      · rcases h3' with h3 | ⟨j, hj, h3⟩
        · exact Or.inl h3
        · exact Or.inr ⟨j, by simp [hj], h3⟩

/-- A max reduction with a harmless identity returns the maximum, in every schedule. -/
theorem parReduce_max {A ι : Type} [DecidableEq A] {F : Finset ι} {body : ι → ℝ → Prog A ℝ ℝ}
    {ident : ℝ} {m : Mem A ℝ} (G : ι → Prop) (f : ι → ℝ)
    (hG : ∀ i a, G i → ((body i a).run m).1 = max a (f i))
    (hN : ∀ i a, ¬ G i → ((body i a).run m).1 = a)
    (hne : ∃ i ∈ F, G i) (hid : ∀ i ∈ F, G i → ident ≤ f i)
    {r : ℝ} (h : ParReduce F body kokkosMaxJoin ident m r) :
    (∀ i ∈ F, G i → f i ≤ r) ∧ ∃ i ∈ F, G i ∧ r = f i := by
  obtain ⟨l, _, hl, hr⟩ := h
  obtain ⟨h1, h2, h3⟩ := reduce_max G f hG hN hr
  refine ⟨fun i hi => h2 i ((hl i).2 hi), ?_⟩
  rcases h3 with h3 | ⟨i, hi, h3⟩
  · obtain ⟨i, hi, gi⟩ := hne
    exact ⟨i, hi, gi, le_antisymm (h3 ▸ hid i hi gi) (h2 i ((hl i).2 hi) gi)⟩
  · exact ⟨i, (hl i).1 hi, h3⟩

/-! ## The bodies -/

theorem cellGuard2_interior {p : Params ℝ} (hw : p.WF) (t : Int × Int) :
    cellGuard2 p t ↔ interior2 p t.1 t.2 := by
  have := hw.isize_eq
  have := hw.jsize_eq
  simp only [cellGuard2, interior2]; omega

theorem cellGuard3_interior {p : Params ℝ} (hw : p.WF) (t : Int × Int × Int) :
    cellGuard3 p t ↔ interior3 p t.1 t.2.1 t.2.2 := by
  have := hw.isize_eq
  have := hw.jsize_eq
  have := hw.ksize_eq
  simp only [cellGuard3, interior3]; omega

theorem interior2_range {p : Params ℝ} (hw : p.WF) {t : Int × Int} (h : interior2 p t.1 t.2) :
    t ∈ range2 p.isize p.jsize := by
  have := hw.isize_eq
  have := hw.jsize_eq
  have := hw.gw_pos
  obtain ⟨a, b, c, d⟩ := h
  rw [mem_range2]; omega

theorem interior3_range {p : Params ℝ} (hw : p.WF) {t : Int × Int × Int}
    (h : interior3 p t.1 t.2.1 t.2.2) : t ∈ range3 p.isize p.jsize p.ksize := by
  have := hw.isize_eq
  have := hw.jsize_eq
  have := hw.ksize_eq
  have := hw.gw_pos
  obtain ⟨⟨a, b⟩, ⟨c, d⟩, e, f⟩ := h
  rw [mem_range3]; omega

theorem interior2_first {p : Params ℝ} (hw : p.WF) : interior2 p p.ghostWidth p.ghostWidth := by
  have := hw.nx_pos
  have := hw.ny_pos
  exact ⟨le_rfl, by omega, le_rfl, by omega⟩

theorem interior3_first {p : Params ℝ} (hw : p.WF) :
    interior3 p p.ghostWidth p.ghostWidth p.ghostWidth := by
  have := hw.nx_pos
  have := hw.ny_pos
  have := hw.nz_pos
  exact ⟨⟨le_rfl, by omega⟩, ⟨le_rfl, by omega⟩, le_rfl, by omega⟩

theorem run_getHS2' (a : Arr) (i j : Int) (m : Mem Arr ℝ) :
    (getHS2 a i j).run m = (hs2 m a i j, m) := rfl
theorem run_getHS3' (a : Arr) (i j k : Int) (m : Mem Arr ℝ) :
    (getHS3 a i j k).run m = (hs3 m a i j k, m) := rfl

theorem computeDt2_run (p : Params ℝ) (U : Arr) (m : Mem Arr ℝ) (t : Int × Int) (a : ℝ) :
    ((computeDt2 p U t a).run m).1 =
      if cellGuard2 p t then max a (cflRate2 p (cellPrim2 p m U t.1 t.2)) else a := by
  unfold computeDt2
  split_ifs
  · simp only [run_bind, run_getHS2', run_pure]
    show max a _ = max a _
    congr 1
    simp only [cflRate2, cellPrim2, sound, computePrimitives2, RealOps.fabs_real, RealOps.sqrt_real]
    ring
  · rfl

theorem computeDt3_run (p : Params ℝ) (U : Arr) (m : Mem Arr ℝ) (t : Int × Int × Int) (a : ℝ) :
    ((computeDt3 p U t a).run m).1 =
      if cellGuard3 p t then max a (cflRate3 p (cellPrim3 p m U t.1 t.2.1 t.2.2)) else a := by
  unfold computeDt3
  split_ifs
  · simp only [run_bind, run_getHS3', run_pure]
    show max a _ = max a _
    congr 1
    simp only [cflRate3, cellPrim3, sound, computePrimitives3, RealOps.fabs_real, RealOps.sqrt_real]
    ring
  · rfl

/-! ## Positivity of the rates -/

theorem cellPrim2_sound_pos {p : Params ℝ} (hs : GoodSettings p.settings) (m : Mem Arr ℝ) (U : Arr)
    (i j : Int) : 0 < sound p.settings (cellPrim2 p m U i j) := by
  obtain ⟨h1, h2, h3, _⟩ := C18_primitives_positive_2d hs (hs2 m U i j)
  have hr := hs.smallr
  have hg := hs.gamma
  unfold sound cellPrim2
  refine Real.sqrt_pos.2 (div_pos (mul_pos (by linarith) ?_) ?_) <;> linarith

theorem cellPrim3_sound_pos {p : Params ℝ} (hs : GoodSettings p.settings) (m : Mem Arr ℝ) (U : Arr)
    (i j k : Int) : 0 < sound p.settings (cellPrim3 p m U i j k) := by
  obtain ⟨h1, h2, h3, _⟩ := C18_primitives_positive_3d hs (hs3 m U i j k)
  have hr := hs.smallr
  have hg := hs.gamma
  unfold sound cellPrim3
  refine Real.sqrt_pos.2 (div_pos (mul_pos (by linarith) ?_) ?_) <;> linarith

theorem cflRate2_pos {p : Params ℝ} (hs : GoodSettings p.settings) (hx : 0 < p.dx) (hy : 0 < p.dy)
    (m : Mem Arr ℝ) (U : Arr) (i j : Int) : 0 < cflRate2 p (cellPrim2 p m U i j) := by
  have := cellPrim2_sound_pos hs m U i j
  unfold cflRate2
  positivity

theorem cflRate3_pos {p : Params ℝ} (hs : GoodSettings p.settings) (hx : 0 < p.dx) (hy : 0 < p.dy)
    (hz : 0 < p.dz) (m : Mem Arr ℝ) (U : Arr) (i j k : Int) :
    0 < cflRate3 p (cellPrim3 p m U i j k) := by
  have := cellPrim3_sound_pos hs m U i j k
  unfold cflRate3
  positivity

/-! ## C24 -/

/-- **C24 (2D).** Whatever the order of the reduction: the time step is positive, satisfies the CFL
condition `dt·((|u|+c)/dx + (|v|+c)/dy) ≤ cfl` in every interior cell, with equality in some cell. -/
theorem C24_cfl_2d {p : Params ℝ} (hw : p.WF) (hs : GoodSettings p.settings) (hx : 0 < p.dx)
    (hy : 0 < p.dy) (hc : 0 < p.settings.cfl) {g : GravityParams} (hg : g.enabled = false)
    {ident : ℝ} (hid : ident ≤ 0) {n : Nat} {m : Mem Arr ℝ} {dt : ℝ}
    (h : computeDtLocal2 p g ident n m dt) :
    0 < dt ∧
    (∀ i j, interior2 p i j → dt * cflRate2 p (cellPrim2 p m (pingIn n) i j) ≤ p.settings.cfl) ∧
    ∃ i j, interior2 p i j ∧ dt * cflRate2 p (cellPrim2 p m (pingIn n) i j) = p.settings.cfl := by
  obtain ⟨r, h, rfl⟩ := h
  rw [hg] at h
  simp only [Bool.false_eq_true, if_false] at h
  obtain ⟨h1, ⟨t, ht, gt, h2⟩⟩ := parReduce_max (fun t => cellGuard2 p t)
    (fun t => cflRate2 p (cellPrim2 p m (pingIn n) t.1 t.2))
    (fun t a gt => by rw [computeDt2_run, if_pos gt]) (fun t a gt => by rw [computeDt2_run, if_neg gt])
    ⟨(p.ghostWidth, p.ghostWidth), interior2_range hw (interior2_first hw),
      (cellGuard2_interior hw _).2 (interior2_first hw)⟩
    (fun t _ _ => hid.trans (cflRate2_pos hs hx hy _ _ _ _).le) h
  have hpos : 0 < r := h2 ▸ cflRate2_pos hs hx hy _ _ _ _
  refine ⟨div_pos hc hpos, fun i j hij => ?_, t.1, t.2, (cellGuard2_interior hw t).1 gt, ?_⟩
  · have := h1 (i, j) (interior2_range hw hij) ((cellGuard2_interior hw _).2 hij)
    rw [div_mul_eq_mul_div, div_le_iff₀ hpos]
    exact mul_le_mul_of_nonneg_left this hc.le
  · rw [← h2]; field_simp

/-- **C24 (3D).** -/
theorem C24_cfl_3d {p : Params ℝ} (hw : p.WF) (hs : GoodSettings p.settings) (hx : 0 < p.dx)
    (hy : 0 < p.dy) (hz : 0 < p.dz) (hc : 0 < p.settings.cfl) {g : GravityParams}
    (hg : g.enabled = false)
    {ident : ℝ} (hid : ident ≤ 0) {n : Nat} {m : Mem Arr ℝ} {dt : ℝ}
    (h : computeDtLocal3 p g ident n m dt) :
    0 < dt ∧
    (∀ i j k, interior3 p i j k →
      dt * cflRate3 p (cellPrim3 p m (pingIn n) i j k) ≤ p.settings.cfl) ∧
    ∃ i j k, interior3 p i j k ∧
      dt * cflRate3 p (cellPrim3 p m (pingIn n) i j k) = p.settings.cfl := by
  obtain ⟨r, h, rfl⟩ := h
  rw [hg] at h
  simp only [Bool.false_eq_true, if_false] at h
  obtain ⟨h1, ⟨t, ht, gt, h2⟩⟩ := parReduce_max (fun t => cellGuard3 p t)
    (fun t => cflRate3 p (cellPrim3 p m (pingIn n) t.1 t.2.1 t.2.2))
    (fun t a gt => by rw [computeDt3_run, if_pos gt]) (fun t a gt => by rw [computeDt3_run, if_neg gt])
    ⟨(p.ghostWidth, p.ghostWidth, p.ghostWidth), interior3_range hw (interior3_first hw),
      (cellGuard3_interior hw _).2 (interior3_first hw)⟩
    (fun t _ _ => hid.trans (cflRate3_pos hs hx hy hz _ _ _ _ _).le) h
  have hpos : 0 < r := h2 ▸ cflRate3_pos hs hx hy hz _ _ _ _ _
  refine ⟨div_pos hc hpos, fun i j k hij => ?_, t.1, t.2.1, t.2.2, (cellGuard3_interior hw t).1 gt, ?_⟩
  · have := h1 (i, j, k) (interior3_range hw hij) ((cellGuard3_interior hw _).2 hij)
    rw [div_mul_eq_mul_div, div_le_iff₀ hpos]
    exact mul_le_mul_of_nonneg_left this hc.le
  · rw [← h2]; field_simp

/-- On cells above the floors the primitive state used for the CFL condition is the physical one. -/
theorem C24_rate_physical {p : Params ℝ} (hs : GoodSettings p.settings) {q : HS ℝ}
    (hq : Physical p.settings q) {m : Mem Arr ℝ} {U : Arr} :
    (∀ i j, Is2D q → hs2 m U i j = toCons p.settings.gamma0 q → cellPrim2 p m U i j = q) ∧
    (∀ i j k, hs3 m U i j k = toCons p.settings.gamma0 q → cellPrim3 p m U i j k = q) := by
  refine ⟨fun i j h2 h => ?_, fun i j k h => ?_⟩
  · unfold cellPrim2; rw [h]; exact (C18_inverse_2d hs).1 q hq h2
  · unfold cellPrim3; rw [h]; exact (C18_inverse_3d hs).1 q hq

/-- **C24 (independence of the schedule).** Two evaluations give the same time step. -/
theorem C24_schedule_independent {p : Params ℝ} (hw : p.WF) (hs : GoodSettings p.settings)
    (hx : 0 < p.dx) (hy : 0 < p.dy) (hz : 0 < p.dz) (hc : 0 < p.settings.cfl) {g : GravityParams}
    (hg : g.enabled = false) {ident : ℝ} (hid : ident ≤ 0) {n : Nat} {m : Mem Arr ℝ} {dt dt' : ℝ} :
    (computeDtLocal2 p g ident n m dt → computeDtLocal2 p g ident n m dt' → dt = dt') ∧
    (computeDtLocal3 p g ident n m dt → computeDtLocal3 p g ident n m dt' → dt = dt') := by
  constructor
  · intro h h'
    obtain ⟨a1, a2, i, j, a3, a4⟩ := C24_cfl_2d hw hs hx hy hc hg hid h
    obtain ⟨b1, b2, i', j', b3, b4⟩ := C24_cfl_2d hw hs hx hy hc hg hid h'
    have p1 := cflRate2_pos hs hx hy m (pingIn n) i j
    have p2 := cflRate2_pos hs hx hy m (pingIn n) i' j'
    apply le_antisymm
    · have := a2 i' j' b3; rw [← b4] at this; exact le_of_mul_le_mul_right this p2
    · have := b2 i j a3; rw [← a4] at this; exact le_of_mul_le_mul_right this p1
  · intro h h'
    obtain ⟨a1, a2, i, j, k, a3, a4⟩ := C24_cfl_3d hw hs hx hy hz hc hg hid h
    obtain ⟨b1, b2, i', j', k', b3, b4⟩ := C24_cfl_3d hw hs hx hy hz hc hg hid h'
    have p1 := cflRate3_pos hs hx hy hz m (pingIn n) i j k
    have p2 := cflRate3_pos hs hx hy hz m (pingIn n) i' j' k'
    apply le_antisymm
    · have := a2 i' j' k' b3; rw [← b4] at this; exact le_of_mul_le_mul_right this p2
    · have := b2 i j k a3; rw [← a4] at this; exact le_of_mul_le_mul_right this p1

/-- `MPI_Allreduce` with `MIN` over the ranks: the smallest of the local values. -/
def Spec.AllreduceMin {ρ : Type} (v : ρ → ℝ) (r : ℝ) : Prop := (∀ a, r ≤ v a) ∧ ∃ a, r = v a

/-- **C24 (independence of the domain decomposition), 2D.**  Ranks `ρ` with local parameters and
memories; every interior cell of every rank is (via `pos`) an interior cell of the serial grid with
the same contents, and every serial cell is held by some rank.  The reduced time step is the serial
one. -/
theorem C24_decomposition_2d {p : Params ℝ} (hw : p.WF) (hs : GoodSettings p.settings)
    (hx : 0 < p.dx) (hy : 0 < p.dy) (hc : 0 < p.settings.cfl) {g : GravityParams}
    (hg : g.enabled = false) {ident : ℝ} (hid : ident ≤ 0) {n : Nat} {m : Mem Arr ℝ} {dt : ℝ}
    (h : computeDtLocal2 p g ident n m dt)
    {ρ : Type} (pl : ρ → Params ℝ) (ml : ρ → Mem Arr ℝ) (hwl : ∀ a, (pl a).WF)
    (hset : ∀ a, (pl a).settings = p.settings) (hdx : ∀ a, (pl a).dx = p.dx)
    (hdy : ∀ a, (pl a).dy = p.dy)
    (pos : ρ → Int × Int → Int × Int)
    (hin : ∀ a i j, interior2 (pl a) i j →
      interior2 p (pos a (i, j)).1 (pos a (i, j)).2 ∧
      hs2 (ml a) (pingIn n) i j = hs2 m (pingIn n) (pos a (i, j)).1 (pos a (i, j)).2)
    (hcov : ∀ i j, interior2 p i j → ∃ a i' j', interior2 (pl a) i' j' ∧ pos a (i', j') = (i, j))
    (dtl : ρ → ℝ) (hl : ∀ a, computeDtLocal2 (pl a) g ident n (ml a) (dtl a))
    {dtg : ℝ} (hall : AllreduceMin dtl dtg) : dtg = dt := by
  obtain ⟨a1, a2, i, j, a3, a4⟩ := C24_cfl_2d hw hs hx hy hc hg hid h
  have hloc := fun a => C24_cfl_2d (hwl a) (hset a ▸ hs) (hdx a ▸ hx) (hdy a ▸ hy)
    (hset a ▸ hc) hg hid (hl a)
  have key : ∀ a i j, interior2 (pl a) i j →
      cflRate2 (pl a) (cellPrim2 (pl a) (ml a) (pingIn n) i j) =
        cflRate2 p (cellPrim2 p m (pingIn n) (pos a (i, j)).1 (pos a (i, j)).2) := by
    intro a i j hij
    unfold cflRate2 cellPrim2
    rw [(hin a i j hij).2, hset a, hdx a, hdy a]
  obtain ⟨g1, a, g2⟩ := hall
  apply le_antisymm
  · obtain ⟨b, i', j', hb, e⟩ := hcov i j a3
    obtain ⟨_, l2, _⟩ := hloc b
    have := l2 i' j' hb
    rw [key b i' j' hb, e, hset b, ← a4] at this
    exact (g1 b).trans (le_of_mul_le_mul_right this (cflRate2_pos hs hx hy _ _ _ _))
  · obtain ⟨_, _, i', j', l3, l4⟩ := hloc a
    have := a2 _ _ (hin a i' j' l3).1
    rw [← key a i' j' l3, ← hset a, ← l4] at this
    rw [g2]
    refine le_of_mul_le_mul_right this ?_
    rw [key a i' j' l3]; exact cflRate2_pos hs hx hy _ _ _ _

/-- **C24 (independence of the domain decomposition), 3D.** -/
theorem C24_decomposition_3d {p : Params ℝ} (hw : p.WF) (hs : GoodSettings p.settings)
    (hx : 0 < p.dx) (hy : 0 < p.dy) (hz : 0 < p.dz) (hc : 0 < p.settings.cfl) {g : GravityParams}
    (hg : g.enabled = false) {ident : ℝ} (hid : ident ≤ 0) {n : Nat} {m : Mem Arr ℝ} {dt : ℝ}
    (h : computeDtLocal3 p g ident n m dt)
    {ρ : Type} (pl : ρ → Params ℝ) (ml : ρ → Mem Arr ℝ) (hwl : ∀ a, (pl a).WF)
    (hset : ∀ a, (pl a).settings = p.settings) (hdx : ∀ a, (pl a).dx = p.dx)
    (hdy : ∀ a, (pl a).dy = p.dy) (hdz : ∀ a, (pl a).dz = p.dz)
    (pos : ρ → Int × Int × Int → Int × Int × Int)
    (hin : ∀ a i j k, interior3 (pl a) i j k →
      interior3 p (pos a (i, j, k)).1 (pos a (i, j, k)).2.1 (pos a (i, j, k)).2.2 ∧
      hs3 (ml a) (pingIn n) i j k =
        hs3 m (pingIn n) (pos a (i, j, k)).1 (pos a (i, j, k)).2.1 (pos a (i, j, k)).2.2)
    (hcov : ∀ i j k, interior3 p i j k →
      ∃ a i' j' k', interior3 (pl a) i' j' k' ∧ pos a (i', j', k') = (i, j, k))
    (dtl : ρ → ℝ) (hl : ∀ a, computeDtLocal3 (pl a) g ident n (ml a) (dtl a))
    {dtg : ℝ} (hall : AllreduceMin dtl dtg) : dtg = dt := by
  obtain ⟨a1, a2, i, j, k, a3, a4⟩ := C24_cfl_3d hw hs hx hy hz hc hg hid h
  have hloc := fun a => C24_cfl_3d (hwl a) (hset a ▸ hs) (hdx a ▸ hx) (hdy a ▸ hy) (hdz a ▸ hz)
    (hset a ▸ hc) hg hid (hl a)
  have key : ∀ a i j k, interior3 (pl a) i j k →
      cflRate3 (pl a) (cellPrim3 (pl a) (ml a) (pingIn n) i j k) =
        cflRate3 p (cellPrim3 p m (pingIn n) (pos a (i, j, k)).1 (pos a (i, j, k)).2.1
          (pos a (i, j, k)).2.2) := by
    intro a i j k hij
    unfold cflRate3 cellPrim3
    rw [(hin a i j k hij).2, hset a, hdx a, hdy a, hdz a]
  obtain ⟨g1, a, g2⟩ := hall
  apply le_antisymm
  · obtain ⟨b, i', j', k', hb, e⟩ := hcov i j k a3
    obtain ⟨_, l2, _⟩ := hloc b
    have := l2 i' j' k' hb
    rw [key b i' j' k' hb, e, hset b, ← a4] at this
    exact (g1 b).trans (le_of_mul_le_mul_right this (cflRate3_pos hs hx hy hz _ _ _ _ _))
  · obtain ⟨_, _, i', j', k', l3, l4⟩ := hloc a
    have := a2 _ _ _ (hin a i' j' k' l3).1
    rw [← key a i' j' k' l3, ← hset a, ← l4] at this
    rw [g2]
    refine le_of_mul_le_mul_right this ?_
    rw [key a i' j' k' l3]; exact cflRate3_pos hs hx hy hz _ _ _ _ _

/-! ## C25 -/

/-- the corrected velocity of the gravity CFL condition -/
noncomputable def gravVel (cfl dx u G : ℝ) : ℝ :=
  let k := max (G * (cfl * dx / (u * u))) (1/10000)
  u * (k / (Real.sqrt (1 + 2 * k) - 1))

theorem gravVel_bound {cfl dx u G dt : ℝ} (hc : 0 < cfl) (hdx : 0 < dx) (hu : 0 < u)
    (h0 : 0 ≤ dt) (h : dt * (gravVel cfl dx u G / dx) ≤ cfl) :
    0 < gravVel cfl dx u G ∧ G * dt ^ 2 / (2 * dx) + u * dt / dx ≤ cfl := by
  unfold gravVel at *
  simp only at *
  set k := max (G * (cfl * dx / (u * u))) (1/10000) with hk
  have hk0 : 0 < k := lt_of_lt_of_le (by norm_num) (le_max_right _ _)
  set s := Real.sqrt (1 + 2 * k) with hs
  have hs2 : s * s = 1 + 2 * k := Real.mul_self_sqrt (by linarith)
  have hs0 : 0 ≤ s := Real.sqrt_nonneg _
  have hs1 : 1 < s := by nlinarith
  have hks : k / (s - 1) = (s + 1) / 2 := by
    rw [div_eq_div_iff (by linarith) (by norm_num)]; nlinarith
  rw [hks] at h ⊢
  refine ⟨by positivity, ?_⟩
  have hG : G * (cfl * dx) ≤ k * (u * u) := by
    have : G * (cfl * dx / (u * u)) ≤ k := le_max_left _ _
    rw [← mul_div_assoc, div_le_iff₀ (by positivity)] at this
    exact this
  -- τ = u dt / (dx cfl) ≤ 2/(s+1)
  have h' : dt * u * (s + 1) ≤ 2 * cfl * dx := by
    have e : dt * (u * ((s + 1) / 2) / dx) = dt * u * (s + 1) / (2 * dx) := by field_simp
    rw [e, div_le_iff₀ (by positivity)] at h
    linarith
  have goal : G * dt ^ 2 + 2 * u * dt ≤ 2 * dx * cfl := by
    have hcd : 0 < cfl * dx := by positivity
    set x := dt * u with hx
    have hx0 : 0 ≤ x := by positivity
    set C := cfl * dx with hC
    have h1 : x * (s + 1) ≤ 2 * C := by rw [hC]; linarith
    have h2 : G * dt ^ 2 * C ≤ k * x ^ 2 := by
      have := mul_le_mul_of_nonneg_right hG (sq_nonneg dt)
      rw [hx]; nlinarith [this]
    have h3 : k = (s - 1) * (s + 1) / 2 := by nlinarith
    have h4 : k * x ^ 2 ≤ (s - 1) * x * C := by
      have : 0 ≤ (s - 1) * x / 2 := by
        have : 0 ≤ s - 1 := by linarith
        positivity
      have := mul_le_mul_of_nonneg_left h1 this
      rw [h3]; nlinarith [this]
    have h5 : G * dt ^ 2 ≤ (s - 1) * x := by
      have : G * dt ^ 2 * C ≤ (s - 1) * x * C := h2.trans h4
      exact le_of_mul_le_mul_right this hcd
    have h6 : 2 * u * dt = 2 * x := by rw [hx]; ring
    rw [h6]; nlinarith [h5, h1]
  have e : G * dt ^ 2 / (2 * dx) + u * dt / dx = (G * dt ^ 2 + 2 * u * dt) / (2 * dx) := by
    field_simp
  rw [e, div_le_iff₀ (by positivity)]
  linarith

theorem computeDtGravity2_run (p : Params ℝ) (cfl : ℝ) (grav U : Arr) (m : Mem Arr ℝ)
    (t : Int × Int) (a : ℝ) :
    ((computeDtGravity2 p cfl grav U t a).run m).1 =
      if cellGuard2 p t then
        max a (gravVel cfl (min p.dx p.dy)
          ((|(cellPrim2 p m U t.1 t.2).u| + sound p.settings (cellPrim2 p m U t.1 t.2)) +
           (|(cellPrim2 p m U t.1 t.2).v| + sound p.settings (cellPrim2 p m U t.1 t.2)))
          (|m ⟨grav, t.1, t.2, 0, IX⟩| + |m ⟨grav, t.1, t.2, 0, IY⟩|) / min p.dx p.dy)
      else a := by
  unfold computeDtGravity2
  split_ifs
  · simp only [run_bind, run_getHS2', run_pure, run_rd]
    show max a _ = max a _
    congr 1
    simp only [gravVel, cellPrim2, sound, computePrimitives2, RealOps.fabs_real, RealOps.sqrt_real,
      RealOps.fmin_real, RealOps.fmax_real, RealOps.lit_real]
    push_cast
    simp only [zero_add, add_comm (Real.sqrt _) |_|]
  · rfl

theorem computeDtGravity3_run (p : Params ℝ) (cfl : ℝ) (grav U : Arr) (m : Mem Arr ℝ)
    (t : Int × Int × Int) (a : ℝ) :
    ((computeDtGravity3 p cfl grav U t a).run m).1 =
      if cellGuard3 p t then
        max a (gravVel cfl (min (min p.dx p.dy) p.dz)
          ((|(cellPrim3 p m U t.1 t.2.1 t.2.2).u| +
              sound p.settings (cellPrim3 p m U t.1 t.2.1 t.2.2)) +
           (|(cellPrim3 p m U t.1 t.2.1 t.2.2).v| +
              sound p.settings (cellPrim3 p m U t.1 t.2.1 t.2.2)) +
           (|(cellPrim3 p m U t.1 t.2.1 t.2.2).w| +
              sound p.settings (cellPrim3 p m U t.1 t.2.1 t.2.2)))
          (|m ⟨grav, t.1, t.2.1, t.2.2, IX⟩| + |m ⟨grav, t.1, t.2.1, t.2.2, IY⟩| +
            |m ⟨grav, t.1, t.2.1, t.2.2, IZ⟩|) / min (min p.dx p.dy) p.dz)
      else a := by
  unfold computeDtGravity3
  split_ifs
  · simp only [run_bind, run_getHS3', run_pure, run_rd]
    show max a _ = max a _
    congr 1
    simp only [gravVel, cellPrim3, sound, computePrimitives3, RealOps.fabs_real, RealOps.sqrt_real,
      RealOps.fmin_real, RealOps.fmax_real, RealOps.lit_real]
    push_cast
    simp only [zero_add, add_comm (Real.sqrt _) |_|]
  · rfl

/-- **C25 (2D).** With gravity enabled the time step is positive and satisfies
`g dt²/(2 dx) + u dt/dx ≤ cfl` in every interior cell, where `u = Σ(|vᵢ|+c)`, `g = Σ|gᵢ|`,
`dx = min(dx,dy)`; in every schedule of the reduction. -/
theorem C25_gravity_cfl_2d {p : Params ℝ} (hw : p.WF) (hs : GoodSettings p.settings)
    (hx : 0 < p.dx) (hy : 0 < p.dy) (hc : 0 < p.settings.cfl) {g : GravityParams}
    (hg : g.enabled = true) {ident : ℝ} (hid : ident ≤ 0) {n : Nat} {m : Mem Arr ℝ} {dt : ℝ}
    (h : computeDtLocal2 p g ident n m dt) :
    0 < dt ∧ ∀ i j, interior2 p i j →
      let q := cellPrim2 p m (pingIn n) i j
      let u := (|q.u| + sound p.settings q) + (|q.v| + sound p.settings q)
      let G := |m ⟨.grav, i, j, 0, IX⟩| + |m ⟨.grav, i, j, 0, IY⟩|
      let d := min p.dx p.dy
      G * dt ^ 2 / (2 * d) + u * dt / d ≤ p.settings.cfl := by
  obtain ⟨r, h, rfl⟩ := h
  rw [hg] at h
  simp only [if_true] at h
  set f : Int × Int → ℝ := fun t => gravVel p.settings.cfl (min p.dx p.dy)
          ((|(cellPrim2 p m (pingIn n) t.1 t.2).u| +
              sound p.settings (cellPrim2 p m (pingIn n) t.1 t.2)) +
           (|(cellPrim2 p m (pingIn n) t.1 t.2).v| +
              sound p.settings (cellPrim2 p m (pingIn n) t.1 t.2)))
          (|m ⟨.grav, t.1, t.2, 0, IX⟩| + |m ⟨.grav, t.1, t.2, 0, IY⟩|) / min p.dx p.dy with hf
  have hd : 0 < min p.dx p.dy := lt_min hx hy
  have hu : ∀ t : Int × Int, 0 < (|(cellPrim2 p m (pingIn n) t.1 t.2).u| +
              sound p.settings (cellPrim2 p m (pingIn n) t.1 t.2)) +
           (|(cellPrim2 p m (pingIn n) t.1 t.2).v| +
              sound p.settings (cellPrim2 p m (pingIn n) t.1 t.2)) := by
    intro t
    have := cellPrim2_sound_pos hs m (pingIn n) t.1 t.2
    positivity
  have hfp : ∀ t, 0 < f t := fun t =>
    div_pos (gravVel_bound (dt := 0) hc hd (hu t) le_rfl (by simp [hc.le])).1 hd
  obtain ⟨h1, ⟨t, ht, gt, h2⟩⟩ := parReduce_max (fun t => cellGuard2 p t) f
    (fun t a gt => by rw [computeDtGravity2_run, if_pos gt])
    (fun t a gt => by rw [computeDtGravity2_run, if_neg gt])
    ⟨(p.ghostWidth, p.ghostWidth), interior2_range hw (interior2_first hw),
      (cellGuard2_interior hw _).2 (interior2_first hw)⟩
    (fun t _ _ => hid.trans (hfp t).le) h
  have hpos : 0 < r := h2 ▸ hfp t
  refine ⟨div_pos hc hpos, fun i j hij => ?_⟩
  have := h1 (i, j) (interior2_range hw hij) ((cellGuard2_interior hw _).2 hij)
  refine (gravVel_bound hc hd (hu (i, j)) (div_pos hc hpos).le ?_).2
  show p.settings.cfl / r * f (i, j) ≤ _
  rw [div_mul_eq_mul_div, div_le_iff₀ hpos]
  exact mul_le_mul_of_nonneg_left this hc.le

/-- **C25 (3D).** -/
theorem C25_gravity_cfl_3d {p : Params ℝ} (hw : p.WF) (hs : GoodSettings p.settings)
    (hx : 0 < p.dx) (hy : 0 < p.dy) (hz : 0 < p.dz) (hc : 0 < p.settings.cfl) {g : GravityParams}
    (hg : g.enabled = true) {ident : ℝ} (hid : ident ≤ 0) {n : Nat} {m : Mem Arr ℝ} {dt : ℝ}
    (h : computeDtLocal3 p g ident n m dt) :
    0 < dt ∧ ∀ i j k, interior3 p i j k →
      let q := cellPrim3 p m (pingIn n) i j k
      let u := (|q.u| + sound p.settings q) + (|q.v| + sound p.settings q) +
        (|q.w| + sound p.settings q)
      let G := |m ⟨.grav, i, j, k, IX⟩| + |m ⟨.grav, i, j, k, IY⟩| + |m ⟨.grav, i, j, k, IZ⟩|
      let d := min (min p.dx p.dy) p.dz
      G * dt ^ 2 / (2 * d) + u * dt / d ≤ p.settings.cfl := by
  obtain ⟨r, h, rfl⟩ := h
  rw [hg] at h
  simp only [if_true] at h
  set f : Int × Int × Int → ℝ := fun t => gravVel p.settings.cfl (min (min p.dx p.dy) p.dz)
          ((|(cellPrim3 p m (pingIn n) t.1 t.2.1 t.2.2).u| +
              sound p.settings (cellPrim3 p m (pingIn n) t.1 t.2.1 t.2.2)) +
           (|(cellPrim3 p m (pingIn n) t.1 t.2.1 t.2.2).v| +
              sound p.settings (cellPrim3 p m (pingIn n) t.1 t.2.1 t.2.2)) +
           (|(cellPrim3 p m (pingIn n) t.1 t.2.1 t.2.2).w| +
              sound p.settings (cellPrim3 p m (pingIn n) t.1 t.2.1 t.2.2)))
          (|m ⟨.grav, t.1, t.2.1, t.2.2, IX⟩| + |m ⟨.grav, t.1, t.2.1, t.2.2, IY⟩| +
            |m ⟨.grav, t.1, t.2.1, t.2.2, IZ⟩|) / min (min p.dx p.dy) p.dz with hf
  have hd : 0 < min (min p.dx p.dy) p.dz := lt_min (lt_min hx hy) hz
  have hu : ∀ t : Int × Int × Int, 0 < (|(cellPrim3 p m (pingIn n) t.1 t.2.1 t.2.2).u| +
              sound p.settings (cellPrim3 p m (pingIn n) t.1 t.2.1 t.2.2)) +
           (|(cellPrim3 p m (pingIn n) t.1 t.2.1 t.2.2).v| +
              sound p.settings (cellPrim3 p m (pingIn n) t.1 t.2.1 t.2.2)) +
           (|(cellPrim3 p m (pingIn n) t.1 t.2.1 t.2.2).w| +
              sound p.settings (cellPrim3 p m (pingIn n) t.1 t.2.1 t.2.2)) := by
    intro t
    have := cellPrim3_sound_pos hs m (pingIn n) t.1 t.2.1 t.2.2
    positivity
  have hfp : ∀ t, 0 < f t := fun t =>
    div_pos (gravVel_bound (dt := 0) hc hd (hu t) le_rfl (by simp [hc.le])).1 hd
  obtain ⟨h1, ⟨t, ht, gt, h2⟩⟩ := parReduce_max (fun t => cellGuard3 p t) f
    (fun t a gt => by rw [computeDtGravity3_run, if_pos gt])
    (fun t a gt => by rw [computeDtGravity3_run, if_neg gt])
    ⟨(p.ghostWidth, p.ghostWidth, p.ghostWidth), interior3_range hw (interior3_first hw),
      (cellGuard3_interior hw _).2 (interior3_first hw)⟩
    (fun t _ _ => hid.trans (hfp t).le) h
  have hpos : 0 < r := h2 ▸ hfp t
  refine ⟨div_pos hc hpos, fun i j k hij => ?_⟩
  have := h1 (i, j, k) (interior3_range hw hij) ((cellGuard3_interior hw _).2 hij)
  refine (gravVel_bound hc hd (hu (i, j, k)) (div_pos hc hpos).le ?_).2
  show p.settings.cfl / r * f (i, j, k) ≤ _
  rw [div_mul_eq_mul_div, div_le_iff₀ hpos]
  exact mul_le_mul_of_nonneg_left this hc.le

/-- Non-vacuity: the sample grid has positive spacings and `cfl`, and the reduction has an
execution. -/
example : 0 < (sample .periodic .periodic).dx ∧ 0 < (sample .periodic .periodic).dy ∧
    0 < (sample .periodic .periodic).settings.cfl ∧
    ∃ dt, computeDtLocal2 (sample .periodic .periodic) ⟨false, false⟩ (-1) 0 (fun _ => 1) dt := by
  refine ⟨by norm_num [sample, rawSample, Params.init, intLit],
    by norm_num [sample, rawSample, Params.init, intLit],
    by norm_num [sample, rawSample, Params.init], ?_⟩
  obtain ⟨r, hr⟩ := parReduce_exists (range2 (sample .periodic .periodic).isize
    (sample .periodic .periodic).jsize) (computeDt2 (sample .periodic .periodic) (pingIn 0))
    kokkosMaxJoin (-1) (fun _ => 1)
  exact ⟨_, r, by simpa using hr, rfl⟩

end EulerKokkos
