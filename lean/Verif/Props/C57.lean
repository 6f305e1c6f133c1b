import Verif.Lemmas.InitMhd
import Verif.Lemmas.MhdStep2D
import Verif.Lemmas.MhdStep3D
import Verif.Model.HydroStep3
import Verif.Props.Sample

/-!
# C57: the initial-condition kernels are race free and stay inside the views

For every problem, every grid, every process position, every memory: all interleavings of the iterations of
the initial-condition kernels give the same memory, and every access is to an allocated element.
-/

set_option linter.constructorNameAsVariable false
set_option linter.unusedSectionVars false
set_option linter.unusedSimpArgs false

namespace EulerKokkos

open Spec
open Prog (rd wr upd pif forRange foot_mono)
variable {R : Type} [RealOps R]

namespace Spec

/-- the values of the enum `direction` are the documented ones -/
abbrev DirectionOk2 (q : MhdProblem R) : Prop := q.EnumOk2
/-- the values of the enum `direction` are the documented ones -/
abbrev DirectionOk3 (q : MhdProblem R) : Prop := q.EnumOk3

/-- elements inside the extents during the MHD initialisation, 2D: the views of the solver and the vector
potential, `/repo/src/muscl/MHDInitFunctors2D.h:829` -/
def AllocInit2 (p : Params R) (l : Loc Arr) : Prop :=
  AllocM2 p l ∨ ((0 ≤ l.i ∧ l.i < p.isize) ∧ (0 ≤ l.j ∧ l.j < p.jsize) ∧ l.k = 0 ∧ l.arr = .vecPot ∧ l.v < 1)

/-- the same in 3D, `/repo/src/muscl/MHDInitFunctors3D.h:923` -/
def AllocInit3 (p : Params R) (l : Loc Arr) : Prop :=
  AllocM3 p l ∨ ((0 ≤ l.i ∧ l.i < p.isize) ∧ (0 ≤ l.j ∧ l.j < p.jsize) ∧ (0 ≤ l.k ∧ l.k < p.ksize) ∧
    l.arr = .vecPot ∧ l.v < 3)

end Spec

/-! ### One result whatever the schedule -/

/-- **C57, 2D hydro**: one result, whatever the schedule. -/
theorem C57_init_unique_hydro_2d (M : MathLib R) (p : Params R) (pos : Int × Int × Int)
    (rnd : Int → Int → Int → Nat → R) (q : HydroProblem R) (m : Mem Arr R) :
    ∃! m', runLaunches (initHydro2 M p pos rnd q) m m' :=
  ⟨_, (initHydro2_iff _ _ _ _ _ _ _).2 rfl, fun _ h => (initHydro2_iff _ _ _ _ _ _ _).1 h⟩

/-- **C57, 3D hydro**: one result, whatever the schedule. -/
theorem C57_init_unique_hydro_3d (M : MathLib R) (p : Params R) (pos : Int × Int × Int)
    (rnd : Int → Int → Int → Nat → R) (q : HydroProblem R) (m : Mem Arr R) :
    ∃! m', runLaunches (initHydro3 M p pos rnd q) m m' :=
  ⟨_, (initHydro3_iff _ _ _ _ _ _ _).2 rfl, fun _ h => (initHydro3_iff _ _ _ _ _ _ _).1 h⟩

theorem unique_seqs {ks : List (Kern Arr R)} (h : ∀ k ∈ ks, ∀ m, ∃! m', k m m') (m : Mem Arr R) :
    ∃! m', Kern.seqs ks m m' := by
  induction ks generalizing m with
  | nil => exact ⟨m, rfl, fun _ h => h⟩
  | cons k ks ih =>
    obtain ⟨m₁, h1, h2⟩ := h k (by simp) m
    obtain ⟨m₂, h3, h4⟩ := ih (fun k' hk' => h k' (by simp [hk'])) m₁
    refine ⟨m₂, ⟨m₁, h1, h3⟩, ?_⟩
    rintro m' ⟨m₁', a, b⟩
    cases h2 m₁' a
    exact h4 m' b

theorem unique_of_iff {k : Kern Arr R} {f : Mem Arr R → Mem Arr R} (h : ∀ m m', k m m' ↔ m' = f m) :
    ∀ m, ∃! m', k m m' := fun m => ⟨f m, (h m _).2 rfl, fun _ hk => (h m _).1 hk⟩

/-- **C57, 2D MHD**: one result, whatever the schedule. -/
theorem C57_init_unique_mhd_2d (M : MathLib R) (p : Params R) (pos : Int × Int × Int)
    (rnd : Int → Int → Int → Nat → R) {q : MhdProblem R} (hq : DirectionOk2 q) (m : Mem Arr R) :
    ∃! m', runLaunches (initMhd2 M p pos rnd q) m m' := by
  have h1 := unique_of_iff (fun m m' => mhdInitK2_iff M p pos rnd hq m m')
  refine unique_seqs (fun k hk => ?_) m
  cases q <;> simp only [initMhd2, List.map, List.mem_cons, List.not_mem_nil, or_false, Launch.kern] at hk
  case orszagTang q =>
    rcases hk with rfl | rfl
    · exact h1
    · exact unique_of_iff (orszagK2_iff M p)
  case fieldLoop q =>
    rcases hk with rfl | rfl | rfl
    · exact unique_of_iff (loopPotK2_iff p q pos)
    · exact unique_of_iff (loopCondK2_iff p q pos)
    · exact unique_of_iff (loopEK2_iff p)
  all_goals
    rw [hk]
    exact h1

/-- **C57, 3D MHD**: one result, whatever the schedule. -/
theorem C57_init_unique_mhd_3d (M : MathLib R) (p : Params R) (pos : Int × Int × Int)
    (rnd : Int → Int → Int → Nat → R) {q : MhdProblem R} (hq : DirectionOk3 q) (m : Mem Arr R) :
    ∃! m', runLaunches (initMhd3 M p pos rnd q) m m' := by
  have h1 := unique_of_iff (fun m m' => mhdInitK3_iff M p pos rnd hq m m')
  refine unique_seqs (fun k hk => ?_) m
  cases q <;> simp only [initMhd3, List.map, List.mem_cons, List.not_mem_nil, or_false, Launch.kern] at hk
  case orszagTang q =>
    rcases hk with rfl | rfl
    · exact h1
    · exact unique_of_iff (orszagK3_iff M p)
  case fieldLoop q =>
    rcases hk with rfl | rfl | rfl
    · exact unique_of_iff (loopPotK3_iff p q pos)
    · exact unique_of_iff (loopCondK3_iff p q pos)
    · exact unique_of_iff (loopEK3_iff p)
  all_goals
    rw [hk]
    exact h1

/-! ### In bounds -/

/-- **C57, 2D hydro**: no access out of bounds, provided the Rayleigh-Taylor problem is run with gravity. -/
theorem C57_init_in_bounds_hydro_2d (M : MathLib R) {p : Params R} (hn : p.nbvar = 4) (g : GravityParams)
    (pos : Int × Int × Int) (rnd : Int → Int → Int → Nat → R) (q : HydroProblem R)
    (hg : (∃ r, q = .rayleighTaylor r) → g.enabled = true) :
    ∀ L ∈ initHydro2 M p pos rnd q, L.Safe (Alloc2 p g) := by
  intro L hL
  obtain rfl := List.mem_singleton.1 hL
  intro t ht
  obtain ⟨⟨a, b⟩, c, d⟩ := mem_range2.1 ht
  refine foot_mono (fun _ h => h.elim) ?_ (fun _ h => h.elim) (foot_hydroInit2 M p pos rnd q t)
  rintro ⟨arr, i, j, k, v⟩ ⟨⟨h1, h2, h3⟩, h | ⟨hr, h⟩⟩ <;> obtain ⟨h4, h5⟩ := h <;>
    simp only at h1 h2 h3 h4 h5 <;> subst h1 h2 h3 h4
  · exact ⟨⟨a, b⟩, ⟨c, d⟩, rfl, by simpa [hn] using h5⟩
  · exact ⟨⟨a, b⟩, ⟨c, d⟩, rfl, hg hr, h5⟩

/-- **C57, 3D hydro**. -/
theorem C57_init_in_bounds_hydro_3d (M : MathLib R) {p : Params R} (hn : p.nbvar = 5) (g : GravityParams)
    (pos : Int × Int × Int) (rnd : Int → Int → Int → Nat → R) (q : HydroProblem R)
    (hg : (∃ r, q = .rayleighTaylor r) → g.enabled = true) :
    ∀ L ∈ initHydro3 M p pos rnd q, L.Safe (Alloc3 p g) := by
  intro L hL
  obtain rfl := List.mem_singleton.1 hL
  intro t ht
  obtain ⟨⟨a, b⟩, ⟨c, d⟩, e, f⟩ := mem_range3.1 ht
  refine foot_mono (fun _ h => h.elim) ?_ (fun _ h => h.elim) (foot_hydroInit3 M p pos rnd q t)
  rintro ⟨arr, i, j, k, v⟩ ⟨⟨h1, h2, h3⟩, h | ⟨hr, h⟩⟩ <;> obtain ⟨h4, h5⟩ := h <;>
    simp only at h1 h2 h3 h4 h5 <;> subst h1 h2 h3 h4
  · exact ⟨⟨a, b⟩, ⟨c, d⟩, ⟨e, f⟩, by simpa [hn] using h5⟩
  · exact ⟨⟨a, b⟩, ⟨c, d⟩, ⟨e, f⟩, hg hr, h5⟩

/-- The proviso is needed: with the Rayleigh-Taylor problem and gravity disabled every iteration stores out of
bounds (into the gravity field, which is not allocated). -/
theorem C57_rayleigh_taylor_needs_gravity (M : MathLib R) {p : Params R} (hw : p.WF) {g : GravityParams}
    (hg : g.enabled = false) (pos : Int × Int × Int) (rnd : Int → Int → Int → Nat → R) (q : RTParams R) :
    (∃ L ∈ initHydro2 M p pos rnd (.rayleighTaylor q), ¬ L.Safe (Alloc2 p g)) ∧
    (∃ L ∈ initHydro3 M p pos rnd (.rayleighTaylor q), ¬ L.Safe (Alloc3 p g)) := by
  have h1 := hw.isize_eq
  have h2 := hw.jsize_eq
  have h3 := hw.ksize_eq
  have h4 := hw.gw_pos
  have h5 := hw.nx_pos
  have h6 := hw.ny_pos
  have h7 := hw.nz_pos
  have key : ∀ {α : Type} {s : Prog Arr R Unit} {f : Unit → Prog Arr R α} {ok : Loc Arr → Prop},
      (s >>= f).Foot ok ok ok → (f ()).Foot ok ok ok := by
    intro α s f ok h
    replace h : (s.bind f).Foot ok ok ok := h
    induction s with
    | pure a => exact h
    | read l k ih => exact ih (lit 0) (h.2 (lit 0))
    | write l x k ih => exact ih h.2
    | aadd l x k ih => exact ih h.2
  refine ⟨⟨_, List.mem_singleton.2 rfl, fun h => ?_⟩, ⟨_, List.mem_singleton.2 rfl, fun h => ?_⟩⟩
  · have h := key (h (0, 0) (mem_range2.2 ⟨⟨le_refl _, by omega⟩, le_refl _, by omega⟩))
    have h := h.1.2.2.2
    simp [hg] at h
  · have h := key (h (0, 0, 0) (mem_range3.2 (by simp only; omega)))
    have h := h.1.2.2.2
    simp [hg] at h

/-- **C57, 2D MHD**: no access out of bounds. -/
theorem C57_init_in_bounds_mhd_2d (M : MathLib R) {p : Params R} (hn : p.nbvar = 8) (hgw : 1 ≤ p.ghostWidth)
    (pos : Int × Int × Int) (rnd : Int → Int → Int → Nat → R) {q : MhdProblem R} (hq : DirectionOk2 q) :
    ∀ L ∈ initMhd2 M p pos rnd q, L.Safe (AllocInit2 p) := by
  have h1 : Launch.Safe (AllocInit2 p) (.par (range2 p.isize p.jsize) (mhdInit2 M p pos rnd q)) := by
    intro t ht
    obtain ⟨⟨a, b⟩, c, d⟩ := mem_range2.1 ht
    refine foot_mono (fun _ h => h.elim) ?_ (fun _ h => h.elim) (foot_mhdInit2 M p pos rnd hq t)
    rintro ⟨arr, i, j, k, v⟩ ⟨h1, ⟨h2, h3, h4⟩, h5⟩
    simp only at h1 h2 h3 h4 h5
    subst h1 h2 h3 h4
    exact Or.inl ⟨⟨a, b⟩, ⟨c, d⟩, rfl, by simpa [hn] using h5⟩
  intro L hL
  cases q <;> simp only [initMhd2, List.mem_cons, List.not_mem_nil, or_false] at hL
  case orszagTang q =>
    rcases hL with rfl | rfl
    · exact h1
    · intro t ht
      obtain ⟨⟨a, b⟩, c, d⟩ := mem_range2.1 ht
      refine foot_mono ?_ ?_ (fun _ h => h.elim) (foot_orszagE2 M p t)
      · rintro ⟨arr, i, j, k, v⟩ ⟨⟨g1, g2⟩, ⟨h1, _, h3, h4⟩, ⟨h5, h6⟩, h7, h8⟩
        simp only at h1 h3 h4 h5 h6 h7 h8
        subst h1 h4
        exact Or.inl ⟨⟨by simp only; omega, by simp only; omega⟩, ⟨by simp only; omega, by simp only; omega⟩, rfl,
          by simpa [hn] using h3⟩
      · rintro ⟨arr, i, j, k, v⟩ ⟨⟨g1, g2⟩, ⟨h1, h3, h4⟩, h5, h7⟩
        simp only at h1 h3 h4 h5 h7
        subst h1 h3 h4 h5 h7
        exact Or.inl ⟨⟨a, b⟩, ⟨c, d⟩, rfl, by simp [hn, IP]⟩
  case fieldLoop q =>
    rcases hL with rfl | rfl | rfl <;> intro t ht <;> obtain ⟨⟨a, b⟩, c, d⟩ := mem_range2.1 ht
    · refine foot_mono (fun _ h => h.elim) ?_ (fun _ h => h.elim) (foot_loopPotK2 p q pos t)
      rintro ⟨arr, i, j, k, v⟩ ⟨h1, ⟨h2, h3, h4⟩, h5⟩
      simp only at h1 h2 h3 h4 h5
      subst h1 h2 h3 h4
      exact Or.inr ⟨⟨a, b⟩, ⟨c, d⟩, rfl, rfl, h5⟩
    · refine foot_mono ?_ ?_ (fun _ h => h.elim) (foot_loopCondK2 p q pos t)
      · rintro ⟨arr, i, j, k, v⟩ ⟨g1, ⟨h1, h3, h4⟩, ⟨h5, h6⟩, h7, h8⟩
        simp only [loopGuard2, decide_eq_true_eq] at g1
        simp only at h1 h3 h4 h5 h6 h7 h8
        subst h1 h4
        exact Or.inr ⟨⟨by simp only; omega, by simp only; omega⟩, ⟨by simp only; omega, by simp only; omega⟩, rfl,
          rfl, h3⟩
      · rintro ⟨arr, i, j, k, v⟩ ⟨g1, ⟨h1, h3, h4⟩, h5, h7⟩
        simp only at h1 h3 h4 h5 h7
        subst h1 h4 h5 h7
        exact Or.inl ⟨⟨a, b⟩, ⟨c, d⟩, rfl, by simpa [hn] using h3⟩
    · refine foot_mono ?_ ?_ (fun _ h => h.elim) (foot_loopE2 p t)
      · rintro ⟨arr, i, j, k, v⟩ ⟨g1, ⟨h1, _, h3, h4⟩, ⟨h5, h6⟩, h7, h8⟩
        simp only [loopGuard2, decide_eq_true_eq] at g1
        simp only at h1 h3 h4 h5 h6 h7 h8
        subst h1 h4
        exact Or.inl ⟨⟨by simp only; omega, by simp only; omega⟩, ⟨by simp only; omega, by simp only; omega⟩, rfl,
          by simpa [hn] using h3⟩
      · rintro ⟨arr, i, j, k, v⟩ ⟨g1, ⟨h1, h3, h4⟩, h5, h7⟩
        simp only at h1 h3 h4 h5 h7
        subst h1 h3 h4 h5 h7
        exact Or.inl ⟨⟨a, b⟩, ⟨c, d⟩, rfl, by simp [hn, IP]⟩
  all_goals
    subst hL
    exact h1

/-- **C57, 3D MHD**: no access out of bounds. -/
theorem C57_init_in_bounds_mhd_3d (M : MathLib R) {p : Params R} (hn : p.nbvar = 8) (hgw : 1 ≤ p.ghostWidth)
    (pos : Int × Int × Int) (rnd : Int → Int → Int → Nat → R) {q : MhdProblem R} (hq : DirectionOk3 q) :
    ∀ L ∈ initMhd3 M p pos rnd q, L.Safe (AllocInit3 p) := by
  have h1 : Launch.Safe (AllocInit3 p) (.par (range3 p.isize p.jsize p.ksize) (mhdInit3 M p pos rnd q)) := by
    intro t ht
    obtain ⟨⟨a, b⟩, ⟨c, d⟩, e, f⟩ := mem_range3.1 ht
    refine foot_mono (fun _ h => h.elim) ?_ (fun _ h => h.elim) (foot_mhdInit3 M p pos rnd hq t)
    rintro ⟨arr, i, j, k, v⟩ ⟨h1, ⟨h2, h3, h4⟩, h5⟩
    simp only at h1 h2 h3 h4 h5
    subst h1 h2 h3 h4
    exact Or.inl ⟨⟨a, b⟩, ⟨c, d⟩, ⟨e, f⟩, by simpa [hn] using h5⟩
  intro L hL
  cases q <;> simp only [initMhd3, List.mem_cons, List.not_mem_nil, or_false] at hL
  case orszagTang q =>
    rcases hL with rfl | rfl
    · exact h1
    · intro t ht
      obtain ⟨⟨a, b⟩, ⟨c, d⟩, e, f⟩ := mem_range3.1 ht
      refine foot_mono ?_ ?_ (fun _ h => h.elim) (foot_orszagE3 M p t)
      · rintro ⟨arr, i, j, k, v⟩ ⟨⟨g1, g2, g3⟩, ⟨h1, _, h3⟩, ⟨h5, h6⟩, ⟨h7, h8⟩, h9, h10⟩
        simp only at h1 h3 h5 h6 h7 h8 h9 h10
        subst h1
        exact Or.inl ⟨⟨by simp only; omega, by simp only; omega⟩, ⟨by simp only; omega, by simp only; omega⟩,
          ⟨by simp only; omega, by simp only; omega⟩, by simpa [hn] using h3⟩
      · rintro ⟨arr, i, j, k, v⟩ ⟨⟨g1, g2⟩, ⟨h1, h3⟩, h5, h6, h7⟩
        simp only at h1 h3 h5 h6 h7
        subst h1 h3 h5 h6 h7
        exact Or.inl ⟨⟨a, b⟩, ⟨c, d⟩, ⟨e, f⟩, by simp [hn, IP]⟩
  case fieldLoop q =>
    rcases hL with rfl | rfl | rfl <;> intro t ht <;> obtain ⟨⟨a, b⟩, ⟨c, d⟩, e, f⟩ := mem_range3.1 ht
    · refine foot_mono (fun _ h => h.elim) ?_ (fun _ h => h.elim) (foot_loopPotK3 p q pos t)
      rintro ⟨arr, i, j, k, v⟩ ⟨h1, ⟨h2, h3, h4⟩, h5⟩
      simp only at h1 h2 h3 h4 h5
      subst h1 h2 h3 h4
      exact Or.inr ⟨⟨a, b⟩, ⟨c, d⟩, ⟨e, f⟩, rfl, h5⟩
    · refine foot_mono ?_ ?_ (fun _ h => h.elim) (foot_loopCondK3 p q pos t)
      · rintro ⟨arr, i, j, k, v⟩ ⟨g1, ⟨h1, h3⟩, ⟨h5, h6⟩, ⟨h7, h8⟩, h9, h10⟩
        simp only [loopGuard3, decide_eq_true_eq] at g1
        simp only at h1 h3 h5 h6 h7 h8 h9 h10
        subst h1
        exact Or.inr ⟨⟨by simp only; omega, by simp only; omega⟩, ⟨by simp only; omega, by simp only; omega⟩,
          ⟨by simp only; omega, by simp only; omega⟩, rfl, h3⟩
      · rintro ⟨arr, i, j, k, v⟩ ⟨g1, ⟨h1, h3⟩, h5, h6, h7⟩
        simp only at h1 h3 h5 h6 h7
        subst h1 h5 h6 h7
        exact Or.inl ⟨⟨a, b⟩, ⟨c, d⟩, ⟨e, f⟩, by simpa [hn] using h3⟩
    · refine foot_mono ?_ ?_ (fun _ h => h.elim) (foot_loopE3 p t)
      · rintro ⟨arr, i, j, k, v⟩ ⟨g1, ⟨h1, _, h3⟩, ⟨h5, h6⟩, ⟨h7, h8⟩, h9, h10⟩
        simp only [loopGuard3, decide_eq_true_eq] at g1
        simp only at h1 h3 h5 h6 h7 h8 h9 h10
        subst h1
        exact Or.inl ⟨⟨by simp only; omega, by simp only; omega⟩, ⟨by simp only; omega, by simp only; omega⟩,
          ⟨by simp only; omega, by simp only; omega⟩, by simpa [hn] using h3⟩
      · rintro ⟨arr, i, j, k, v⟩ ⟨g1, ⟨h1, h3⟩, h5, h6, h7⟩
        simp only at h1 h3 h5 h6 h7
        subst h1 h3 h5 h6 h7
        exact Or.inl ⟨⟨a, b⟩, ⟨c, d⟩, ⟨e, f⟩, by simp [hn, IP]⟩
  all_goals
    subst hL
    exact h1

-- the hypotheses are met, e.g. on the sample grids (any problem with the documented directions)
example (M : MathLib ℝ) (q : FieldLoopParams ℝ) (rnd : Int → Int → Int → Nat → ℝ) :
    ∀ L ∈ initMhd2 M (sampleM .dirichlet .periodic 0) (0, 0, 0) rnd (.fieldLoop q),
      L.Safe (AllocInit2 (sampleM .dirichlet .periodic 0)) :=
  C57_init_in_bounds_mhd_2d M rfl (by have := (sampleM_wf .dirichlet .periodic 0).gw_pos; omega) _ _ trivial

end EulerKokkos
