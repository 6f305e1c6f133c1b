import Verif.Spec.Program
import Verif.Props.C36
import Verif.Props.C53
import Verif.Props.C57
import Verif.Props.C58
import Verif.Props.C61
import Verif.Props.C64

/-!
# C79 — the program, from the text of the parameter file to the end of the process
-/

set_option linter.constructorNameAsVariable false
set_option linter.unusedSectionVars false
set_option linter.unusedSimpArgs false

namespace EulerKokkos
open Spec

variable {R : Type} [RealOps R]

/-! ## Which solver runs -/

theorem getString_cases (c : Ini.Reader) (s n : List Char) :
    (∃ v, ∀ d, c.getString s n d = v) ∨ ∀ d, c.getString s n d = d := by
  unfold Ini.Reader.getString
  cases c.values (Ini.makeKey s n) with
  | none => exact Or.inr fun _ => rfl
  | some v => exact Or.inl ⟨v, fun _ => rfl⟩

theorem findSolver_eq (name : List Char) (k : SolverKind) :
    findSolver name = some k ↔ ∃ s, (s, k) ∈ solverRegistry ∧ s.toList = name := by
  unfold findSolver
  constructor
  · intro h
    obtain ⟨⟨s, k'⟩, h1, h2⟩ := Option.map_eq_some_iff.1 h
    have h3 := List.mem_of_find?_eq_some h1
    have h4 := List.find?_some h1
    subst h2
    exact ⟨s, h3, by simpa using h4⟩
  · rintro ⟨s, hs, rfl⟩
    simp only [solverRegistry, List.mem_cons, Prod.mk.injEq, List.not_mem_nil, or_false] at hs
    rcases hs with ⟨rfl, rfl⟩ | ⟨rfl, rfl⟩ | ⟨rfl, rfl⟩ | ⟨rfl, rfl⟩ <;> decide

theorem findSolver_sets {c : Ini.Reader} {s : String} {k : SolverKind} (hk : (s, k) ∈ solverRegistry)
    (h : Sets c "run" "solver_name" s) : findSolver (mainSolverName c) = some k := by
  unfold mainSolverName cfgString
  rw [h, findSolver_eq]
  exact ⟨s, hk, rfl⟩

/-- **C79 (which solver).** The program aborts, before it computes or writes anything, exactly when the file does
not set `solver_name` to one of the four names; otherwise it never does. -/
theorem C79_aborts (F : FloatLib R) (M : MathLib R) (e : Env R) (file : Option (List Char)) :
    (serialMain F M e file .aborted ↔
      ∀ name ∈ ["Hydro_Muscl_2D", "Hydro_Muscl_3D", "MHD_Muscl_2D", "MHD_Muscl_3D"],
        ¬ Sets (Ini.broadcastSerial file) "run" "solver_name" name) ∧
    ∀ s', serialMain F M e file (.finished s') → ¬ serialMain F M e file .aborted := by
  refine ⟨?_, fun s' ⟨k, m, t, sv, h1, _⟩ h2 => ?_⟩
  · show findSolver (mainSolverName _) = none ↔ _
    generalize Ini.broadcastSerial file = c
    constructor
    · intro h name hn hs
      have hm : ∃ k, (name, k) ∈ solverRegistry := by
        simp only [List.mem_cons, List.not_mem_nil, or_false] at hn
        rcases hn with rfl | rfl | rfl | rfl
        · exact ⟨.hydro2, by simp [solverRegistry]⟩
        · exact ⟨.hydro3, by simp [solverRegistry]⟩
        · exact ⟨.mhd2, by simp [solverRegistry]⟩
        · exact ⟨.mhd3, by simp [solverRegistry]⟩
      obtain ⟨k, hk⟩ := hm
      rw [findSolver_sets hk hs] at h
      cases h
    · intro h
      cases hf : findSolver (mainSolverName c) with
      | none => rfl
      | some k =>
        exfalso
        obtain ⟨s, hs, he⟩ := (findSolver_eq _ _).1 hf
        have hn : s ∈ ["Hydro_Muscl_2D", "Hydro_Muscl_3D", "MHD_Muscl_2D", "MHD_Muscl_3D"] := by
          simp only [solverRegistry, List.mem_cons, Prod.mk.injEq, List.not_mem_nil, or_false] at hs ⊢
          rcases hs with h | h | h | h <;> simp [h.1]
        refine h s hn fun d => ?_
        unfold mainSolverName cfgString at he
        rcases getString_cases c "run".toList "solver_name".toList with ⟨v, hv⟩ | hv
        · rw [hv] at he ⊢
          exact he.symm
        · rw [hv] at he
          have : s = "Unknown" := String.toList_injective he
          subst this
          simp at hn
  · have h1 : findSolver (mainSolverName (Ini.broadcastSerial file)) = some k := h1
    have h2 : findSolver (mainSolverName (Ini.broadcastSerial file)) = none := h2
    rw [h1] at h2
    cases h2

/-- **C79 (no file).** With a parameter file that cannot be opened (or is empty) the program aborts. -/
theorem C79_no_file (F : FloatLib R) (M : MathLib R) (e : Env R) (o : Outcome R) :
    (serialMain F M e none o ↔ o = .aborted) ∧ (serialMain F M e (some []) o ↔ o = .aborted) := by
  have h1 : findSolver (mainSolverName (Ini.broadcastSerial none)) = none := by decide
  have h2 : findSolver (mainSolverName (Ini.broadcastSerial (some []))) = none := by
    have : Ini.broadcastSerial (some []) = ⟨fun _ => none, 0⟩ := by
      unfold Ini.broadcastSerial Ini.Reader.ofFile Ini.iniParse
      simp [Ini.fgetsLines, Ini.parseLines, Ini.initState]
    rw [this]; decide
  constructor
  all_goals
    cases o with
    | aborted => simp [serialMain, h1, h2]
    | finished s' =>
      simp only [reduceCtorEq, iff_false]
      rintro ⟨k, m, t, sv, h, _⟩
      simp_all

/-- **C79 (the grid fits the solver).** Whenever a solver runs, the parameters have its dimension, its number of
variables, its ghost width and its MHD flag: the file is read consistently by `HydroParams` and by the
factory, although they have different defaults. -/
theorem C79_consistent (F : FloatLib R) (c : Ini.Reader) {k : SolverKind}
    (h : findSolver (mainSolverName c) = some k) :
    let p := hydroParams F c
    (p.nbvar, p.ghostWidth, p.dimType, p.mhdEnabled) = match k with
      | .hydro2 => (4, 2, .two, false)
      | .hydro3 => (5, 2, .three, false)
      | .mhd2 => (8, 3, .two, true)
      | .mhd3 => (8, 3, .three, true) := by
  obtain ⟨s, hs, he⟩ := (findSolver_eq _ _).1 h
  have hset : c.getString "run".toList "solver_name".toList "unknown".toList = s.toList := by
    unfold mainSolverName cfgString at he
    rcases getString_cases c "run".toList "solver_name".toList with ⟨v, hv⟩ | hv
    · rw [hv] at he ⊢; exact he.symm
    · rw [hv] at he
      have : s = "Unknown" := String.toList_injective he
      subst this
      simp [solverRegistry] at hs
  intro p
  simp only [solverRegistry, List.mem_cons, Prod.mk.injEq, List.not_mem_nil, or_false] at hs
  rcases hs with ⟨rfl, rfl⟩ | ⟨rfl, rfl⟩ | ⟨rfl, rfl⟩ | ⟨rfl, rfl⟩
  · obtain ⟨e1, e2, e3, e4⟩ := C36_solver_table F c (List.mem_cons_self ..) hset
    exact Prod.ext e1 (Prod.ext e2 (Prod.ext e3 e4))
  · obtain ⟨e1, e2, e3, e4⟩ := C36_solver_table F c (List.mem_cons_of_mem _ (List.mem_cons_self ..)) hset
    exact Prod.ext e1 (Prod.ext e2 (Prod.ext e3 e4))
  · obtain ⟨e1, e2, e3, e4⟩ := C36_solver_table F c
      (List.mem_cons_of_mem _ (List.mem_cons_of_mem _ (List.mem_cons_self ..))) hset
    exact Prod.ext e1 (Prod.ext e2 (Prod.ext e3 e4))
  · obtain ⟨e1, e2, e3, e4⟩ := C36_solver_table F c
      (List.mem_cons_of_mem _ (List.mem_cons_of_mem _ (List.mem_cons_of_mem _ (List.mem_cons_self ..)))) hset
    exact Prod.ext e1 (Prod.ext e2 (Prod.ext e3 e4))

/-! ## What it computes -/

/-- without restart -/
theorem serialMain_fresh {F : FloatLib R} {M : MathLib R} {e : Env R} {file : Option (List Char)}
    {k : SolverKind} (hk : findSolver (mainSolverName (Ini.broadcastSerial file)) = some k)
    (hr : cfgBool (Ini.broadcastSerial file) "run" "restart_enabled" false = false) (o : Outcome R) :
    let c := Ini.broadcastSerial file
    let p := hydroParams F c
    serialMain F M e file o ↔ ∃ m s', o = .finished s' ∧ initProblem F M e c p m k ∧
      runMain p (solverOps e c p k) m (cfgFloat F c "run" "tCurrent" 0) 0 s' := by
  intro c p
  cases o with
  | aborted =>
    simp only [reduceCtorEq, false_and, exists_false, iff_false]
    intro h
    have h : findSolver (mainSolverName c) = none := h
    rw [show findSolver (mainSolverName c) = some k from hk] at h
    cases h
  | finished s' =>
    constructor
    · rintro ⟨k', m, t, sv, h1, h2, h3⟩
      have h1 : findSolver (mainSolverName c) = some k' := h1
      rw [show findSolver (mainSolverName c) = some k from hk] at h1
      cases h1
      have h2 : initSolver F M e c p k m t sv := h2
      unfold initSolver at h2
      rw [if_neg (by rw [show cfgBool c "run" "restart_enabled" false = false from hr]; decide)] at h2
      obtain ⟨h4, h5, h6⟩ := h2
      rw [h5, h6] at h3
      exact ⟨m, s', rfl, h4, h3⟩
    · rintro ⟨m, s'', h0, h1, h2⟩
      cases h0
      refine ⟨k, m, _, 0, hk, ?_, h2⟩
      show initSolver F M e c p k m _ _
      unfold initSolver
      rw [if_neg (by rw [show cfgBool c "run" "restart_enabled" false = false from hr]; decide)]
      exact ⟨h1, rfl, rfl⟩

theorem same_gravityAllocated {g : GravityParams} {q q' : HydroProblem ℝ} (h : SameProblem q q') :
    gravityAllocated g q ↔ gravityAllocated g q' := by
  cases h <;> exact Iff.rfl

theorem same_faithful2 {q q' : HydroProblem ℝ} (h : SameProblem q q') : Faithful2 q ↔ Faithful2 q' := by
  cases h <;> exact Iff.rfl

theorem same_faithful3 {q q' : HydroProblem ℝ} (h : SameProblem q q') : Faithful3 q ↔ Faithful3 q' := by
  cases h <;> exact Iff.rfl

theorem same_prescribed2 {p : Params ℝ} {q q' : HydroProblem ℝ} (h : SameProblem q q') (hs : Seedless q)
    (n n' : Nat → ℝ) (x y : ℝ) : prescribed2 p n x y q = prescribed2 p n' x y q' := by
  cases h with
  | refl q =>
    cases q with
    | kelvinHelmholtz q =>
      have hs : q.p_rand = false := hs
      simp only [prescribed2, hs, Bool.false_eq_true, if_false]
    | _ => rfl
  | blast => rfl

theorem same_prescribed3 {p : Params ℝ} {q q' : HydroProblem ℝ} (h : SameProblem q q') (hs : Seedless q)
    (n n' : Nat → ℝ) (x y z : ℝ) : prescribed3 p n x y z q = prescribed3 p n' x y z q' := by
  cases h with
  | refl q =>
    cases q with
    | kelvinHelmholtz q =>
      have hs : q.p_rand = false := hs
      simp only [prescribed3, hs, Bool.false_eq_true, if_false]
    | _ => rfl
  | blast => rfl

theorem same_seedless {q q' : HydroProblem ℝ} (h : SameProblem q q') : Seedless q ↔ Seedless q' := by
  cases h <;> exact Iff.rfl

/-- the gravity field after `init`, 2D -/
theorem initHydro2_gravity {M : MathLib ℝ} {p : Params ℝ} (hw : p.WF) {rnd : Int → Int → Int → Nat → ℝ}
    {q q' : HydroProblem ℝ} (h : SameProblem q q') {m : Mem Arr ℝ}
    (hm : runLaunches (initHydro2 M p (0, 0, 0) rnd q) freshMem m) :
    gravOf m .grav = gravityField2 p q' := by
  rw [initHydro2_iff] at hm
  have hr : ∀ i j, (i, j) ∈ range2 p.isize p.jsize ↔ inGrid2 p i j := fun i j => by
    have := hw.isize_eq
    have := hw.jsize_eq
    rw [mem_range2]
    unfold inGrid2
    simp only
    omega
  funext i j
  have key : ∀ v < 2, m ⟨.grav, i, j, 0, v⟩ = match (generalizing := false) q with
      | .rayleighTaylor r => if (i, j) ∈ range2 p.isize p.jsize then (if v = 0 then r.gx else r.gy) else 0
      | _ => 0 := by
    intro v hv
    rw [hm]
    beta_reduce
    by_cases hin : (i, j) ∈ range2 p.isize p.jsize
    · rw [if_pos ⟨Or.inr rfl, hin⟩, run_hydroInit2_grav _ _ _ _ _ _ _ _ _ hv]
      cases q <;> simp [freshMem, hin]
    · rw [if_neg (fun h => hin h.2)]
      cases q <;> simp [freshMem, hin]
  unfold gravOf
  rw [key IX (by decide), key IY (by decide)]
  cases h with
  | blast => rfl
  | refl q =>
    cases q with
    | rayleighTaylor r =>
      simp only [gravityField2, hr, IX, IY]
      split_ifs <;> simp_all
    | _ => rfl

/-- the gravity field after `init`, 3D -/
theorem initHydro3_gravity {M : MathLib ℝ} {p : Params ℝ} (hw : p.WF) {rnd : Int → Int → Int → Nat → ℝ}
    {q q' : HydroProblem ℝ} (h : SameProblem q q') {m : Mem Arr ℝ}
    (hm : runLaunches (initHydro3 M p (0, 0, 0) rnd q) freshMem m) :
    gravOf3 m .grav = gravityField3 p q' := by
  rw [initHydro3_iff] at hm
  have hr : ∀ i j k, (i, j, k) ∈ range3 p.isize p.jsize p.ksize ↔ inGrid3 p i j k := fun i j k => by
    have := hw.isize_eq
    have := hw.jsize_eq
    have := hw.ksize_eq
    rw [mem_range3]
    unfold inGrid3
    simp only
    omega
  funext i j k
  have key : ∀ v < 3, m ⟨.grav, i, j, k, v⟩ = match (generalizing := false) q with
      | .rayleighTaylor r => if (i, j, k) ∈ range3 p.isize p.jsize p.ksize then
          (if v = 0 then r.gx else if v = 1 then r.gy else r.gz) else 0
      | _ => 0 := by
    intro v hv
    rw [hm]
    beta_reduce
    by_cases hin : (i, j, k) ∈ range3 p.isize p.jsize p.ksize
    · rw [if_pos ⟨Or.inr rfl, hin⟩, run_hydroInit3_grav _ _ _ _ _ _ _ _ _ _ hv]
      cases q <;> simp [freshMem, hin]
    · rw [if_neg (fun h => hin h.2)]
      cases q <;> simp [freshMem, hin]
  unfold gravOf3
  rw [key IX (by decide), key IY (by decide), key IZ (by decide)]
  cases h with
  | blast => rfl
  | refl q =>
    cases q with
    | rayleighTaylor r =>
      simp only [gravityField3, hr, IX, IY, IZ]
      split_ifs <;> simp_all
    | _ => rfl

/-- an environment exists -/
theorem env_exists (ju : ℝ × ℝ) : ∃ e : Env ℝ, e.ident ≤ 0 ∧ e.ju = ju :=
  ⟨⟨0, fun _ _ _ _ => HS.zero, fun _ _ _ _ => MS.zero, ju, fun _ _ _ _ => 0, true, .left, fun _ => none⟩,
    le_refl _, rfl⟩

/-- The program completes, and every execution (in an environment with `P`) makes the iterations of the
simulation, ends at its time and writes its files. -/
def Runs {X : Type} (P : Env ℝ → Prop) (F : FloatLib ℝ) (M : MathLib ℝ) (file : Option (List Char))
    (p : Params ℝ) (S : Method X) (x : X) (t : ℝ) (View : (Loc Unit → ℝ) → X → Prop) : Prop :=
  ∃ n, Sim.Length p S x t 0 n ∧ ∀ e : Env ℝ, e.ident ≤ 0 → P e →
    (∃ o, serialMain F M e file o) ∧ ∀ o, serialMain F M e file o → ∃ s', o = .finished s' ∧
      s'.iteration = n ∧ s'.t = (Sim.result p S x t 0 n).t ∧
      List.Forall₂ (fun (o : Output ℝ) (f : Int × ℝ × X) =>
        o.number = f.1 ∧ o.time = f.2.1 ∧ View o.data f.2.2) s'.outputs (Sim.result p S x t 0 n).files

theorem runs_of {X : Type} {P : Env ℝ → Prop} {F : FloatLib ℝ} {M : MathLib ℝ} {file : Option (List Char)}
    {p : Params ℝ} {S : Method X} {x : X} {t : ℝ} {View : (Loc Unit → ℝ) → X → Prop}
    (hP : ∃ e : Env ℝ, e.ident ≤ 0 ∧ P e) (comp : ∀ e : Env ℝ, P e → ∃ o, serialMain F M e file o)
    (run : ∀ e : Env ℝ, e.ident ≤ 0 → P e → ∀ o, serialMain F M e file o → ∃ s', o = .finished s' ∧
      Sim.Length p S x t 0 s'.iteration ∧ s'.t = (Sim.result p S x t 0 s'.iteration).t ∧
        List.Forall₂ (fun (o : Output ℝ) (f : Int × ℝ × X) =>
          o.number = f.1 ∧ o.time = f.2.1 ∧ View o.data f.2.2) s'.outputs
          (Sim.result p S x t 0 s'.iteration).files) : Runs P F M file p S x t View := by
  obtain ⟨e0, hid0, hP0⟩ := hP
  obtain ⟨o0, ho0⟩ := comp e0 hP0
  obtain ⟨s0, -, l0, -⟩ := run e0 hid0 hP0 o0 ho0
  refine ⟨s0.iteration, l0, fun e hid hPe => ⟨comp e hPe, fun o h => ?_⟩⟩
  obtain ⟨s', e1, e2, e3, e4⟩ := run e hid hPe o h
  have := Sim.Length.unique e2 l0
  rw [this] at e3 e4
  exact ⟨s', e1, this, e3, e4⟩

/-- two executions of such a program: same number of iterations, same final time, same files -/
theorem Runs.deterministic {X : Type} {P : Env ℝ → Prop} {F : FloatLib ℝ} {M : MathLib ℝ}
    {file : Option (List Char)} {p : Params ℝ} {S : Method X} {x : X} {t : ℝ}
    {View : (Loc Unit → ℝ) → X → Prop} (h : Runs P F M file p S x t View)
    {Same : (Loc Unit → ℝ) → (Loc Unit → ℝ) → Prop} (hs : ∀ a b x, View a x → View b x → Same a b)
    {e e' : Env ℝ} (he : e.ident ≤ 0) (he' : e'.ident ≤ 0) (hp : P e) (hp' : P e') {s s' : RunState ℝ}
    (r : serialMain F M e file (.finished s)) (r' : serialMain F M e' file (.finished s')) :
    s.iteration = s'.iteration ∧ s.t = s'.t ∧
      List.Forall₂ (fun o o' : Output ℝ => o.number = o'.number ∧ o.time = o'.time ∧ Same o.data o'.data)
        s.outputs s'.outputs := by
  obtain ⟨n, -, h⟩ := h
  obtain ⟨_, e1, a1, a2, a3⟩ := (h e he hp).2 _ r
  obtain ⟨_, e2, b1, b2, b3⟩ := (h e' he' hp').2 _ r'
  cases e1
  cases e2
  refine ⟨a1.trans b1.symm, a2.trans b2.symm, forall₂_both ?_ a3 b3⟩
  rintro o o' f ⟨h1, h2, h3⟩ ⟨k1, k2, k3⟩
  exact ⟨h1.trans k1.symm, h2.trans k2.symm, hs _ _ _ h3 k3⟩

/-- **C79 (2D hydro, end to end).** For every parameter file that names the 2D hydro solver, has ordinary values
and a problem whose initial state is the prescribed one without random numbers: the program completes, and
every execution — any schedule of any kernel, any uninitialised local, any build — makes the number of
iterations of the sequential algorithm started from the prescribed state at the cell centres, ends at its
time, and writes its files. -/
theorem C79_hydro_2d (F : FloatLib ℝ) {M : MathLib ℝ} (hM : ExactMath M) {file : Option (List Char)} :
    let c := Ini.broadcastSerial file
    let p := hydroParams F c
    let q := hydroProblem2 F M c (0, 0)
    Sets c "run" "solver_name" "Hydro_Muscl_2D" → cfgBool c "run" "restart_enabled" false = false →
    Ordinary2 p → Faithful2 q → Seedless q → gravityAllocated (gravityParams c) q →
    Runs (fun _ => True) F M file p (hydro2 p (gravityParams c) (gravityField2 p q))
      (fill2 p (initialField2 p q)) (cfgFloat F c "run" "tCurrent" 0) (Shows2 p) := by
  intro c p q hs hr ho hq hsd hga
  have hk : findSolver (mainSolverName c) = some .hydro2 := findSolver_sets (by simp [solverRegistry]) hs
  obtain ⟨h1, h2, h3, h4⟩ := C36_runnable_2d F c (hs _) ho.nx ho.ny ho.nz ho.x ho.y ho.z ho.slope ho.riemann
    ho.gamma ho.smallr ho.smallc ho.cfl
  have h1 : Hydro2 p := h1
  refine runs_of ((env_exists (0, 0)).imp fun _ h => ⟨h.1, trivial⟩) (fun e _ => ?_) (fun e hid _ o h => ?_)
  · have hm : ∃ m, initProblem F M e c p m .hydro2 :=
      ⟨_, (same_gravityAllocated (sameProblem_config2 F M c e.ju (0, 0))).2 hga,
        (initHydro2_iff _ _ _ _ _ _ _).2 rfl⟩
    obtain ⟨m, hm⟩ := hm
    have hT := total_hydro2 h1.wf h1.faces (gravityParams c) e.ident e.jk
    obtain ⟨s, hs⟩ := C14_starts (p := p) hT m (cfgFloat F c "run" "tCurrent" 0) 0
    obtain ⟨_, s', _, _, h⟩ := C14_completes hT ho.nlog hs
    exact ⟨_, (serialMain_fresh hk hr _).2 ⟨m, _, rfl, hm, h⟩⟩
  · obtain ⟨m, s', rfl, ⟨-, hm⟩, hrun⟩ := (serialMain_fresh hk hr _).1 h
    have hsame := sameProblem_config2 F M c e.ju (0, 0)
    have hg := initHydro2_gravity h1.wf hsame hm
    have hf : ∀ i j, inGrid2 p i j → hs2 m .U i j = initialField2 p q i j := fun i j hij => by
      refine (C58_initial_state_2d hM h1 ((same_faithful2 hsame).2 hq) hm hij).1.trans ?_
      unfold initialField2
      rw [same_prescribed2 hsame ((same_seedless hsame).2 hsd) (e.rnd i j 0) (fun _ => 0)]
    obtain ⟨r1, r2⟩ := refine_run (refines_hydro2 h1 h4 h2 (gravityParams c) hid e.jk (gravityField2 p q)) h3
      (x := fill2 p (initialField2 p q)) (fun m₁ hm₁ => by
        have := setup_hydro2 h1 hm₁
        rw [hg] at this
        exact ⟨fun i j hij => (this.1 i j hij).trans (fill2_congr h1 hf i j hij), this.2⟩) hrun
    exact ⟨s', rfl, r1, r2.t, r2.files⟩

/-- **C79 (3D hydro, end to end).** -/
theorem C79_hydro_3d (F : FloatLib ℝ) {M : MathLib ℝ} (hM : ExactMath M) {file : Option (List Char)} :
    let c := Ini.broadcastSerial file
    let p := hydroParams F c
    let q := hydroProblem3 F M c (0, 0)
    Sets c "run" "solver_name" "Hydro_Muscl_3D" → cfgBool c "run" "restart_enabled" false = false →
    Ordinary3 p → Faithful3 q → Seedless q → gravityAllocated (gravityParams c) q →
    Runs (fun _ => True) F M file p (hydro3 (zKick p.implementationVersion) p (gravityParams c) (gravityField3 p q))
      (fill3 p (initialField3 p q)) (cfgFloat F c "run" "tCurrent" 0) (Shows3 p) := by
  intro c p q hs hr ho hq hsd hga
  have hk : findSolver (mainSolverName c) = some .hydro3 := findSolver_sets (by simp [solverRegistry]) hs
  obtain ⟨h1, h2, h3, h4⟩ := C36_runnable_3d F c (hs _) ho.nx ho.ny ho.nz ho.x ho.y ho.z ho.slope ho.riemann
    ho.gamma ho.smallr ho.smallc ho.cfl
  have h1 : Hydro3 p := h1
  refine runs_of ((env_exists (0, 0)).imp fun _ h => ⟨h.1, trivial⟩) (fun e _ => ?_) (fun e hid _ o h => ?_)
  · have hm : ∃ m, initProblem F M e c p m .hydro3 :=
      ⟨_, (same_gravityAllocated (sameProblem_config3 F M c e.ju (0, 0))).2 hga,
        (initHydro3_iff _ _ _ _ _ _ _).2 rfl⟩
    obtain ⟨m, hm⟩ := hm
    have hT := total_hydro3 h1.wf h1.faces (gravityParams c) e.ident e.jk
    obtain ⟨s, hs⟩ := C14_starts (p := p) hT m (cfgFloat F c "run" "tCurrent" 0) 0
    obtain ⟨_, s', _, _, h⟩ := C14_completes hT ho.nlog hs
    exact ⟨_, (serialMain_fresh hk hr _).2 ⟨m, _, rfl, hm, h⟩⟩
  · obtain ⟨m, s', rfl, ⟨-, hm⟩, hrun⟩ := (serialMain_fresh hk hr _).1 h
    have hsame := sameProblem_config3 F M c e.ju (0, 0)
    have hg := initHydro3_gravity h1.wf hsame hm
    have hf : ∀ i j k, inGrid3 p i j k → hs3 m .U i j k = initialField3 p q i j k := fun i j k hij => by
      refine (C58_initial_state_3d hM h1 ((same_faithful3 hsame).2 hq) hm hij).1.trans ?_
      unfold initialField3
      rw [same_prescribed3 hsame ((same_seedless hsame).2 hsd) (e.rnd i j k) (fun _ => 0)]
    obtain ⟨r1, r2⟩ := refine_run (refines_hydro3 h1 h4 h2 (gravityParams c) hid e.jk (gravityField3 p q)) h3
      (x := fill3 p (initialField3 p q)) (fun m₁ hm₁ => by
        have := setup_hydro3 h1 hm₁
        rw [hg] at this
        exact ⟨fun i j k hij => (this.1 i j k hij).trans (fill3_congr h1 hf i j k hij), this.2⟩) hrun
    exact ⟨s', rfl, r1, r2.t, r2.files⟩

theorem startsPrescribed2_dir {p : Params ℝ} (hp : Mhd2 p) {q : MhdProblem ℝ} (h : StartsPrescribed2 p q) :
    DirectionOk2 q := by
  have hi : interior2 p p.ghostWidth p.ghostWidth := by
    have := hp.wf.nx_pos
    have := hp.wf.ny_pos
    exact ⟨by omega, by omega, by omega, by omega⟩
  cases q with
  | brioWu q => exact h _ _ hi
  | _ => trivial

theorem startsPrescribed3_dir {p : Params ℝ} (hp : Mhd3 p) {q : MhdProblem ℝ} (h : StartsPrescribed3 p q) :
    DirectionOk3 q := by
  have hi : interior3 p p.ghostWidth p.ghostWidth p.ghostWidth := by
    have := hp.wf.nx_pos
    have := hp.wf.ny_pos
    have := hp.wf.nz_pos
    exact ⟨⟨by omega, by omega⟩, ⟨by omega, by omega⟩, by omega, by omega⟩
  cases q with
  | brioWu q => exact h _ _ _ hi
  | orszagTang q => rcases h with h | h | h <;> simp [DirectionOk3, MhdProblem.EnumOk3, h]
  | _ => trivial

theorem interior_inGrid2M {p : Params ℝ} (hw : p.WF) {i j : Int} (h : interior2 p i j) :
    inGrid2 p i j ∧ i < p.isize - 1 ∧ j < p.jsize - 1 := by
  have := hw.gw_pos
  have := hw.isize_eq
  have := hw.jsize_eq
  refine ⟨interior_inGrid2 hw h, ?_, ?_⟩ <;> (obtain ⟨a, b, c, d⟩ := h; omega)

theorem interior_inGrid3M {p : Params ℝ} (hw : p.WF) {i j k : Int} (h : interior3 p i j k) :
    inGrid3 p i j k ∧ i < p.isize - 1 ∧ j < p.jsize - 1 ∧ k < p.ksize - 1 := by
  have := hw.gw_pos
  have := hw.isize_eq
  have := hw.jsize_eq
  have := hw.ksize_eq
  refine ⟨interior_inGrid3 hw h, ?_, ?_, ?_⟩ <;> (obtain ⟨⟨a, b⟩, ⟨c, d⟩, e, f⟩ := h; omega)

theorem startsPrescribed2_field {M : MathLib ℝ} (hM : ExactMath M) {p : Params ℝ} (hp : Mhd2 p)
    {q : MhdProblem ℝ} (h : StartsPrescribed2 p q) {rnd : Int → Int → Int → Nat → ℝ} {m : Mem Arr ℝ}
    (hm : runLaunches (initMhd2 M p (0, 0, 0) rnd q) freshMem m) {i j : Int} (hij : interior2 p i j) :
    ms2 m .U i j = initialFieldM2 p q i j := by
  obtain ⟨g1, g2⟩ := interior_inGrid2M hp.wf hij
  cases q with
  | orszagTang q =>
    exact (C64_orszag_tang_2d hM hp hm g1).trans (if_pos g2)
  | kelvinHelmholtz q =>
    obtain ⟨h1, h2⟩ := h
    rw [C64_initial_state_2d hM hp hm g1 (Or.inr h2)]
    simp only [initialFieldM2, prescribedM2, h1, Bool.false_eq_true, if_false]
  | blast q => exact C64_initial_state_2d hM hp hm g1 (h i j hij)
  | implode q => exact C64_initial_state_2d hM hp hm g1 (h i j hij)
  | brioWu q => exact C64_initial_state_2d hM hp hm g1 (h i j hij)
  | rotor q => exact C64_initial_state_2d hM hp hm g1 (h i j hij)
  | fieldLoop q => exact (h i j hij).elim

theorem startsPrescribed3_field {M : MathLib ℝ} (hM : ExactMath M) {p : Params ℝ} (hp : Mhd3 p)
    {q : MhdProblem ℝ} (h : StartsPrescribed3 p q) {rnd : Int → Int → Int → Nat → ℝ} {m : Mem Arr ℝ}
    (hm : runLaunches (initMhd3 M p (0, 0, 0) rnd q) freshMem m) {i j k : Int} (hij : interior3 p i j k) :
    ms m .U i j k = initialFieldM3 p q i j k := by
  obtain ⟨g1, g2⟩ := interior_inGrid3M hp.wf hij
  cases q with
  | orszagTang q =>
    exact (C64_orszag_tang_3d hM hp h hm g1).trans (if_pos g2)
  | kelvinHelmholtz q => exact C64_initial_state_3d hM hp hm g1 (h i j k hij)
  | blast q => exact C64_initial_state_3d hM hp hm g1 (h i j k hij)
  | implode q => exact C64_initial_state_3d hM hp hm g1 (h i j k hij)
  | brioWu q => exact C64_initial_state_3d hM hp hm g1 (h i j k hij)
  | rotor q => exact C64_initial_state_3d hM hp hm g1 (h i j k hij)
  | fieldLoop q => exact (h i j k hij).elim

/-- **C79 (2D MHD, end to end).**  `ju` are the two members the blast parameters leave uninitialised. -/
theorem C79_mhd_2d (F : FloatLib ℝ) {M : MathLib ℝ} (hM : ExactMath M) {file : Option (List Char)} (ju : ℝ × ℝ) :
    let c := Ini.broadcastSerial file
    let p := hydroParams F c
    let q := mhdProblem F M c ju
    Sets c "run" "solver_name" "MHD_Muscl_2D" → cfgBool c "run" "restart_enabled" false = false →
    OrdinaryM2 p → StartsPrescribed2 p q →
    Runs (fun e => e.ju = ju) F M file p (mhd2 p) (initialFieldM2 p q)
      (cfgFloat F c "run" "tCurrent" 0) (ShowsM2 p) := by
  intro c p q hs hr ho hq
  have hk : findSolver (mainSolverName c) = some .mhd2 := findSolver_sets (by simp [solverRegistry]) hs
  obtain ⟨g2, g3, h2, h3, h4⟩ := C54_mhd_runnable F c (Or.inl (hs _)) ho.nx ho.ny ho.nz ho.x ho.y ho.z ho.slope
    ho.riemann ho.gamma ho.smallr ho.smallc ho.cfl
  have h1 : Mhd2 p := g2
  refine runs_of (env_exists ju) (fun e he => ?_) (fun e hid he o h => ?_)
  · obtain ⟨m, hm, -⟩ := C57_init_unique_mhd_2d M p (0, 0, 0) e.rnd (startsPrescribed2_dir h1 hq) freshMem
    have hm : initProblem F M e c p m .mhd2 := by
      show runLaunches _ _ _
      rw [he]
      exact hm
    have hT := total_mhd2 h1.wf h1.faces e.ident e.jkM
    obtain ⟨s, hs⟩ := C14_starts (p := p) hT m (cfgFloat F c "run" "tCurrent" 0) 0
    obtain ⟨_, s', _, _, h⟩ := C14_completes hT ho.nlog hs
    exact ⟨_, (serialMain_fresh hk hr _).2 ⟨m, _, rfl, hm, h⟩⟩
  · obtain ⟨m, s', rfl, hm, hrun⟩ := (serialMain_fresh hk hr _).1 h
    have hm : runLaunches (initMhd2 M p (0, 0, 0) e.rnd (mhdProblem F M c e.ju)) freshMem m := hm
    rw [he] at hm
    obtain ⟨r1, r2⟩ := refine_run (refines_mhd2 h1 h4 h2 hid e.jkM) h3
      (x := initialFieldM2 p q) (fun m₁ hm₁ i j hij =>
        (setup_mhd2 h1 signLaws_real hm₁ i j hij).trans (startsPrescribed2_field hM h1 hq hm hij)) hrun
    exact ⟨s', rfl, r1, r2.t, r2.files⟩

/-- **C79 (3D MHD, end to end).**  `ju` are the two members the blast parameters leave uninitialised. -/
theorem C79_mhd_3d (F : FloatLib ℝ) {M : MathLib ℝ} (hM : ExactMath M) {file : Option (List Char)} (ju : ℝ × ℝ) :
    let c := Ini.broadcastSerial file
    let p := hydroParams F c
    let q := mhdProblem F M c ju
    Sets c "run" "solver_name" "MHD_Muscl_3D" → cfgBool c "run" "restart_enabled" false = false →
    OrdinaryM3 p → StartsPrescribed3 p q →
    Runs (fun e => e.ju = ju) F M file p (mhd3 p) (initialFieldM3 p q)
      (cfgFloat F c "run" "tCurrent" 0) (ShowsM3 p) := by
  intro c p q hs hr ho hq
  have hk : findSolver (mainSolverName c) = some .mhd3 := findSolver_sets (by simp [solverRegistry]) hs
  obtain ⟨g2, g3, h2, h3, h4⟩ := C54_mhd_runnable F c (Or.inr (hs _)) ho.nx ho.ny (le_trans (by norm_num) ho.nz) ho.x ho.y ho.z ho.slope
    ho.riemann ho.gamma ho.smallr ho.smallc ho.cfl
  have h1 : Mhd3 p := g3 ho.nz
  refine runs_of (env_exists ju) (fun e he => ?_) (fun e hid he o h => ?_)
  · obtain ⟨m, hm, -⟩ := C57_init_unique_mhd_3d M p (0, 0, 0) e.rnd (startsPrescribed3_dir h1 hq) freshMem
    have hm : initProblem F M e c p m .mhd3 := by
      show runLaunches _ _ _
      rw [he]
      exact hm
    have hT := total_mhd3 h1.wf h1.faces e.ident e.jkM
    obtain ⟨s, hs⟩ := C14_starts (p := p) hT m (cfgFloat F c "run" "tCurrent" 0) 0
    obtain ⟨_, s', _, _, h⟩ := C14_completes hT ho.nlog hs
    exact ⟨_, (serialMain_fresh hk hr _).2 ⟨m, _, rfl, hm, h⟩⟩
  · obtain ⟨m, s', rfl, hm, hrun⟩ := (serialMain_fresh hk hr _).1 h
    have hm : runLaunches (initMhd3 M p (0, 0, 0) e.rnd (mhdProblem F M c e.ju)) freshMem m := hm
    rw [he] at hm
    obtain ⟨r1, r2⟩ := refine_run (refines_mhd3 h1 h4 h2 hid e.jkM) h3
      (x := initialFieldM3 p q) (fun m₁ hm₁ i j k hij =>
        (setup_mhd3 h1 signLaws_real hm₁ i j k hij).trans (startsPrescribed3_field hM h1 hq hm hij)) hrun
    exact ⟨s', rfl, r1, r2.t, r2.files⟩

/-! ## Reproducibility -/

/-- **C79 (reproducible, 2D hydro).** Two executions of the program on the same ordinary file — schedules, builds,
uninitialised locals, random generators may all differ — make the same number of iterations, end at the same
time and write the same files, cell for cell. -/
theorem C79_reproducible_2d (F : FloatLib ℝ) {M : MathLib ℝ} (hM : ExactMath M) {file : Option (List Char)}
    {e e' : Env ℝ} {s s' : RunState ℝ} :
    let c := Ini.broadcastSerial file
    let p := hydroParams F c
    let q := hydroProblem2 F M c (0, 0)
    Sets c "run" "solver_name" "Hydro_Muscl_2D" → cfgBool c "run" "restart_enabled" false = false →
    Ordinary2 p → Faithful2 q → Seedless q → gravityAllocated (gravityParams c) q →
    e.ident ≤ 0 → e'.ident ≤ 0 →
    serialMain F M e file (.finished s) → serialMain F M e' file (.finished s') →
    s.iteration = s'.iteration ∧ s.t = s'.t ∧
      List.Forall₂ (fun o o' : Output ℝ => o.number = o'.number ∧ o.time = o'.time ∧
        ∀ i j, inGrid2 p i j → ∀ v < 4, o.data ⟨(), i, j, 0, v⟩ = o'.data ⟨(), i, j, 0, v⟩)
        s.outputs s'.outputs := by
  intro c p q h1 h2 h3 h4 h5 h6 he he' r r'
  refine Runs.deterministic (C79_hydro_2d F hM h1 h2 h3 h4 h5 h6)
    (Same := fun a b => ∀ i j, inGrid2 p i j → ∀ v < 4, a ⟨(), i, j, 0, v⟩ = b ⟨(), i, j, 0, v⟩) ?_ he he' trivial trivial r r'
  intro a b x ha hb i j hij v hv
  have h := (ha i j hij).trans (hb i j hij).symm
  simp only [HS.mk.injEq] at h
  have : v = 0 ∨ v = 1 ∨ v = 2 ∨ v = 3 := by omega
  rcases this with rfl | rfl | rfl | rfl
  · exact h.1
  · exact h.2.1
  · exact h.2.2.1
  · exact h.2.2.2.1

/-- **C79 (reproducible, 3D hydro).** -/
theorem C79_reproducible_3d (F : FloatLib ℝ) {M : MathLib ℝ} (hM : ExactMath M) {file : Option (List Char)}
    {e e' : Env ℝ} {s s' : RunState ℝ} :
    let c := Ini.broadcastSerial file
    let p := hydroParams F c
    let q := hydroProblem3 F M c (0, 0)
    Sets c "run" "solver_name" "Hydro_Muscl_3D" → cfgBool c "run" "restart_enabled" false = false →
    Ordinary3 p → Faithful3 q → Seedless q → gravityAllocated (gravityParams c) q →
    e.ident ≤ 0 → e'.ident ≤ 0 →
    serialMain F M e file (.finished s) → serialMain F M e' file (.finished s') →
    s.iteration = s'.iteration ∧ s.t = s'.t ∧
      List.Forall₂ (fun o o' : Output ℝ => o.number = o'.number ∧ o.time = o'.time ∧
        ∀ i j k, inGrid3 p i j k → ∀ v < 5, o.data ⟨(), i, j, k, v⟩ = o'.data ⟨(), i, j, k, v⟩)
        s.outputs s'.outputs := by
  intro c p q h1 h2 h3 h4 h5 h6 he he' r r'
  refine Runs.deterministic (C79_hydro_3d F hM h1 h2 h3 h4 h5 h6)
    (Same := fun a b => ∀ i j k, inGrid3 p i j k → ∀ v < 5, a ⟨(), i, j, k, v⟩ = b ⟨(), i, j, k, v⟩) ?_ he he' trivial trivial r r'
  intro a b x ha hb i j k hij v hv
  have h := (ha i j k hij).trans (hb i j k hij).symm
  simp only [HS.mk.injEq] at h
  have : v = 0 ∨ v = 1 ∨ v = 2 ∨ v = 3 ∨ v = 4 := by omega
  rcases this with rfl | rfl | rfl | rfl | rfl
  · exact h.1
  · exact h.2.1
  · exact h.2.2.1
  · exact h.2.2.2.1
  · exact h.2.2.2.2

/-- **C79 (unknown problem).** A problem name none of the solvers knows is not an error: the hydro solvers run the
implosion, the MHD solvers the Orszag-Tang vortex. -/
theorem C79_unknown_problem (F : FloatLib R) (M : MathLib R) (c : Ini.Reader) (ju : R × R)
    (h : ∀ n ∈ ["implode", "blast", "kelvin_helmholtz", "gresho_vortex", "four_quadrant", "isentropic_vortex",
      "rayleigh_taylor", "orszag_tang", "rotor", "field_loop", "field loop", "brio-wu"], problemName c ≠ n.toList) :
    hydroProblem2 F M c ju = .implode (implodeParams F c) ∧
    hydroProblem3 F M c ju = .implode (implodeParams F c) ∧
    mhdProblem F M c ju = .orszagTang (orszagTangParams F c) := by
  simp only [List.mem_cons, List.not_mem_nil, or_false, forall_eq_or_imp, forall_eq] at h
  obtain ⟨a1, a2, a3, a4, a5, a6, a7, a8, a9, a10, a11, a12⟩ := h
  unfold hydroProblem2 hydroProblem3 mhdProblem
  simp only [a1, a2, a3, a4, a5, a6, a7, a8, a9, a10, a11, a12, if_false, or_self, and_self]

/-! ## A shipped parameter file -/

theorem sets_of {c : Ini.Reader} {a b v : String} {d : List Char} (h : c.getString a.toList b.toList d = v.toList)
    (hd : d ≠ v.toList) : Sets c a b v := by
  rcases getString_cases c a.toList b.toList with ⟨w, hw⟩ | hw
  · intro d'
    rw [hw d', ← hw d, h]
  · exact absurd ((hw d).symm.trans h) hd

theorem implode_more : let c := implodeCfg'
    let s := fun (a b : String) => ratOf (Ini.cstr (c.getString a.toList b.toList []))
    cfgBool c "run" "restart_enabled" false = false ∧ cfgInt c "run" "nlog" 10 = 10 ∧
    problemName c = "implode".toList ∧
    s "implode" "density_outer" = none ∧ s "implode" "vx_inner" = none ∧ s "implode" "vy_inner" = none := by
  decide +kernel

theorem implode_ordinary : Ordinary2 (hydroParams exactLib implodeCfg) := by
  have h := implode_values
  have h' := implode_more
  rw [← implodeCfg_eq] at h h'
  obtain ⟨h0, sn, f1, f2, f3, f4, f5, f6, f7, f8, f9, f10, f11, n1, n2, n3, hr⟩ := h
  obtain ⟨r0, nl, pn, g1, g2, g3⟩ := h'
  exact
    { x := by
        show cfgFloat exactLib implodeCfg "mesh" "xmin" 0 < cfgFloat exactLib implodeCfg "mesh" "xmax" 1
        rw [exact_float f1, exact_float f2]; norm_num
      y := by
        show cfgFloat exactLib implodeCfg "mesh" "ymin" 0 < cfgFloat exactLib implodeCfg "mesh" "ymax" 1
        rw [exact_float f3, exact_float f4]; norm_num
      z := by
        show cfgFloat exactLib implodeCfg "mesh" "zmin" 0 < cfgFloat exactLib implodeCfg "mesh" "zmax" 1
        rw [exact_float_default f5, exact_float_default f6]; norm_num
      gamma := by
        show 1 < cfgFloat exactLib implodeCfg "hydro" "gamma0" (14 / 10)
        rw [exact_float f8]; norm_num
      smallr := by
        show 0 < cfgFloat exactLib implodeCfg "hydro" "smallr" (1 / 10000000000)
        rw [exact_float_default f10]; norm_num
      smallc := by
        show 0 < cfgFloat exactLib implodeCfg "hydro" "smallc" (1 / 10000000000)
        rw [exact_float_default f11]; norm_num
      cfl := by
        show 0 < cfgFloat exactLib implodeCfg "hydro" "cfl" (5 / 10)
        rw [exact_float f9]; norm_num
      nlog := by
        show cfgInt implodeCfg "run" "nlog" 10 ≠ 0
        rw [nl]; decide
      nx := by
        show 2 ≤ cfgInt implodeCfg "mesh" "nx" 1
        rw [n1]; decide
      ny := by
        show 2 ≤ cfgInt implodeCfg "mesh" "ny" 1
        rw [n2]; decide
      nz := by
        show 1 ≤ cfgInt implodeCfg "mesh" "nz" 1
        rw [n3]
      slope := by
        show cfgFloat exactLib implodeCfg "hydro" "slope_type" 1 = 0 ∨
          cfgFloat exactLib implodeCfg "hydro" "slope_type" 1 = 1 ∨
          cfgFloat exactLib implodeCfg "hydro" "slope_type" 1 = 2
        rw [exact_float f7]; norm_num
      riemann := by
        show riemannOf (cfgString implodeCfg "hydro" "riemann" "approx") ≠ .hlld
        rw [hr]; decide }

theorem implode_problem :
    hydroProblem2 exactLib exactMath implodeCfg (0, 0) = .implode (implodeParams exactLib implodeCfg) := by
  have h' := implode_more
  rw [← implodeCfg_eq] at h'
  unfold hydroProblem2
  exact if_pos h'.2.2.1

theorem implode_sets : Sets implodeCfg "run" "solver_name" "Hydro_Muscl_2D" ∧
    cfgBool implodeCfg "run" "restart_enabled" false = false := by
  have h := implode_values
  have h' := implode_more
  rw [← implodeCfg_eq] at h h'
  exact ⟨sets_of h.2.1 (by decide), h'.1⟩

/-- The shipped `test_implode_2D.ini` meets the hypotheses of `C79_hydro_2d`: run on it, the program computes
100 iterations at most of the sequential algorithm from the implosion at rest. -/
theorem implode_program :
    Runs (fun _ => True) exactLib exactMath (some (textOf implodeIni)) (hydroParams exactLib implodeCfg)
      (hydro2 (hydroParams exactLib implodeCfg) (gravityParams implodeCfg) (fun _ _ => (0, 0)))
      (fill2 (hydroParams exactLib implodeCfg)
        (initialField2 (hydroParams exactLib implodeCfg) (.implode (implodeParams exactLib implodeCfg))))
      (cfgFloat exactLib implodeCfg "run" "tCurrent" 0) (Shows2 (hydroParams exactLib implodeCfg)) := by
  have h := implode_values
  have h' := implode_more
  rw [← implodeCfg_eq] at h h'
  obtain ⟨h0, sn, f1, f2, f3, f4, f5, f6, f7, f8, f9, f10, f11, n1, n2, n3, hr⟩ := h
  obtain ⟨r0, nl, pn, g1, g2, g3⟩ := h'
  have hq := implode_problem
  have key := C79_hydro_2d exactLib exactMath_exact (file := some (textOf implodeIni))
    implode_sets.1 implode_sets.2 implode_ordinary
  have key := key (by
      rw [show hydroProblem2 exactLib exactMath (Ini.broadcastSerial (some (textOf implodeIni))) (0, 0) = _ from hq]
      refine ⟨Or.inl ?_, Or.inr ⟨?_, ?_⟩⟩
      · show cfgFloat exactLib implodeCfg "implode" "density_outer" 1 = 1
        rw [exact_float_default g1]; norm_num
      · show cfgFloat exactLib implodeCfg "implode" "vx_inner" 0 = 0
        rw [exact_float_default g2]; norm_num
      · show cfgFloat exactLib implodeCfg "implode" "vy_inner" 0 = 0
        rw [exact_float_default g3]; norm_num)
    (by
      rw [show hydroProblem2 exactLib exactMath (Ini.broadcastSerial (some (textOf implodeIni))) (0, 0) = _ from hq]
      trivial)
    (by
      rw [show hydroProblem2 exactLib exactMath (Ini.broadcastSerial (some (textOf implodeIni))) (0, 0) = _ from hq]
      trivial)
  rw [show hydroProblem2 exactLib exactMath (Ini.broadcastSerial (some (textOf implodeIni))) (0, 0) = _ from hq]
    at key
  exact key

end EulerKokkos
