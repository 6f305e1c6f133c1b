import Verif.Props.C73
import Verif.Props.C79
import Verif.Props.C79Sample
import Verif.Props.C59

/-!
# C96 — what the files of every execution of the serial program satisfy

Statements about every execution of `main` — any parameter text, any problem (with or without random numbers), fresh or
restarted from a file, any build — in terms of the files it writes.
-/

set_option linter.constructorNameAsVariable false
set_option linter.unusedSectionVars false
set_option linter.unusedSimpArgs false

namespace EulerKokkos
open Spec

/-- the books of a run: consecutive numbers, times and iterations that do not decrease, at most `nstepmax`
iterations; the first file shows the start, the last one the end; the run ends at `tEnd` (to 1e-14) or after `nstepmax`
iterations, and not after `tEnd` unless it started there -/
structure Spec.WellKept (p : Params ℝ) (s' : RunState ℝ) : Prop where
  numbers : ∀ (i : Nat) (o₀ o : Output ℝ), s'.outputs[0]? = some o₀ → s'.outputs[i]? = some o →
    o.number = o₀.number + i
  sorted : s'.outputs.Pairwise fun a b => a.time ≤ b.time ∧ a.iteration ≤ b.iteration
  steps : (s'.iteration : Int) ≤ max p.nStepmax 0
  ends : p.nOutput ≠ 0 → ∃ o₀ oₙ, s'.outputs.head? = some o₀ ∧ s'.outputs.getLast? = some oₙ ∧
    o₀.iteration = 0 ∧ oₙ.time = s'.t ∧ oₙ.iteration = s'.iteration ∧
    o₀.time ≤ s'.t ∧ s'.t ≤ max o₀.time p.tEnd ∧
    (p.tEnd - 1 / 100000000000000 ≤ s'.t ∨ (s'.iteration : Int) = max p.nStepmax 0)
  silent : p.nOutput = 0 → s'.outputs = []

section Generic
variable {p : Params ℝ} {S : SolverOps ℝ}

/-- times of files -/
theorem times_sorted (hS : ∀ n m d, S.dtLocal n m d → 0 ≤ d) {m : Mem Arr ℝ} {t : ℝ} {sv : Int} {s' : RunState ℝ}
    (h : runMain p S m t sv s') :
    s'.outputs.Pairwise fun a b => a.time ≤ b.time ∧ a.iteration ≤ b.iteration := by
  have key : ∀ s : RunState ℝ, (s.outputs.Pairwise (fun a b => a.time ≤ b.time ∧ a.iteration ≤ b.iteration) ∧
      ∀ o ∈ s.outputs, o.time ≤ s.t ∧ o.iteration ≤ s.iteration) →
      ((saveSolution s).outputs.Pairwise (fun a b => a.time ≤ b.time ∧ a.iteration ≤ b.iteration) ∧
      ∀ o ∈ (saveSolution s).outputs, o.time ≤ s.t ∧ o.iteration ≤ s.iteration) := by
    rintro s ⟨h1, h2⟩
    constructor
    · simp only [saveSolution, List.pairwise_append, List.mem_singleton]
      exact ⟨h1, by simp, fun a ha b hb => by rw [hb]; exact h2 a ha⟩
    · intro o ho
      simp only [saveSolution, List.mem_append, List.mem_singleton] at ho
      rcases ho with ho | rfl
      · exact h2 o ho
      · exact ⟨le_rfl, le_rfl⟩
  obtain ⟨s0, s1, h0, ⟨k, h1, _⟩, rfl⟩ := h
  obtain ⟨f1, f2, f3, f4, _⟩ := construct_fields h0
  have i0 : s0.outputs.Pairwise (fun a b => a.time ≤ b.time ∧ a.iteration ≤ b.iteration) ∧
      ∀ o ∈ s0.outputs, o.time ≤ s0.t ∧ o.iteration ≤ s0.iteration := by simp [f4]
  have i1 := h1.invariant (fun s => s.outputs.Pairwise (fun a b => a.time ≤ b.time ∧ a.iteration ≤ b.iteration) ∧
      ∀ o ∈ s.outputs, o.time ≤ s.t ∧ o.iteration ≤ s.iteration) (by
        unfold mainSave; split_ifs
        · exact key _ i0
        · exact i0) (fun s s' hx hf hs => by
        obtain ⟨_, _, _, _, _, hle, _⟩ := C13_one_turn hS hf hs
        obtain ⟨_, m1, d, m3, _, _, _, e⟩ := nextIteration_iff.1 hs
        have ei : s'.iteration = s.iteration + 1 := by rw [e]
        have eo : s'.outputs = (maybeSave p (logLine p s)).outputs := by rw [e]
        have hx' : s'.outputs.Pairwise (fun a b => a.time ≤ b.time ∧ a.iteration ≤ b.iteration) ∧
            ∀ o ∈ s'.outputs, o.time ≤ s.t ∧ o.iteration ≤ s.iteration := by
          rw [eo]
          rcases maybeSave_eq (p := p) s with ⟨_, _, _, e2⟩ | ⟨_, _, e2⟩ <;> rw [e2]
          · exact key _ hx
          · exact hx
        exact ⟨hx'.1, fun o ho => ⟨(hx'.2 o ho).1.trans hle, by rw [ei]; exact (hx'.2 o ho).2.trans (Nat.le_succ _)⟩⟩)
  unfold mainSave; split_ifs
  · exact (key _ i1).1
  · exact i1.1

theorem wellKept_of (hS : ∀ n m d, S.dtLocal n m d → 0 ≤ d) (he : p.enableOutput = decide (p.nOutput ≠ 0))
    {m : Mem Arr ℝ} {t : ℝ} {sv : Int} {s' : RunState ℝ} (h : runMain p S m t sv s') : WellKept p s' := by
  refine ⟨?_, times_sorted hS h, (C14_stop_reason h).2, fun hn => ?_, fun hn => ?_⟩
  · obtain ⟨h1, _⟩ := C16_gapless h
    have num : ∀ (i : Nat) (o : Output ℝ), s'.outputs[i]? = some o → o.number = sv + i := by
      intro i o ho
      have hl : i < s'.outputs.length := by
        by_contra hc
        rw [List.getElem?_eq_none (by omega)] at ho
        cases ho
      have e : (s'.outputs.map Output.number)[i]? = some o.number := by rw [List.getElem?_map, ho]; rfl
      rw [h1, List.getElem?_map, List.getElem?_range hl] at e
      exact (Option.some.inj e).symm
    intro i o₀ o h0 hi
    have a := num 0 o₀ h0
    rw [num i o hi, a]
    push_cast
    ring
  · obtain ⟨_, ⟨o₀, a1, _, a3, a4⟩, oₙ, b1, _, b3, b4⟩ := C16_first_last h hn
    obtain ⟨k, s, h1, h2, e⟩ := reaches_of_runMain h
    obtain ⟨c1, c2, _⟩ := C13_time_bounded hS h1
    have ht : s'.t = s.t := by rw [e]; exact (mainSave_fields s).1
    have hit : s'.iteration = s.iteration := by rw [e]; exact (mainSave_fields s).2.1
    refine ⟨o₀, oₙ, a1, b1, a4, b3, b4, by rw [a3, ht]; exact c1, by rw [a3, ht]; exact c2, ?_⟩
    rw [finished_real] at h2
    rw [ht]
    rcases h2 with h2 | h2
    · exact Or.inl h2
    · obtain ⟨c, d⟩ := C14_at_most_nstepmax h1
      right
      rw [hit]
      rw [c] at h2 ⊢
      omega
  · exact C16_no_output h hn (by rw [he, hn]; decide)
end Generic

/-! ### Executions of the program -/

/-- an execution that finishes is a run of the solver named in the file -/
theorem finished_runs {F : FloatLib ℝ} {M : MathLib ℝ} {e : Env ℝ} {file : Option (List Char)} {s' : RunState ℝ}
    {k : SolverKind} (hk : findSolver (mainSolverName (Ini.broadcastSerial file)) = some k)
    (h : serialMain F M e file (.finished s')) :
    ∃ m t sv, runMain (hydroParams F (Ini.broadcastSerial file))
      (solverOps e (Ini.broadcastSerial file) (hydroParams F (Ini.broadcastSerial file)) k) m t sv s' := by
  obtain ⟨k', m, t, sv, h1, _, h3⟩ := h
  have h1 : findSolver (mainSolverName (Ini.broadcastSerial file)) = some k' := h1
  rw [hk] at h1
  cases h1
  exact ⟨m, t, sv, h3⟩

/-- **C96 (books), hydro.** -/
theorem C96_books_hydro (F : FloatLib ℝ) (M : MathLib ℝ) (e : Env ℝ) (hid : e.ident ≤ 0) (file : Option (List Char)) :
    let c := Ini.broadcastSerial file
    let p := hydroParams F c
    (Sets c "run" "solver_name" "Hydro_Muscl_2D" ∧ Ordinary2 p) ∨
      (Sets c "run" "solver_name" "Hydro_Muscl_3D" ∧ Ordinary3 p) →
    ∀ s', serialMain F M e file (.finished s') → WellKept p s' := by
  rintro c p (⟨hs, ho⟩ | ⟨hs, ho⟩) s' h
  · obtain ⟨h1, h2, h3, _⟩ := C36_runnable_2d F c (hs _) ho.nx ho.ny ho.nz ho.x ho.y ho.z ho.slope ho.riemann
      ho.gamma ho.smallr ho.smallc ho.cfl
    have h1 : Hydro2 p := h1
    obtain ⟨m, t, sv, hr⟩ := finished_runs (k := .hydro2) (findSolver_sets (by simp [solverRegistry]) hs) h
    exact wellKept_of (fun n m d h => (dtLocal2_eq h1.wf h2 hid h).2.le) h3 hr
  · obtain ⟨h1, h2, h3, _⟩ := C36_runnable_3d F c (hs _) ho.nx ho.ny ho.nz ho.x ho.y ho.z ho.slope ho.riemann
      ho.gamma ho.smallr ho.smallc ho.cfl
    have h1 : Hydro3 p := h1
    obtain ⟨m, t, sv, hr⟩ := finished_runs (k := .hydro3) (findSolver_sets (by simp [solverRegistry]) hs) h
    exact wellKept_of (fun n m d h => (dtLocal3_eq h1.wf h2 hid h).2.le) h3 hr

/-- **C96 (books), MHD.** -/
theorem C96_books_mhd (F : FloatLib ℝ) (M : MathLib ℝ) (e : Env ℝ) (hid : e.ident ≤ 0) (file : Option (List Char)) :
    let c := Ini.broadcastSerial file
    let p := hydroParams F c
    (Sets c "run" "solver_name" "MHD_Muscl_2D" ∧ OrdinaryM2 p) ∨
      (Sets c "run" "solver_name" "MHD_Muscl_3D" ∧ OrdinaryM3 p) →
    ∀ s', serialMain F M e file (.finished s') → WellKept p s' := by
  rintro c p (⟨hs, ho⟩ | ⟨hs, ho⟩) s' h
  · obtain ⟨g2, g3, h2, h3, _⟩ := C54_mhd_runnable F c (Or.inl (hs _)) ho.nx ho.ny ho.nz ho.x ho.y ho.z ho.slope
      ho.riemann ho.gamma ho.smallr ho.smallc ho.cfl
    have h1 : Mhd2 p := g2
    obtain ⟨m, t, sv, hr⟩ := finished_runs (k := .mhd2) (findSolver_sets (by simp [solverRegistry]) hs) h
    exact wellKept_of (dtLocalM_nonneg h1.wf h2 hid (.inl rfl)) h3 hr
  · obtain ⟨g2, g3, h2, h3, _⟩ := C54_mhd_runnable F c (Or.inr (hs _)) ho.nx ho.ny (le_trans (by norm_num) ho.nz)
      ho.x ho.y ho.z ho.slope ho.riemann ho.gamma ho.smallr ho.smallc ho.cfl
    have h1 : Mhd3 p := g3 ho.nz
    obtain ⟨m, t, sv, hr⟩ := finished_runs (k := .mhd3) (findSolver_sets (by simp [solverRegistry]) hs) h
    exact wellKept_of (dtLocalM_nonneg h1.wf h2 hid (.inr rfl)) h3 hr

/-- **C96 (closed box), 2D hydro.** If the file sets boundaries through which nothing can leave and the gravity predictor
is off, any two files of any execution have the same total mass and energy (with gravity: mass), and the same total momentum
along the periodic axes. -/
theorem C96_closed_box_2d (F : FloatLib ℝ) (M : MathLib ℝ) (e : Env ℝ) (hid : e.ident ≤ 0) (file : Option (List Char)) :
    let c := Ini.broadcastSerial file
    let p := hydroParams F c
    let g := gravityParams c
    Sets c "run" "solver_name" "Hydro_Muscl_2D" → Ordinary2 p → ClosedBox2 p →
    Periodic2 p ∨ p.riemannSolverType = .llf ∨ p.riemannSolverType = .hll ∨ p.riemannSolverType = .hllc →
    (g.enabled && g.hancock_predictor_enabled) = false →
    ∀ s', serialMain F M e file (.finished s') → ∀ o ∈ s'.outputs, ∀ o' ∈ s'.outputs, ∀ v, KeptBy2 p g v →
      total2 p (fun i j => o.data ⟨(), i, j, 0, v⟩) = total2 p (fun i j => o'.data ⟨(), i, j, 0, v⟩) := by
  intro c p g hs ho hc hr hg s' h o h1 o' h2 v hv
  obtain ⟨a1, a2, a3, a4⟩ := C36_runnable_2d F c (hs _) ho.nx ho.ny ho.nz ho.x ho.y ho.z ho.slope ho.riemann
    ho.gamma ho.smallr ho.smallc ho.cfl
  obtain ⟨m, t, sv, hrun⟩ := finished_runs (k := .hydro2) (findSolver_sets (by simp [solverRegistry]) hs) h
  have k := (C73_closed_box_2d a1 hc a4 hr a2 a3 hg hid e.jk hrun hv).1
  exact (k o h1).trans (k o' h2).symm

/-- **C96 (closed box), 3D hydro.** -/
theorem C96_closed_box_3d (F : FloatLib ℝ) (M : MathLib ℝ) (e : Env ℝ) (hid : e.ident ≤ 0) (file : Option (List Char)) :
    let c := Ini.broadcastSerial file
    let p := hydroParams F c
    let g := gravityParams c
    Sets c "run" "solver_name" "Hydro_Muscl_3D" → Ordinary3 p → ClosedBox3 p →
    Periodic3 p ∨ p.riemannSolverType = .llf ∨ p.riemannSolverType = .hllc →
    (g.enabled && g.hancock_predictor_enabled) = false →
    ∀ s', serialMain F M e file (.finished s') → ∀ o ∈ s'.outputs, ∀ o' ∈ s'.outputs, ∀ v, KeptBy3 p g v →
      total3 p (fun i j k => o.data ⟨(), i, j, k, v⟩) = total3 p (fun i j k => o'.data ⟨(), i, j, k, v⟩) := by
  intro c p g hs ho hc hr hg s' h o h1 o' h2 v hv
  obtain ⟨a1, a2, a3, a4⟩ := C36_runnable_3d F c (hs _) ho.nx ho.ny ho.nz ho.x ho.y ho.z ho.slope ho.riemann
    ho.gamma ho.smallr ho.smallc ho.cfl
  obtain ⟨m, t, sv, hrun⟩ := finished_runs (k := .hydro3) (findSolver_sets (by simp [solverRegistry]) hs) h
  have k := (C73_closed_box_3d a1 hc a4 hr a2 a3 hg hid e.jk hrun hv).1
  exact (k o h1).trans (k o' h2).symm

/-- **C96 (MHD), 2D.** In a periodic box any two files of any execution have the same totals of all eight
variables and in every cell the same discrete divergence of the magnetic field; it is zero in a fresh run of a problem with
solenoidal data. -/
theorem C96_mhd_2d (F : FloatLib ℝ) (M : MathLib ℝ) (e : Env ℝ) (hid : e.ident ≤ 0) (file : Option (List Char)) :
    let c := Ini.broadcastSerial file
    let p := hydroParams F c
    let q := mhdProblem F M c e.ju
    Sets c "run" "solver_name" "MHD_Muscl_2D" → OrdinaryM2 p → PeriodicBox2 p →
    ∀ s', serialMain F M e file (.finished s') →
      (∀ o ∈ s'.outputs, ∀ o' ∈ s'.outputs,
        (∀ v < 8, total2 p (fun i j => o.data ⟨(), i, j, 0, v⟩) = total2 p (fun i j => o'.data ⟨(), i, j, 0, v⟩)) ∧
        ∀ i j, interior2 p i j → divB2 p (fillM2 p (fun i j => shownM o.data i j 0)) i j =
          divB2 p (fillM2 p (fun i j => shownM o'.data i j 0)) i j) ∧
      (cfgBool c "run" "restart_enabled" false = false → DirectionOk2 q → Solenoidal2 p q →
        ∀ o ∈ s'.outputs, ∀ i j, interior2 p i j → divB2 p (fillM2 p (fun i j => shownM o.data i j 0)) i j = 0) := by
  intro c p q hs ho hP s' h
  obtain ⟨g2, g3, h2, h3, h4⟩ := C54_mhd_runnable F c (Or.inl (hs _)) ho.nx ho.ny ho.nz ho.x ho.y ho.z ho.slope
    ho.riemann ho.gamma ho.smallr ho.smallc ho.cfl
  have h1 : Mhd2 p := g2
  have hk := findSolver_sets (k := .mhd2) (by simp [solverRegistry]) hs
  constructor
  · obtain ⟨m, t, sv, hr⟩ := finished_runs hk h
    have k := C54_mhd_files_2d h1 hP h4 h2 h3 hid e.jkM hr
    intro o a o' b
    exact ⟨fun v hv => ((k o a).1 v hv).trans ((k o' b).1 v hv).symm,
      fun i j hij => ((k o a).2 i j hij).trans ((k o' b).2 i j hij).symm⟩
  · intro hres hq hsol
    obtain ⟨m, s'', he, hm, hrun⟩ := (serialMain_fresh hk hres _).1 h
    cases he
    exact C59_files_divergence_free_2d M h1 hP h4 h2 h3 hq hsol hm hid e.jkM hrun

/-- **C96 (MHD), 3D.** -/
theorem C96_mhd_3d (F : FloatLib ℝ) (M : MathLib ℝ) (e : Env ℝ) (hid : e.ident ≤ 0) (file : Option (List Char)) :
    let c := Ini.broadcastSerial file
    let p := hydroParams F c
    let q := mhdProblem F M c e.ju
    Sets c "run" "solver_name" "MHD_Muscl_3D" → OrdinaryM3 p → PeriodicBox3 p →
    ∀ s', serialMain F M e file (.finished s') →
      (∀ o ∈ s'.outputs, ∀ o' ∈ s'.outputs,
        (∀ v < 8, total3 p (fun i j k => o.data ⟨(), i, j, k, v⟩) =
          total3 p (fun i j k => o'.data ⟨(), i, j, k, v⟩)) ∧
        ∀ i j k, interior3 p i j k → divB3 p (fillM3 p (fun i j k => shownM o.data i j k)) i j k =
          divB3 p (fillM3 p (fun i j k => shownM o'.data i j k)) i j k) ∧
      (cfgBool c "run" "restart_enabled" false = false → DirectionOk3 q → Solenoidal3 p q →
        ∀ o ∈ s'.outputs, ∀ i j k, interior3 p i j k →
          divB3 p (fillM3 p (fun i j k => shownM o.data i j k)) i j k = 0) := by
  intro c p q hs ho hP s' h
  obtain ⟨g2, g3, h2, h3, h4⟩ := C54_mhd_runnable F c (Or.inr (hs _)) ho.nx ho.ny (le_trans (by norm_num) ho.nz)
    ho.x ho.y ho.z ho.slope ho.riemann ho.gamma ho.smallr ho.smallc ho.cfl
  have h1 : Mhd3 p := g3 ho.nz
  have hk := findSolver_sets (k := .mhd3) (by simp [solverRegistry]) hs
  constructor
  · obtain ⟨m, t, sv, hr⟩ := finished_runs hk h
    have k := C54_mhd_files_3d h1 hP h4 h2 h3 hid e.jkM hr
    intro o a o' b
    exact ⟨fun v hv => ((k o a).1 v hv).trans ((k o' b).1 v hv).symm,
      fun i j l hij => ((k o a).2 i j l hij).trans ((k o' b).2 i j l hij).symm⟩
  · intro hres hq hsol
    obtain ⟨m, s'', he, hm, hrun⟩ := (serialMain_fresh hk hres _).1 h
    cases he
    exact C59_files_divergence_free_3d M h1 hP h4 h2 h3 hq hsol hm hid e.jkM hrun

/-! ### The shipped files -/

theorem orszag2_boundaries : let c := cfgOf orszag2Ini
    cfgInt c "mesh" "boundary_type_xmin" 1 = 3 ∧ cfgInt c "mesh" "boundary_type_xmax" 1 = 3 ∧
    cfgInt c "mesh" "boundary_type_ymin" 1 = 3 ∧ cfgInt c "mesh" "boundary_type_ymax" 1 = 3 := by
  rw [cfgOf_eq (by decide +kernel)]
  decide +kernel

/-- every execution of the program on the shipped `test_mhd_orszag_tang_2D.ini` writes files without magnetic charges, and
there are such executions -/
theorem orszag2_solenoidal (e : Env ℝ) (hid : e.ident ≤ 0) (hj : e.ju = (0, 0)) :
    let p := hydroParams expLib (cfgOf orszag2Ini)
    (∃ s', serialMain expLib exactMath e (some (textOf orszag2Ini)) (.finished s')) ∧
    ∀ s', serialMain expLib exactMath e (some (textOf orszag2Ini)) (.finished s') → WellKept p s' ∧
      ∀ o ∈ s'.outputs, ∀ i j, interior2 p i j → divB2 p (fillM2 p (fun i j => shownM o.data i j 0)) i j = 0 := by
  intro p
  obtain ⟨hs, ho⟩ := orszag2_ordinary
  have hv := orszag2_values
  obtain ⟨b1, b2, b3, b4⟩ := orszag2_boundaries
  have hq : mhdProblem expLib exactMath (cfgOf orszag2Ini) e.ju =
      .orszagTang (orszagTangParams expLib (cfgOf orszag2Ini)) := by
    unfold mhdProblem
    rw [hv.2.2.2.2.2.2.2.2.2.2.2.2.2.2.2.2.2.2]
    rfl
  have hP : PeriodicBox2 p := by
    refine ⟨?_, ?_, ?_, ?_⟩
    · show BC.ofInt (cfgInt (cfgOf orszag2Ini) "mesh" "boundary_type_xmin" 1) = .periodic
      rw [b1]; rfl
    · show BC.ofInt (cfgInt (cfgOf orszag2Ini) "mesh" "boundary_type_xmax" 1) = .periodic
      rw [b2]; rfl
    · show BC.ofInt (cfgInt (cfgOf orszag2Ini) "mesh" "boundary_type_ymin" 1) = .periodic
      rw [b3]; rfl
    · show BC.ofInt (cfgInt (cfgOf orszag2Ini) "mesh" "boundary_type_ymax" 1) = .periodic
      rw [b4]; rfl
  constructor
  · obtain ⟨n, -, h⟩ := orszag2_program
    obtain ⟨⟨o, ho⟩, h⟩ := h e hid hj
    obtain ⟨s', rfl, -⟩ := h _ ho
    exact ⟨s', ho⟩
  · intro s' h
    refine ⟨C96_books_mhd expLib exactMath e hid _ (Or.inl ⟨hs, ho⟩) s' h, ?_⟩
    refine (C96_mhd_2d expLib exactMath e hid (some (textOf orszag2Ini)) hs ho hP s' h).2
      hv.2.2.2.2.2.2.2.2.2.2.2.2.2.2.2.2.2.1 ?_ ?_
    · rw [show mhdProblem expLib exactMath (Ini.broadcastSerial (some (textOf orszag2Ini))) e.ju = _ from hq]
      trivial
    · rw [show mhdProblem expLib exactMath (Ini.broadcastSerial (some (textOf orszag2Ini))) e.ju = _ from hq]
      trivial

theorem implode_closed : let c := implodeCfg
    cfgInt c "mesh" "boundary_type_xmin" 1 = 1 ∧ cfgInt c "mesh" "boundary_type_xmax" 1 = 1 ∧
    cfgInt c "mesh" "boundary_type_ymin" 1 = 1 ∧ cfgInt c "mesh" "boundary_type_ymax" 1 = 1 ∧
    riemannOf (cfgString c "hydro" "riemann" "approx") = .hllc ∧ (gravityParams c).enabled = false := by
  rw [implodeCfg_eq]
  decide +kernel

/-- every execution of the program on the shipped `test_implode_2D.ini` writes files with the same mass and energy, and
there are such executions -/
theorem implode_keeps (e : Env ℝ) (hid : e.ident ≤ 0) :
    let p := hydroParams exactLib implodeCfg
    (∃ s', serialMain exactLib exactMath e (some (textOf implodeIni)) (.finished s')) ∧
    ∀ s', serialMain exactLib exactMath e (some (textOf implodeIni)) (.finished s') → WellKept p s' ∧
      ∀ o ∈ s'.outputs, ∀ o' ∈ s'.outputs, ∀ v, v = ID ∨ v = IP →
        total2 p (fun i j => o.data ⟨(), i, j, 0, v⟩) = total2 p (fun i j => o'.data ⟨(), i, j, 0, v⟩) := by
  intro p
  obtain ⟨b1, b2, b3, b4, b5, b6⟩ := implode_closed
  have hc : ClosedBox2 p := by
    refine ⟨Or.inr ⟨?_, ?_⟩, Or.inr ⟨?_, ?_⟩⟩
    · show BC.ofInt (cfgInt implodeCfg "mesh" "boundary_type_xmin" 1) = .dirichlet
      rw [b1]; rfl
    · show BC.ofInt (cfgInt implodeCfg "mesh" "boundary_type_xmax" 1) = .dirichlet
      rw [b2]; rfl
    · show BC.ofInt (cfgInt implodeCfg "mesh" "boundary_type_ymin" 1) = .dirichlet
      rw [b3]; rfl
    · show BC.ofInt (cfgInt implodeCfg "mesh" "boundary_type_ymax" 1) = .dirichlet
      rw [b4]; rfl
  constructor
  · obtain ⟨n, -, h⟩ := implode_program
    obtain ⟨⟨o, ho⟩, h⟩ := h e hid trivial
    obtain ⟨s', rfl, -⟩ := h _ ho
    exact ⟨s', ho⟩
  · intro s' h
    refine ⟨C96_books_hydro exactLib exactMath e hid _ (Or.inl ⟨implode_sets.1, implode_ordinary⟩) s' h,
      fun o h1 o' h2 v hv => ?_⟩
    refine C96_closed_box_2d exactLib exactMath e hid (some (textOf implodeIni)) implode_sets.1 implode_ordinary hc
      (Or.inr (Or.inr (Or.inr b5))) ?_ s' h o h1 o' h2 v ?_
    · show ((gravityParams implodeCfg).enabled && _) = false
      rw [b6]; rfl
    · refine Or.inr ⟨b6, ?_⟩
      rcases hv with rfl | rfl
      · exact Or.inl rfl
      · exact Or.inr (Or.inl rfl)

end EulerKokkos
