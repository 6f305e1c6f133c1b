import Verif.Spec.ProgramRestart
import Verif.Props.C79
import Verif.Props.C67

/-!
# C88 — the program restarted from one of its files
-/

set_option linter.constructorNameAsVariable false
set_option linter.unusedSectionVars false
set_option linter.unusedSimpArgs false

namespace EulerKokkos
open Spec

variable {R : Type} [RealOps R]

/-! ## The options -/

/-- **C88 (options).** How the program reads an on/off option. -/
theorem C88_options (c : Ini.Reader) (s n : String) :
    (SwitchedOn c s n → ∀ d, cfgBool c s n d = true) ∧ (SwitchedOff c s n → ∀ d, cfgBool c s n d = false) ∧
    (Absent c s n → ∀ d, cfgBool c s n d = d) := by
  unfold cfgBool Ini.Reader.getBool
  refine ⟨?_, ?_, fun h d => ?_⟩
  · rintro ⟨v, hv, h⟩ d
    rw [h]
    simp only [List.mem_cons, List.not_mem_nil, or_false] at hv
    rcases hv with rfl | rfl | rfl | rfl <;> cases d <;> decide
  · rintro ⟨v, hv, h⟩ d
    rw [h]
    simp only [List.mem_cons, List.not_mem_nil, or_false] at hv
    rcases hv with rfl | rfl | rfl | rfl <;> cases d <;> decide
  · rw [h]
    cases d <;> decide

theorem optionOff {c : Ini.Reader} {s n : String} (h : OptionOff c s n) : cfgBool c s n false = false :=
  h.elim (fun h => (C88_options c s n).2.2 h _) (fun h => (C88_options c s n).2.1 h _)

theorem optionOn {c : Ini.Reader} {s n : String} (h : OptionOn c s n) : cfgBool c s n true = true :=
  h.elim (fun h => (C88_options c s n).2.2 h _) (fun h => (C88_options c s n).1 h _)

/-- **C88 (gravity option).** Gravity is off unless the file switches it on, and then it is on; without the
Hancock predictor unless the file asks for it. -/
theorem C88_gravity_option (c : Ini.Reader) :
    (OptionOff c "gravity" "enabled" → (gravityParams c).enabled = false) ∧
    (SwitchedOn c "gravity" "enabled" → (gravityParams c).enabled = true) ∧
    (OptionOff c "gravity" "hancock_predictor_enabled" → (gravityParams c).hancock_predictor_enabled = false) ∧
    (SwitchedOn c "gravity" "hancock_predictor_enabled" → (gravityParams c).hancock_predictor_enabled = true) :=
  ⟨fun h => optionOff h, fun h => (C88_options _ _ _).1 h _, fun h => optionOff h,
    fun h => (C88_options _ _ _).1 h _⟩

/-! ## What two files that differ in the restart options have in common -/

section same
variable {c c' : Ini.Reader} {name : String}

instance (s n : List Char) : Decidable (NotRestartKey s n) := by unfold NotRestartKey; infer_instance

theorem restarts_string (h : Restarts c c' name) {s n : String} (hk : NotRestartKey s.toList n.toList) (d : String) :
    cfgString c' s n d = cfgString c s n d := h.same _ _ _ hk

theorem restarts_float (h : Restarts c c' name) {s n : String} (hk : NotRestartKey s.toList n.toList) (F : FloatLib R)
    (d : ℚ) : cfgFloat F c' s n d = cfgFloat F c s n d := by
  unfold cfgFloat Ini.Reader.getFloat; rw [h.same _ _ _ hk]

theorem restarts_int (h : Restarts c c' name) {s n : String} (hk : NotRestartKey s.toList n.toList) (d : Int) :
    cfgInt c' s n d = cfgInt c s n d := by
  unfold cfgInt Ini.Reader.getInteger; rw [h.same _ _ _ hk]

theorem restarts_bool (h : Restarts c c' name) {s n : String} (hk : NotRestartKey s.toList n.toList) (d : Bool) :
    cfgBool c' s n d = cfgBool c s n d := by
  unfold cfgBool Ini.Reader.getBool; rw [h.same _ _ _ hk]

theorem restarts_params (h : Restarts c c' name) (F : FloatLib R) : hydroParams F c' = hydroParams F c := by
  unfold hydroParams rawParams getDim
  simp (disch := decide) only [restarts_float h, restarts_int h, restarts_string h]

theorem restarts_gravity (h : Restarts c c' name) : gravityParams c' = gravityParams c := by
  simp (disch := decide) only [gravityParams, restarts_bool h]

theorem restarts_solver (h : Restarts c c' name) : mainSolverName c' = mainSolverName c := by
  simp (disch := decide) only [mainSolverName, restarts_string h]

theorem plain_options (h : PlainHdf5 c) (hu : OptionOff c "run" "restart_upscale") : h5Options c = {} := by
  unfold h5Options
  rw [optionOff h.ghosts, optionOff h.allghosts, optionOn h.pieces, optionOff hu]

theorem restarts_plain (h : Restarts c c' name) (hp : PlainHdf5 c) :
    h5Options c' = {} ∧ cfgBool c' "output" "hdf5_enabled" false = true := by
  constructor
  · unfold h5Options
    rw [restarts_bool h (by decide), restarts_bool h (by decide), restarts_bool h (by decide),
      optionOff hp.ghosts, optionOff hp.allghosts, optionOn hp.pieces, optionOff h.upscale]
  · rw [restarts_bool h (by decide)]
    exact (C88_options _ _ _).1 hp.enabled _

theorem ends_h5 {stem : String} : isHdf5 (stem ++ ".h5").toList = true := by
  unfold isHdf5
  have e : (stem ++ ".h5").toList = stem.toList ++ ['.', 'h', '5'] := by
    rw [String.toList_append]; rfl
  rw [e, if_pos (by simp)]
  simp

end same

/-- with restart: the outcomes of the program -/
theorem serialMain_restart {F : FloatLib R} {M : MathLib R} {e : Env R} {file file' : Option (List Char)}
    {name : String} {k : SolverKind} (hk : findSolver (mainSolverName (Ini.broadcastSerial file)) = some k)
    (hr : Restarts (Ini.broadcastSerial file) (Ini.broadcastSerial file') name)
    (hp : PlainHdf5 (Ini.broadcastSerial file)) (hh : e.hdf5 = true) (o : Outcome R) :
    let c := Ini.broadcastSerial file
    let p := hydroParams F c
    serialMain F M e file' o ↔ ∃ m t sv s', o = .finished s' ∧
      (∀ l, l.arr ≠ .U → m l = freshMem l) ∧
      initRestart true (cfgBool (Ini.broadcastSerial file') "run" "restart_reset_totaltime" false) name.toList e.disk
        (fun f U => ∃ host, loadH5 e.lay {} p f host U) (viewOf freshMem .U) (cfgFloat F c "run" "tCurrent" 0)
        (viewOf m .U) sv t ∧
      runMain p (solverOps e c p k) m t sv s' := by
  intro c p
  have hsolver : findSolver (mainSolverName (Ini.broadcastSerial file')) = some k := by
    rw [restarts_solver hr]; exact hk
  have hops : ∀ q, solverOps e (Ini.broadcastSerial file') q = solverOps e c q := by
    intro q
    funext k
    cases k <;> unfold solverOps <;> rw [restarts_gravity hr]
  have hinit : ∀ m t sv, initSolver F M e (Ini.broadcastSerial file') (hydroParams F (Ini.broadcastSerial file')) k m t sv ↔
      (∀ l, l.arr ≠ .U → m l = freshMem l) ∧
      initRestart true (cfgBool (Ini.broadcastSerial file') "run" "restart_reset_totaltime" false) name.toList e.disk
        (fun f U => ∃ host, loadH5 e.lay {} p f host U) (viewOf freshMem .U) (cfgFloat F c "run" "tCurrent" 0)
        (viewOf m .U) sv t := by
    intro m t sv
    unfold initSolver
    dsimp only
    rw [if_pos ((C88_options _ _ _).1 hr.enabled _), hh, (restarts_plain hr hp).1, (restarts_plain hr hp).2,
      restarts_params hr, restarts_float hr (by decide), show cfgString _ "run" "restart_filename" "" = name.toList from hr.file _]
    rfl
  cases o with
  | aborted =>
    simp only [reduceCtorEq, false_and, exists_false, and_false, iff_false]
    intro h
    have h : findSolver (mainSolverName (Ini.broadcastSerial file')) = none := h
    rw [hsolver] at h
    cases h
  | finished s' =>
    constructor
    · rintro ⟨k', m, t, sv, h1, h2, h3⟩
      rw [hsolver] at h1
      cases h1
      rw [restarts_params hr, hops] at h3
      obtain ⟨h4, h5⟩ := (hinit _ _ _).1 h2
      exact ⟨m, t, sv, s', rfl, h4, h5, h3⟩
    · rintro ⟨m, t, sv, s'', h0, h1, h2, h3⟩
      cases h0
      refine ⟨k, m, t, sv, hsolver, (hinit _ _ _).2 ⟨h1, h2⟩, ?_⟩
      rw [restarts_params hr, hops]
      exact h3

theorem finished_run {F : FloatLib R} {M : MathLib R} {e : Env R} {file : Option (List Char)} {k : SolverKind}
    (hk : findSolver (mainSolverName (Ini.broadcastSerial file)) = some k) {A : RunState R}
    (h : serialMain F M e file (.finished A)) :
    let c := Ini.broadcastSerial file
    let p := hydroParams F c
    ∃ m t sv, runMain p (solverOps e c p k) m t sv A := by
  intro c p
  obtain ⟨k', m, t, sv, h1, -, h3⟩ := h
  have h1 : findSolver (mainSolverName c) = some k' := h1
  rw [show findSolver (mainSolverName c) = some k from hk] at h1
  cases h1
  exact ⟨m, t, sv, h3⟩

/-! ## The restarted program -/

section
variable {F : FloatLib ℝ} {M : MathLib ℝ} {file file' : Option (List Char)} {name : String}
  {e e' : Env ℝ} {A : RunState ℝ} {pre post : List (Output ℝ)} {o : Output ℝ} {f : H5File ℝ}

theorem Spec.Restarting.isH5 (h : Restarting F M file file' name e e' A pre o post f) : isHdf5 name.toList = true := by
  obtain ⟨stem, rfl⟩ := h.restart.ending
  exact ends_h5

theorem Spec.Restarting.saved' (h : Restarting F M file file' name e e' A pre o post f) :
    saveH5 e.lay {} (hydroParams F (Ini.broadcastSerial file)) o.data o.number o.time f := by
  have := h.saved
  rwa [plain_options h.plain h.up] at this

theorem Spec.Restarting.outcome (h : Restarting F M file file' name e e' A pre o post f) {k : SolverKind}
    (hk : findSolver (mainSolverName (Ini.broadcastSerial file)) = some k) {b : Bool}
    (hb : cfgBool (Ini.broadcastSerial file') "run" "restart_reset_totaltime" false = b) (x : Outcome ℝ) :
    let c := Ini.broadcastSerial file
    let p := hydroParams F c
    serialMain F M e' file' x ↔ ∃ m t sv s', x = .finished s' ∧
      (∀ l, l.arr ≠ .U → m l = freshMem l) ∧
      initRestart true b name.toList e'.disk
        (fun f U => ∃ host, loadH5 e'.lay {} p f host U) (viewOf freshMem .U) (cfgFloat F c "run" "tCurrent" 0)
        (viewOf m .U) sv t ∧
      runMain p (solverOps e' c p k) m t sv s' := by
  intro c p
  have := serialMain_restart (F := F) (M := M) hk h.restart h.plain h.hdf5 x
  rwa [hb] at this

/-- the restarted program completes -/
theorem Spec.Restarting.completes (h : Restarting F M file file' name e e' A pre o post f) {k : SolverKind}
    (hk : findSolver (mainSolverName (Ini.broadcastSerial file)) = some k)
    (hT : let c := Ini.broadcastSerial file
      let p := hydroParams F c
      ∀ m t sv, ∃ s', runMain p (solverOps e' c p k) m t sv s') : ∃ B, serialMain F M e' file' (.finished B) := by
  obtain ⟨U, hU⟩ : ∃ U, loadH5 e'.lay {} (hydroParams F (Ini.broadcastSerial file)) f (fun _ => 0) U :=
    readFields_exists ..
  let m : Mem Arr ℝ := fun l => if l.arr = .U then U ⟨(), l.i, l.j, l.k, l.v⟩ else freshMem l
  obtain ⟨b, hb⟩ : ∃ b, cfgBool (Ini.broadcastSerial file') "run" "restart_reset_totaltime" false = b := ⟨_, rfl⟩
  obtain ⟨B, hB⟩ := hT m (if b then lit 0 else f.time) f.step
  refine ⟨B, (h.outcome hk hb _).2 ⟨m, _, f.step, B, rfl, fun l hl => if_neg hl, ?_, hB⟩⟩
  refine ⟨f.time, rfl, ?_⟩
  rw [if_pos (by rw [h.isH5]; rfl)]
  exact ⟨f, h.disk, ⟨fun _ => 0, by
    have : viewOf m .U = U := by
      funext ⟨_, i, j, k, v⟩
      simp only [viewOf, m, if_true]
    rw [this]
    exact hU⟩, rfl, rfl⟩

/-- **C88 (2D hydro).** Without gravity: restarted with the same parameter file and the options that ask for a
restart from one of its HDF5 files, the program completes, and every execution — other schedules, uninitialised
locals, memory layout — continues the run it was restarted from: it ends at the same time with the same solution,
and writes the same files from that one on. -/
theorem C88_restart_hydro_2d (h : Restarting F M file file' name e e' A pre o post f)
    (hkeep : OptionOff (Ini.broadcastSerial file') "run" "restart_reset_totaltime") :
    let c := Ini.broadcastSerial file
    let p := hydroParams F c
    Sets c "run" "solver_name" "Hydro_Muscl_2D" → Ordinary2 p → OptionOff c "gravity" "enabled" →
    (∃ B, serialMain F M e' file' (.finished B)) ∧
    ∀ x, serialMain F M e' file' x → ∃ B, x = .finished B ∧ Continues (SameInterior2 p) p pre o post A B := by
  intro c p hs ho hgr
  have hk : findSolver (mainSolverName c) = some .hydro2 := findSolver_sets (by simp [solverRegistry]) hs
  obtain ⟨h1, h2, h3, h4⟩ := C36_runnable_2d F c (hs _) ho.nx ho.ny ho.nz ho.x ho.y ho.z ho.slope ho.riemann
    ho.gamma ho.smallr ho.smallc ho.cfl
  have h1 : Hydro2 p := h1
  have hd : p.dimType = .two := congrArg (·.2.2.1) (C79_consistent F c hk)
  refine ⟨h.completes hk fun m t sv => ?_, fun x hx => ?_⟩
  · have hT := total_hydro2 h1.wf h1.faces (gravityParams c) e'.ident e'.jk
    obtain ⟨s, hs⟩ := C14_starts (p := p) hT m t sv
    obtain ⟨_, s', _, _, h⟩ := C14_completes hT ho.nlog hs
    exact ⟨_, h⟩
  obtain ⟨m', t', n, B, rfl, -, hin, hB⟩ := (h.outcome hk (optionOff hkeep) x).1 hx
  obtain ⟨m, t, sv, hA⟩ := finished_run hk h.run
  refine ⟨B, rfl, C67_restart_hydro_2d h1 hd (C66_config_fields (lit 0) F c) h4 h2 h3 h.outputs (gravityParams c)
    h.identA h.identB hA h.reached h.which h.saved' h.isH5 h.disk hin (fun hg => ?_) hB⟩
  rw [(C88_gravity_option c).1 hgr] at hg; cases hg

/-- **C88 (3D hydro).** Without gravity: restarted with the same parameter file and the options that ask for a
restart from one of its HDF5 files, the program completes, and every execution — other schedules, uninitialised
locals, memory layout — continues the run it was restarted from: it ends at the same time with the same solution,
and writes the same files from that one on. -/
theorem C88_restart_hydro_3d (h : Restarting F M file file' name e e' A pre o post f)
    (hkeep : OptionOff (Ini.broadcastSerial file') "run" "restart_reset_totaltime") :
    let c := Ini.broadcastSerial file
    let p := hydroParams F c
    Sets c "run" "solver_name" "Hydro_Muscl_3D" → Ordinary3 p → OptionOff c "gravity" "enabled" →
    (∃ B, serialMain F M e' file' (.finished B)) ∧
    ∀ x, serialMain F M e' file' x → ∃ B, x = .finished B ∧ Continues (SameInterior3 p) p pre o post A B := by
  intro c p hs ho hgr
  have hk : findSolver (mainSolverName c) = some .hydro3 := findSolver_sets (by simp [solverRegistry]) hs
  obtain ⟨h1, h2, h3, h4⟩ := C36_runnable_3d F c (hs _) ho.nx ho.ny ho.nz ho.x ho.y ho.z ho.slope ho.riemann
    ho.gamma ho.smallr ho.smallc ho.cfl
  have h1 : Hydro3 p := h1
  have hd : p.dimType = .three := congrArg (·.2.2.1) (C79_consistent F c hk)
  refine ⟨h.completes hk fun m t sv => ?_, fun x hx => ?_⟩
  · have hT := total_hydro3 h1.wf h1.faces (gravityParams c) e'.ident e'.jk
    obtain ⟨s, hs⟩ := C14_starts (p := p) hT m t sv
    obtain ⟨_, s', _, _, h⟩ := C14_completes hT ho.nlog hs
    exact ⟨_, h⟩
  obtain ⟨m', t', n, B, rfl, -, hin, hB⟩ := (h.outcome hk (optionOff hkeep) x).1 hx
  obtain ⟨m, t, sv, hA⟩ := finished_run hk h.run
  refine ⟨B, rfl, C67_restart_hydro_3d h1 hd (C66_config_fields (lit 0) F c) h4 h2 h3 h.outputs (gravityParams c)
    h.identA h.identB hA h.reached h.which h.saved' h.isH5 h.disk hin (fun hg => ?_) hB⟩
  rw [(C88_gravity_option c).1 hgr] at hg; cases hg

/-- **C88 (2D MHD).** Restarted with the same parameter file and the options that ask for a
restart from one of its HDF5 files, the program completes, and every execution — other schedules, uninitialised
locals, memory layout — continues the run it was restarted from: it ends at the same time with the same solution,
and writes the same files from that one on. -/
theorem C88_restart_mhd_2d (h : Restarting F M file file' name e e' A pre o post f)
    (hkeep : OptionOff (Ini.broadcastSerial file') "run" "restart_reset_totaltime") :
    let c := Ini.broadcastSerial file
    let p := hydroParams F c
    Sets c "run" "solver_name" "MHD_Muscl_2D" → OrdinaryM2 p →
    (∃ B, serialMain F M e' file' (.finished B)) ∧
    ∀ x, serialMain F M e' file' x → ∃ B, x = .finished B ∧ Continues (SameInterior2 p) p pre o post A B := by
  intro c p hs ho
  have hk : findSolver (mainSolverName c) = some .mhd2 := findSolver_sets (by simp [solverRegistry]) hs
  obtain ⟨g2, g3, h2, h3, h4⟩ := C54_mhd_runnable F c (Or.inl (hs _)) ho.nx ho.ny ho.nz ho.x ho.y ho.z ho.slope
    ho.riemann ho.gamma ho.smallr ho.smallc ho.cfl
  have h1 : Mhd2 p := g2
  have hd : p.dimType = .two := congrArg (·.2.2.1) (C79_consistent F c hk)
  refine ⟨h.completes hk fun m t sv => ?_, fun x hx => ?_⟩
  · have hT := total_mhd2 h1.wf h1.faces e'.ident e'.jkM
    obtain ⟨s, hs⟩ := C14_starts (p := p) hT m t sv
    obtain ⟨_, s', _, _, h⟩ := C14_completes hT ho.nlog hs
    exact ⟨_, h⟩
  obtain ⟨m', t', n, B, rfl, -, hin, hB⟩ := (h.outcome hk (optionOff hkeep) x).1 hx
  obtain ⟨m, t, sv, hA⟩ := finished_run hk h.run
  exact ⟨B, rfl, C67_restart_mhd_2d h1 hd (C66_config_fields (lit 0) F c) h4 h2 h3 h.outputs
    h.identA h.identB hA h.reached h.which h.saved' h.isH5 h.disk hin hB⟩

/-- **C88 (3D MHD).** Restarted with the same parameter file and the options that ask for a
restart from one of its HDF5 files, the program completes, and every execution — other schedules, uninitialised
locals, memory layout — continues the run it was restarted from: it ends at the same time with the same solution,
and writes the same files from that one on. -/
theorem C88_restart_mhd_3d (h : Restarting F M file file' name e e' A pre o post f)
    (hkeep : OptionOff (Ini.broadcastSerial file') "run" "restart_reset_totaltime") :
    let c := Ini.broadcastSerial file
    let p := hydroParams F c
    Sets c "run" "solver_name" "MHD_Muscl_3D" → OrdinaryM3 p →
    (∃ B, serialMain F M e' file' (.finished B)) ∧
    ∀ x, serialMain F M e' file' x → ∃ B, x = .finished B ∧ Continues (SameInterior3 p) p pre o post A B := by
  intro c p hs ho
  have hk : findSolver (mainSolverName c) = some .mhd3 := findSolver_sets (by simp [solverRegistry]) hs
  obtain ⟨g2, g3, h2, h3, h4⟩ := C54_mhd_runnable F c (Or.inr (hs _)) ho.nx ho.ny (le_trans (by norm_num) ho.nz) ho.x ho.y ho.z ho.slope
    ho.riemann ho.gamma ho.smallr ho.smallc ho.cfl
  have h1 : Mhd3 p := g3 ho.nz
  have hd : p.dimType = .three := congrArg (·.2.2.1) (C79_consistent F c hk)
  refine ⟨h.completes hk fun m t sv => ?_, fun x hx => ?_⟩
  · have hT := total_mhd3 h1.wf h1.faces e'.ident e'.jkM
    obtain ⟨s, hs⟩ := C14_starts (p := p) hT m t sv
    obtain ⟨_, s', _, _, h⟩ := C14_completes hT ho.nlog hs
    exact ⟨_, h⟩
  obtain ⟨m', t', n, B, rfl, -, hin, hB⟩ := (h.outcome hk (optionOff hkeep) x).1 hx
  obtain ⟨m, t, sv, hA⟩ := finished_run hk h.run
  exact ⟨B, rfl, C67_restart_mhd_3d h1 hd (C66_config_fields (lit 0) F c) h4 h2 h3 h.outputs
    h.identA h.identB hA h.reached h.which h.saved' h.isH5 h.disk hin hB⟩

/-! ## Time counted from zero -/

theorem sim_first {X : Type} {p : Params ℝ} {Me : Method X} {x : X} {t : ℝ} {sv : Int} (hn : p.nOutput ≠ 0) (k : Nat) :
    ∃ l, (Sim.result p Me x t sv k).files = (sv, t, x) :: l := by
  have key : ∀ k, ∃ l, ((Sim.turn p Me)^[k] (Sim.start p x t sv)).files = (sv, t, x) :: l := by
    intro k
    induction k with
    | zero =>
      refine ⟨[], ?_⟩
      unfold Sim.start
      simp only [Function.iterate_zero, id_eq, if_pos hn, Sim.save, List.nil_append]
    | succ k ih =>
      obtain ⟨l, hl⟩ := ih
      rw [Function.iterate_succ_apply']
      generalize (Sim.turn p Me)^[k] (Sim.start p x t sv) = s at hl
      unfold Sim.turn
      dsimp only
      split_ifs
      · exact ⟨l ++ [(s.next, s.t, s.x)], by simp only [Sim.save, hl, List.cons_append]⟩
      · exact ⟨l, hl⟩
  obtain ⟨l, hl⟩ := key k
  unfold Sim.result
  dsimp only
  rw [if_pos hn]
  generalize (Sim.turn p Me)^[k] (Sim.start p x t sv) = s at hl
  exact ⟨l ++ [(s.next, s.t, s.x)], by simp only [Sim.save, hl, List.cons_append]⟩

theorem first_view {X : Type} {p : Params ℝ} {S : SolverOps ℝ} {Me : Method X} {Inv : Nat → Mem Arr ℝ → X → Prop}
    {View : (Loc Unit → ℝ) → X → Prop} (hR : Refines p S Me Inv View) (he : p.enableOutput = decide (p.nOutput ≠ 0))
    (hn : p.nOutput ≠ 0) {m : Mem Arr ℝ} {x : X} {t : ℝ} {sv : Int} {s' : RunState ℝ}
    (hinit : ∀ m₁, S.setup m m₁ → Inv 0 m₁ x) (h : runMain p S m t sv s') :
    ∃ o rest, s'.outputs = o :: rest ∧ o.number = sv ∧ o.time = t ∧ View o.data x := by
  obtain ⟨-, r⟩ := refine_run hR he hinit h
  have hf := r.files
  obtain ⟨l, hl⟩ := sim_first (Me := Me) (x := x) (t := t) (sv := sv) hn s'.iteration
  rw [hl] at hf
  cases ho : s'.outputs with
  | nil => rw [ho] at hf; cases hf
  | cons o rest =>
    rw [ho] at hf
    cases hf with
    | cons h1 _ => exact ⟨o, rest, rfl, h1.1, h1.2.1, h1.2.2⟩

theorem some_view {X : Type} {p : Params ℝ} {S : SolverOps ℝ} {Me : Method X} {Inv : Nat → Mem Arr ℝ → X → Prop}
    {View : (Loc Unit → ℝ) → X → Prop} (hR : Refines p S Me Inv View) (he : p.enableOutput = decide (p.nOutput ≠ 0))
    {m : Mem Arr ℝ} {x : X} {t : ℝ} {sv : Int} {s' : RunState ℝ}
    (hinit : ∀ m₁, S.setup m m₁ → Inv 0 m₁ x) (h : runMain p S m t sv s') {pre post : List (Output ℝ)} {o : Output ℝ}
    (ho : s'.outputs = pre ++ o :: post) : ∃ z, View o.data z := by
  obtain ⟨-, r⟩ := refine_run hR he hinit h
  have hf := r.files
  rw [ho] at hf
  obtain ⟨_, f, _, -, -, h1, -⟩ := forall₂_split hf
  exact ⟨_, h1.2.2⟩

theorem reset_reads {R : Type} [RealOps R] {name : List Char} {disk : List Char → Option (H5File R)} {f : H5File R}
    {load : H5File R → (Loc Unit → R) → (Loc Unit → R) → Prop} {U₀ U : Loc Unit → R} {tc t' : R} {n : Int}
    (hname : isHdf5 name = true) (hdisk : disk name = some f)
    (hr : initRestart true true name disk (fun f U => ∃ host, load f host U) U₀ tc U n t') :
    ∃ host, load f host U ∧ n = f.step ∧ t' = lit 0 := by
  obtain ⟨_, ht, hr⟩ := hr
  simp only [hname, Bool.and_self, if_true] at hr
  obtain ⟨f', hf', ⟨host, hl⟩, hnum, htime⟩ := hr
  obtain rfl : f = f' := by rw [hdisk] at hf'; exact Option.some.inj hf'
  simp only [if_true] at ht
  exact ⟨host, hl, hnum, ht⟩

/-- **C88 (time reset, 2D hydro).** With `restart_reset_totaltime` on, the restarted run starts from the solution of the
file, at time zero, and numbers its files from the number of the file on. -/
theorem C88_reset_hydro_2d (h : Restarting F M file file' name e e' A pre o post f)
    (hreset : SwitchedOn (Ini.broadcastSerial file') "run" "restart_reset_totaltime") :
    let c := Ini.broadcastSerial file
    let p := hydroParams F c
    Sets c "run" "solver_name" "Hydro_Muscl_2D" → Ordinary2 p →
    ∀ x, serialMain F M e' file' x → ∃ B o' rest, x = .finished B ∧ B.outputs = o' :: rest ∧
      o'.number = o.number ∧ o'.time = 0 ∧ SameInterior2 p o.data o'.data := by
  intro c p hs ho x hx
  have hk : findSolver (mainSolverName c) = some .hydro2 := findSolver_sets (by simp [solverRegistry]) hs
  obtain ⟨h1, h2, h3, h4⟩ := C36_runnable_2d F c (hs _) ho.nx ho.ny ho.nz ho.x ho.y ho.z ho.slope ho.riemann
    ho.gamma ho.smallr ho.smallc ho.cfl
  have h1 : Hydro2 p := h1
  have hd : p.dimType = .two := congrArg (·.2.2.1) (C79_consistent F c hk)
  obtain ⟨m', t', n, B, rfl, -, hin, hB⟩ := (h.outcome hk ((C88_options _ _ _).1 hreset _) x).1 hx
  obtain ⟨m, t, sv, hA⟩ := finished_run hk h.run
  obtain ⟨host, hl, rfl, rfl⟩ := reset_reads h.isH5 h.disk hin
  have hsave := h.saved'
  have hsame : SameInterior2 p o.data (viewOf m' .U) := fun i j v hij hv =>
    (C66_roundtrip_2d h1.wf hd (C66_config_fields (lit 0) F c) hsave hl hij hv).symm
  obtain ⟨z, hz⟩ := some_view (refines_hydro2 h1 h4 h2 (gravityParams c) h.identA e.jk _) h3 (fun _ hm => setup_hydro2 h1 hm) hA h.which
  obtain ⟨o', rest, e1, e2, e3, e4⟩ := first_view (refines_hydro2 h1 h4 h2 (gravityParams c) h.identB e'.jk _) h3 h.outputs
    (fun _ hm => setup_hydro2 h1 hm) hB
  refine ⟨B, o', rest, rfl, e1, e2.trans hsave.1, e3.trans (by simp), ?_⟩
  exact shows2_same h1 _ _ _ _ hz e4 (start_hydro2 h1 hsame z hz)

/-- **C88 (time reset, 3D hydro).** With `restart_reset_totaltime` on, the restarted run starts from the solution of the
file, at time zero, and numbers its files from the number of the file on. -/
theorem C88_reset_hydro_3d (h : Restarting F M file file' name e e' A pre o post f)
    (hreset : SwitchedOn (Ini.broadcastSerial file') "run" "restart_reset_totaltime") :
    let c := Ini.broadcastSerial file
    let p := hydroParams F c
    Sets c "run" "solver_name" "Hydro_Muscl_3D" → Ordinary3 p →
    ∀ x, serialMain F M e' file' x → ∃ B o' rest, x = .finished B ∧ B.outputs = o' :: rest ∧
      o'.number = o.number ∧ o'.time = 0 ∧ SameInterior3 p o.data o'.data := by
  intro c p hs ho x hx
  have hk : findSolver (mainSolverName c) = some .hydro3 := findSolver_sets (by simp [solverRegistry]) hs
  obtain ⟨h1, h2, h3, h4⟩ := C36_runnable_3d F c (hs _) ho.nx ho.ny ho.nz ho.x ho.y ho.z ho.slope ho.riemann
    ho.gamma ho.smallr ho.smallc ho.cfl
  have h1 : Hydro3 p := h1
  have hd : p.dimType = .three := congrArg (·.2.2.1) (C79_consistent F c hk)
  obtain ⟨m', t', n, B, rfl, -, hin, hB⟩ := (h.outcome hk ((C88_options _ _ _).1 hreset _) x).1 hx
  obtain ⟨m, t, sv, hA⟩ := finished_run hk h.run
  obtain ⟨host, hl, rfl, rfl⟩ := reset_reads h.isH5 h.disk hin
  have hsave := h.saved'
  have hsame : SameInterior3 p o.data (viewOf m' .U) := fun i j k v hij hv =>
    (C66_roundtrip_3d h1.wf hd (C66_config_fields (lit 0) F c) hsave hl hij hv).symm
  obtain ⟨z, hz⟩ := some_view (refines_hydro3 h1 h4 h2 (gravityParams c) h.identA e.jk _) h3 (fun _ hm => setup_hydro3 h1 hm) hA h.which
  obtain ⟨o', rest, e1, e2, e3, e4⟩ := first_view (refines_hydro3 h1 h4 h2 (gravityParams c) h.identB e'.jk _) h3 h.outputs
    (fun _ hm => setup_hydro3 h1 hm) hB
  refine ⟨B, o', rest, rfl, e1, e2.trans hsave.1, e3.trans (by simp), ?_⟩
  exact shows3_same h1 _ _ _ _ hz e4 (start_hydro3 h1 hsame z hz)

/-- **C88 (time reset, 2D MHD).** With `restart_reset_totaltime` on, the restarted run starts from the solution of the
file, at time zero, and numbers its files from the number of the file on. -/
theorem C88_reset_mhd_2d (h : Restarting F M file file' name e e' A pre o post f)
    (hreset : SwitchedOn (Ini.broadcastSerial file') "run" "restart_reset_totaltime") :
    let c := Ini.broadcastSerial file
    let p := hydroParams F c
    Sets c "run" "solver_name" "MHD_Muscl_2D" → OrdinaryM2 p →
    ∀ x, serialMain F M e' file' x → ∃ B o' rest, x = .finished B ∧ B.outputs = o' :: rest ∧
      o'.number = o.number ∧ o'.time = 0 ∧ SameInterior2 p o.data o'.data := by
  intro c p hs ho x hx
  have hk : findSolver (mainSolverName c) = some .mhd2 := findSolver_sets (by simp [solverRegistry]) hs
  obtain ⟨g2, g3, h2, h3, h4⟩ := C54_mhd_runnable F c (Or.inl (hs _)) ho.nx ho.ny ho.nz ho.x ho.y ho.z ho.slope
    ho.riemann ho.gamma ho.smallr ho.smallc ho.cfl
  have h1 : Mhd2 p := g2
  have hd : p.dimType = .two := congrArg (·.2.2.1) (C79_consistent F c hk)
  obtain ⟨m', t', n, B, rfl, -, hin, hB⟩ := (h.outcome hk ((C88_options _ _ _).1 hreset _) x).1 hx
  obtain ⟨m, t, sv, hA⟩ := finished_run hk h.run
  obtain ⟨host, hl, rfl, rfl⟩ := reset_reads h.isH5 h.disk hin
  have hsave := h.saved'
  have hsame : SameInterior2 p o.data (viewOf m' .U) := fun i j v hij hv =>
    (C66_roundtrip_2d h1.wf hd (C66_config_fields (lit 0) F c) hsave hl hij hv).symm
  obtain ⟨z, hz⟩ := some_view (refines_mhd2 h1 h4 h2 h.identA e.jkM) h3 (x := ms2 m .U) (fun _ hm => setup_mhd2 h1 signLaws_real hm) hA h.which
  obtain ⟨o', rest, e1, e2, e3, e4⟩ := first_view (refines_mhd2 h1 h4 h2 h.identB e'.jkM) h3 h.outputs
    (x := ms2 m' .U) (fun _ hm => setup_mhd2 h1 signLaws_real hm) hB
  refine ⟨B, o', rest, rfl, e1, e2.trans hsave.1, e3.trans (by simp), ?_⟩
  exact showsM2_same h1 _ _ _ _ hz e4 (start_mhd2 h1 hsame z hz)

/-- **C88 (time reset, 3D MHD).** With `restart_reset_totaltime` on, the restarted run starts from the solution of the
file, at time zero, and numbers its files from the number of the file on. -/
theorem C88_reset_mhd_3d (h : Restarting F M file file' name e e' A pre o post f)
    (hreset : SwitchedOn (Ini.broadcastSerial file') "run" "restart_reset_totaltime") :
    let c := Ini.broadcastSerial file
    let p := hydroParams F c
    Sets c "run" "solver_name" "MHD_Muscl_3D" → OrdinaryM3 p →
    ∀ x, serialMain F M e' file' x → ∃ B o' rest, x = .finished B ∧ B.outputs = o' :: rest ∧
      o'.number = o.number ∧ o'.time = 0 ∧ SameInterior3 p o.data o'.data := by
  intro c p hs ho x hx
  have hk : findSolver (mainSolverName c) = some .mhd3 := findSolver_sets (by simp [solverRegistry]) hs
  obtain ⟨g2, g3, h2, h3, h4⟩ := C54_mhd_runnable F c (Or.inr (hs _)) ho.nx ho.ny (le_trans (by norm_num) ho.nz) ho.x ho.y ho.z ho.slope
    ho.riemann ho.gamma ho.smallr ho.smallc ho.cfl
  have h1 : Mhd3 p := g3 ho.nz
  have hd : p.dimType = .three := congrArg (·.2.2.1) (C79_consistent F c hk)
  obtain ⟨m', t', n, B, rfl, -, hin, hB⟩ := (h.outcome hk ((C88_options _ _ _).1 hreset _) x).1 hx
  obtain ⟨m, t, sv, hA⟩ := finished_run hk h.run
  obtain ⟨host, hl, rfl, rfl⟩ := reset_reads h.isH5 h.disk hin
  have hsave := h.saved'
  have hsame : SameInterior3 p o.data (viewOf m' .U) := fun i j k v hij hv =>
    (C66_roundtrip_3d h1.wf hd (C66_config_fields (lit 0) F c) hsave hl hij hv).symm
  obtain ⟨z, hz⟩ := some_view (refines_mhd3 h1 h4 h2 h.identA e.jkM) h3 (x := ms m .U) (fun _ hm => setup_mhd3 h1 signLaws_real hm) hA h.which
  obtain ⟨o', rest, e1, e2, e3, e4⟩ := first_view (refines_mhd3 h1 h4 h2 h.identB e'.jkM) h3 h.outputs
    (x := ms m' .U) (fun _ hm => setup_mhd3 h1 signLaws_real hm) hB
  refine ⟨B, o', rest, rfl, e1, e2.trans hsave.1, e3.trans (by simp), ?_⟩
  exact showsM3_same h1 _ _ _ _ hz e4 (start_mhd3 h1 hsame z hz)

end

end EulerKokkos
