import Verif.Lemmas.WholeDomain
import Verif.Props.C79

/-!
# C80 — the MPI program on a process grid does what the serial program does on the whole domain
-/

set_option linter.constructorNameAsVariable false
set_option linter.unusedSectionVars false
set_option linter.unusedSimpArgs false

namespace EulerKokkos
open Spec Spmd

variable {R : Type} [RealOps R] {T : Topo}

namespace Spec

/-- Whatever the interleaving of the processes, the schedules of the kernels and the buffering of messages, the
processes started in the states `st` never get stuck, end after a bounded number of steps, with no message
left, and then all of them have made the iterations of the serial run that ended in `s'`, at the same times, and
have written the blocks of its files. -/
def Reproduces (flow : Flow Ctl T.Rank (RunState R) (Msg R)) (st : T.Rank → RunState R)
    (Block : T.Rank → Output R → Output R → Prop) (s' : RunState R) : Prop :=
  ∃ N, ∀ (buf : Prop) n y, FSteps buf flow n (FConfig.init (.pre 0) st) y →
    n ≤ N ∧ (¬ y.Done flow → ∃ z, FStep False flow y z) ∧
    (y.Done flow → (∀ a b tag, y.c.chan a b tag = []) ∧
      ∀ r, (y.c.st r).iteration = s'.iteration ∧ (y.c.st r).t = s'.t ∧
        (y.c.st r).times_saved = s'.times_saved ∧ List.Forall₂ (Block r) (y.c.st r).outputs s'.outputs)

end Spec

/-- the parts of `C56_run`, `C61_run` that do not mention memory -/
theorem reproduces_of {flow : Flow Ctl T.Rank (RunState R) (Msg R)} {st : T.Rank → RunState R}
    {Block : T.Rank → Output R → Output R → Prop} {s' : RunState R}
    {Q : FConfig Ctl T.Rank (RunState R) (Msg R) → Prop}
    (h : ∃ N, ∀ (buf : Prop) n y, FSteps buf flow n (FConfig.init (.pre 0) st) y →
      n ≤ N ∧ (¬ y.Done flow → ∃ z, FStep False flow y z) ∧
      (y.Done flow → (∀ a b tag, y.c.chan a b tag = []) ∧
        (∀ r, (y.c.st r).iteration = s'.iteration ∧ (y.c.st r).t = s'.t ∧
          (y.c.st r).times_saved = s'.times_saved ∧
          List.Forall₂ (Block r) (y.c.st r).outputs s'.outputs) ∧ Q y)) :
    Reproduces flow st Block s' := by
  obtain ⟨N, h⟩ := h
  refine ⟨N, fun buf n y hy => ?_⟩
  obtain ⟨h1, h2, h3⟩ := h buf n y hy
  exact ⟨h1, h2, fun hd => ⟨(h3 hd).1, (h3 hd).2.1⟩⟩

theorem goodGrid_local {p : Params ℝ} (T : Topo) (h : GoodGrid p.init) (hx : 1 ≤ p.nx) (hy : 1 ≤ p.ny)
    (hz : 1 ≤ p.nz) (bx : p.xmin < p.xmax) (by_ : p.ymin < p.ymax) (bz : p.zmin < p.zmax) :
    GoodGrid (localParams T p) := by
  have key : ∀ (n : Int) (m : Nat), 1 ≤ n → 0 < m → (0 : ℝ) < intLit (R := ℝ) (n * m) := by
    intro n m hn hm
    simp only [intLit, RealOps.lit_real]
    have : (0 : Int) < n * m := by positivity
    exact_mod_cast this
  exact ⟨h.settings, h.cfl, div_pos (sub_pos.2 bx) (key _ _ hx T.hx), div_pos (sub_pos.2 by_) (key _ _ hy T.hy),
    div_pos (sub_pos.2 bz) (key _ _ hz T.hz)⟩

theorem mpiStarts_iff {F : FloatLib R} {M : MathLib R} {e : EnvMpi T R} {file : Option (List Char)}
    {st : T.Rank → RunState R} {flow : Flow Ctl T.Rank (RunState R) (Msg R)} {k : SolverKind}
    (hk : findSolver (mainSolverName (Ini.broadcastMpi file)) = some k)
    (h : MpiStarts F M e file st flow) :
    cfgBool (Ini.broadcastMpi file) "run" "restart_enabled" false = false ∧ ∃ m : T.Rank → Mem Arr R,
      (∀ r, initProblemMpi F M e (Ini.broadcastMpi file) (hydroParamsMpi T F (Ini.broadcastMpi file)) r (m r) k) ∧
      st = (fun r => startState (m r) (cfgFloat F (Ini.broadcastMpi file) "run" "tCurrent" 0) 0) ∧
      flow = mpiMain (hydroParamsMpi T F (Ini.broadcastMpi file))
        (solverOpsMpi e (Ini.broadcastMpi file) (hydroParamsMpi T F (Ini.broadcastMpi file)) k) := by
  obtain ⟨-, hr, k', m, hk', h⟩ := h
  rw [hk] at hk'
  cases hk'
  exact ⟨hr, m, h⟩

theorem wf_local {p : Params R} (T : Topo) (h : p.init.WF) : (localParams T p).WF :=
  ⟨h.nx_pos, h.ny_pos, h.nz_pos, h.gw_pos, h.imin_eq, h.jmin_eq, h.kmin_eq, h.imax_eq, h.jmax_eq, h.kmax_eq,
    h.isize_eq, h.jsize_eq, h.ksize_eq⟩

/-- the serial program on the file of the whole domain, in terms of the file of the distributed run -/
theorem serial_of_whole {F : FloatLib R} {M : MathLib R} {e' : Env R} {c : Ini.Reader}
    {file' : Option (List Char)} {s' : RunState R} {k : SolverKind}
    (hw : WholeDomain T c (Ini.broadcastSerial file')) (hk : findSolver (mainSolverName c) = some k)
    (hr : cfgBool c "run" "restart_enabled" false = false) (h : serialMain F M e' file' (.finished s')) :
    ∃ G, initProblem F M e' c (globalParams T (rawParams (lit 0) F c)) G k ∧
      runMain (globalParams T (rawParams (lit 0) F c)) (solverOps e' c (globalParams T (rawParams (lit 0) F c)) k)
        G (cfgFloat F c "run" "tCurrent" 0) 0 s' := by
  have hk' : findSolver (mainSolverName (Ini.broadcastSerial file')) = some k := by
    rw [whole_solver hw]; exact hk
  have hr' : cfgBool (Ini.broadcastSerial file') "run" "restart_enabled" false = false := by
    rw [whole_bool hw (by decide)]; exact hr
  obtain ⟨G, s'', e1, hG, hrun⟩ := (serialMain_fresh hk' hr' _).1 h
  cases e1
  rw [whole_params hw] at hG hrun
  rw [whole_float hw (by decide)] at hrun
  refine ⟨G, ?_, ?_⟩
  · cases k <;> simp only [initProblem] at hG ⊢ <;>
      simpa only [whole_gravity hw, whole_problem2 hw, whole_problem3 hw, whole_problemM hw] using hG
  · cases k <;> simp only [solverOps] at hrun ⊢ <;> simpa only [whole_gravity hw] using hrun

/-- **C80 (2D hydro).** Two parameter files that agree except that the second gives the numbers of cells of the
whole domain: the MPI build on the process grid of the first does what the serial build does on the second. -/
theorem C80_hydro_2d (F : FloatLib ℝ) (M : MathLib ℝ) {file file' : Option (List Char)}
    {e : EnvMpi T ℝ} {e' : Env ℝ} {st : T.Rank → RunState ℝ}
    {flow : Flow Ctl T.Rank (RunState ℝ) (Msg ℝ)} {s' : RunState ℝ} :
    let c := Ini.broadcastMpi file
    let p := hydroParamsMpi T F c
    WholeDomain T c (Ini.broadcastSerial file') → Sets c "run" "solver_name" "Hydro_Muscl_2D" →
    Ordinary2 p → NamedBC2 T p → (∀ j, Seedless (hydroProblem2 F M c j)) →
    e.ident ≤ 0 → e'.ident ≤ 0 →
    MpiStarts F M e file st flow → serialMain F M e' file' (.finished s') →
    Reproduces flow st (BlockFile2 T (rawParams (lit 0) F c)) s' := by
  intro c p hw hs ho hbc hsd hid hid' h h'
  have hk : findSolver (mainSolverName c) = some .hydro2 := findSolver_sets (by simp [solverRegistry]) hs
  obtain ⟨hr, m, hm, rfl, rfl⟩ := mpiStarts_iff hk h
  obtain ⟨G, ⟨-, hG⟩, hrun⟩ := serial_of_whole hw hk hr h'
  obtain ⟨h1, h2, h3, h4⟩ := C36_runnable_2d F c (hs _) ho.nx ho.ny ho.nz ho.x ho.y ho.z ho.slope ho.riemann
    ho.gamma ho.smallr ho.smallc ho.cfl
  have hnx : 2 ≤ (rawParams (lit (R := ℝ) 0) F c).nx := ho.nx
  have hny : 2 ≤ (rawParams (lit (R := ℝ) 0) F c).ny := ho.ny
  have hgw : (rawParams (lit (R := ℝ) 0) F c).ghostWidth = 2 :=
    (C36_solver_table F c (List.mem_cons_self ..) (hs _)).2.1
  have h1' : Hydro2 p := ⟨wf_local T h1.wf, h1.nbvar, ⟨h1.valid.slope, h1.valid.riemann⟩, h1.faces⟩
  have hgr : GoodGrid p := goodGrid_local T h2 (by omega) (by omega) ho.nz ho.x ho.y ho.z
  exact reproduces_of (C56_run_2d h1' ⟨hgw.trans_le hnx, hgw.trans_le hny⟩ hbc h4 hgr h3 ho.nlog hid hid' F M c
    e.ju e'.ju hsd hG hrun (fun r => (hm r).2))

/-- **C80 (3D hydro).** -/
theorem C80_hydro_3d (F : FloatLib ℝ) (M : MathLib ℝ) {file file' : Option (List Char)}
    {e : EnvMpi T ℝ} {e' : Env ℝ} {st : T.Rank → RunState ℝ}
    {flow : Flow Ctl T.Rank (RunState ℝ) (Msg ℝ)} {s' : RunState ℝ} :
    let c := Ini.broadcastMpi file
    let p := hydroParamsMpi T F c
    WholeDomain T c (Ini.broadcastSerial file') → Sets c "run" "solver_name" "Hydro_Muscl_3D" →
    Ordinary3 p → NamedBC3 T p → (∀ j, Seedless (hydroProblem3 F M c j)) →
    e.ident ≤ 0 → e'.ident ≤ 0 →
    MpiStarts F M e file st flow → serialMain F M e' file' (.finished s') →
    Reproduces flow st (BlockFile3 T (rawParams (lit 0) F c)) s' := by
  intro c p hw hs ho hbc hsd hid hid' h h'
  have hk : findSolver (mainSolverName c) = some .hydro3 := findSolver_sets (by simp [solverRegistry]) hs
  obtain ⟨hr, m, hm, rfl, rfl⟩ := mpiStarts_iff hk h
  obtain ⟨G, ⟨-, hG⟩, hrun⟩ := serial_of_whole hw hk hr h'
  obtain ⟨h1, h2, h3, h4⟩ := C36_runnable_3d F c (hs _) ho.nx ho.ny ho.nz ho.x ho.y ho.z ho.slope ho.riemann
    ho.gamma ho.smallr ho.smallc ho.cfl
  have hnx : 2 ≤ (rawParams (lit (R := ℝ) 0) F c).nx := ho.nx
  have hny : 2 ≤ (rawParams (lit (R := ℝ) 0) F c).ny := ho.ny
  have hnz : 2 ≤ (rawParams (lit (R := ℝ) 0) F c).nz := ho.nz
  have hgw : (rawParams (lit (R := ℝ) 0) F c).ghostWidth = 2 :=
    (C36_solver_table F c (List.mem_cons_of_mem _ (List.mem_cons_self ..)) (hs _)).2.1
  have h1' : Hydro3 p := ⟨wf_local T h1.wf, h1.nbvar, ⟨h1.valid.slope, h1.valid.riemann⟩, h1.faces⟩
  have hgr : GoodGrid p := goodGrid_local T h2 (by omega) (by omega) (by omega) ho.x ho.y ho.z
  exact reproduces_of (C56_run_3d h1' ⟨⟨hgw.trans_le hnx, hgw.trans_le hny⟩, hgw.trans_le hnz⟩ hbc h4 hgr h3
    ho.nlog hid hid' F M c e.ju e'.ju hsd hG hrun (fun r => (hm r).2))

/-- only the blast parameters have uninitialised members -/
theorem mhdProblem_ju {F : FloatLib R} {M : MathLib R} {c : Ini.Reader} {j j' : R × R}
    (h : problemName c ≠ "blast".toList ∨ j = j') : mhdProblem F M c j = mhdProblem F M c j' := by
  rcases h with h | rfl
  · simp only [mhdProblem, h, if_false]
  · rfl

/-- **C80 (2D MHD).** The MHD blast reads two members its constructor leaves uninitialised: they must agree. -/
theorem C80_mhd_2d (F : FloatLib ℝ) (M : MathLib ℝ) {file file' : Option (List Char)}
    {e : EnvMpi T ℝ} {e' : Env ℝ} {st : T.Rank → RunState ℝ}
    {flow : Flow Ctl T.Rank (RunState ℝ) (Msg ℝ)} {s' : RunState ℝ} :
    let c := Ini.broadcastMpi file
    let p := hydroParamsMpi T F c
    WholeDomain T c (Ini.broadcastSerial file') → Sets c "run" "solver_name" "MHD_Muscl_2D" →
    OrdinaryM2 p → NamedBC2 T p → Blockwise2 (mhdProblem F M c e'.ju) →
    (∀ r, problemName c ≠ "blast".toList ∨ e.ju r = e'.ju) → e.ident ≤ 0 → e'.ident ≤ 0 →
    MpiStarts F M e file st flow → serialMain F M e' file' (.finished s') →
    Reproduces flow st (BlockFile2 T (rawParams (lit 0) F c)) s' := by
  intro c p hw hs ho hbc hq hj hid hid' h h'
  have hk : findSolver (mainSolverName c) = some .mhd2 := findSolver_sets (by simp [solverRegistry]) hs
  obtain ⟨hr, m, hm, rfl, rfl⟩ := mpiStarts_iff hk h
  obtain ⟨G, hG, hrun⟩ := serial_of_whole hw hk hr h'
  obtain ⟨h1, -, h2, h3, h4⟩ := C54_mhd_runnable F c (Or.inl (hs _)) ho.nx ho.ny ho.nz ho.x ho.y ho.z ho.slope
    ho.riemann ho.gamma ho.smallr ho.smallc ho.cfl
  have hnx : 3 ≤ (rawParams (lit (R := ℝ) 0) F c).nx := ho.nx
  have hny : 3 ≤ (rawParams (lit (R := ℝ) 0) F c).ny := ho.ny
  have hnz : 1 ≤ (rawParams (lit (R := ℝ) 0) F c).nz := ho.nz
  have hgw : (rawParams (lit (R := ℝ) 0) F c).ghostWidth = 3 :=
    (C36_solver_table F c (List.mem_cons_of_mem _ (List.mem_cons_of_mem _ (List.mem_cons_self ..))) (hs _)).2.1
  have h1' : Mhd2 p := ⟨wf_local T h1.wf, h1.gw, h1.nbvar, ⟨h1.valid.slope, h1.valid.riemann⟩, h1.faces⟩
  have hgr : GoodGrid p := goodGrid_local T h2 (by omega) (by omega) (by omega) ho.x ho.y ho.z
  exact reproduces_of (C61_run_2d h1' ⟨hgw.trans_le hnx, hgw.trans_le hny⟩ hbc h4 hgr h3 ho.nlog hid hid' M hq hG
    hrun (fun r => by rw [← mhdProblem_ju (F := F) (M := M) (hj r)]; exact hm r))

/-- **C80 (3D MHD).** -/
theorem C80_mhd_3d (F : FloatLib ℝ) (M : MathLib ℝ) {file file' : Option (List Char)}
    {e : EnvMpi T ℝ} {e' : Env ℝ} {st : T.Rank → RunState ℝ}
    {flow : Flow Ctl T.Rank (RunState ℝ) (Msg ℝ)} {s' : RunState ℝ} :
    let c := Ini.broadcastMpi file
    let p := hydroParamsMpi T F c
    WholeDomain T c (Ini.broadcastSerial file') → Sets c "run" "solver_name" "MHD_Muscl_3D" →
    OrdinaryM3 p → NamedBC3 T p → Blockwise3 T (rawParams (lit 0) F c) (mhdProblem F M c e'.ju) →
    (∀ r, problemName c ≠ "blast".toList ∨ e.ju r = e'.ju) → e.ident ≤ 0 → e'.ident ≤ 0 →
    MpiStarts F M e file st flow → serialMain F M e' file' (.finished s') →
    Reproduces flow st (BlockFile3 T (rawParams (lit 0) F c)) s' := by
  intro c p hw hs ho hbc hq hj hid hid' h h'
  have hk : findSolver (mainSolverName c) = some .mhd3 := findSolver_sets (by simp [solverRegistry]) hs
  obtain ⟨hr, m, hm, rfl, rfl⟩ := mpiStarts_iff hk h
  obtain ⟨G, hG, hrun⟩ := serial_of_whole hw hk hr h'
  obtain ⟨-, h1, h2, h3, h4⟩ := C54_mhd_runnable F c (Or.inr (hs _)) ho.nx ho.ny (le_trans (by norm_num) ho.nz) ho.x ho.y ho.z ho.slope
    ho.riemann ho.gamma ho.smallr ho.smallc ho.cfl
  replace h1 := h1 ho.nz
  have hnx : 3 ≤ (rawParams (lit (R := ℝ) 0) F c).nx := ho.nx
  have hny : 3 ≤ (rawParams (lit (R := ℝ) 0) F c).ny := ho.ny
  have hnz : 3 ≤ (rawParams (lit (R := ℝ) 0) F c).nz := ho.nz
  have hgw : (rawParams (lit (R := ℝ) 0) F c).ghostWidth = 3 :=
    (C36_solver_table F c (List.mem_cons_of_mem _ (List.mem_cons_of_mem _ (List.mem_cons_of_mem _
      (List.mem_cons_self ..)))) (hs _)).2.1
  have h1' : Mhd3 p := ⟨wf_local T h1.wf, h1.gw, h1.nbvar, ⟨h1.valid.slope, h1.valid.riemann⟩, h1.faces⟩
  have hgr : GoodGrid p := goodGrid_local T h2 (by omega) (by omega) (by omega) ho.x ho.y ho.z
  exact reproduces_of (C61_run_3d h1' ⟨⟨hgw.trans_le hnx, hgw.trans_le hny⟩, hgw.trans_le hnz⟩ hbc h4 hgr h3 ho.nlog
    hid hid' M hq hG hrun (fun r => by rw [← mhdProblem_ju (F := F) (M := M) (hj r)]; exact hm r))

/-- **C80 (the processes start).** Every file with the topology of the processes that names a hydro solver and does
not restart has executions: all processes take the same solver, and its initial condition is defined. -/
theorem C80_starts (F : FloatLib R) (M : MathLib R) (e : EnvMpi T R) {file : Option (List Char)} :
    let c := Ini.broadcastMpi file
    TopoOf c T → cfgBool c "run" "restart_enabled" false = false →
    (Sets c "run" "solver_name" "Hydro_Muscl_2D" ∧
        (∀ r, gravityAllocated (gravityParams c) (hydroProblem2 F M c (e.ju r))) ∨
      Sets c "run" "solver_name" "Hydro_Muscl_3D" ∧
        (∀ r, gravityAllocated (gravityParams c) (hydroProblem3 F M c (e.ju r)))) →
    ∃ st flow, MpiStarts F M e file st flow := by
  intro c hT hr h
  rcases h with ⟨hs, hg⟩ | ⟨hs, hg⟩
  · exact ⟨_, _, hT, hr, .hydro2, _, findSolver_sets (by simp [solverRegistry]) hs,
      fun r => ⟨hg r, (initHydro2_iff _ _ _ _ _ _ _).2 rfl⟩, rfl, rfl⟩
  · exact ⟨_, _, hT, hr, .hydro3, _, findSolver_sets (by simp [solverRegistry]) hs,
      fun r => ⟨hg r, (initHydro3_iff _ _ _ _ _ _ _).2 rfl⟩, rfl, rfl⟩

theorem ordinary_block {F : FloatLib ℝ} {c c' : Ini.Reader} (hw : WholeDomain T c c')
    (o : Ordinary2 (hydroParams F c')) (hx : 2 ≤ cfgInt c "mesh" "nx" 1) (hy : 2 ≤ cfgInt c "mesh" "ny" 1)
    (hz : 1 ≤ cfgInt c "mesh" "nz" 1) : Ordinary2 (hydroParamsMpi T F c) := by
  have h := whole_raw hw (lit (R := ℝ) 0) F
  obtain ⟨⟨o1, o2, o3, o4, o5, o6, o7, o8⟩, -, -, -, o9, o10⟩ := o
  simp only [hydroParams, Params.init, h] at o1 o2 o3 o4 o5 o6 o7 o8 o9 o10
  exact ⟨⟨o1, o2, o3, o4, o5, o6, o7, o8⟩, hx, hy, hz, o9, o10⟩

/-! ## A shipped parameter file, on two processes -/

/-- `test_implode_2D.ini` for two processes along `x`: the last value of a key counts -/
def blockIni : List String := implodeIni ++ ["[mesh]", "nx=512", "[mpi]", "mx=2"]

/-- two processes along `x` -/
def topo211 : Topo := ⟨2, 1, 1, by decide, by decide, by decide⟩

theorem getLines_textOf {ls : List String} (h : ∀ l ∈ ls, '\n' ∉ l.toList) :
    Ini.getLines (textOf ls) = ls.map fun l => l.toList := by
  induction ls with
  | nil => exact Ini.getLines_nil
  | cons l ls ih =>
    have : textOf (l :: ls) = l.toList ++ '\n' :: textOf ls := by simp [textOf]
    rw [this, Ini.getLines_line (h l (by simp)), ih fun l hl => h l (by simp [hl])]
    rfl

/-- the state of the parser behind the shipped file -/
def shippedState : Ini.PState Ini.Values :=
  Ini.parseLines Ini.valueHandler (implodeIni.map fun l => l.toList ++ ['\n']) (Ini.initState fun _ => none)

theorem shippedState_eq : 
    shippedState.prevName = "implementationVersion".toList := by decide +kernel

theorem parse_more (st : Ini.PState Ini.Values) (h : st.prevName = "implementationVersion".toList) :
    (Ini.parseLines Ini.valueHandler (["[mesh]", "nx=512", "[mpi]", "mx=2"].map fun l => l.toList ++ ['\n']) st).user =
      (st.user.set "mesh.nx".toList "512".toList).set "mpi.mx".toList "2".toList := by
  obtain ⟨a, b, n, e, u⟩ := st
  cases h
  rfl

theorem parseLines_append (h : Ini.Handler Ini.Values) (a b : List (List Char)) (st : Ini.PState Ini.Values) :
    Ini.parseLines h (a ++ b) st = Ini.parseLines h b (Ini.parseLines h a st) := List.foldl_append

theorem serial_values {ls : List String} (h : ∀ l ∈ ls, '\n' ∉ l.toList ∧ l.toList.length ≤ 198) :
    (Ini.broadcastSerial (some (textOf ls))).values =
      (Ini.parseLines Ini.valueHandler (ls.map fun l => l.toList ++ ['\n']) (Ini.initState fun _ => none)).user := by
  unfold Ini.broadcastSerial Ini.Reader.ofFile Ini.iniParse
  simp only
  rw [fgetsLines_textOf h]

theorem shipped_values : implodeCfg'.values = shippedState.user := by
  unfold implodeCfg' shippedState
  generalize Ini.parseLines _ _ _ = st
  rfl

theorem blockCfg_values : (Ini.broadcastMpi (some (textOf blockIni))).values =
    (implodeCfg.values.set "mesh.nx".toList "512".toList).set "mpi.mx".toList "2".toList := by
  have h0 : ∀ l ∈ blockIni, '\n' ∉ l.toList ∧ l.toList.length ≤ 198 := by decide +kernel
  rw [← Ini.C35_same_configuration (by
    rw [getLines_textOf fun l hl => (h0 l hl).1]
    intro l hl
    obtain ⟨l', hl', rfl⟩ := List.mem_map.1 hl
    exact (h0 l' hl').2)]
  rw [implodeCfg_eq, shipped_values, serial_values h0, blockIni, List.map_append, parseLines_append]
  exact parse_more shippedState shippedState_eq

/-- the configuration of the two processes -/
def blockCfg : Ini.Reader := Ini.broadcastMpi (some (textOf blockIni))

theorem getString_block (s n d : List Char) : blockCfg.getString s n d =
    if Ini.makeKey s n = "mpi.mx".toList then "2".toList
    else if Ini.makeKey s n = "mesh.nx".toList then "512".toList else implodeCfg.getString s n d := by
  unfold Ini.Reader.getString blockCfg
  rw [blockCfg_values]
  unfold Ini.Values.set
  beta_reduce
  split_ifs <;> rfl

theorem block_whole : WholeDomain topo211 blockCfg implodeCfg where
  nx := by
    have e : cfgInt blockCfg "mesh" "nx" 1 = 512 := by
      unfold cfgInt Ini.Reader.getInteger
      rw [getString_block, if_neg (by decide), if_pos (by decide)]
      decide
    have h := implode_values
    rw [← implodeCfg_eq] at h
    rw [h.2.2.2.2.2.2.2.2.2.2.2.2.2.1, e]
    decide
  ny := by
    have e : cfgInt blockCfg "mesh" "ny" 1 = cfgInt implodeCfg "mesh" "ny" 1 := by
      unfold cfgInt Ini.Reader.getInteger
      rw [getString_block, if_neg (by decide), if_neg (by decide)]
    rw [e]
    exact (mul_one _).symm
  nz := by
    have e : cfgInt blockCfg "mesh" "nz" 1 = cfgInt implodeCfg "mesh" "nz" 1 := by
      unfold cfgInt Ini.Reader.getInteger
      rw [getString_block, if_neg (by decide), if_neg (by decide)]
    rw [e]
    exact (mul_one _).symm
  same := fun s n d hk => by
    have h1 := hk ("mpi", "mx") (by simp)
    have h2 := hk ("mesh", "nx") (by simp)
    rw [getString_block, if_neg (fun h => h1 (h.trans (by decide))), if_neg (fun h => h2 (h.trans (by decide)))]

/-- Non-vacuity: the shipped implosion, on two processes and on one.  The serial program finishes, the two
processes start, and they reproduce its files, whatever happens. -/
theorem implode_two_processes (e : EnvMpi topo211 ℝ) (e' : Env ℝ) (he : e.ident ≤ 0) (he' : e'.ident ≤ 0) :
    ∃ s' st flow, serialMain exactLib exactMath e' (some (textOf implodeIni)) (.finished s') ∧
      MpiStarts exactLib exactMath e (some (textOf blockIni)) st flow ∧
      Reproduces flow st (BlockFile2 topo211 (rawParams (lit 0) exactLib blockCfg)) s' := by
  obtain ⟨n, -, h⟩ := implode_program
  obtain ⟨⟨o, ho⟩, h⟩ := h e' he' trivial
  obtain ⟨s', rfl, -⟩ := h o ho
  have hw := block_whole
  have hs : Sets blockCfg "run" "solver_name" "Hydro_Muscl_2D" := fun d => by
    rw [← hw.same _ _ _ (by decide)]; exact implode_sets.1 d
  have hr : cfgBool blockCfg "run" "restart_enabled" false = false := by
    rw [← whole_bool hw (by decide)]; exact implode_sets.2
  have hq : ∀ j, hydroProblem2 exactLib exactMath blockCfg j = .implode (implodeParams exactLib implodeCfg) := by
    intro j
    have h' := implode_more
    rw [← implodeCfg_eq] at h'
    rw [← whole_problem2 hw]
    unfold hydroProblem2
    exact if_pos h'.2.2.1
  have hT : TopoOf blockCfg topo211 := by
    refine ⟨?_, ?_, ?_, fun _ => rfl⟩
    · unfold cfgInt Ini.Reader.getInteger
      rw [getString_block, if_pos (by decide)]
      decide
    · unfold cfgInt Ini.Reader.getInteger
      rw [getString_block, if_neg (by decide), if_neg (by decide), implodeCfg_eq]
      decide +kernel
    · unfold cfgInt Ini.Reader.getInteger
      rw [getString_block, if_neg (by decide), if_neg (by decide), implodeCfg_eq]
      decide +kernel
  obtain ⟨st, flow, hst⟩ := C80_starts exactLib exactMath e (file := some (textOf blockIni)) hT hr
    (Or.inl ⟨hs, fun r => by
      rw [show hydroProblem2 exactLib exactMath (Ini.broadcastMpi (some (textOf blockIni))) (e.ju r) = _ from hq _]
      trivial⟩)
  refine ⟨s', st, flow, ho, hst, ?_⟩
  have hx : 2 ≤ cfgInt blockCfg "mesh" "nx" 1 := by
    unfold cfgInt Ini.Reader.getInteger
    rw [getString_block, if_neg (by decide), if_pos (by decide)]
    decide
  have o := implode_ordinary
  have oy : cfgInt blockCfg "mesh" "ny" 1 = cfgInt implodeCfg "mesh" "ny" 1 := by
    rw [hw.ny]; exact (mul_one _).symm
  have oz : cfgInt blockCfg "mesh" "nz" 1 = cfgInt implodeCfg "mesh" "nz" 1 := by
    rw [hw.nz]; exact (mul_one _).symm
  refine C80_hydro_2d exactLib exactMath (file := some (textOf blockIni)) (file' := some (textOf implodeIni)) hw hs
    ?_ ?_ ?_ he he' hst ho
  · exact ordinary_block hw o hx (o.ny.trans_eq oy.symm) (o.nz.trans_eq oz.symm)
  · have h : ∀ k ∈ ["boundary_type_xmin", "boundary_type_xmax", "boundary_type_ymin", "boundary_type_ymax"],
        BC.ofInt (cfgInt blockCfg "mesh" k 1) = .dirichlet := by
      intro k hk
      have : OtherKey "mesh".toList k.toList := by
        simp only [List.mem_cons, List.not_mem_nil, or_false] at hk
        rcases hk with rfl | rfl | rfl | rfl <;> decide
      rw [← whole_int hw this, implodeCfg_eq]
      simp only [List.mem_cons, List.not_mem_nil, or_false] at hk
      rcases hk with rfl | rfl | rfl | rfl <;> decide +kernel
    refine ⟨?_, ?_, ?_, ?_⟩
    · exact Or.inr (Or.inl (h "boundary_type_xmin" (by simp)))
    · exact Or.inr (Or.inl (h "boundary_type_xmax" (by simp)))
    · exact Or.inr (Or.inl (h "boundary_type_ymin" (by simp)))
    · exact Or.inr (Or.inl (h "boundary_type_ymax" (by simp)))
  · intro j
    rw [show hydroProblem2 exactLib exactMath (Ini.broadcastMpi (some (textOf blockIni))) j = _ from hq _]
    trivial

end EulerKokkos
