import Verif.Props.C80
import Verif.Props.C88
import Verif.Props.C67b

/-!
# C94 — the MPI program restarted from an HDF5 file does what the serial program restarted from it does, and
continues the run that wrote the file
-/

set_option linter.constructorNameAsVariable false
set_option linter.unusedSectionVars false
set_option linter.unusedSimpArgs false

namespace EulerKokkos
open Spec Spmd

section Reads

variable {R : Type} [RealOps R] {T : Topo}

/-- the parts of a restart -/
theorem restart_reads' {name : List Char} {disk : List Char → Option (H5File R)} {f : H5File R}
    {load : H5File R → (Loc Unit → R) → (Loc Unit → R) → Prop} {U₀ U : Loc Unit → R} {tc t' : R} {n : Int} {b : Bool}
    (hname : isHdf5 name = true) (hdisk : disk name = some f)
    (hr : initRestart true b name disk (fun f U => ∃ host, load f host U) U₀ tc U n t') :
    ∃ host, load f host U ∧ n = f.step ∧ t' = if b then lit 0 else f.time := by
  obtain ⟨_, ht, hr⟩ := hr
  simp only [hname, Bool.and_self, if_true] at hr
  obtain ⟨f', hf', ⟨host, hl⟩, hnum, htime⟩ := hr
  obtain rfl : f = f' := by rw [hdisk] at hf'; exact Option.some.inj hf'
  exact ⟨host, hl, hnum, by rw [ht, htime]⟩

theorem asks_file {c : Ini.Reader} {name : String} (h : AsksRestart c name) :
    cfgString c "run" "restart_filename" "" = name.toList := h.file _

theorem asks_h5 {c : Ini.Reader} {name : String} (h : AsksRestart c name) : isHdf5 name.toList = true := by
  obtain ⟨stem, rfl⟩ := h.ending
  exact ends_h5

/-- what the processes of a restarted program start from -/
theorem mpi_restart_reads {F : FloatLib R} {e : EnvMpi T R} {file : Option (List Char)}
    {disk : List Char → Option (H5File R)} {name : String} {f : H5File R}
    {st : T.Rank → RunState R} {flow : Flow Ctl T.Rank (RunState R) (Msg R)} {k : SolverKind} :
    let c := Ini.broadcastMpi file
    let p := hydroParamsMpi T F c
    let b := cfgBool c "run" "restart_reset_totaltime" false
    findSolver (mainSolverName c) = some k → PlainHdf5 c → AsksRestart c name → disk name.toList = some f →
    MpiRestarts F e true disk file st flow →
    ∃ m : T.Rank → Mem Arr R, (∀ r l, l.arr ≠ .U → m r l = freshMem l) ∧
      (∀ r, ∃ host, loadH5Mpi e.lay {} T p r f host (viewOf (m r) .U)) ∧
      st = (fun r => startState (m r) (if b then lit 0 else f.time) f.step) ∧
      flow = mpiMain p (solverOpsMpi e c p k) := by
  intro c p b hk hp ha hd h
  obtain ⟨-, -, k', m, t, sv, hk', hm, h1, h2⟩ := h
  rw [show findSolver (mainSolverName (Ini.broadcastMpi file)) = some k from hk] at hk'
  cases hk'
  have key : ∀ r, ∃ host, loadH5Mpi e.lay {} T p r f host (viewOf (m r) .U) ∧ sv r = f.step ∧
      t r = if b then lit 0 else f.time := by
    intro r
    have hr := (hm r).2
    rw [(C88_options _ _ _).1 hp.enabled, Bool.and_self, asks_file ha, plain_options hp ha.upscale] at hr
    exact restart_reads' (asks_h5 ha) hd hr
  refine ⟨m, fun r => (hm r).1, fun r => ?_, ?_, h2⟩
  · obtain ⟨host, hl, -⟩ := key r
    exact ⟨host, hl⟩
  · rw [h1]
    funext r
    obtain ⟨host, -, e1, e2⟩ := key r
    rw [e1, e2]

/-- what the serial program restarted on the whole domain starts from -/
theorem serial_restart_whole {F : FloatLib R} {M : MathLib R} {e' : Env R} {c : Ini.Reader}
    {file' : Option (List Char)} {s' : RunState R} {k : SolverKind} {name : String} {f : H5File R}
    (hw : WholeDomain T c (Ini.broadcastSerial file')) (hk : findSolver (mainSolverName c) = some k)
    (hp : PlainHdf5 c) (ha : AsksRestart c name) (hh : e'.hdf5 = true) (hd : e'.disk name.toList = some f)
    (h : serialMain F M e' file' (.finished s')) :
    let b := cfgBool c "run" "restart_reset_totaltime" false
    let q := globalParams T (rawParams (lit 0) F c)
    ∃ G, (∀ l, l.arr ≠ .U → G l = freshMem l) ∧ (∃ host, loadH5 e'.lay {} q f host (viewOf G .U)) ∧
      runMain q (solverOps e' c q k) G (if b then lit 0 else f.time) f.step s' := by
  intro b q
  obtain ⟨k', m, t, sv, h1, h2, h3⟩ := h
  rw [whole_solver hw, hk] at h1
  cases h1
  have hops : ∀ q, solverOps e' (Ini.broadcastSerial file') q k = solverOps e' c q k := by
    intro q
    cases k <;> unfold solverOps <;> rw [whole_gravity hw]
  have ho : h5Options (Ini.broadcastSerial file') = {} := by
    rw [← plain_options hp ha.upscale]
    unfold h5Options
    rw [whole_bool hw (by decide), whole_bool hw (by decide), whole_bool hw (by decide), whole_bool hw (by decide)]
  unfold initSolver at h2
  dsimp only at h2
  rw [whole_bool hw (by decide), if_pos ((C88_options _ _ _).1 ha.enabled _), hh, whole_bool hw (by decide),
    (C88_options _ _ _).1 hp.enabled, whole_bool hw (by decide), whole_params hw, ho,
    show cfgString (Ini.broadcastSerial file') "run" "restart_filename" "" = name.toList from
      (hw.same _ _ _ (by decide)).trans (ha.file _)] at h2
  rw [hops, whole_params hw] at h3
  obtain ⟨g1, g2⟩ := h2
  obtain ⟨host, hl, e1, e2⟩ := restart_reads' (asks_h5 ha) hd g2
  refine ⟨m, g1, ⟨host, hl⟩, ?_⟩
  rw [e1, e2] at h3
  exact h3

end Reads

variable {T : Topo}

namespace Spec

/-- Two parameter files of a restart, of the MPI program (`file`, cells of one process) and of the serial program
(`file'`, cells of the whole domain), that agree otherwise and ask for a restart from HDF5 file `name`; and the
starts of both programs.  The file of the MPI program is `f`, the file of the serial program `f'`; they have the same
number and the same time. -/
structure BothRestart (F : FloatLib ℝ) (M : MathLib ℝ) (T : Topo) (file file' : Option (List Char)) (name : String)
    (e : EnvMpi T ℝ) (disk : List Char → Option (H5File ℝ)) (e' : Env ℝ) (f f' : H5File ℝ)
    (st : T.Rank → RunState ℝ) (flow : Flow Ctl T.Rank (RunState ℝ) (Msg ℝ)) (s' : RunState ℝ) : Prop where
  ident : e.ident ≤ 0
  ident' : e'.ident ≤ 0
  whole : WholeDomain T (Ini.broadcastMpi file) (Ini.broadcastSerial file')
  plain : PlainHdf5 (Ini.broadcastMpi file)
  asks : AsksRestart (Ini.broadcastMpi file) name
  found : disk name.toList = some f
  hdf5 : e'.hdf5 = true
  found' : e'.disk name.toList = some f'
  number : f.step = f'.step
  time : f.time = f'.time
  starts : MpiRestarts F e true disk file st flow
  run : serialMain F M e' file' (.finished s')

end Spec

variable {F : FloatLib ℝ} {M : MathLib ℝ} {file file' : Option (List Char)} {name : String} {e : EnvMpi T ℝ}
  {disk : List Char → Option (H5File ℝ)} {e' : Env ℝ} {f f' : H5File ℝ} {st : T.Rank → RunState ℝ}
  {flow : Flow Ctl T.Rank (RunState ℝ) (Msg ℝ)} {s' : RunState ℝ}

/-- every process reads the block of the whole domain -/
theorem restart_block2 {q : Params ℝ} (hP : (localParams T q).WF) (hQ : (globalParams T q).WF)
    (hd : (localParams T q).dimType = .two) (hu : UsualFields (localParams T q)) {lay lay' : Layout}
    (hs : ∃ A : Int → Int → Nat → ℝ, Stores2 f (localParams T q).nbvar ((localParams T q).nx * T.mx) ((localParams T q).ny * T.my) A ∧
      Stores2 f' (localParams T q).nbvar ((localParams T q).nx * T.mx) ((localParams T q).ny * T.my) A)
    {m : T.Rank → Mem Arr ℝ} {G : Mem Arr ℝ} {host : Loc Unit → ℝ}
    (hm : ∀ r, ∃ host, loadH5Mpi lay {} T (localParams T q) r f host (viewOf (m r) .U))
    (hG : loadH5 lay' {} (globalParams T q) f' host (viewOf G .U)) :
    HoldsBlock2 T q .U (interior2 (localParams T q)) m G := by
  obtain ⟨A, hs, hs'⟩ := hs
  intro r i j v hij hv
  obtain ⟨host', hl⟩ := hm r
  have e1 := C66_load_mpi_2d T hP hd hu hs r hl hij (v := v) hv
  have gi : interior2 (globalParams T q) (globalCell T q r i j 0).1 (globalCell T q r i j 0).2.1 := by
    obtain ⟨b1, b2, b3, b4⟩ := hij
    obtain ⟨c1, c2, -⟩ := T.coords_range r
    have a1 := hP.imin_eq; have a2 := hP.imax_eq; have a3 := hP.jmin_eq; have a4 := hP.jmax_eq
    have g1 := hQ.imin_eq; have g2 := hQ.imax_eq; have g3 := hQ.jmin_eq; have g4 := hQ.jmax_eq
    have n1 := hP.nx_pos; have n2 := hP.ny_pos
    have p1 := piece_nonneg (n := (localParams T q).nx) c1.1 (by omega)
    have p2 := piece_nonneg (n := (localParams T q).ny) c2.1 (by omega)
    have p3 := piece_le (n := (localParams T q).nx) c1.2 (by omega)
    have p4 := piece_le (n := (localParams T q).ny) c2.2 (by omega)
    dsimp only [localParams, setupMpi, globalParams, globalCell, Params.init, interior2] at *
    refine ⟨?_, ?_, ?_, ?_⟩ <;> omega
  have e2 := C66_load_2d hQ (by exact hd) (by exact hu) (by exact hs') hG gi (v := v) hv
  have x1 : (T.coords r).1 * (localParams T q).nx + (i - (localParams T q).ghostWidth) =
    (globalCell T q r i j 0).1 - (globalParams T q).ghostWidth := by
    dsimp only [localParams, setupMpi, globalParams, globalCell, Params.init]; omega
  have x2 : (T.coords r).2.1 * (localParams T q).ny + (j - (localParams T q).ghostWidth) =
    (globalCell T q r i j 0).2.1 - (globalParams T q).ghostWidth := by
    dsimp only [localParams, setupMpi, globalParams, globalCell, Params.init]; omega
  rw [x1, x2, ← e2] at e1
  exact e1

theorem restart_block3 {q : Params ℝ} (hP : (localParams T q).WF) (hQ : (globalParams T q).WF)
    (hd : (localParams T q).dimType = .three) (hu : UsualFields (localParams T q)) {lay lay' : Layout}
    (hs : ∃ A : Int → Int → Int → Nat → ℝ, Stores3 f (localParams T q).nbvar ((localParams T q).nx * T.mx)
        ((localParams T q).ny * T.my) ((localParams T q).nz * T.mz) A ∧
      Stores3 f' (localParams T q).nbvar ((localParams T q).nx * T.mx) ((localParams T q).ny * T.my)
        ((localParams T q).nz * T.mz) A)
    {m : T.Rank → Mem Arr ℝ} {G : Mem Arr ℝ} {host : Loc Unit → ℝ}
    (hm : ∀ r, ∃ host, loadH5Mpi lay {} T (localParams T q) r f host (viewOf (m r) .U))
    (hG : loadH5 lay' {} (globalParams T q) f' host (viewOf G .U)) :
    HoldsBlock T q .U (interior3 (localParams T q)) m G := by
  obtain ⟨A, hs, hs'⟩ := hs
  intro r i j k v hij hv
  obtain ⟨host', hl⟩ := hm r
  have e1 := C66_load_mpi_3d T hP hd hu hs r hl hij (v := v) hv
  have gi : interior3 (globalParams T q) (globalCell T q r i j k).1 (globalCell T q r i j k).2.1
      (globalCell T q r i j k).2.2 := by
    obtain ⟨⟨b1, b2⟩, ⟨b3, b4⟩, b5, b6⟩ := hij
    obtain ⟨c1, c2, c3⟩ := T.coords_range r
    have a1 := hP.imin_eq; have a2 := hP.imax_eq; have a3 := hP.jmin_eq; have a4 := hP.jmax_eq
    have a5 := hP.kmin_eq; have a6 := hP.kmax_eq; have g5 := hQ.kmin_eq; have g6 := hQ.kmax_eq
    have g1 := hQ.imin_eq; have g2 := hQ.imax_eq; have g3 := hQ.jmin_eq; have g4 := hQ.jmax_eq
    have n1 := hP.nx_pos; have n2 := hP.ny_pos; have n3 := hP.nz_pos
    have p1 := piece_nonneg (n := (localParams T q).nx) c1.1 (by omega)
    have p2 := piece_nonneg (n := (localParams T q).ny) c2.1 (by omega)
    have p3 := piece_le (n := (localParams T q).nx) c1.2 (by omega)
    have p4 := piece_le (n := (localParams T q).ny) c2.2 (by omega)
    have p5 := piece_nonneg (n := (localParams T q).nz) c3.1 (by omega)
    have p6 := piece_le (n := (localParams T q).nz) c3.2 (by omega)
    dsimp only [localParams, setupMpi, globalParams, globalCell, Params.init, interior3] at *
    refine ⟨⟨?_, ?_⟩, ⟨?_, ?_⟩, ?_, ?_⟩ <;> omega
  have e2 := C66_load_3d hQ (by exact hd) (by exact hu) (by exact hs') hG gi (v := v) hv
  have x1 : (T.coords r).1 * (localParams T q).nx + (i - (localParams T q).ghostWidth) =
    (globalCell T q r i j k).1 - (globalParams T q).ghostWidth := by
    dsimp only [localParams, setupMpi, globalParams, globalCell, Params.init]; omega
  have x2 : (T.coords r).2.1 * (localParams T q).ny + (j - (localParams T q).ghostWidth) =
    (globalCell T q r i j k).2.1 - (globalParams T q).ghostWidth := by
    dsimp only [localParams, setupMpi, globalParams, globalCell, Params.init]; omega
  have x3 : (T.coords r).2.2 * (localParams T q).nz + (k - (localParams T q).ghostWidth) =
    (globalCell T q r i j k).2.2 - (globalParams T q).ghostWidth := by
    dsimp only [localParams, setupMpi, globalParams, globalCell, Params.init]; omega
  rw [x1, x2, x3, ← e2] at e1
  exact e1

/-- **C94 (2D hydro).** The MPI program restarted on any process grid from the HDF5 file of a state of the whole domain
does what the serial program does restarted from a file of the same state. -/
theorem C94_hydro_2d (h : BothRestart F M T file file' name e disk e' f f' st flow s') :
    let c := Ini.broadcastMpi file
    let p := hydroParamsMpi T F c
    Sets c "run" "solver_name" "Hydro_Muscl_2D" → Ordinary2 p → NamedBC2 T p →
    (∃ G : Int → Int → Nat → ℝ, Stores2 f 4 (p.nx * T.mx) (p.ny * T.my) G ∧ Stores2 f' 4 (p.nx * T.mx) (p.ny * T.my) G) →
    Reproduces flow st (BlockFile2 T (rawParams (lit 0) F c)) s' := by
  intro c p hs ho hbc hst
  have hk : findSolver (mainSolverName c) = some .hydro2 := findSolver_sets (by simp [solverRegistry]) hs
  obtain ⟨m, hm0, hm, rfl, rfl⟩ := mpi_restart_reads (F := F) hk h.plain h.asks h.found h.starts
  obtain ⟨G, hG0, ⟨host, hG⟩, hrun⟩ := serial_restart_whole h.whole hk h.plain h.asks h.hdf5 h.found' h.run
  obtain ⟨h1, h2, h3, h4⟩ := C36_runnable_2d F c (hs _) ho.nx ho.ny ho.nz ho.x ho.y ho.z ho.slope ho.riemann
    ho.gamma ho.smallr ho.smallc ho.cfl
  have hnx : 2 ≤ (rawParams (lit (R := ℝ) 0) F c).nx := ho.nx
  have hny : 2 ≤ (rawParams (lit (R := ℝ) 0) F c).ny := ho.ny
  have hnz : 1 ≤ (rawParams (lit (R := ℝ) 0) F c).nz := ho.nz
  have hgw : (rawParams (lit (R := ℝ) 0) F c).ghostWidth = 2 :=
    (C36_solver_table F c (List.mem_cons_self ..) (hs _)).2.1
  have hP : Hydro2 p := ⟨wf_local T h1.wf, h1.nbvar, ⟨h1.valid.slope, h1.valid.riemann⟩, h1.faces⟩
  have hgr : GoodGrid p := goodGrid_local T h2 (by omega) (by omega) (by omega) ho.x ho.y ho.z
  have hwide : Wide2 p := ⟨hgw.trans_le hnx, hgw.trans_le hny⟩
  have hd : p.dimType = .two := congrArg (·.2.2.1) (C79_consistent F c hk)
  have hu : UsualFields p := C66_config_fields (lit 0) F c
  have hQ := hydro2_global (p := rawParams (lit 0) F c) hP hwide
  have hb : HoldsBlock2 T (rawParams (lit 0) F c) .U (interior2 p) m G :=
    restart_block2 hP.wf hQ.wf hd hu (by rw [show (localParams T (rawParams (lit 0) F c)).nbvar = _ from hP.nbvar]; exact hst) hm hG
  have hgv : HoldsGravity2 T (rawParams (lit 0) F c) m G := by
    intro r i j v _ _
    rw [hm0 r _ (by simp), hG0 _ (by simp)]
    rfl
  rw [← h.number, ← h.time] at hrun
  exact reproduces_of (C11_run_2d hP hwide hbc h4 hgr h3 ho.nlog h.ident h.ident' hrun hb (fun _ => hgv))

/-- **C94 (3D hydro).** The MPI program restarted on any process grid from the HDF5 file of a state of the whole domain
does what the serial program does restarted from a file of the same state. -/
theorem C94_hydro_3d (h : BothRestart F M T file file' name e disk e' f f' st flow s') :
    let c := Ini.broadcastMpi file
    let p := hydroParamsMpi T F c
    Sets c "run" "solver_name" "Hydro_Muscl_3D" → Ordinary3 p → NamedBC3 T p →
    (∃ G : Int → Int → Int → Nat → ℝ, Stores3 f 5 (p.nx * T.mx) (p.ny * T.my) (p.nz * T.mz) G ∧ Stores3 f' 5 (p.nx * T.mx) (p.ny * T.my) (p.nz * T.mz) G) →
    Reproduces flow st (BlockFile3 T (rawParams (lit 0) F c)) s' := by
  intro c p hs ho hbc hst
  have hk : findSolver (mainSolverName c) = some .hydro3 := findSolver_sets (by simp [solverRegistry]) hs
  obtain ⟨m, hm0, hm, rfl, rfl⟩ := mpi_restart_reads (F := F) hk h.plain h.asks h.found h.starts
  obtain ⟨G, hG0, ⟨host, hG⟩, hrun⟩ := serial_restart_whole h.whole hk h.plain h.asks h.hdf5 h.found' h.run
  obtain ⟨h1, h2, h3, h4⟩ := C36_runnable_3d F c (hs _) ho.nx ho.ny ho.nz ho.x ho.y ho.z ho.slope ho.riemann
    ho.gamma ho.smallr ho.smallc ho.cfl
  have hnx : 2 ≤ (rawParams (lit (R := ℝ) 0) F c).nx := ho.nx
  have hny : 2 ≤ (rawParams (lit (R := ℝ) 0) F c).ny := ho.ny
  have hnz : 2 ≤ (rawParams (lit (R := ℝ) 0) F c).nz := ho.nz
  have hgw : (rawParams (lit (R := ℝ) 0) F c).ghostWidth = 2 :=
    (C36_solver_table F c (List.mem_cons_of_mem _ (List.mem_cons_self ..)) (hs _)).2.1
  have hP : Hydro3 p := ⟨wf_local T h1.wf, h1.nbvar, ⟨h1.valid.slope, h1.valid.riemann⟩, h1.faces⟩
  have hgr : GoodGrid p := goodGrid_local T h2 (by omega) (by omega) (by omega) ho.x ho.y ho.z
  have hwide : Wide3 p := ⟨⟨hgw.trans_le hnx, hgw.trans_le hny⟩, hgw.trans_le hnz⟩
  have hd : p.dimType = .three := congrArg (·.2.2.1) (C79_consistent F c hk)
  have hu : UsualFields p := C66_config_fields (lit 0) F c
  have hQ := hydro3_global (p := rawParams (lit 0) F c) hP hwide
  have hb : HoldsBlock T (rawParams (lit 0) F c) .U (interior3 p) m G :=
    restart_block3 hP.wf hQ.wf hd hu (by rw [show (localParams T (rawParams (lit 0) F c)).nbvar = _ from hP.nbvar]; exact hst) hm hG
  have hgv : HoldsGravity3 T (rawParams (lit 0) F c) m G := by
    intro r i j k v _ _
    rw [hm0 r _ (by simp), hG0 _ (by simp)]
    rfl
  rw [← h.number, ← h.time] at hrun
  exact reproduces_of (C11_run_3d hP hwide hbc h4 hgr h3 ho.nlog h.ident h.ident' hrun hb (fun _ => hgv))

/-- **C94 (2D MHD).** The MPI program restarted on any process grid from the HDF5 file of a state of the whole domain
does what the serial program does restarted from a file of the same state. -/
theorem C94_mhd_2d (h : BothRestart F M T file file' name e disk e' f f' st flow s') :
    let c := Ini.broadcastMpi file
    let p := hydroParamsMpi T F c
    Sets c "run" "solver_name" "MHD_Muscl_2D" → OrdinaryM2 p → NamedBC2 T p →
    (∃ G : Int → Int → Nat → ℝ, Stores2 f 8 (p.nx * T.mx) (p.ny * T.my) G ∧ Stores2 f' 8 (p.nx * T.mx) (p.ny * T.my) G) →
    Reproduces flow st (BlockFile2 T (rawParams (lit 0) F c)) s' := by
  intro c p hs ho hbc hst
  have hk : findSolver (mainSolverName c) = some .mhd2 := findSolver_sets (by simp [solverRegistry]) hs
  obtain ⟨m, hm0, hm, rfl, rfl⟩ := mpi_restart_reads (F := F) hk h.plain h.asks h.found h.starts
  obtain ⟨G, hG0, ⟨host, hG⟩, hrun⟩ := serial_restart_whole h.whole hk h.plain h.asks h.hdf5 h.found' h.run
  obtain ⟨h1, -, h2, h3, h4⟩ := C54_mhd_runnable F c (Or.inl (hs _)) ho.nx ho.ny ho.nz ho.x ho.y ho.z
    ho.slope ho.riemann ho.gamma ho.smallr ho.smallc ho.cfl
  have hnx : 3 ≤ (rawParams (lit (R := ℝ) 0) F c).nx := ho.nx
  have hny : 3 ≤ (rawParams (lit (R := ℝ) 0) F c).ny := ho.ny
  have hnz : 1 ≤ (rawParams (lit (R := ℝ) 0) F c).nz := ho.nz
  have hgw : (rawParams (lit (R := ℝ) 0) F c).ghostWidth = 3 :=
    (C36_solver_table F c (List.mem_cons_of_mem _ (List.mem_cons_of_mem _ (List.mem_cons_self ..))) (hs _)).2.1
  have hP : Mhd2 p := ⟨wf_local T h1.wf, h1.gw, h1.nbvar, ⟨h1.valid.slope, h1.valid.riemann⟩, h1.faces⟩
  have hgr : GoodGrid p := goodGrid_local T h2 (by omega) (by omega) (by omega) ho.x ho.y ho.z
  have hwide : Wide2 p := ⟨hgw.trans_le hnx, hgw.trans_le hny⟩
  have hd : p.dimType = .two := congrArg (·.2.2.1) (C79_consistent F c hk)
  have hu : UsualFields p := C66_config_fields (lit 0) F c
  have hQ := mhd2_global (p := rawParams (lit 0) F c) hP hwide
  have hb : HoldsBlock2 T (rawParams (lit 0) F c) .U (interior2 p) m G :=
    restart_block2 hP.wf hQ.wf hd hu (by rw [show (localParams T (rawParams (lit 0) F c)).nbvar = _ from hP.nbvar]; exact hst) hm hG
  rw [← h.number, ← h.time] at hrun
  exact reproduces_of (C60_run_2d hP hwide hbc h4 hgr h3 ho.nlog h.ident h.ident' hrun hb)

/-- **C94 (3D MHD).** The MPI program restarted on any process grid from the HDF5 file of a state of the whole domain
does what the serial program does restarted from a file of the same state. -/
theorem C94_mhd_3d (h : BothRestart F M T file file' name e disk e' f f' st flow s') :
    let c := Ini.broadcastMpi file
    let p := hydroParamsMpi T F c
    Sets c "run" "solver_name" "MHD_Muscl_3D" → OrdinaryM3 p → NamedBC3 T p →
    (∃ G : Int → Int → Int → Nat → ℝ, Stores3 f 8 (p.nx * T.mx) (p.ny * T.my) (p.nz * T.mz) G ∧ Stores3 f' 8 (p.nx * T.mx) (p.ny * T.my) (p.nz * T.mz) G) →
    Reproduces flow st (BlockFile3 T (rawParams (lit 0) F c)) s' := by
  intro c p hs ho hbc hst
  have hk : findSolver (mainSolverName c) = some .mhd3 := findSolver_sets (by simp [solverRegistry]) hs
  obtain ⟨m, hm0, hm, rfl, rfl⟩ := mpi_restart_reads (F := F) hk h.plain h.asks h.found h.starts
  obtain ⟨G, hG0, ⟨host, hG⟩, hrun⟩ := serial_restart_whole h.whole hk h.plain h.asks h.hdf5 h.found' h.run
  obtain ⟨-, h1, h2, h3, h4⟩ := C54_mhd_runnable F c (Or.inr (hs _)) ho.nx ho.ny (le_trans (by norm_num) ho.nz) ho.x ho.y ho.z
    ho.slope ho.riemann ho.gamma ho.smallr ho.smallc ho.cfl
  replace h1 := h1 ho.nz
  have hnx : 3 ≤ (rawParams (lit (R := ℝ) 0) F c).nx := ho.nx
  have hny : 3 ≤ (rawParams (lit (R := ℝ) 0) F c).ny := ho.ny
  have hnz : 3 ≤ (rawParams (lit (R := ℝ) 0) F c).nz := ho.nz
  have hgw : (rawParams (lit (R := ℝ) 0) F c).ghostWidth = 3 :=
    (C36_solver_table F c (List.mem_cons_of_mem _ (List.mem_cons_of_mem _ (List.mem_cons_of_mem _ (List.mem_cons_self ..)))) (hs _)).2.1
  have hP : Mhd3 p := ⟨wf_local T h1.wf, h1.gw, h1.nbvar, ⟨h1.valid.slope, h1.valid.riemann⟩, h1.faces⟩
  have hgr : GoodGrid p := goodGrid_local T h2 (by omega) (by omega) (by omega) ho.x ho.y ho.z
  have hwide : Wide3 p := ⟨⟨hgw.trans_le hnx, hgw.trans_le hny⟩, hgw.trans_le hnz⟩
  have hd : p.dimType = .three := congrArg (·.2.2.1) (C79_consistent F c hk)
  have hu : UsualFields p := C66_config_fields (lit 0) F c
  have hQ := mhd3_global (p := rawParams (lit 0) F c) hP hwide
  have hb : HoldsBlock T (rawParams (lit 0) F c) .U (interior3 p) m G :=
    restart_block3 hP.wf hQ.wf hd hu (by rw [show (localParams T (rawParams (lit 0) F c)).nbvar = _ from hP.nbvar]; exact hst) hm hG
  rw [← h.number, ← h.time] at hrun
  exact reproduces_of (C60_run_3d hP hwide hbc h4 hgr h3 ho.nlog h.ident h.ident' hrun hb)

/-! ## The restarted MPI run continues the run that wrote the file -/

section Whole

variable {c c' : Ini.Reader}

theorem whole_on (h : WholeDomain T c c') {s n : String} (hk : OtherKey s.toList n.toList) (ho : SwitchedOn c' s n) :
    SwitchedOn c s n := by
  obtain ⟨v, hv, hs⟩ := ho
  exact ⟨v, hv, fun d => (h.same _ _ _ hk).symm.trans (hs d)⟩

theorem whole_off (h : WholeDomain T c c') {s n : String} (hk : OtherKey s.toList n.toList) (ho : OptionOff c' s n) :
    OptionOff c s n := by
  rcases ho with ho | ⟨v, hv, hs⟩
  · exact Or.inl fun d => (h.same _ _ _ hk).symm.trans (ho d)
  · exact Or.inr ⟨v, hv, fun d => (h.same _ _ _ hk).symm.trans (hs d)⟩

theorem whole_optOn (h : WholeDomain T c c') {s n : String} (hk : OtherKey s.toList n.toList) (ho : OptionOn c' s n) :
    OptionOn c s n := by
  rcases ho with ho | ⟨v, hv, hs⟩
  · exact Or.inl fun d => (h.same _ _ _ hk).symm.trans (ho d)
  · exact Or.inr ⟨v, hv, fun d => (h.same _ _ _ hk).symm.trans (hs d)⟩

theorem whole_sets (h : WholeDomain T c c') {s n v : String} (hk : OtherKey s.toList n.toList) (ho : Sets c' s n v) :
    Sets c s n v := fun d => (h.same _ _ _ hk).symm.trans (ho d)

theorem whole_plain (h : WholeDomain T c c') (hp : PlainHdf5 c') : PlainHdf5 c :=
  ⟨whole_on h (by decide) hp.enabled, whole_off h (by decide) hp.ghosts, whole_off h (by decide) hp.allghosts,
    whole_optOn h (by decide) hp.pieces⟩

variable {c₀ : Ini.Reader}

theorem restarts_on (h : Restarts c₀ c' name) {s n : String} (hk : NotRestartKey s.toList n.toList)
    (ho : SwitchedOn c₀ s n) : SwitchedOn c' s n := by
  obtain ⟨v, hv, hs⟩ := ho
  exact ⟨v, hv, fun d => (h.same _ _ _ hk).trans (hs d)⟩

theorem restarts_off (h : Restarts c₀ c' name) {s n : String} (hk : NotRestartKey s.toList n.toList)
    (ho : OptionOff c₀ s n) : OptionOff c' s n := by
  rcases ho with ho | ⟨v, hv, hs⟩
  · exact Or.inl fun d => (h.same _ _ _ hk).trans (ho d)
  · exact Or.inr ⟨v, hv, fun d => (h.same _ _ _ hk).trans (hs d)⟩

theorem restarts_optOn (h : Restarts c₀ c' name) {s n : String} (hk : NotRestartKey s.toList n.toList)
    (ho : OptionOn c₀ s n) : OptionOn c' s n := by
  rcases ho with ho | ⟨v, hv, hs⟩
  · exact Or.inl fun d => (h.same _ _ _ hk).trans (ho d)
  · exact Or.inr ⟨v, hv, fun d => (h.same _ _ _ hk).trans (hs d)⟩

theorem restarts_plainHdf5 (h : Restarts c₀ c' name) (hp : PlainHdf5 c₀) : PlainHdf5 c' :=
  ⟨restarts_on h (by decide) hp.enabled, restarts_off h (by decide) hp.ghosts,
    restarts_off h (by decide) hp.allghosts, restarts_optOn h (by decide) hp.pieces⟩

theorem whole_asks (h : WholeDomain T c c') (hr : Restarts c₀ c' name) : AsksRestart c name :=
  ⟨whole_on h (by decide) hr.enabled, whole_sets h (by decide) hr.file, hr.ending, whole_off h (by decide) hr.upscale⟩

theorem whole_sizes (h : WholeDomain T c c') (F : FloatLib ℝ) :
    (hydroParams F c').nx = (hydroParamsMpi T F c).nx * T.mx ∧ (hydroParams F c').ny = (hydroParamsMpi T F c).ny * T.my ∧
    (hydroParams F c').nz = (hydroParamsMpi T F c).nz * T.mz := by
  rw [whole_params h]
  exact ⟨rfl, rfl, rfl⟩

theorem le_pieces {a n : Int} {m : Nat} (h : a ≤ n) (ha : 0 ≤ a) (hm : 0 < m) : a ≤ n * m := by
  have : n * 1 ≤ n * m := Int.mul_le_mul_of_nonneg_left (by omega) (by omega)
  omega

theorem ordinary_whole_box (h : WholeDomain T c c') (o : OrdinaryBox (hydroParamsMpi T F c)) :
    OrdinaryBox (hydroParams F c') := by
  rw [whole_params h]
  exact ⟨o.x, o.y, o.z, o.gamma, o.smallr, o.smallc, o.cfl, o.nlog⟩

theorem ordinary_whole_2 (h : WholeDomain T c c') (o : Ordinary2 (hydroParamsMpi T F c)) :
    Ordinary2 (hydroParams F c') := by
  obtain ⟨e1, e2, e3⟩ := whole_sizes h F
  refine ⟨ordinary_whole_box h o.toOrdinaryBox, ?_, ?_, ?_, ?_, ?_⟩
  · rw [e1]; exact le_pieces o.nx (by norm_num) T.hx
  · rw [e2]; exact le_pieces o.ny (by norm_num) T.hy
  · rw [e3]; exact le_pieces o.nz (by norm_num) T.hz
  · rw [whole_params h]; exact o.slope
  · rw [whole_params h]; exact o.riemann

theorem ordinary_whole_3 (h : WholeDomain T c c') (o : Ordinary3 (hydroParamsMpi T F c)) :
    Ordinary3 (hydroParams F c') := by
  obtain ⟨e1, e2, e3⟩ := whole_sizes h F
  refine ⟨ordinary_whole_box h o.toOrdinaryBox, ?_, ?_, ?_, ?_, ?_⟩
  · rw [e1]; exact le_pieces o.nx (by norm_num) T.hx
  · rw [e2]; exact le_pieces o.ny (by norm_num) T.hy
  · rw [e3]; exact le_pieces o.nz (by norm_num) T.hz
  · rw [whole_params h]; exact o.slope
  · rw [whole_params h]; exact o.riemann

theorem ordinary_whole_m2 (h : WholeDomain T c c') (o : OrdinaryM2 (hydroParamsMpi T F c)) :
    OrdinaryM2 (hydroParams F c') := by
  obtain ⟨e1, e2, e3⟩ := whole_sizes h F
  refine ⟨ordinary_whole_box h o.toOrdinaryBox, ?_, ?_, ?_, ?_, ?_⟩
  · rw [e1]; exact le_pieces o.nx (by norm_num) T.hx
  · rw [e2]; exact le_pieces o.ny (by norm_num) T.hy
  · rw [e3]; exact le_pieces o.nz (by norm_num) T.hz
  · rw [whole_params h]; exact o.slope
  · rw [whole_params h]; exact o.riemann

theorem ordinary_whole_m3 (h : WholeDomain T c c') (o : OrdinaryM3 (hydroParamsMpi T F c)) :
    OrdinaryM3 (hydroParams F c') := by
  obtain ⟨e1, e2, e3⟩ := whole_sizes h F
  refine ⟨ordinary_whole_box h o.toOrdinaryBox, ?_, ?_, ?_, ?_, ?_⟩
  · rw [e1]; exact le_pieces o.nx (by norm_num) T.hx
  · rw [e2]; exact le_pieces o.ny (by norm_num) T.hy
  · rw [e3]; exact le_pieces o.nz (by norm_num) T.hz
  · rw [whole_params h]; exact o.slope
  · rw [whole_params h]; exact o.riemann

end Whole

variable {file₀ : Option (List Char)} {e₀ : Env ℝ} {A : RunState ℝ} {pre post : List (Output ℝ)} {o : Output ℝ}

theorem whole_shape_hydro2 {c : Ini.Reader} (hs : Sets c "run" "solver_name" "Hydro_Muscl_2D")
    (ho : Ordinary2 (hydroParams F c)) : (hydroParams F c).WF ∧ (hydroParams F c).nbvar = 4 := by
  obtain ⟨h1, -⟩ := C36_runnable_2d F c (hs _) ho.nx ho.ny ho.nz ho.x ho.y ho.z ho.slope ho.riemann
    ho.gamma ho.smallr ho.smallc ho.cfl
  exact ⟨h1.wf, h1.nbvar⟩

theorem whole_shape_hydro3 {c : Ini.Reader} (hs : Sets c "run" "solver_name" "Hydro_Muscl_3D")
    (ho : Ordinary3 (hydroParams F c)) : (hydroParams F c).WF ∧ (hydroParams F c).nbvar = 5 := by
  obtain ⟨h1, -⟩ := C36_runnable_3d F c (hs _) ho.nx ho.ny ho.nz ho.x ho.y ho.z ho.slope ho.riemann
    ho.gamma ho.smallr ho.smallc ho.cfl
  exact ⟨h1.wf, h1.nbvar⟩

theorem whole_shape_mhd2 {c : Ini.Reader} (hs : Sets c "run" "solver_name" "MHD_Muscl_2D")
    (ho : OrdinaryM2 (hydroParams F c)) : (hydroParams F c).WF ∧ (hydroParams F c).nbvar = 8 := by
  obtain ⟨h1, -⟩ := C54_mhd_runnable F c (Or.inl (hs _)) ho.nx ho.ny (le_trans (by norm_num) ho.nz) ho.x ho.y ho.z
    ho.slope ho.riemann ho.gamma ho.smallr ho.smallc ho.cfl
  exact ⟨h1.wf, h1.nbvar⟩

theorem whole_shape_mhd3 {c : Ini.Reader} (hs : Sets c "run" "solver_name" "MHD_Muscl_3D")
    (ho : OrdinaryM3 (hydroParams F c)) : (hydroParams F c).WF ∧ (hydroParams F c).nbvar = 8 := by
  obtain ⟨h1, -⟩ := C54_mhd_runnable F c (Or.inr (hs _)) ho.nx ho.ny (le_trans (by norm_num) ho.nz) ho.x ho.y ho.z
    ho.slope ho.riemann ho.gamma ho.smallr ho.smallc ho.cfl
  exact ⟨h1.wf, h1.nbvar⟩

/-- the serial restart and the MPI restart from files of the same state -/
theorem continue_hydro2 (h : Restarting F M file₀ file' name e₀ e' A pre o post f')
    (hkeep : OptionOff (Ini.broadcastSerial file') "run" "restart_reset_totaltime")
    (hw : WholeDomain T (Ini.broadcastMpi file) (Ini.broadcastSerial file')) (hid : e.ident ≤ 0)
    (hd : disk name.toList = some f) (hn : f.step = f'.step) (ht : f.time = f'.time)
    (hr : MpiRestarts F e true disk file st flow) :
    let c := Ini.broadcastMpi file
    let p := hydroParamsMpi T F c
    Sets c "run" "solver_name" "Hydro_Muscl_2D" → Ordinary2 p → NamedBC2 T p → OptionOff (Ini.broadcastSerial file₀) "gravity" "enabled" →
    (∃ G : Int → Int → Nat → ℝ, Stores2 f 4 (p.nx * T.mx) (p.ny * T.my) G ∧ Stores2 f' 4 (p.nx * T.mx) (p.ny * T.my) G) →
    ∃ B, Continues (SameInterior2 (hydroParams F (Ini.broadcastSerial file₀))) (hydroParams F (Ini.broadcastSerial file₀))
        pre o post A B ∧
      Reproduces flow st (BlockFile2 T (rawParams (lit 0) F c)) B := by
  intro c p hs ho hbc hgr hG
  have hP : hydroParams F (Ini.broadcastSerial file') = hydroParams F (Ini.broadcastSerial file₀) :=
    restarts_params h.restart F
  have ho' : Ordinary2 (hydroParams F (Ini.broadcastSerial file₀)) := by
    rw [← hP]; exact ordinary_whole_2 hw ho
  have hs' : Sets (Ini.broadcastSerial file₀) "run" "solver_name" "Hydro_Muscl_2D" := fun d =>
    (h.restart.same _ _ _ (by decide)).symm.trans ((hw.same _ _ _ (by decide)).trans (hs d))
  obtain ⟨⟨B, hB⟩, hall⟩ := C88_restart_hydro_2d h hkeep hs' ho' hgr
  obtain ⟨B', e1, hc⟩ := hall _ hB
  cases e1
  refine ⟨B, hc, C94_hydro_2d (f := f) (f' := f') ⟨hid, h.identB, hw, ?_, whole_asks hw h.restart, hd, h.hdf5, h.disk, hn, ht, hr, hB⟩
    hs ho hbc hG⟩
  exact whole_plain hw (restarts_plainHdf5 h.restart h.plain)

/-- **C94 (2D hydro, from a serial run).** A serial run wrote the HDF5 file `f`.  The MPI program, restarted from `f` on any
process grid that divides the domain, continues it: it does what a serial run `B` does that continues the first one
from that file on, without gravity. -/
theorem C94_continues_serial_hydro_2d (h : Restarting F M file₀ file' name e₀ e' A pre o post f)
    (hkeep : OptionOff (Ini.broadcastSerial file') "run" "restart_reset_totaltime")
    (hw : WholeDomain T (Ini.broadcastMpi file) (Ini.broadcastSerial file')) (hid : e.ident ≤ 0)
    (hd : disk name.toList = some f) (hr : MpiRestarts F e true disk file st flow) :
    let c := Ini.broadcastMpi file
    let p := hydroParamsMpi T F c
    Sets c "run" "solver_name" "Hydro_Muscl_2D" → Ordinary2 p → NamedBC2 T p → OptionOff (Ini.broadcastSerial file₀) "gravity" "enabled" →
    ∃ B, Continues (SameInterior2 (hydroParams F (Ini.broadcastSerial file₀))) (hydroParams F (Ini.broadcastSerial file₀))
        pre o post A B ∧
      Reproduces flow st (BlockFile2 T (rawParams (lit 0) F c)) B := by
  intro c p hs ho hbc hgr
  refine continue_hydro2 h hkeep hw hid hd rfl rfl hr hs ho hbc hgr ?_
  have hP : hydroParams F (Ini.broadcastSerial file') = hydroParams F (Ini.broadcastSerial file₀) :=
    restarts_params h.restart F
  obtain ⟨p2, p3, p4⟩ := whole_sizes hw F
  have hs' : Sets (Ini.broadcastSerial file₀) "run" "solver_name" "Hydro_Muscl_2D" := fun d =>
    (h.restart.same _ _ _ (by decide)).symm.trans ((hw.same _ _ _ (by decide)).trans (hs d))
  obtain ⟨g1, g2⟩ := whole_shape_hydro2 (F := F) hs' (hP ▸ ordinary_whole_2 hw ho)
  rw [hP] at p2 p3
  have := (C66_file_2d e₀.lay g1 (congrArg (·.2.2.1) (C79_consistent F _ (findSolver_sets (k := .hydro2) (by simp [solverRegistry]) hs')))
    (C66_config_fields (lit 0) F _) h.saved').2.2
  rw [g2, p2, p3] at this
  exact ⟨_, this, this⟩

/-- the serial restart and the MPI restart from files of the same state -/
theorem continue_hydro3 (h : Restarting F M file₀ file' name e₀ e' A pre o post f')
    (hkeep : OptionOff (Ini.broadcastSerial file') "run" "restart_reset_totaltime")
    (hw : WholeDomain T (Ini.broadcastMpi file) (Ini.broadcastSerial file')) (hid : e.ident ≤ 0)
    (hd : disk name.toList = some f) (hn : f.step = f'.step) (ht : f.time = f'.time)
    (hr : MpiRestarts F e true disk file st flow) :
    let c := Ini.broadcastMpi file
    let p := hydroParamsMpi T F c
    Sets c "run" "solver_name" "Hydro_Muscl_3D" → Ordinary3 p → NamedBC3 T p → OptionOff (Ini.broadcastSerial file₀) "gravity" "enabled" →
    (∃ G : Int → Int → Int → Nat → ℝ, Stores3 f 5 (p.nx * T.mx) (p.ny * T.my) (p.nz * T.mz) G ∧ Stores3 f' 5 (p.nx * T.mx) (p.ny * T.my) (p.nz * T.mz) G) →
    ∃ B, Continues (SameInterior3 (hydroParams F (Ini.broadcastSerial file₀))) (hydroParams F (Ini.broadcastSerial file₀))
        pre o post A B ∧
      Reproduces flow st (BlockFile3 T (rawParams (lit 0) F c)) B := by
  intro c p hs ho hbc hgr hG
  have hP : hydroParams F (Ini.broadcastSerial file') = hydroParams F (Ini.broadcastSerial file₀) :=
    restarts_params h.restart F
  have ho' : Ordinary3 (hydroParams F (Ini.broadcastSerial file₀)) := by
    rw [← hP]; exact ordinary_whole_3 hw ho
  have hs' : Sets (Ini.broadcastSerial file₀) "run" "solver_name" "Hydro_Muscl_3D" := fun d =>
    (h.restart.same _ _ _ (by decide)).symm.trans ((hw.same _ _ _ (by decide)).trans (hs d))
  obtain ⟨⟨B, hB⟩, hall⟩ := C88_restart_hydro_3d h hkeep hs' ho' hgr
  obtain ⟨B', e1, hc⟩ := hall _ hB
  cases e1
  refine ⟨B, hc, C94_hydro_3d (f := f) (f' := f') ⟨hid, h.identB, hw, ?_, whole_asks hw h.restart, hd, h.hdf5, h.disk, hn, ht, hr, hB⟩
    hs ho hbc hG⟩
  exact whole_plain hw (restarts_plainHdf5 h.restart h.plain)

/-- **C94 (3D hydro, from a serial run).** A serial run wrote the HDF5 file `f`.  The MPI program, restarted from `f` on any
process grid that divides the domain, continues it: it does what a serial run `B` does that continues the first one
from that file on, without gravity. -/
theorem C94_continues_serial_hydro_3d (h : Restarting F M file₀ file' name e₀ e' A pre o post f)
    (hkeep : OptionOff (Ini.broadcastSerial file') "run" "restart_reset_totaltime")
    (hw : WholeDomain T (Ini.broadcastMpi file) (Ini.broadcastSerial file')) (hid : e.ident ≤ 0)
    (hd : disk name.toList = some f) (hr : MpiRestarts F e true disk file st flow) :
    let c := Ini.broadcastMpi file
    let p := hydroParamsMpi T F c
    Sets c "run" "solver_name" "Hydro_Muscl_3D" → Ordinary3 p → NamedBC3 T p → OptionOff (Ini.broadcastSerial file₀) "gravity" "enabled" →
    ∃ B, Continues (SameInterior3 (hydroParams F (Ini.broadcastSerial file₀))) (hydroParams F (Ini.broadcastSerial file₀))
        pre o post A B ∧
      Reproduces flow st (BlockFile3 T (rawParams (lit 0) F c)) B := by
  intro c p hs ho hbc hgr
  refine continue_hydro3 h hkeep hw hid hd rfl rfl hr hs ho hbc hgr ?_
  have hP : hydroParams F (Ini.broadcastSerial file') = hydroParams F (Ini.broadcastSerial file₀) :=
    restarts_params h.restart F
  obtain ⟨p2, p3, p4⟩ := whole_sizes hw F
  have hs' : Sets (Ini.broadcastSerial file₀) "run" "solver_name" "Hydro_Muscl_3D" := fun d =>
    (h.restart.same _ _ _ (by decide)).symm.trans ((hw.same _ _ _ (by decide)).trans (hs d))
  obtain ⟨g1, g2⟩ := whole_shape_hydro3 (F := F) hs' (hP ▸ ordinary_whole_3 hw ho)
  rw [hP] at p2 p3 p4
  have := (C66_file_3d e₀.lay g1 (congrArg (·.2.2.1) (C79_consistent F _ (findSolver_sets (k := .hydro3) (by simp [solverRegistry]) hs')))
    (C66_config_fields (lit 0) F _) h.saved').2.2
  rw [g2, p2, p3, p4] at this
  exact ⟨_, this, this⟩

/-- the serial restart and the MPI restart from files of the same state -/
theorem continue_mhd2 (h : Restarting F M file₀ file' name e₀ e' A pre o post f')
    (hkeep : OptionOff (Ini.broadcastSerial file') "run" "restart_reset_totaltime")
    (hw : WholeDomain T (Ini.broadcastMpi file) (Ini.broadcastSerial file')) (hid : e.ident ≤ 0)
    (hd : disk name.toList = some f) (hn : f.step = f'.step) (ht : f.time = f'.time)
    (hr : MpiRestarts F e true disk file st flow) :
    let c := Ini.broadcastMpi file
    let p := hydroParamsMpi T F c
    Sets c "run" "solver_name" "MHD_Muscl_2D" → OrdinaryM2 p → NamedBC2 T p →
    (∃ G : Int → Int → Nat → ℝ, Stores2 f 8 (p.nx * T.mx) (p.ny * T.my) G ∧ Stores2 f' 8 (p.nx * T.mx) (p.ny * T.my) G) →
    ∃ B, Continues (SameInterior2 (hydroParams F (Ini.broadcastSerial file₀))) (hydroParams F (Ini.broadcastSerial file₀))
        pre o post A B ∧
      Reproduces flow st (BlockFile2 T (rawParams (lit 0) F c)) B := by
  intro c p hs ho hbc hG
  have hP : hydroParams F (Ini.broadcastSerial file') = hydroParams F (Ini.broadcastSerial file₀) :=
    restarts_params h.restart F
  have ho' : OrdinaryM2 (hydroParams F (Ini.broadcastSerial file₀)) := by
    rw [← hP]; exact ordinary_whole_m2 hw ho
  have hs' : Sets (Ini.broadcastSerial file₀) "run" "solver_name" "MHD_Muscl_2D" := fun d =>
    (h.restart.same _ _ _ (by decide)).symm.trans ((hw.same _ _ _ (by decide)).trans (hs d))
  obtain ⟨⟨B, hB⟩, hall⟩ := C88_restart_mhd_2d h hkeep hs' ho'
  obtain ⟨B', e1, hc⟩ := hall _ hB
  cases e1
  refine ⟨B, hc, C94_mhd_2d (f := f) (f' := f') ⟨hid, h.identB, hw, ?_, whole_asks hw h.restart, hd, h.hdf5, h.disk, hn, ht, hr, hB⟩
    hs ho hbc hG⟩
  exact whole_plain hw (restarts_plainHdf5 h.restart h.plain)

/-- **C94 (2D MHD, from a serial run).** A serial run wrote the HDF5 file `f`.  The MPI program, restarted from `f` on any
process grid that divides the domain, continues it: it does what a serial run `B` does that continues the first one
from that file on. -/
theorem C94_continues_serial_mhd_2d (h : Restarting F M file₀ file' name e₀ e' A pre o post f)
    (hkeep : OptionOff (Ini.broadcastSerial file') "run" "restart_reset_totaltime")
    (hw : WholeDomain T (Ini.broadcastMpi file) (Ini.broadcastSerial file')) (hid : e.ident ≤ 0)
    (hd : disk name.toList = some f) (hr : MpiRestarts F e true disk file st flow) :
    let c := Ini.broadcastMpi file
    let p := hydroParamsMpi T F c
    Sets c "run" "solver_name" "MHD_Muscl_2D" → OrdinaryM2 p → NamedBC2 T p →
    ∃ B, Continues (SameInterior2 (hydroParams F (Ini.broadcastSerial file₀))) (hydroParams F (Ini.broadcastSerial file₀))
        pre o post A B ∧
      Reproduces flow st (BlockFile2 T (rawParams (lit 0) F c)) B := by
  intro c p hs ho hbc
  refine continue_mhd2 h hkeep hw hid hd rfl rfl hr hs ho hbc ?_
  have hP : hydroParams F (Ini.broadcastSerial file') = hydroParams F (Ini.broadcastSerial file₀) :=
    restarts_params h.restart F
  obtain ⟨p2, p3, p4⟩ := whole_sizes hw F
  have hs' : Sets (Ini.broadcastSerial file₀) "run" "solver_name" "MHD_Muscl_2D" := fun d =>
    (h.restart.same _ _ _ (by decide)).symm.trans ((hw.same _ _ _ (by decide)).trans (hs d))
  obtain ⟨g1, g2⟩ := whole_shape_mhd2 (F := F) hs' (hP ▸ ordinary_whole_m2 hw ho)
  rw [hP] at p2 p3
  have := (C66_file_2d e₀.lay g1 (congrArg (·.2.2.1) (C79_consistent F _ (findSolver_sets (k := .mhd2) (by simp [solverRegistry]) hs')))
    (C66_config_fields (lit 0) F _) h.saved').2.2
  rw [g2, p2, p3] at this
  exact ⟨_, this, this⟩

/-- the serial restart and the MPI restart from files of the same state -/
theorem continue_mhd3 (h : Restarting F M file₀ file' name e₀ e' A pre o post f')
    (hkeep : OptionOff (Ini.broadcastSerial file') "run" "restart_reset_totaltime")
    (hw : WholeDomain T (Ini.broadcastMpi file) (Ini.broadcastSerial file')) (hid : e.ident ≤ 0)
    (hd : disk name.toList = some f) (hn : f.step = f'.step) (ht : f.time = f'.time)
    (hr : MpiRestarts F e true disk file st flow) :
    let c := Ini.broadcastMpi file
    let p := hydroParamsMpi T F c
    Sets c "run" "solver_name" "MHD_Muscl_3D" → OrdinaryM3 p → NamedBC3 T p →
    (∃ G : Int → Int → Int → Nat → ℝ, Stores3 f 8 (p.nx * T.mx) (p.ny * T.my) (p.nz * T.mz) G ∧ Stores3 f' 8 (p.nx * T.mx) (p.ny * T.my) (p.nz * T.mz) G) →
    ∃ B, Continues (SameInterior3 (hydroParams F (Ini.broadcastSerial file₀))) (hydroParams F (Ini.broadcastSerial file₀))
        pre o post A B ∧
      Reproduces flow st (BlockFile3 T (rawParams (lit 0) F c)) B := by
  intro c p hs ho hbc hG
  have hP : hydroParams F (Ini.broadcastSerial file') = hydroParams F (Ini.broadcastSerial file₀) :=
    restarts_params h.restart F
  have ho' : OrdinaryM3 (hydroParams F (Ini.broadcastSerial file₀)) := by
    rw [← hP]; exact ordinary_whole_m3 hw ho
  have hs' : Sets (Ini.broadcastSerial file₀) "run" "solver_name" "MHD_Muscl_3D" := fun d =>
    (h.restart.same _ _ _ (by decide)).symm.trans ((hw.same _ _ _ (by decide)).trans (hs d))
  obtain ⟨⟨B, hB⟩, hall⟩ := C88_restart_mhd_3d h hkeep hs' ho'
  obtain ⟨B', e1, hc⟩ := hall _ hB
  cases e1
  refine ⟨B, hc, C94_mhd_3d (f := f) (f' := f') ⟨hid, h.identB, hw, ?_, whole_asks hw h.restart, hd, h.hdf5, h.disk, hn, ht, hr, hB⟩
    hs ho hbc hG⟩
  exact whole_plain hw (restarts_plainHdf5 h.restart h.plain)

/-- **C94 (3D MHD, from a serial run).** A serial run wrote the HDF5 file `f`.  The MPI program, restarted from `f` on any
process grid that divides the domain, continues it: it does what a serial run `B` does that continues the first one
from that file on. -/
theorem C94_continues_serial_mhd_3d (h : Restarting F M file₀ file' name e₀ e' A pre o post f)
    (hkeep : OptionOff (Ini.broadcastSerial file') "run" "restart_reset_totaltime")
    (hw : WholeDomain T (Ini.broadcastMpi file) (Ini.broadcastSerial file')) (hid : e.ident ≤ 0)
    (hd : disk name.toList = some f) (hr : MpiRestarts F e true disk file st flow) :
    let c := Ini.broadcastMpi file
    let p := hydroParamsMpi T F c
    Sets c "run" "solver_name" "MHD_Muscl_3D" → OrdinaryM3 p → NamedBC3 T p →
    ∃ B, Continues (SameInterior3 (hydroParams F (Ini.broadcastSerial file₀))) (hydroParams F (Ini.broadcastSerial file₀))
        pre o post A B ∧
      Reproduces flow st (BlockFile3 T (rawParams (lit 0) F c)) B := by
  intro c p hs ho hbc
  refine continue_mhd3 h hkeep hw hid hd rfl rfl hr hs ho hbc ?_
  have hP : hydroParams F (Ini.broadcastSerial file') = hydroParams F (Ini.broadcastSerial file₀) :=
    restarts_params h.restart F
  obtain ⟨p2, p3, p4⟩ := whole_sizes hw F
  have hs' : Sets (Ini.broadcastSerial file₀) "run" "solver_name" "MHD_Muscl_3D" := fun d =>
    (h.restart.same _ _ _ (by decide)).symm.trans ((hw.same _ _ _ (by decide)).trans (hs d))
  obtain ⟨g1, g2⟩ := whole_shape_mhd3 (F := F) hs' (hP ▸ ordinary_whole_m3 hw ho)
  rw [hP] at p2 p3 p4
  have := (C66_file_3d e₀.lay g1 (congrArg (·.2.2.1) (C79_consistent F _ (findSolver_sets (k := .mhd3) (by simp [solverRegistry]) hs')))
    (C66_config_fields (lit 0) F _) h.saved').2.2
  rw [g2, p2, p3, p4] at this
  exact ⟨_, this, this⟩

/-! ### From an MPI run, on another process grid -/

namespace Spec

/-- An MPI run on the process grid `T₁`, with the parameter file `file₁`, that does what the serial program did on the
file of the whole domain `file₀`, ending in `A` at the end time; its processes have all ended (`y`), and have written
the `k`-th output together as the HDF5 file `f`.  `file'` is `file₀` with a restart from `name` asked for. -/
structure MpiWrote (F : FloatLib ℝ) (M : MathLib ℝ) (T₁ : Topo) (file₀ file₁ file' : Option (List Char)) (name : String)
    (Block : T₁.Rank → Output ℝ → Output ℝ → Prop) (A : RunState ℝ) (k : Nat) (f : H5File ℝ) : Prop where
  run : ∃ e₀ : Env ℝ, e₀.ident ≤ 0 ∧ serialMain F M e₀ file₀ (.finished A)
  reached : (hydroParams F (Ini.broadcastSerial file₀)).tEnd - 1 / 100000000000000 ≤ A.t
  whole : WholeDomain T₁ (Ini.broadcastMpi file₁) (Ini.broadcastSerial file₀)
  plain : PlainHdf5 (Ini.broadcastSerial file₀)
  up : OptionOff (Ini.broadcastSerial file₀) "run" "restart_upscale"
  outputs : (hydroParams F (Ini.broadcastSerial file₀)).nOutput ≠ 0
  file : ∃ (st : T₁.Rank → RunState ℝ) (flow : Flow Ctl T₁.Rank (RunState ℝ) (Msg ℝ)) (buf : Prop) (n : Nat)
    (y : FConfig Ctl T₁.Rank (RunState ℝ) (Msg ℝ)) (o : T₁.Rank → Output ℝ) (lay : Layout) (num : Int) (tim : ℝ),
    Reproduces flow st Block A ∧ FSteps buf flow n (FConfig.init (.pre 0) st) y ∧ y.Done flow ∧
    (∀ r, (y.c.st r).outputs[k]? = some (o r) ∧ (o r).number = num ∧ (o r).time = tim) ∧
    saveH5Mpi lay (h5Options (Ini.broadcastMpi file₁)) T₁ (hydroParamsMpi T₁ F (Ini.broadcastMpi file₁))
      (fun r => (o r).data) num tim f
  restart : Restarts (Ini.broadcastSerial file₀) (Ini.broadcastSerial file') name

end Spec

variable {T₁ : Topo} {file₁ : Option (List Char)} {k : Nat}

/-- the output of the serial run whose blocks the processes wrote into the file -/
theorem Spec.MpiWrote.output {Block : T₁.Rank → Output ℝ → Output ℝ → Prop}
    (h : MpiWrote F M T₁ file₀ file₁ file' name Block A k f) :
    ∃ go, A.outputs[k]? = some go ∧ ∃ (o : T₁.Rank → Output ℝ) (lay : Layout) (num : Int) (tim : ℝ),
      (∀ r, Block r (o r) go ∧ (o r).number = num ∧ (o r).time = tim) ∧
      saveH5Mpi lay {} T₁ (hydroParamsMpi T₁ F (Ini.broadcastMpi file₁)) (fun r => (o r).data) num tim f := by
  obtain ⟨st, flow, buf, n, y, o, lay, num, tim, ⟨N, hN⟩, hy, hd, ho, hs⟩ := h.file
  have hopt : h5Options (Ini.broadcastMpi file₁) = {} :=
    plain_options (whole_plain h.whole h.plain) (whole_off h.whole (by decide) h.up)
  rw [hopt] at hs
  have hb := ((hN buf n y hy).2.2 hd).2
  obtain ⟨go, g1, -⟩ := forall₂_get (hb (T₁.cartRank 0 0 0)).2.2.2 (ho (T₁.cartRank 0 0 0)).1
  refine ⟨go, g1, o, lay, num, tim, fun r => ⟨?_, (ho r).2⟩, hs⟩
  obtain ⟨go', g1', g2'⟩ := forall₂_get (hb r).2.2.2 (ho r).1
  obtain rfl : go = go' := Option.some.inj (g1.symm.trans g1')
  exact g2'

/-- the serial restart from a serial file of the same output -/
theorem Spec.MpiWrote.restarting {Block : T₁.Rank → Output ℝ → Output ℝ → Prop}
    (h : MpiWrote F M T₁ file₀ file₁ file' name Block A k f) {go : Output ℝ} (hgo : A.outputs[k]? = some go) :
    ∃ (e₀ e' : Env ℝ) (f' : H5File ℝ),
      Restarting F M file₀ file' name e₀ e' A (A.outputs.take k) go (A.outputs.drop (k + 1)) f' := by
  obtain ⟨e₀, hid, hA⟩ := h.run
  obtain ⟨f', hf'⟩ := saveH5_exists e₀.lay (h5Options (Ini.broadcastSerial file₀))
    (hydroParams F (Ini.broadcastSerial file₀)) go.data go.number go.time
  exact ⟨e₀, { e₀ with hdf5 := true, disk := fun _ => some f' }, f', hid, hid, h.restart, h.plain, h.up, h.outputs, hA,
    h.reached, split_at hgo, hf', rfl, rfl⟩

theorem ordinary_local_2 {c : Ini.Reader} (o : Ordinary2 (hydroParamsMpi T₁ F c)) : Ordinary2 (hydroParams F c) :=
  ⟨⟨o.x, o.y, o.z, o.gamma, o.smallr, o.smallc, o.cfl, o.nlog⟩, o.nx, o.ny, o.nz, o.slope, o.riemann⟩

theorem ordinary_local_3 {c : Ini.Reader} (o : Ordinary3 (hydroParamsMpi T₁ F c)) : Ordinary3 (hydroParams F c) :=
  ⟨⟨o.x, o.y, o.z, o.gamma, o.smallr, o.smallc, o.cfl, o.nlog⟩, o.nx, o.ny, o.nz, o.slope, o.riemann⟩

theorem ordinary_local_m2 {c : Ini.Reader} (o : OrdinaryM2 (hydroParamsMpi T₁ F c)) : OrdinaryM2 (hydroParams F c) :=
  ⟨⟨o.x, o.y, o.z, o.gamma, o.smallr, o.smallc, o.cfl, o.nlog⟩, o.nx, o.ny, o.nz, o.slope, o.riemann⟩

theorem ordinary_local_m3 {c : Ini.Reader} (o : OrdinaryM3 (hydroParamsMpi T₁ F c)) : OrdinaryM3 (hydroParams F c) :=
  ⟨⟨o.x, o.y, o.z, o.gamma, o.smallr, o.smallc, o.cfl, o.nlog⟩, o.nx, o.ny, o.nz, o.slope, o.riemann⟩

/-- **C94 (2D hydro, from an MPI run).** An MPI run, fresh or itself restarted (C80, C94), wrote the HDF5 file `f`.  The
MPI program, restarted from `f` on another process grid with the same whole domain, continues it: it does what a serial
run `B` does that continues, from that file on, the serial run `A` the first run did; without gravity. -/
theorem C94_continues_mpi_hydro_2d
    (h : MpiWrote F M T₁ file₀ file₁ file' name (BlockFile2 T₁ (rawParams (lit 0) F (Ini.broadcastMpi file₁))) A k f)
    (hkeep : OptionOff (Ini.broadcastSerial file') "run" "restart_reset_totaltime")
    (hw : WholeDomain T (Ini.broadcastMpi file) (Ini.broadcastSerial file')) (hid : e.ident ≤ 0)
    (hd : disk name.toList = some f) (hr : MpiRestarts F e true disk file st flow) :
    let c := Ini.broadcastMpi file
    let p := hydroParamsMpi T F c
    let P := hydroParams F (Ini.broadcastSerial file₀)
    Sets c "run" "solver_name" "Hydro_Muscl_2D" → Ordinary2 p → NamedBC2 T p →
    Ordinary2 (hydroParamsMpi T₁ F (Ini.broadcastMpi file₁)) →
    OptionOff (Ini.broadcastSerial file₀) "gravity" "enabled" →
    ∃ pre go post B, A.outputs = pre ++ go :: post ∧ pre.length = k ∧
      Continues (SameInterior2 P) P pre go post A B ∧
      Reproduces flow st (BlockFile2 T (rawParams (lit 0) F c)) B := by
  intro c p P hs ho hbc ho₁ hgr
  obtain ⟨go, hgo, o, lay, num, tim, hb, hsv⟩ := h.output
  obtain ⟨e₀, e', f', hres⟩ := h.restarting hgo
  have r₀ : T₁.Rank := T₁.cartRank 0 0 0
  have hP : hydroParams F (Ini.broadcastSerial file') = P := restarts_params h.restart F
  have hs' : Sets (Ini.broadcastSerial file₀) "run" "solver_name" "Hydro_Muscl_2D" := fun d =>
    (h.restart.same _ _ _ (by decide)).symm.trans ((hw.same _ _ _ (by decide)).trans (hs d))
  have hs₁ : Sets (Ini.broadcastMpi file₁) "run" "solver_name" "Hydro_Muscl_2D" := whole_sets h.whole (by decide) hs'
  obtain ⟨g1, g2⟩ := whole_shape_hydro2 (F := F) hs' (ordinary_whole_2 h.whole ho₁)
  obtain ⟨w1, w2⟩ := whole_shape_hydro2 (F := F) hs₁ (ordinary_local_2 ho₁)
  have dim0 : P.dimType = .two :=
    congrArg (·.2.2.1) (C79_consistent F _ (findSolver_sets (k := .hydro2) (by simp [solverRegistry]) hs'))
  have dim1 : (hydroParams F (Ini.broadcastMpi file₁)).dimType = .two :=
    congrArg (·.2.2.1) (C79_consistent F _ (findSolver_sets (k := .hydro2) (by simp [solverRegistry]) hs₁))
  have q1 : num = go.number := (hb r₀).2.1.symm.trans (hb r₀).1.1
  have q2 : tim = go.time := (hb r₀).2.2.symm.trans (hb r₀).1.2.1
  have hgw : (hydroParamsMpi T₁ F (Ini.broadcastMpi file₁)).ghostWidth = P.ghostWidth := by
    show _ = (hydroParams F (Ini.broadcastSerial file₀)).ghostWidth
    rw [whole_params h.whole]; rfl
  obtain ⟨n1, n2, n3⟩ := whole_sizes h.whole F
  obtain ⟨p1, p2, p3⟩ := whole_sizes hw F
  rw [hP] at p1 p2 p3
  obtain ⟨a1, a2, a3⟩ := C66_file_mpi_2d (p := hydroParamsMpi T₁ F (Ini.broadcastMpi file₁)) lay T₁ (wf_local T₁ w1) dim1
    (C66_config_fields (lit 0) F _) (U := fun r => (o r).data)
    (G := fun i j v => go.data ⟨(), i + P.ghostWidth, j + P.ghostWidth, 0, v⟩) (by
      intro r i j v hi hj hv
      have wl := wf_local T₁ w1
      have i1 := wl.imin_eq; have i2 := wl.imax_eq; have i3 := wl.jmin_eq; have i4 := wl.jmax_eq
      have i5 := wl.kmin_eq; have i6 := wl.kmax_eq
      have i7 : (localParams T₁ (rawParams (lit 0) F (Ini.broadcastMpi file₁))) = hydroParamsMpi T₁ F (Ini.broadcastMpi file₁) := rfl
      rw [show localParams T₁ (rawParams (lit 0) F (Ini.broadcastMpi file₁)) = hydroParamsMpi T₁ F (Ini.broadcastMpi file₁)
        from rfl] at i1 i2 i3 i4 i5 i6
      have := (hb r).1.2.2 (i + (hydroParamsMpi T₁ F (Ini.broadcastMpi file₁)).ghostWidth)
        (j + (hydroParamsMpi T₁ F (Ini.broadcastMpi file₁)).ghostWidth) v
        (by rw [i7]; refine ⟨?_, ?_, ?_, ?_⟩ <;> omega) hv
      have c1 : (globalCell T₁ (rawParams (lit 0) F (Ini.broadcastMpi file₁)) r (i + (hydroParamsMpi T₁ F (Ini.broadcastMpi file₁)).ghostWidth)
          (j + (hydroParamsMpi T₁ F (Ini.broadcastMpi file₁)).ghostWidth) 0).1 =
          (T₁.coords r).1 * (hydroParamsMpi T₁ F (Ini.broadcastMpi file₁)).nx + i + P.ghostWidth := by
        rw [← hgw]; dsimp only [globalCell, hydroParamsMpi, localParams, setupMpi, Params.init]; omega
      have c2 : (globalCell T₁ (rawParams (lit 0) F (Ini.broadcastMpi file₁)) r (i + (hydroParamsMpi T₁ F (Ini.broadcastMpi file₁)).ghostWidth)
          (j + (hydroParamsMpi T₁ F (Ini.broadcastMpi file₁)).ghostWidth) 0).2.1 =
          (T₁.coords r).2.1 * (hydroParamsMpi T₁ F (Ini.broadcastMpi file₁)).ny + j + P.ghostWidth := by
        rw [← hgw]; dsimp only [globalCell, hydroParamsMpi, localParams, setupMpi, Params.init]; omega
      rw [c1, c2] at this
      exact this) hsv
  obtain ⟨b1, b2, b3⟩ := C66_file_2d e₀.lay g1 dim0 (C66_config_fields (lit 0) F _) hres.saved'
  have w2' : (hydroParamsMpi T₁ F (Ini.broadcastMpi file₁)).nbvar = 4 := w2
  rw [w2', ← n1, ← n2] at a3
  rw [g2] at b3
  rw [show (hydroParams F (Ini.broadcastSerial file₀)).nx = _ from p1, show (hydroParams F (Ini.broadcastSerial file₀)).ny = _ from p2] at a3 b3
  obtain ⟨B, hB, hR⟩ := continue_hydro2 hres hkeep hw hid hd (a1.trans (q1.trans b1.symm)) (a2.trans (q2.trans b2.symm)) hr
    hs ho hbc hgr ⟨_, a3, b3⟩
  refine ⟨_, go, _, B, split_at hgo, ?_, hB, hR⟩
  obtain ⟨hk, -⟩ := List.getElem?_eq_some_iff.1 hgo
  rw [List.length_take]; omega

/-- **C94 (3D hydro, from an MPI run).** An MPI run, fresh or itself restarted (C80, C94), wrote the HDF5 file `f`.  The
MPI program, restarted from `f` on another process grid with the same whole domain, continues it: it does what a serial
run `B` does that continues, from that file on, the serial run `A` the first run did; without gravity. -/
theorem C94_continues_mpi_hydro_3d
    (h : MpiWrote F M T₁ file₀ file₁ file' name (BlockFile3 T₁ (rawParams (lit 0) F (Ini.broadcastMpi file₁))) A k f)
    (hkeep : OptionOff (Ini.broadcastSerial file') "run" "restart_reset_totaltime")
    (hw : WholeDomain T (Ini.broadcastMpi file) (Ini.broadcastSerial file')) (hid : e.ident ≤ 0)
    (hd : disk name.toList = some f) (hr : MpiRestarts F e true disk file st flow) :
    let c := Ini.broadcastMpi file
    let p := hydroParamsMpi T F c
    let P := hydroParams F (Ini.broadcastSerial file₀)
    Sets c "run" "solver_name" "Hydro_Muscl_3D" → Ordinary3 p → NamedBC3 T p →
    Ordinary3 (hydroParamsMpi T₁ F (Ini.broadcastMpi file₁)) →
    OptionOff (Ini.broadcastSerial file₀) "gravity" "enabled" →
    ∃ pre go post B, A.outputs = pre ++ go :: post ∧ pre.length = k ∧
      Continues (SameInterior3 P) P pre go post A B ∧
      Reproduces flow st (BlockFile3 T (rawParams (lit 0) F c)) B := by
  intro c p P hs ho hbc ho₁ hgr
  obtain ⟨go, hgo, o, lay, num, tim, hb, hsv⟩ := h.output
  obtain ⟨e₀, e', f', hres⟩ := h.restarting hgo
  have r₀ : T₁.Rank := T₁.cartRank 0 0 0
  have hP : hydroParams F (Ini.broadcastSerial file') = P := restarts_params h.restart F
  have hs' : Sets (Ini.broadcastSerial file₀) "run" "solver_name" "Hydro_Muscl_3D" := fun d =>
    (h.restart.same _ _ _ (by decide)).symm.trans ((hw.same _ _ _ (by decide)).trans (hs d))
  have hs₁ : Sets (Ini.broadcastMpi file₁) "run" "solver_name" "Hydro_Muscl_3D" := whole_sets h.whole (by decide) hs'
  obtain ⟨g1, g2⟩ := whole_shape_hydro3 (F := F) hs' (ordinary_whole_3 h.whole ho₁)
  obtain ⟨w1, w2⟩ := whole_shape_hydro3 (F := F) hs₁ (ordinary_local_3 ho₁)
  have dim0 : P.dimType = .three :=
    congrArg (·.2.2.1) (C79_consistent F _ (findSolver_sets (k := .hydro3) (by simp [solverRegistry]) hs'))
  have dim1 : (hydroParams F (Ini.broadcastMpi file₁)).dimType = .three :=
    congrArg (·.2.2.1) (C79_consistent F _ (findSolver_sets (k := .hydro3) (by simp [solverRegistry]) hs₁))
  have q1 : num = go.number := (hb r₀).2.1.symm.trans (hb r₀).1.1
  have q2 : tim = go.time := (hb r₀).2.2.symm.trans (hb r₀).1.2.1
  have hgw : (hydroParamsMpi T₁ F (Ini.broadcastMpi file₁)).ghostWidth = P.ghostWidth := by
    show _ = (hydroParams F (Ini.broadcastSerial file₀)).ghostWidth
    rw [whole_params h.whole]; rfl
  obtain ⟨n1, n2, n3⟩ := whole_sizes h.whole F
  obtain ⟨p1, p2, p3⟩ := whole_sizes hw F
  rw [hP] at p1 p2 p3
  obtain ⟨a1, a2, a3⟩ := C66_file_mpi_3d (p := hydroParamsMpi T₁ F (Ini.broadcastMpi file₁)) lay T₁ (wf_local T₁ w1) dim1
    (C66_config_fields (lit 0) F _) (U := fun r => (o r).data)
    (G := fun i j k v => go.data ⟨(), i + P.ghostWidth, j + P.ghostWidth, k + P.ghostWidth, v⟩) (by
      intro r i j k v hi hj hk hv
      have wl := wf_local T₁ w1
      have i1 := wl.imin_eq; have i2 := wl.imax_eq; have i3 := wl.jmin_eq; have i4 := wl.jmax_eq
      have i5 := wl.kmin_eq; have i6 := wl.kmax_eq
      have i7 : (localParams T₁ (rawParams (lit 0) F (Ini.broadcastMpi file₁))) = hydroParamsMpi T₁ F (Ini.broadcastMpi file₁) := rfl
      rw [show localParams T₁ (rawParams (lit 0) F (Ini.broadcastMpi file₁)) = hydroParamsMpi T₁ F (Ini.broadcastMpi file₁)
        from rfl] at i1 i2 i3 i4 i5 i6
      have := (hb r).1.2.2 (i + (hydroParamsMpi T₁ F (Ini.broadcastMpi file₁)).ghostWidth)
        (j + (hydroParamsMpi T₁ F (Ini.broadcastMpi file₁)).ghostWidth) (k + (hydroParamsMpi T₁ F (Ini.broadcastMpi file₁)).ghostWidth) v
        (by rw [i7]; refine ⟨⟨?_, ?_⟩, ⟨?_, ?_⟩, ?_, ?_⟩ <;> omega) hv
      have c1 : (globalCell T₁ (rawParams (lit 0) F (Ini.broadcastMpi file₁)) r (i + (hydroParamsMpi T₁ F (Ini.broadcastMpi file₁)).ghostWidth)
          (j + (hydroParamsMpi T₁ F (Ini.broadcastMpi file₁)).ghostWidth) (k + (hydroParamsMpi T₁ F (Ini.broadcastMpi file₁)).ghostWidth)).1 =
          (T₁.coords r).1 * (hydroParamsMpi T₁ F (Ini.broadcastMpi file₁)).nx + i + P.ghostWidth := by
        rw [← hgw]; dsimp only [globalCell, hydroParamsMpi, localParams, setupMpi, Params.init]; omega
      have c2 : (globalCell T₁ (rawParams (lit 0) F (Ini.broadcastMpi file₁)) r (i + (hydroParamsMpi T₁ F (Ini.broadcastMpi file₁)).ghostWidth)
          (j + (hydroParamsMpi T₁ F (Ini.broadcastMpi file₁)).ghostWidth) (k + (hydroParamsMpi T₁ F (Ini.broadcastMpi file₁)).ghostWidth)).2.1 =
          (T₁.coords r).2.1 * (hydroParamsMpi T₁ F (Ini.broadcastMpi file₁)).ny + j + P.ghostWidth := by
        rw [← hgw]; dsimp only [globalCell, hydroParamsMpi, localParams, setupMpi, Params.init]; omega
      have c3 : (globalCell T₁ (rawParams (lit 0) F (Ini.broadcastMpi file₁)) r (i + (hydroParamsMpi T₁ F (Ini.broadcastMpi file₁)).ghostWidth)
          (j + (hydroParamsMpi T₁ F (Ini.broadcastMpi file₁)).ghostWidth) (k + (hydroParamsMpi T₁ F (Ini.broadcastMpi file₁)).ghostWidth)).2.2 =
          (T₁.coords r).2.2 * (hydroParamsMpi T₁ F (Ini.broadcastMpi file₁)).nz + k + P.ghostWidth := by
        rw [← hgw]; dsimp only [globalCell, hydroParamsMpi, localParams, setupMpi, Params.init]; omega
      rw [c1, c2, c3] at this
      exact this) hsv
  obtain ⟨b1, b2, b3⟩ := C66_file_3d e₀.lay g1 dim0 (C66_config_fields (lit 0) F _) hres.saved'
  have w2' : (hydroParamsMpi T₁ F (Ini.broadcastMpi file₁)).nbvar = 5 := w2
  rw [w2', ← n1, ← n2, ← n3] at a3
  rw [g2] at b3
  rw [show (hydroParams F (Ini.broadcastSerial file₀)).nx = _ from p1, show (hydroParams F (Ini.broadcastSerial file₀)).ny = _ from p2, show (hydroParams F (Ini.broadcastSerial file₀)).nz = _ from p3] at a3 b3
  obtain ⟨B, hB, hR⟩ := continue_hydro3 hres hkeep hw hid hd (a1.trans (q1.trans b1.symm)) (a2.trans (q2.trans b2.symm)) hr
    hs ho hbc hgr ⟨_, a3, b3⟩
  refine ⟨_, go, _, B, split_at hgo, ?_, hB, hR⟩
  obtain ⟨hk, -⟩ := List.getElem?_eq_some_iff.1 hgo
  rw [List.length_take]; omega

/-- **C94 (2D MHD, from an MPI run).** An MPI run, fresh or itself restarted (C80, C94), wrote the HDF5 file `f`.  The
MPI program, restarted from `f` on another process grid with the same whole domain, continues it: it does what a serial
run `B` does that continues, from that file on, the serial run `A` the first run did. -/
theorem C94_continues_mpi_mhd_2d
    (h : MpiWrote F M T₁ file₀ file₁ file' name (BlockFile2 T₁ (rawParams (lit 0) F (Ini.broadcastMpi file₁))) A k f)
    (hkeep : OptionOff (Ini.broadcastSerial file') "run" "restart_reset_totaltime")
    (hw : WholeDomain T (Ini.broadcastMpi file) (Ini.broadcastSerial file')) (hid : e.ident ≤ 0)
    (hd : disk name.toList = some f) (hr : MpiRestarts F e true disk file st flow) :
    let c := Ini.broadcastMpi file
    let p := hydroParamsMpi T F c
    let P := hydroParams F (Ini.broadcastSerial file₀)
    Sets c "run" "solver_name" "MHD_Muscl_2D" → OrdinaryM2 p → NamedBC2 T p →
    OrdinaryM2 (hydroParamsMpi T₁ F (Ini.broadcastMpi file₁)) →
    ∃ pre go post B, A.outputs = pre ++ go :: post ∧ pre.length = k ∧
      Continues (SameInterior2 P) P pre go post A B ∧
      Reproduces flow st (BlockFile2 T (rawParams (lit 0) F c)) B := by
  intro c p P hs ho hbc ho₁
  obtain ⟨go, hgo, o, lay, num, tim, hb, hsv⟩ := h.output
  obtain ⟨e₀, e', f', hres⟩ := h.restarting hgo
  have r₀ : T₁.Rank := T₁.cartRank 0 0 0
  have hP : hydroParams F (Ini.broadcastSerial file') = P := restarts_params h.restart F
  have hs' : Sets (Ini.broadcastSerial file₀) "run" "solver_name" "MHD_Muscl_2D" := fun d =>
    (h.restart.same _ _ _ (by decide)).symm.trans ((hw.same _ _ _ (by decide)).trans (hs d))
  have hs₁ : Sets (Ini.broadcastMpi file₁) "run" "solver_name" "MHD_Muscl_2D" := whole_sets h.whole (by decide) hs'
  obtain ⟨g1, g2⟩ := whole_shape_mhd2 (F := F) hs' (ordinary_whole_m2 h.whole ho₁)
  obtain ⟨w1, w2⟩ := whole_shape_mhd2 (F := F) hs₁ (ordinary_local_m2 ho₁)
  have dim0 : P.dimType = .two :=
    congrArg (·.2.2.1) (C79_consistent F _ (findSolver_sets (k := .mhd2) (by simp [solverRegistry]) hs'))
  have dim1 : (hydroParams F (Ini.broadcastMpi file₁)).dimType = .two :=
    congrArg (·.2.2.1) (C79_consistent F _ (findSolver_sets (k := .mhd2) (by simp [solverRegistry]) hs₁))
  have q1 : num = go.number := (hb r₀).2.1.symm.trans (hb r₀).1.1
  have q2 : tim = go.time := (hb r₀).2.2.symm.trans (hb r₀).1.2.1
  have hgw : (hydroParamsMpi T₁ F (Ini.broadcastMpi file₁)).ghostWidth = P.ghostWidth := by
    show _ = (hydroParams F (Ini.broadcastSerial file₀)).ghostWidth
    rw [whole_params h.whole]; rfl
  obtain ⟨n1, n2, n3⟩ := whole_sizes h.whole F
  obtain ⟨p1, p2, p3⟩ := whole_sizes hw F
  rw [hP] at p1 p2 p3
  obtain ⟨a1, a2, a3⟩ := C66_file_mpi_2d (p := hydroParamsMpi T₁ F (Ini.broadcastMpi file₁)) lay T₁ (wf_local T₁ w1) dim1
    (C66_config_fields (lit 0) F _) (U := fun r => (o r).data)
    (G := fun i j v => go.data ⟨(), i + P.ghostWidth, j + P.ghostWidth, 0, v⟩) (by
      intro r i j v hi hj hv
      have wl := wf_local T₁ w1
      have i1 := wl.imin_eq; have i2 := wl.imax_eq; have i3 := wl.jmin_eq; have i4 := wl.jmax_eq
      have i5 := wl.kmin_eq; have i6 := wl.kmax_eq
      have i7 : (localParams T₁ (rawParams (lit 0) F (Ini.broadcastMpi file₁))) = hydroParamsMpi T₁ F (Ini.broadcastMpi file₁) := rfl
      rw [show localParams T₁ (rawParams (lit 0) F (Ini.broadcastMpi file₁)) = hydroParamsMpi T₁ F (Ini.broadcastMpi file₁)
        from rfl] at i1 i2 i3 i4 i5 i6
      have := (hb r).1.2.2 (i + (hydroParamsMpi T₁ F (Ini.broadcastMpi file₁)).ghostWidth)
        (j + (hydroParamsMpi T₁ F (Ini.broadcastMpi file₁)).ghostWidth) v
        (by rw [i7]; refine ⟨?_, ?_, ?_, ?_⟩ <;> omega) hv
      have c1 : (globalCell T₁ (rawParams (lit 0) F (Ini.broadcastMpi file₁)) r (i + (hydroParamsMpi T₁ F (Ini.broadcastMpi file₁)).ghostWidth)
          (j + (hydroParamsMpi T₁ F (Ini.broadcastMpi file₁)).ghostWidth) 0).1 =
          (T₁.coords r).1 * (hydroParamsMpi T₁ F (Ini.broadcastMpi file₁)).nx + i + P.ghostWidth := by
        rw [← hgw]; dsimp only [globalCell, hydroParamsMpi, localParams, setupMpi, Params.init]; omega
      have c2 : (globalCell T₁ (rawParams (lit 0) F (Ini.broadcastMpi file₁)) r (i + (hydroParamsMpi T₁ F (Ini.broadcastMpi file₁)).ghostWidth)
          (j + (hydroParamsMpi T₁ F (Ini.broadcastMpi file₁)).ghostWidth) 0).2.1 =
          (T₁.coords r).2.1 * (hydroParamsMpi T₁ F (Ini.broadcastMpi file₁)).ny + j + P.ghostWidth := by
        rw [← hgw]; dsimp only [globalCell, hydroParamsMpi, localParams, setupMpi, Params.init]; omega
      rw [c1, c2] at this
      exact this) hsv
  obtain ⟨b1, b2, b3⟩ := C66_file_2d e₀.lay g1 dim0 (C66_config_fields (lit 0) F _) hres.saved'
  have w2' : (hydroParamsMpi T₁ F (Ini.broadcastMpi file₁)).nbvar = 8 := w2
  rw [w2', ← n1, ← n2] at a3
  rw [g2] at b3
  rw [show (hydroParams F (Ini.broadcastSerial file₀)).nx = _ from p1, show (hydroParams F (Ini.broadcastSerial file₀)).ny = _ from p2] at a3 b3
  obtain ⟨B, hB, hR⟩ := continue_mhd2 hres hkeep hw hid hd (a1.trans (q1.trans b1.symm)) (a2.trans (q2.trans b2.symm)) hr
    hs ho hbc ⟨_, a3, b3⟩
  refine ⟨_, go, _, B, split_at hgo, ?_, hB, hR⟩
  obtain ⟨hk, -⟩ := List.getElem?_eq_some_iff.1 hgo
  rw [List.length_take]; omega

/-- **C94 (3D MHD, from an MPI run).** An MPI run, fresh or itself restarted (C80, C94), wrote the HDF5 file `f`.  The
MPI program, restarted from `f` on another process grid with the same whole domain, continues it: it does what a serial
run `B` does that continues, from that file on, the serial run `A` the first run did. -/
theorem C94_continues_mpi_mhd_3d
    (h : MpiWrote F M T₁ file₀ file₁ file' name (BlockFile3 T₁ (rawParams (lit 0) F (Ini.broadcastMpi file₁))) A k f)
    (hkeep : OptionOff (Ini.broadcastSerial file') "run" "restart_reset_totaltime")
    (hw : WholeDomain T (Ini.broadcastMpi file) (Ini.broadcastSerial file')) (hid : e.ident ≤ 0)
    (hd : disk name.toList = some f) (hr : MpiRestarts F e true disk file st flow) :
    let c := Ini.broadcastMpi file
    let p := hydroParamsMpi T F c
    let P := hydroParams F (Ini.broadcastSerial file₀)
    Sets c "run" "solver_name" "MHD_Muscl_3D" → OrdinaryM3 p → NamedBC3 T p →
    OrdinaryM3 (hydroParamsMpi T₁ F (Ini.broadcastMpi file₁)) →
    ∃ pre go post B, A.outputs = pre ++ go :: post ∧ pre.length = k ∧
      Continues (SameInterior3 P) P pre go post A B ∧
      Reproduces flow st (BlockFile3 T (rawParams (lit 0) F c)) B := by
  intro c p P hs ho hbc ho₁
  obtain ⟨go, hgo, o, lay, num, tim, hb, hsv⟩ := h.output
  obtain ⟨e₀, e', f', hres⟩ := h.restarting hgo
  have r₀ : T₁.Rank := T₁.cartRank 0 0 0
  have hP : hydroParams F (Ini.broadcastSerial file') = P := restarts_params h.restart F
  have hs' : Sets (Ini.broadcastSerial file₀) "run" "solver_name" "MHD_Muscl_3D" := fun d =>
    (h.restart.same _ _ _ (by decide)).symm.trans ((hw.same _ _ _ (by decide)).trans (hs d))
  have hs₁ : Sets (Ini.broadcastMpi file₁) "run" "solver_name" "MHD_Muscl_3D" := whole_sets h.whole (by decide) hs'
  obtain ⟨g1, g2⟩ := whole_shape_mhd3 (F := F) hs' (ordinary_whole_m3 h.whole ho₁)
  obtain ⟨w1, w2⟩ := whole_shape_mhd3 (F := F) hs₁ (ordinary_local_m3 ho₁)
  have dim0 : P.dimType = .three :=
    congrArg (·.2.2.1) (C79_consistent F _ (findSolver_sets (k := .mhd3) (by simp [solverRegistry]) hs'))
  have dim1 : (hydroParams F (Ini.broadcastMpi file₁)).dimType = .three :=
    congrArg (·.2.2.1) (C79_consistent F _ (findSolver_sets (k := .mhd3) (by simp [solverRegistry]) hs₁))
  have q1 : num = go.number := (hb r₀).2.1.symm.trans (hb r₀).1.1
  have q2 : tim = go.time := (hb r₀).2.2.symm.trans (hb r₀).1.2.1
  have hgw : (hydroParamsMpi T₁ F (Ini.broadcastMpi file₁)).ghostWidth = P.ghostWidth := by
    show _ = (hydroParams F (Ini.broadcastSerial file₀)).ghostWidth
    rw [whole_params h.whole]; rfl
  obtain ⟨n1, n2, n3⟩ := whole_sizes h.whole F
  obtain ⟨p1, p2, p3⟩ := whole_sizes hw F
  rw [hP] at p1 p2 p3
  obtain ⟨a1, a2, a3⟩ := C66_file_mpi_3d (p := hydroParamsMpi T₁ F (Ini.broadcastMpi file₁)) lay T₁ (wf_local T₁ w1) dim1
    (C66_config_fields (lit 0) F _) (U := fun r => (o r).data)
    (G := fun i j k v => go.data ⟨(), i + P.ghostWidth, j + P.ghostWidth, k + P.ghostWidth, v⟩) (by
      intro r i j k v hi hj hk hv
      have wl := wf_local T₁ w1
      have i1 := wl.imin_eq; have i2 := wl.imax_eq; have i3 := wl.jmin_eq; have i4 := wl.jmax_eq
      have i5 := wl.kmin_eq; have i6 := wl.kmax_eq
      have i7 : (localParams T₁ (rawParams (lit 0) F (Ini.broadcastMpi file₁))) = hydroParamsMpi T₁ F (Ini.broadcastMpi file₁) := rfl
      rw [show localParams T₁ (rawParams (lit 0) F (Ini.broadcastMpi file₁)) = hydroParamsMpi T₁ F (Ini.broadcastMpi file₁)
        from rfl] at i1 i2 i3 i4 i5 i6
      have := (hb r).1.2.2 (i + (hydroParamsMpi T₁ F (Ini.broadcastMpi file₁)).ghostWidth)
        (j + (hydroParamsMpi T₁ F (Ini.broadcastMpi file₁)).ghostWidth) (k + (hydroParamsMpi T₁ F (Ini.broadcastMpi file₁)).ghostWidth) v
        (by rw [i7]; refine ⟨⟨?_, ?_⟩, ⟨?_, ?_⟩, ?_, ?_⟩ <;> omega) hv
      have c1 : (globalCell T₁ (rawParams (lit 0) F (Ini.broadcastMpi file₁)) r (i + (hydroParamsMpi T₁ F (Ini.broadcastMpi file₁)).ghostWidth)
          (j + (hydroParamsMpi T₁ F (Ini.broadcastMpi file₁)).ghostWidth) (k + (hydroParamsMpi T₁ F (Ini.broadcastMpi file₁)).ghostWidth)).1 =
          (T₁.coords r).1 * (hydroParamsMpi T₁ F (Ini.broadcastMpi file₁)).nx + i + P.ghostWidth := by
        rw [← hgw]; dsimp only [globalCell, hydroParamsMpi, localParams, setupMpi, Params.init]; omega
      have c2 : (globalCell T₁ (rawParams (lit 0) F (Ini.broadcastMpi file₁)) r (i + (hydroParamsMpi T₁ F (Ini.broadcastMpi file₁)).ghostWidth)
          (j + (hydroParamsMpi T₁ F (Ini.broadcastMpi file₁)).ghostWidth) (k + (hydroParamsMpi T₁ F (Ini.broadcastMpi file₁)).ghostWidth)).2.1 =
          (T₁.coords r).2.1 * (hydroParamsMpi T₁ F (Ini.broadcastMpi file₁)).ny + j + P.ghostWidth := by
        rw [← hgw]; dsimp only [globalCell, hydroParamsMpi, localParams, setupMpi, Params.init]; omega
      have c3 : (globalCell T₁ (rawParams (lit 0) F (Ini.broadcastMpi file₁)) r (i + (hydroParamsMpi T₁ F (Ini.broadcastMpi file₁)).ghostWidth)
          (j + (hydroParamsMpi T₁ F (Ini.broadcastMpi file₁)).ghostWidth) (k + (hydroParamsMpi T₁ F (Ini.broadcastMpi file₁)).ghostWidth)).2.2 =
          (T₁.coords r).2.2 * (hydroParamsMpi T₁ F (Ini.broadcastMpi file₁)).nz + k + P.ghostWidth := by
        rw [← hgw]; dsimp only [globalCell, hydroParamsMpi, localParams, setupMpi, Params.init]; omega
      rw [c1, c2, c3] at this
      exact this) hsv
  obtain ⟨b1, b2, b3⟩ := C66_file_3d e₀.lay g1 dim0 (C66_config_fields (lit 0) F _) hres.saved'
  have w2' : (hydroParamsMpi T₁ F (Ini.broadcastMpi file₁)).nbvar = 8 := w2
  rw [w2', ← n1, ← n2, ← n3] at a3
  rw [g2] at b3
  rw [show (hydroParams F (Ini.broadcastSerial file₀)).nx = _ from p1, show (hydroParams F (Ini.broadcastSerial file₀)).ny = _ from p2, show (hydroParams F (Ini.broadcastSerial file₀)).nz = _ from p3] at a3 b3
  obtain ⟨B, hB, hR⟩ := continue_mhd3 hres hkeep hw hid hd (a1.trans (q1.trans b1.symm)) (a2.trans (q2.trans b2.symm)) hr
    hs ho hbc ⟨_, a3, b3⟩
  refine ⟨_, go, _, B, split_at hgo, ?_, hB, hR⟩
  obtain ⟨hk, -⟩ := List.getElem?_eq_some_iff.1 hgo
  rw [List.length_take]; omega

/-- **C94 (the processes restart).** A parameter file with the topology of the processes, naming one of the solvers,
that asks for a restart from an HDF5 file that exists, has executions. -/
theorem C94_restarts {R : Type} [RealOps R] {T : Topo} (F : FloatLib R) (e : EnvMpi T R)
    {disk : List Char → Option (H5File R)} {file : Option (List Char)} {name solver : String} {f : H5File R} :
    let c := Ini.broadcastMpi file
    TopoOf c T → PlainHdf5 c → AsksRestart c name → disk name.toList = some f →
    solver ∈ ["Hydro_Muscl_2D", "Hydro_Muscl_3D", "MHD_Muscl_2D", "MHD_Muscl_3D"] →
    Sets c "run" "solver_name" solver → ∃ st flow, MpiRestarts F e true disk file st flow := by
  intro c hT hp ha hd hm hs
  obtain ⟨k, hk⟩ : ∃ k, findSolver (mainSolverName c) = some k := by
    simp only [List.mem_cons, List.not_mem_nil, or_false] at hm
    rcases hm with rfl | rfl | rfl | rfl
    · exact ⟨.hydro2, findSolver_sets (by simp [solverRegistry]) hs⟩
    · exact ⟨.hydro3, findSolver_sets (by simp [solverRegistry]) hs⟩
    · exact ⟨.mhd2, findSolver_sets (by simp [solverRegistry]) hs⟩
    · exact ⟨.mhd3, findSolver_sets (by simp [solverRegistry]) hs⟩
  have key : ∀ r, ∃ U, loadH5Mpi e.lay {} T (hydroParamsMpi T F c) r f (fun _ => lit 0) U := fun r => readFields_exists ..
  choose U hU using key
  refine ⟨_, _, hT, (C88_options _ _ _).1 ha.enabled _, k,
    fun r l => if l.arr = .U then U r ⟨(), l.i, l.j, l.k, l.v⟩ else freshMem l,
    fun _ => if cfgBool c "run" "restart_reset_totaltime" false then lit 0 else f.time, fun _ => f.step, hk, fun r => ⟨fun l hl => if_neg hl, ?_⟩,
    rfl, rfl⟩
  refine ⟨f.time, rfl, ?_⟩
  rw [asks_file ha, (C88_options _ _ _).1 hp.enabled, Bool.and_self, asks_h5 ha, plain_options hp ha.upscale]
  refine ⟨f, hd, ⟨fun _ => lit 0, ?_⟩, rfl, rfl⟩
  have : viewOf (fun l : Loc Arr => if l.arr = .U then U r ⟨(), l.i, l.j, l.k, l.v⟩ else freshMem l) .U = U r := by
    funext ⟨_, i, j, k, v⟩
    simp only [viewOf, if_true]
  rw [this]
  exact hU r

end EulerKokkos
