import Verif.Lemmas.DistOnceOps
import Verif.Props.C80
import Verif.Props.C97
import Verif.Props.C102

/-!
# C103: the MPI run repeats itself, bit for bit, whatever the interleaving of the processes

As C102, for the MPI build: the ghost layers are exchanged by point-to-point messages, the time step is combined by
a collective, and each process evaluates the condition of the main loop on its own copy of the time.  In any
arithmetic with the laws `MaxLaws`.
-/

set_option linter.constructorNameAsVariable false
set_option linter.unusedSectionVars false
set_option linter.unusedSimpArgs false

namespace EulerKokkos
open Spec Prog Spmd

variable {R : Type} [RealOps R] {num sg : R → Prop} {T : Topo}

namespace Spec

/-- What two executions of the MPI build must share besides the parameter file: the identity of the maximum and the
memory layout (the build); the random numbers of every process, if the Kelvin-Helmholtz problem with a random
perturbation is run; for the MHD blast, whose `bz` is never assigned, the values found in that memory.  Not the
schedules of the threads, not the order in which messages arrive, not the other uninitialised variables. -/
structure SameStartMpi (c : Ini.Reader) (k : SolverKind) (e e' : EnvMpi T R) : Prop where
  ident : e.ident = e'.ident
  lay : e.lay = e'.lay
  rnd : e.rnd = e'.rnd ∨ problemName c ≠ "kelvin_helmholtz".toList ∨
    cfgBool c "KH" "perturbation_rand" false = false
  bz : e.ju = e'.ju ∨ k = .hydro2 ∨ k = .hydro3 ∨ problemName c ≠ "blast".toList

/-- the processes agree on the time, the number of iterations and on the numbers, times and iterations of their
files -/
def SameBooks (s : T.Rank → RunState R) : Prop :=
  ∀ r r', (s r).t = (s r').t ∧ (s r).iteration = (s r').iteration ∧ (s r).times_saved = (s r').times_saved ∧
    (s r).outputs.map (fun o => (o.number, o.time, o.iteration)) =
      (s r').outputs.map fun o => (o.number, o.time, o.iteration)

end Spec

/-! ### What the solvers need -/

theorem repeatable_mpi (hL : MaxLaws R num sg) {F : FloatLib R} {c : Ini.Reader} {k : SolverKind}
    (hk : findSolver (mainSolverName c) = some k) (hp : Repeatable sg (hydroParamsMpi T F c) k) {e : EnvMpi T R}
    (hid : num e.ident) : (solverOpsMpi e c (hydroParamsMpi T F c) k).Once := by
  have hc : ((hydroParamsMpi T F c).nbvar, (hydroParamsMpi T F c).ghostWidth, (hydroParamsMpi T F c).dimType,
      (hydroParamsMpi T F c).mhdEnabled) = _ := C79_consistent F c hk
  have wf : 1 ≤ (hydroParamsMpi T F c).nx → 1 ≤ (hydroParamsMpi T F c).ny → 1 ≤ (hydroParamsMpi T F c).nz →
      2 ≤ (hydroParamsMpi T F c).ghostWidth → (hydroParamsMpi T F c).WF :=
    fun a b c d => wf_local T (Params.init_wf _ a b c d)
  generalize hydroParamsMpi T F c = p at *
  cases k with
  | hydro2 =>
    obtain ⟨dx, dy, nx, ny, nz, hi, -, -⟩ := hp
    have gw : p.ghostWidth = 2 := by simpa using congrArg (fun q => q.2.1) hc
    refine mpiOnce_hydro2 hL (wf (by omega) (by omega) (by omega) (by omega)) ?_ hi dx dy _ hid _
    unfold Faces2Ok BCok
    rw [gw]
    exact ⟨.inr nx, .inr nx, .inr ny, .inr ny⟩
  | hydro3 =>
    obtain ⟨dx, dy, dz, nx, ny, nz, hi, -, -⟩ := hp
    have gw : p.ghostWidth = 2 := by simpa using congrArg (fun q => q.2.1) hc
    refine mpiOnce_hydro3 hL (wf (by omega) (by omega) (by omega) (by omega)) ?_ hi dx dy dz _ hid _
    unfold Faces3Ok Faces2Ok BCok
    rw [gw]
    exact ⟨⟨.inr nx, .inr nx, .inr ny, .inr ny⟩, .inr nz, .inr nz⟩
  | mhd2 =>
    obtain ⟨dx, dy, nx, ny, nz, hi, -, -⟩ := hp
    have gw : p.ghostWidth = 3 := by simpa using congrArg (fun q => q.2.1) hc
    refine mpiOnce_mhd2 hL (wf (by omega) (by omega) (by omega) (by omega)) ?_ hi dx dy hid _
    unfold Faces2Ok BCok
    rw [gw]
    exact ⟨.inr nx, .inr nx, .inr ny, .inr ny⟩
  | mhd3 =>
    obtain ⟨dx, dy, dz, nx, ny, nz, hi, -, -⟩ := hp
    have gw : p.ghostWidth = 3 := by simpa using congrArg (fun q => q.2.1) hc
    refine mpiOnce_mhd3 hL (wf (by omega) (by omega) (by omega) (by omega)) ?_ hi dx dy dz hid _
    unfold Faces3Ok Faces2Ok BCok
    rw [gw]
    exact ⟨⟨.inr nx, .inr nx, .inr ny, .inr ny⟩, .inr nz, .inr nz⟩

theorem repeatable_opsMpi {p : Params R} {c : Ini.Reader} {k : SolverKind} (hp : Repeatable sg p k)
    {e e' : EnvMpi T R} (hi : e.ident = e'.ident) (hl : e.lay = e'.lay) :
    solverOpsMpi e c p k = solverOpsMpi e' c p k := by
  cases k with
  | hydro2 =>
    obtain ⟨_, _, _, _, _, _, hs, hr⟩ := hp
    simp only [solverOpsMpi, hi, hl]
    obtain ⟨S, hS⟩ := slope2_junk hs
    obtain ⟨F, hF⟩ := riemann2_junk (s := p.settings) hr
    unfold mpiHydro2 scheme2 computeAndStoreFluxes2 computeAllFluxesAndUpdate2 computeTraceAndFluxes2
      yInterface2 xInterface2
    simp only [hS, hF]
  | hydro3 =>
    obtain ⟨_, _, _, _, _, _, _, hs, hr⟩ := hp
    simp only [solverOpsMpi, hi, hl]
    obtain ⟨S, hS⟩ := slope3_junk hs
    obtain ⟨F, hF⟩ := riemann3_junk (s := p.settings) hr
    unfold mpiHydro3 scheme3 computeAndStoreFluxes3 computeAllFluxesAndUpdate3 computeTraceAndFluxes3
      yInterface3 xInterface3 zInterface3 computeSlopes3 stencilSlopes3
    simp only [hS, hF]
  | mhd2 =>
    obtain ⟨_, _, _, _, _, _, hs, hr⟩ := hp
    simp only [solverOpsMpi, hi, hl]
    obtain ⟨S, hS⟩ := slopeM_junk hs
    obtain ⟨F, hF⟩ := riemannM_junk (s := p.settings) hr
    unfold mpiMhd2 postMhd2 computeTraceMhd2 fluxesAndStoreMhd2 fluxesAndUpdateMhd2 computeSlopesMhd2
      fluxAlongXMhd2 fluxAlongYMhd2 traceMhd2
    simp only [hS, hF]
  | mhd3 =>
    obtain ⟨_, _, _, _, _, _, _, hs, hr⟩ := hp
    simp only [solverOpsMpi, hi, hl]
    obtain ⟨S, hS⟩ := slopeM_junk hs
    obtain ⟨F, hF⟩ := riemannM_junk (s := p.settings) hr
    unfold mpiMhd3 postMhd3 fluxesAndStoreMhd3 fluxesAndUpdateMhd3 computeSlopesMhd3 fluxAlongMhd3
    simp only [hS, hF]

theorem init2_juPos {F : FloatLib R} {M : MathLib R} {c : Ini.Reader} (pos : Int × Int × Int) (p : Params R)
    (rnd : Int → Int → Int → Nat → R)
    (ju ju' : R × R) : initHydro2 M p pos rnd (hydroProblem2 F M c ju) =
      initHydro2 M p pos rnd (hydroProblem2 F M c ju') ∧
    gravityAllocated (gravityParams c) (hydroProblem2 F M c ju) =
      gravityAllocated (gravityParams c) (hydroProblem2 F M c ju') := by
  unfold hydroProblem2
  dsimp only
  split_ifs <;> exact ⟨rfl, rfl⟩

theorem init3_juPos {F : FloatLib R} {M : MathLib R} {c : Ini.Reader} (pos : Int × Int × Int) (p : Params R)
    (rnd : Int → Int → Int → Nat → R)
    (ju ju' : R × R) : initHydro3 M p pos rnd (hydroProblem3 F M c ju) =
      initHydro3 M p pos rnd (hydroProblem3 F M c ju') ∧
    gravityAllocated (gravityParams c) (hydroProblem3 F M c ju) =
      gravityAllocated (gravityParams c) (hydroProblem3 F M c ju') := by
  unfold hydroProblem3
  dsimp only
  split_ifs <;> exact ⟨rfl, rfl⟩

/-- the initial state needs nothing but what the two executions share -/
theorem sameStartMpi_init {F : FloatLib R} {M : MathLib R} {c : Ini.Reader} {k : SolverKind} {e e' : EnvMpi T R}
    (h : SameStartMpi c k e e') (p : Params R) (r : T.Rank) (m : Mem Arr R) :
    initProblemMpi F M e c p r m k = initProblemMpi F M e' c p r m k := by
  cases k with
  | hydro2 =>
    simp only [initProblemMpi]
    rw [(init2_juPos (T.coords r) p (e.rnd r) (e.ju r) (e'.ju r)).1, (init2_juPos (T.coords r) p (e.rnd r) (e.ju r) (e'.ju r)).2]
    rcases h.rnd with hr | hr
    · rw [hr]
    · have : initHydro2 M p (T.coords r) (e.rnd r) (hydroProblem2 F M c (e'.ju r)) =
          initHydro2 M p (T.coords r) (e'.rnd r) (hydroProblem2 F M c (e'.ju r)) := by
        unfold initHydro2 hydroInit2
        simp only [fun t : Int × Int => cell2_rnd (M := M) (p := p) (e.rnd r t.1 t.2 0) (e'.rnd r t.1 t.2 0)
          (cellX p (T.coords r) t.1) (cellY p (T.coords r) t.2) (problem2_rand (F := F) (M := M) (ju := e'.ju r) hr)]
      rw [this]
  | hydro3 =>
    simp only [initProblemMpi]
    rw [(init3_juPos (T.coords r) p (e.rnd r) (e.ju r) (e'.ju r)).1, (init3_juPos (T.coords r) p (e.rnd r) (e.ju r) (e'.ju r)).2]
    rcases h.rnd with hr | hr
    · rw [hr]
    · have : initHydro3 M p (T.coords r) (e.rnd r) (hydroProblem3 F M c (e'.ju r)) =
          initHydro3 M p (T.coords r) (e'.rnd r) (hydroProblem3 F M c (e'.ju r)) := by
        unfold initHydro3 hydroInit3
        simp only [fun t : Int × Int × Int => cell3_rnd (M := M) (p := p) (e.rnd r t.1 t.2.1 t.2.2)
          (e'.rnd r t.1 t.2.1 t.2.2) (cellX p (T.coords r) t.1) (cellY p (T.coords r) t.2.1) (cellZ p (T.coords r) t.2.2)
          (problem3_rand (F := F) (M := M) (ju := e'.ju r) hr)]
      rw [this]
  | mhd2 =>
    have hb : e.ju r = e'.ju r ∨ problemName c ≠ "blast".toList := by
      rcases h.bz with h | h | h | h
      · exact .inl (congrFun h r)
      · cases h
      · cases h
      · exact .inr h
    simp only [initProblemMpi]
    rw [problemM_bz hb]
    rcases h.rnd with hr | hr
    · rw [hr]
    · have : initMhd2 M p (T.coords r) (e.rnd r) (mhdProblem F M c (e'.ju r)) =
          initMhd2 M p (T.coords r) (e'.rnd r) (mhdProblem F M c (e'.ju r)) := by
        have hk := problemM_rand (F := F) (M := M) (ju := e'.ju r) hr
        generalize mhdProblem F M c (e'.ju r) = q at hk
        cases q <;> first | rfl | skip
        unfold initMhd2 mhdInit2
        simp only [fun t : Int × Int => cellM2_rnd (M := M) (p := p) (e.rnd r t.1 t.2 0)
          (e'.rnd r t.1 t.2 0) (cellX p (T.coords r) t.1) (cellY p (T.coords r) t.2) hk]
      rw [this]
  | mhd3 =>
    have hb : e.ju r = e'.ju r ∨ problemName c ≠ "blast".toList := by
      rcases h.bz with h | h | h | h
      · exact .inl (congrFun h r)
      · cases h
      · cases h
      · exact .inr h
    simp only [initProblemMpi]
    rw [problemM_bz hb]
    rcases h.rnd with hr | hr
    · rw [hr]
    · have : initMhd3 M p (T.coords r) (e.rnd r) (mhdProblem F M c (e'.ju r)) =
          initMhd3 M p (T.coords r) (e'.rnd r) (mhdProblem F M c (e'.ju r)) := by
        have hk := problemM_rand (F := F) (M := M) (ju := e'.ju r) hr
        generalize mhdProblem F M c (e'.ju r) = q at hk
        cases q <;> first | rfl | skip
        unfold initMhd3 mhdInit3
        simp only [fun (t : Int × Int × Int) zb => cellM3_rnd (M := M) (p := p) (e.rnd r t.1 t.2.1 t.2.2)
          (e'.rnd r t.1 t.2.1 t.2.2) (cellX p (T.coords r) t.1) (cellY p (T.coords r) t.2.1) (cellZ p (T.coords r) t.2.2) zb hk]
      rw [this]

theorem initProblemMpi_once {F : FloatLib R} {M : MathLib R} {c : Ini.Reader} {k : SolverKind} {e : EnvMpi T R}
    (hd : TubeOk F M c k) {p : Params R} {r : T.Rank} {m m' : Mem Arr R} (h : initProblemMpi F M e c p r m k)
    (h' : initProblemMpi F M e c p r m' k) : m = m' := by
  cases k with
  | hydro2 => exact (C57_init_unique_hydro_2d M p _ _ _ _).unique h.2 h'.2
  | hydro3 => exact (C57_init_unique_hydro_3d M p _ _ _ _).unique h.2 h'.2
  | mhd2 => exact (C57_init_unique_mhd_2d M p _ _ (hd _) _).unique h h'
  | mhd3 => exact (C57_init_unique_mhd_3d M p _ _ (hd _) _).unique h h'

/-! ### The statements -/

/-- **C103, from given states.**  All four solvers: from any states of the processes after `init(U)`, every
execution of the rest of `main` has a bounded number of steps, never gets stuck (rendezvous sends, buffered sends or
any mixture), and all of them end in the same states; in these the processes agree on the time, the number of
iterations and their files. -/
theorem C103_one_outcome_from (hL : MaxLaws R num sg) (F : FloatLib R) {c : Ini.Reader} {k : SolverKind}
    (hk : findSolver (mainSolverName c) = some k) (hp : Repeatable sg (hydroParamsMpi T F c) k)
    (hn : (hydroParamsMpi T F c).nlog ≠ 0) {e : EnvMpi T R} (hid : num e.ident)
    (m : T.Rank → Mem Arr R) (t : R) (sv : Int) :
    ∃ fin, SameBooks fin ∧
      AlwaysEnds (mpiMain (hydroParamsMpi T F c) (solverOpsMpi e c (hydroParamsMpi T F c) k))
        (fun r => startState (m r) t sv) fun s => s = fin := by
  obtain ⟨N, fin, h1, h2⟩ := mpi_once (repeatable_mpi hL hk hp hid) hn m t sv
  refine ⟨fin, h1, N, fun buf n y hy => ?_⟩
  obtain ⟨a, b, c⟩ := h2 buf n y hy
  exact ⟨a, b, fun hd => ⟨(c hd).2, (c hd).1⟩⟩

/-- **C103, the whole program.**  Started twice on the same parameter file — any arithmetic, any interleaving of the
processes, any schedules of their threads, any contents of the uninitialised locals — the processes end in the same
states: same files with the same contents, same log lines, same final time; and they always end. -/
theorem C103_reproducible (hL : MaxLaws R num sg) (F : FloatLib R) (M : MathLib R) {file : Option (List Char)}
    {k : SolverKind} (hk : findSolver (mainSolverName (Ini.broadcastMpi file)) = some k)
    (hp : Repeatable sg (hydroParamsMpi T F (Ini.broadcastMpi file)) k)
    (hn : (hydroParamsMpi T F (Ini.broadcastMpi file)).nlog ≠ 0)
    (hd : TubeOk F M (Ini.broadcastMpi file) k) {e e' : EnvMpi T R} (hid : num e.ident)
    (he : SameStartMpi (Ini.broadcastMpi file) k e e') {st st' : T.Rank → RunState R}
    {flow flow' : Flow Ctl T.Rank (RunState R) (Msg R)}
    (h : MpiStarts F M e file st flow) (h' : MpiStarts F M e' file st' flow') :
    ∃ fin, SameBooks fin ∧ AlwaysEnds flow st (· = fin) ∧ AlwaysEnds flow' st' (· = fin) := by
  obtain ⟨-, m, hm, rfl, rfl⟩ := mpiStarts_iff hk h
  obtain ⟨-, m', hm', rfl, rfl⟩ := mpiStarts_iff hk h'
  have hmm : m' = m := by
    funext r
    have := hm' r
    rw [← sameStartMpi_init he] at this
    exact initProblemMpi_once hd this (hm r)
  subst hmm
  rw [← repeatable_opsMpi hp he.ident he.lay]
  obtain ⟨fin, h1, h2⟩ := C103_one_outcome_from hL F hk hp hn hid m' _ _
  exact ⟨fin, h1, h2, h2⟩

/-- **C103, two finished executions.**  The same, read off two executions that have ended: identical states of all
processes. -/
theorem C103_same_states (hL : MaxLaws R num sg) (F : FloatLib R) (M : MathLib R) {file : Option (List Char)}
    {k : SolverKind} (hk : findSolver (mainSolverName (Ini.broadcastMpi file)) = some k)
    (hp : Repeatable sg (hydroParamsMpi T F (Ini.broadcastMpi file)) k)
    (hn : (hydroParamsMpi T F (Ini.broadcastMpi file)).nlog ≠ 0)
    (hd : TubeOk F M (Ini.broadcastMpi file) k) {e e' : EnvMpi T R} (hid : num e.ident)
    (he : SameStartMpi (Ini.broadcastMpi file) k e e') {st st' : T.Rank → RunState R}
    {flow flow' : Flow Ctl T.Rank (RunState R) (Msg R)}
    (h : MpiStarts F M e file st flow) (h' : MpiStarts F M e' file st' flow') {buf buf' : Prop} {n n' : Nat}
    {y y' : FConfig Ctl T.Rank (RunState R) (Msg R)}
    (hy : FSteps buf flow n (FConfig.init (.pre 0) st) y) (hyd : y.Done flow)
    (hy' : FSteps buf' flow' n' (FConfig.init (.pre 0) st') y') (hyd' : y'.Done flow') : y.c.st = y'.c.st := by
  obtain ⟨fin, -, ⟨N, h1⟩, ⟨N', h2⟩⟩ := C103_reproducible hL F M hk hp hn hd hid he h h'
  exact (((h1 buf n y hy).2.2 hyd).2).trans (((h2 buf' n' y' hy').2.2 hyd').2).symm

end EulerKokkos
