import Verif.Lemmas.DistShadowMhd
import Verif.Lemmas.DistOnceOps
import Verif.Props.C80
import Verif.Props.C97
import Verif.Props.C103

/-!
# C104: the MPI run is the serial run, bit for bit

The serial build takes the largest inverse time step over the whole domain and divides once; the MPI build divides on
every process and takes the smallest quotient.  In any arithmetic with the laws `MaxLaws`, `DivLaws`, `SignLaws` —
exact, fixed point, IEEE 754 (`C105`) — both get the same time step, and the processes compute the blocks of the serial
run: every bit of every file, the clock and the log.
-/

set_option linter.constructorNameAsVariable false
set_option linter.unusedSectionVars false
set_option linter.unusedSimpArgs false

namespace EulerKokkos
open Spec Prog Spmd

variable {R : Type} [RealOps R] {num sg pos : R → Prop} {T : Topo}

namespace Spec

/-- every block of the whole domain, held in the memory `A` of the serial run at iteration `n`, contains a cell with a
positive inverse time step (a cell that is not vacuum at rest, in exact arithmetic: every cell) -/
def BlocksMove (pos : R → Prop) (T : Topo) (p : Params R) (g : GravityParams) : SolverKind → Nat → Mem Arr R → Prop
  | .hydro2 => BlocksMove2 pos T p g
  | .hydro3 => BlocksMove3 pos T p g
  | .mhd2 => BlocksMoveM2 pos T p
  | .mhd3 => BlocksMoveM3 pos T p

/-- whenever the serial run computes a time step (once at the beginning and at the head of each iteration it makes) the
memory satisfies `Good` -/
def AlwaysMoves (q : Params R) (S : SolverOps R) (Good : Nat → Mem Arr R → Prop) (G : Mem Arr R) (t : R) (sv : Int) :
    Prop :=
  (∀ A, S.setup G A → Good 0 A) ∧
    ∀ k a A, reaches q S G t sv k a → ¬ finished q a → S.pre k a.mem A → Good k A

/-- the file of a process is its block of the file of the serial run -/
def BlockFile (T : Topo) (p : Params R) : SolverKind → T.Rank → Output R → Output R → Prop
  | .hydro2 | .mhd2 => BlockFile2 T p
  | .hydro3 | .mhd3 => BlockFile3 T p

/-- the memory of the processes holds the blocks of the memory of the serial run -/
def BlockMem (T : Topo) (p : Params R) (A : Arr) (s : T.Rank → Mem Arr R) (G : Mem Arr R) : SolverKind → Prop
  | .hydro2 | .mhd2 => HoldsBlock2 T p A (interior2 (localParams T p)) s G
  | .hydro3 | .mhd3 => HoldsBlock T p A (interior3 (localParams T p)) s G

/-- the processes have ended with the blocks of the result `s'` of the serial run: same clock, same last time step, same
files with the blocks as contents, the same log on process 0 and none elsewhere -/
structure PartOf (T : Topo) (p : Params R) (k : SolverKind) (s : T.Rank → RunState R) (s' : RunState R) : Prop where
  clock : ∀ r, (s r).iteration = s'.iteration ∧ (s r).t = s'.t ∧ (s r).dt = s'.dt ∧
    (s r).times_saved = s'.times_saved
  files : ∀ r, List.Forall₂ (fun o g => BlockFile T p k r o g ∧ o.iteration = g.iteration) (s r).outputs s'.outputs
  logs : ∀ r : T.Rank, (s r).logs = if r.val = 0 then s'.logs else []
  mem : BlockMem T p (pingIn s'.iteration) (fun r => (s r).mem) s'.mem k

/-- the boundary conditions are named ones, and the domain is periodic in a direction only if the process grid is -/
def NamedFaces (T : Topo) (p : Params R) : SolverKind → Prop
  | .hydro2 | .mhd2 => NamedBC2 T p
  | .hydro3 | .mhd3 => NamedBC3 T p

/-- the configured problem is one whose initial condition is a function of the position, and its uninitialised members
(MHD blast) agree -/
def StartsBlockwise (F : FloatLib R) (M : MathLib R) (T : Topo) (c : Ini.Reader) (ju : T.Rank → R × R) (ju' : R × R) :
    SolverKind → Prop
  | .hydro2 => ∀ j, Seedless (hydroProblem2 F M c j)
  | .hydro3 => ∀ j, Seedless (hydroProblem3 F M c j)
  | .mhd2 => Blockwise2 (mhdProblem F M c ju') ∧ ∀ r, problemName c ≠ "blast".toList ∨ ju r = ju'
  | .mhd3 => Blockwise3 T (rawParams (lit 0) F c) (mhdProblem F M c ju') ∧
      ∀ r, problemName c ≠ "blast".toList ∨ ju r = ju'

/-- the serial program on the file of the whole domain always finds, in every block, a cell with a positive inverse
time step -/
def SerialMoves (pos : R → Prop) (T : Topo) (F : FloatLib R) (M : MathLib R) (e' : Env R) (c c' : Ini.Reader)
    (k : SolverKind) : Prop :=
  ∀ G, initProblem F M e' c' (hydroParams F c') G k →
    AlwaysMoves (hydroParams F c') (solverOps e' c' (hydroParams F c') k)
      (BlocksMove pos T (rawParams (lit 0) F c) (gravityParams c) k) G (cfgFloat F c' "run" "tCurrent" 0) 0

end Spec

/-! ### The time step -/

/-- **C104 (time step, 2D hydro).** The memory of the processes holds the blocks of the memory of the serial run: the
smallest of their time steps is the time step of the serial run, to the last bit. -/
theorem C104_time_step_hydro_2d (hL : MaxLaws R num sg) {p : Params R} (hD : DivLaws R num pos p.settings.cfl)
    (hp : Hydro2 (localParams T p)) (hwide : Wide2 (localParams T p))
    (hx : sg (localParams T p).dx) (hy : sg (localParams T p).dy)
    {g : GravityParams} {ident ident' : R} (hi : num ident) (hi' : num ident')
    (hneg : ¬ pos ident) (hneg' : ¬ pos ident') {n : Nat}
    {m : T.Rank → Mem Arr R} {A : Mem Arr R}
    (hU : HoldsBlock2 T p (pingIn n) (interior2 (localParams T p)) m A)
    (hG : g.enabled = true → HoldsGravity2 T p m A) (hmv : BlocksMove pos T p g .hydro2 n A) {d : R} {dl : T.Rank → R}
    (h : computeDtLocal2 (globalParams T p) g ident' n A d)
    (hl : ∀ r, computeDtLocal2 (localParams T p) g ident n (m r) (dl r)) : minOver dl = d :=
  dt_blocks2 hL hD hp.wf (hydro2_global hp hwide).wf hx hy hi hi' hneg hneg'
    ⟨holds_hs2 hp.nbvar hU, fun he => holds_grav2 (hG he)⟩ hmv h hl

/-- **C104 (time step, 3D hydro).** -/
theorem C104_time_step_hydro_3d (hL : MaxLaws R num sg) {p : Params R} (hD : DivLaws R num pos p.settings.cfl)
    (hp : Hydro3 (localParams T p)) (hwide : Wide3 (localParams T p))
    (hx : sg (localParams T p).dx) (hy : sg (localParams T p).dy) (hz : sg (localParams T p).dz)
    {g : GravityParams} {ident ident' : R} (hi : num ident) (hi' : num ident')
    (hneg : ¬ pos ident) (hneg' : ¬ pos ident') {n : Nat}
    {m : T.Rank → Mem Arr R} {A : Mem Arr R}
    (hU : HoldsBlock T p (pingIn n) (interior3 (localParams T p)) m A)
    (hG : g.enabled = true → HoldsGravity3 T p m A) (hmv : BlocksMove pos T p g .hydro3 n A) {d : R} {dl : T.Rank → R}
    (h : computeDtLocal3 (globalParams T p) g ident' n A d)
    (hl : ∀ r, computeDtLocal3 (localParams T p) g ident n (m r) (dl r)) : minOver dl = d :=
  dt_blocks3 hL hD hp.wf hp.wf.nz_pos (hydro3_global hp hwide).wf hx hy hz
    (fun r _ _ _ hij => interior3_block hp.wf T r hij) hi hi' hneg hneg'
    ⟨holds_hs3 hp.nbvar hU, fun he => holds_grav3 (hG he)⟩ hmv h hl

/-- **C104 (time step, 2D MHD).** Computed from the primitive variables. -/
theorem C104_time_step_mhd_2d (hL : MaxLaws R num sg) {p : Params R} (hD : DivLaws R num pos p.settings.cfl)
    (hp : Mhd2 (localParams T p)) (hwide : Wide2 (localParams T p))
    (hx : sg (localParams T p).dx) (hy : sg (localParams T p).dy)
    {ident ident' : R} (hi : num ident) (hi' : num ident')
    (hneg : ¬ pos ident) (hneg' : ¬ pos ident') {n : Nat}
    {m : T.Rank → Mem Arr R} {A : Mem Arr R} (hU : HoldsBlock2 T p .Q (interior2 (localParams T p)) m A)
    (g : GravityParams) (hmv : BlocksMove pos T p g .mhd2 n A) {d : R} {dl : T.Rank → R}
    (h : computeDtLocalMhd2 (globalParams T p) ident' A d)
    (hl : ∀ r, computeDtLocalMhd2 (localParams T p) ident (m r) (dl r)) : minOver dl = d :=
  dt_blocksM2 (n := n) hL hD hp.wf (mhd2_global hp hwide).wf hx hy hi hi' hneg hneg' (holds_msM2 hp.nbvar hU) hmv h hl

/-- **C104 (time step, 3D MHD).** -/
theorem C104_time_step_mhd_3d (hL : MaxLaws R num sg) {p : Params R} (hD : DivLaws R num pos p.settings.cfl)
    (hp : Mhd3 (localParams T p)) (hwide : Wide3 (localParams T p))
    (hx : sg (localParams T p).dx) (hy : sg (localParams T p).dy) (hz : sg (localParams T p).dz)
    {ident ident' : R} (hi : num ident) (hi' : num ident')
    (hneg : ¬ pos ident) (hneg' : ¬ pos ident') {n : Nat}
    {m : T.Rank → Mem Arr R} {A : Mem Arr R} (hU : HoldsBlock T p .Q (interior3 (localParams T p)) m A)
    (g : GravityParams) (hmv : BlocksMove pos T p g .mhd3 n A) {d : R} {dl : T.Rank → R}
    (h : computeDtLocalMhd3 (globalParams T p) ident' A d)
    (hl : ∀ r, computeDtLocalMhd3 (localParams T p) ident (m r) (dl r)) : minOver dl = d :=
  dt_blocksM3 (n := n) hL hD hp.wf (mhd3_global hp hwide).wf hx hy hz hi hi' hneg hneg' (holds_msM3 hp.nbvar hU) hmv h hl

/-! ### Whole runs -/

theorem sameClock (T : Topo) (p : Params R) : SameClock (localParams T p) (globalParams T p) :=
  ⟨rfl, rfl, rfl, rfl, rfl⟩

theorem partOf_mirror {p : Params R} {k : SolverKind} {I : Nat → (T.Rank → Mem Arr R) → Mem Arr R → Prop}
    {V : T.Rank → (Loc Unit → R) → (Loc Unit → R) → Prop} {s : T.Rank → RunState R} {s' : RunState R}
    (hV : ∀ r o g, FileOf V r o g → BlockFile T p k r o g)
    (hI : ∀ m A, I s'.iteration m A → BlockMem T p (pingIn s'.iteration) m A k)
    (h : Mirror I V s'.iteration s s') : PartOf T p k s s' where
  clock r := by
    obtain ⟨e1, e2, e3, e4, _⟩ := h.agree r
    exact ⟨e3, e1, e2, e4⟩
  files r := (h.files r).imp fun o g hf => ⟨hV r o g hf, hf.2.2.1⟩
  logs := h.logs
  mem := hI _ _ h.mem

theorem partOf_runs {p q : Params R} {k : SolverKind} {S : SolverOps R} {O : MpiOps T R}
    {J : (T.Rank → Mem Arr R) → Mem Arr R → Prop} {I : Nat → (T.Rank → Mem Arr R) → Mem Arr R → Prop}
    {Good : Nat → Mem Arr R → Prop} {V : T.Rank → (Loc Unit → R) → (Loc Unit → R) → Prop}
    (hR : O.Once) (hM : Mirrors S O J I Good V) (hq : SameClock (localParams T p) q)
    (hV : ∀ r o g, FileOf V r o g → BlockFile T p k r o g)
    (hI : ∀ n m A, I n m A → BlockMem T p (pingIn n) m A k)
    {G : Mem Arr R} {t : R} {sv : Int} {s' : RunState R} (hser : runMain q S G t sv s')
    (hg : AlwaysMoves q S Good G t sv) {m : T.Rank → Mem Arr R} (hJ : J m G) :
    AlwaysEnds (mpiMain (localParams T p) O) (fun r => startState (m r) t sv) fun s => PartOf T p k s s' := by
  obtain ⟨N, h⟩ := mirror_run hR hM hq hser hg.1 hg.2 hJ
  refine ⟨N, fun buf n y hy => ?_⟩
  obtain ⟨a, b, c⟩ := h buf n y hy
  exact ⟨a, b, fun hd => ⟨(c hd).1, partOf_mirror hV (hI _) (c hd).2⟩⟩

section Runs
variable {lay : Layout} {p : Params R} {ident ident' : R} {G : Mem Arr R} {t : R} {sv : Int} {s' : RunState R}
  {m : T.Rank → Mem Arr R}

/-- **C104 (runs, 2D hydro).** From blocks of the same initial state: whatever the interleaving of the processes, the
schedules of their kernels and the buffering, the processes always end, with the blocks of the serial run. -/
theorem C104_run_hydro_2d (hL : MaxLaws R num sg) (hD : DivLaws R num pos p.settings.cfl) (hS : SignLaws R)
    (hp : Hydro2 (localParams T p)) (hwide : Wide2 (localParams T p)) (hbc : NamedBC2 T (localParams T p))
    (hi : p.implementationVersion = 0 ∨ p.implementationVersion = 1) (hx : sg (localParams T p).dx)
    (hy : sg (localParams T p).dy) {g : GravityParams} (hid : num ident)
    (hid' : num ident') (hneg : ¬ pos ident) (hneg' : ¬ pos ident')
    {jk : T.Rank → Junk R} {jk' : Junk R}
    (hser : runMain (globalParams T p) (hydroOps2 (globalParams T p) g ident' jk') G t sv s')
    (hmv : AlwaysMoves (globalParams T p) (hydroOps2 (globalParams T p) g ident' jk') (BlocksMove pos T p g .hydro2)
      G t sv)
    (hU : HoldsBlock2 T p .U (interior2 (localParams T p)) m G) (hG : g.enabled = true → HoldsGravity2 T p m G) :
    AlwaysEnds (mpiMain (localParams T p) (mpiHydro2 lay T (localParams T p) g ident jk))
      (fun r => startState (m r) t sv) fun s => PartOf T p .hydro2 s s' :=
  partOf_runs (p := p) (k := .hydro2) (mpiOnce_hydro2 hL hp.wf hp.faces hi hx hy g hid jk)
    (mirrors_hydro2 hL hD hS hp hwide hbc hi hx hy g hid hid' hneg hneg' jk jk') (sameClock T p)
    (fun _ _ _ hf => ⟨hf.1, hf.2.1, hf.2.2.2⟩) (fun _ _ _ hB => hs2_holds (p := p) hp.nbvar hB.1) hser hmv
    ⟨holds_hs2 hp.nbvar hU, fun he => holds_grav2 (hG he)⟩

/-- **C104 (runs, 3D hydro).** -/
theorem C104_run_hydro_3d (hL : MaxLaws R num sg) (hD : DivLaws R num pos p.settings.cfl) (hS : SignLaws R)
    (hp : Hydro3 (localParams T p)) (hwide : Wide3 (localParams T p)) (hbc : NamedBC3 T (localParams T p))
    (hi : p.implementationVersion = 0 ∨ p.implementationVersion = 1) (hx : sg (localParams T p).dx)
    (hy : sg (localParams T p).dy) (hz : sg (localParams T p).dz)
    {g : GravityParams} (hid : num ident)
    (hid' : num ident') (hneg : ¬ pos ident) (hneg' : ¬ pos ident')
    {jk : T.Rank → Junk R} {jk' : Junk R}
    (hser : runMain (globalParams T p) (hydroOps3 (globalParams T p) g ident' jk') G t sv s')
    (hmv : AlwaysMoves (globalParams T p) (hydroOps3 (globalParams T p) g ident' jk') (BlocksMove pos T p g .hydro3)
      G t sv)
    (hU : HoldsBlock T p .U (interior3 (localParams T p)) m G) (hG : g.enabled = true → HoldsGravity3 T p m G) :
    AlwaysEnds (mpiMain (localParams T p) (mpiHydro3 lay T (localParams T p) g ident jk))
      (fun r => startState (m r) t sv) fun s => PartOf T p .hydro3 s s' :=
  partOf_runs (p := p) (k := .hydro3) (mpiOnce_hydro3 hL hp.wf hp.faces hi hx hy hz g hid jk)
    (mirrors_hydro3 hL hD hS hp hwide hbc hi hx hy hz g hid hid' hneg hneg' jk jk') (sameClock T p)
    (fun _ _ _ hf => ⟨hf.1, hf.2.1, hf.2.2.2⟩) (fun _ _ _ hB => hs3_holds (p := p) hp.nbvar hB.1) hser hmv
    ⟨holds_hs3 hp.nbvar hU, fun he => holds_grav3 (hG he)⟩

/-- **C104 (runs, 2D MHD).** -/
theorem C104_run_mhd_2d (hL : MaxLaws R num sg) (hD : DivLaws R num pos p.settings.cfl) (hS : SignLaws R)
    (hp : Mhd2 (localParams T p)) (hwide : Wide2 (localParams T p)) (hbc : NamedBC2 T (localParams T p))
    (hi : p.implementationVersion = 0) (hx : sg (localParams T p).dx)
    (hy : sg (localParams T p).dy) {g : GravityParams} (hid : num ident)
    (hid' : num ident') (hneg : ¬ pos ident) (hneg' : ¬ pos ident')
    {jk : T.Rank → JunkM R} {jk' : JunkM R}
    (hser : runMain (globalParams T p) (mhdOps2 (globalParams T p) ident' jk') G t sv s')
    (hmv : AlwaysMoves (globalParams T p) (mhdOps2 (globalParams T p) ident' jk') (BlocksMove pos T p g .mhd2)
      G t sv)
    (hU : HoldsBlock2 T p .U (interior2 (localParams T p)) m G) :
    AlwaysEnds (mpiMain (localParams T p) (mpiMhd2 lay T (localParams T p) ident jk))
      (fun r => startState (m r) t sv) fun s => PartOf T p .mhd2 s s' :=
  partOf_runs (p := p) (k := .mhd2) (mpiOnce_mhd2 hL hp.wf hp.faces hi hx hy hid jk)
    (mirrors_mhd2 hL hD hS hp hwide hbc hi hx hy hid hid' hneg hneg' jk jk') (sameClock T p)
    (fun _ _ _ hf => ⟨hf.1, hf.2.1, hf.2.2.2⟩) (fun _ _ _ hB => msM2_holds (p := p) hp.nbvar hB) hser hmv
    (holds_msM2 hp.nbvar hU)

/-- **C104 (runs, 3D MHD).** -/
theorem C104_run_mhd_3d (hL : MaxLaws R num sg) (hD : DivLaws R num pos p.settings.cfl) (hS : SignLaws R)
    (hp : Mhd3 (localParams T p)) (hwide : Wide3 (localParams T p)) (hbc : NamedBC3 T (localParams T p))
    (hi : p.implementationVersion = 0) (hx : sg (localParams T p).dx)
    (hy : sg (localParams T p).dy) (hz : sg (localParams T p).dz)
    {g : GravityParams} (hid : num ident)
    (hid' : num ident') (hneg : ¬ pos ident) (hneg' : ¬ pos ident')
    {jk : T.Rank → JunkM R} {jk' : JunkM R}
    (hser : runMain (globalParams T p) (mhdOps3 (globalParams T p) ident' jk') G t sv s')
    (hmv : AlwaysMoves (globalParams T p) (mhdOps3 (globalParams T p) ident' jk') (BlocksMove pos T p g .mhd3)
      G t sv)
    (hU : HoldsBlock T p .U (interior3 (localParams T p)) m G) :
    AlwaysEnds (mpiMain (localParams T p) (mpiMhd3 lay T (localParams T p) ident jk))
      (fun r => startState (m r) t sv) fun s => PartOf T p .mhd3 s s' :=
  partOf_runs (p := p) (k := .mhd3) (mpiOnce_mhd3 hL hp.wf hp.faces hi hx hy hz hid jk)
    (mirrors_mhd3 hL hD hS hp hwide hbc hi hx hy hz hid hid' hneg hneg' jk jk') (sameClock T p)
    (fun _ _ _ hf => ⟨hf.1, hf.2.1, hf.2.2.2⟩) (fun _ _ _ hB => msM3_holds (p := p) hp.nbvar hB) hser hmv
    (holds_msM3 hp.nbvar hU)

end Runs

/-! ### The programs -/

theorem moves_of_whole {F : FloatLib R} {M : MathLib R} {e' : Env R} {c c' : Ini.Reader} {k : SolverKind}
    (hw : WholeDomain T c c') (hmv : SerialMoves pos T F M e' c c' k) {G : Mem Arr R}
    (hG : initProblem F M e' c (globalParams T (rawParams (lit 0) F c)) G k) :
    AlwaysMoves (globalParams T (rawParams (lit 0) F c)) (solverOps e' c (globalParams T (rawParams (lit 0) F c)) k)
      (BlocksMove pos T (rawParams (lit 0) F c) (gravityParams c) k) G (cfgFloat F c "run" "tCurrent" 0) 0 := by
  have h := hmv G
  rw [whole_params hw, whole_float hw (by decide)] at h
  have e1 : solverOps e' c' (globalParams T (rawParams (lit 0) F c)) k =
      solverOps e' c (globalParams T (rawParams (lit 0) F c)) k := by
    cases k <;> simp only [solverOps, whole_gravity hw]
  rw [e1] at h
  refine h ?_
  cases k <;> simp only [initProblem] at hG ⊢ <;>
    simpa only [whole_gravity hw, whole_problem2 hw, whole_problem3 hw, whole_problemM hw] using hG

/-- **C104, the whole program.**  Two parameter files that agree except that the second gives the numbers of cells of the
whole domain; any arithmetic with the laws; any of the four solvers, in a version without atomic additions.  If the
serial build finishes on the second file, every execution of the MPI build on the first ends, and its processes hold,
wrote and logged the parts of what the serial build holds, wrote and logged, bit for bit. -/
theorem C104_program (hL : MaxLaws R num sg) (hS : SignLaws R) (F : FloatLib R) (M : MathLib R)
    {file file' : Option (List Char)} {k : SolverKind} {e : EnvMpi T R} {e' : Env R} {st : T.Rank → RunState R}
    {flow : Flow Ctl T.Rank (RunState R) (Msg R)} {s' : RunState R} :
    let c := Ini.broadcastMpi file
    let p := hydroParamsMpi T F c
    WholeDomain T c (Ini.broadcastSerial file') → findSolver (mainSolverName c) = some k → Repeatable sg p k →
    DivLaws R num pos p.settings.cfl → NamedFaces T p k → StartsBlockwise F M T c e.ju e'.ju k →
    SerialMoves pos T F M e' c (Ini.broadcastSerial file') k →
    num e.ident → ¬ pos e.ident → num e'.ident → ¬ pos e'.ident →
    MpiStarts F M e file st flow → serialMain F M e' file' (.finished s') →
    AlwaysEnds flow st fun s => PartOf T (rawParams (lit 0) F c) k s s' := by
  intro c p hw hk hp hD hbc hstart hmv hid hneg hid' hneg' h h'
  obtain ⟨hr, m, hm, rfl, rfl⟩ := mpiStarts_iff hk h
  obtain ⟨G, hG, hrun⟩ := serial_of_whole hw hk hr h'
  have hmv' := moves_of_whole hw hmv hG
  have hc : (p.nbvar, p.ghostWidth, p.dimType, p.mhdEnabled) = _ := C79_consistent F c hk
  have wf : 1 ≤ p.nx → 1 ≤ p.ny → 1 ≤ p.nz → 2 ≤ p.ghostWidth → p.WF :=
    fun a b c d => wf_local T (Params.init_wf _ a b c d)
  have hp0 : hydroParamsMpi T F (Ini.broadcastMpi file) = localParams T (rawParams (lit 0) F c) := rfl
  rw [hp0] at hm ⊢
  have hpl : p = localParams T (rawParams (lit 0) F c) := rfl
  cases k with
  | hydro2 =>
    obtain ⟨dx, dy, nx, ny, nz, hi, hs, hrm⟩ := hp
    have gw : p.ghostWidth = 2 := by simpa using congrArg (fun q => q.2.1) hc
    have nb : p.nbvar = 4 := by simpa using congrArg (fun q => q.1) hc
    have hf : Faces2Ok p := by
      unfold Faces2Ok BCok
      rw [gw]
      exact ⟨.inr nx, .inr nx, .inr ny, .inr ny⟩
    have hp' : Hydro2 p := ⟨wf (by omega) (by omega) (by omega) (by omega), nb, ⟨hs, hrm⟩, hf⟩
    have hwide : Wide2 p := ⟨gw.trans_le nx, gw.trans_le ny⟩
    obtain ⟨b1, b2⟩ := C56_initial_block_2d (q := fun r => hydroProblem2 F M c (e.ju r)) hp' M
      (fun r => sameProblem_config2 F M c (e.ju r) e'.ju) (fun r => hstart _) (fun r => (hm r).2) hG.2
    exact C104_run_hydro_2d (p := rawParams (lit 0) F c) hL hD hS hp' hwide hbc hi dx dy hid hid' hneg hneg' hrun hmv'
      (fun r i j v hij hv => b1 r i j v (int_inGrid2 hp'.wf hij) hv) (fun _ => b2)
  | hydro3 =>
    obtain ⟨dx, dy, dz, nx, ny, nz, hi, hs, hrm⟩ := hp
    have gw : p.ghostWidth = 2 := by simpa using congrArg (fun q => q.2.1) hc
    have nb : p.nbvar = 5 := by simpa using congrArg (fun q => q.1) hc
    have hf : Faces3Ok p := by
      unfold Faces3Ok Faces2Ok BCok
      rw [gw]
      exact ⟨⟨.inr nx, .inr nx, .inr ny, .inr ny⟩, .inr nz, .inr nz⟩
    have hp' : Hydro3 p := ⟨wf (by omega) (by omega) (by omega) (by omega), nb, ⟨hs, hrm⟩, hf⟩
    have hwide : Wide3 p := ⟨⟨gw.trans_le nx, gw.trans_le ny⟩, gw.trans_le nz⟩
    obtain ⟨b1, b2⟩ := C56_initial_block_3d (q := fun r => hydroProblem3 F M c (e.ju r)) hp' M
      (fun r => sameProblem_config3 F M c (e.ju r) e'.ju) (fun r => hstart _) (fun r => (hm r).2) hG.2
    exact C104_run_hydro_3d (p := rawParams (lit 0) F c) hL hD hS hp' hwide hbc hi dx dy dz hid hid' hneg hneg' hrun hmv'
      (fun r i j k v hij hv => b1 r i j k v (int_inGrid3 hp'.wf hij) hv) (fun _ => b2)
  | mhd2 =>
    obtain ⟨dx, dy, nx, ny, nz, hi, hs, hrm⟩ := hp
    have gw : p.ghostWidth = 3 := by simpa using congrArg (fun q => q.2.1) hc
    have nb : p.nbvar = 8 := by simpa using congrArg (fun q => q.1) hc
    have hf : Faces2Ok p := by
      unfold Faces2Ok BCok
      rw [gw]
      exact ⟨.inr nx, .inr nx, .inr ny, .inr ny⟩
    have hp' : Mhd2 p := ⟨wf (by omega) (by omega) (by omega) (by omega), gw.ge, nb, ⟨hs, hrm⟩, hf⟩
    have hwide : Wide2 p := ⟨gw.trans_le nx, gw.trans_le ny⟩
    have b1 := C61_initial_block_2d hp' M hstart.1 (rnd := e.rnd) (m := m)
      (fun r => by rw [← mhdProblem_ju (F := F) (M := M) (hstart.2 r)]; exact hm r) hG
    exact C104_run_mhd_2d (p := rawParams (lit 0) F c) hL hD hS hp' hwide hbc hi dx dy hid hid' hneg hneg' hrun hmv' b1
  | mhd3 =>
    obtain ⟨dx, dy, dz, nx, ny, nz, hi, hs, hrm⟩ := hp
    have gw : p.ghostWidth = 3 := by simpa using congrArg (fun q => q.2.1) hc
    have nb : p.nbvar = 8 := by simpa using congrArg (fun q => q.1) hc
    have hf : Faces3Ok p := by
      unfold Faces3Ok Faces2Ok BCok
      rw [gw]
      exact ⟨⟨.inr nx, .inr nx, .inr ny, .inr ny⟩, .inr nz, .inr nz⟩
    have hp' : Mhd3 p := ⟨wf (by omega) (by omega) (by omega) (by omega), gw.ge, nb, ⟨hs, hrm⟩, hf⟩
    have hwide : Wide3 p := ⟨⟨gw.trans_le nx, gw.trans_le ny⟩, gw.trans_le nz⟩
    have b1 := C61_initial_block_3d hp' M hstart.1 (rnd := e.rnd) (m := m)
      (fun r => by rw [← mhdProblem_ju (F := F) (M := M) (hstart.2 r)]; exact hm r) hG
    exact C104_run_mhd_3d (p := rawParams (lit 0) F c) hL hD hS hp' hwide hbc hi dx dy dz hid hid' hneg hneg' hrun hmv' b1

end EulerKokkos
