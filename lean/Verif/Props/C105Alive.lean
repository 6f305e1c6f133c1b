import Verif.Props.C105

/-!
# C105 in terms of the states of the gas

The condition of `C105_mpi_is_serial` on rates, for hydro without gravity, in terms of densities and momenta only.
-/

set_option linter.constructorNameAsVariable false

namespace EulerKokkos
open Spec Prog Spmd
variable {Φ : Rounding} {T : Topo}

namespace Spec

/-- every block contains a cell whose density is not `+inf` and whose momenta are not NaN (hydro) -/
def AliveBlocks (T : Topo) (p : Params (Ieee Φ)) : SolverKind → Nat → Mem Arr (Ieee Φ) → Prop
  | .hydro2 => AliveBlocks2 T p
  | .hydro3 => AliveBlocks3 T p
  | _ => fun _ _ => False

/-- whenever the serial program on the file of the whole domain computes a time step, every block contains such a cell -/
def SerialAlive (T : Topo) (F : FloatLib (Ieee Φ)) (M : MathLib (Ieee Φ)) (e' : Env (Ieee Φ)) (c c' : Ini.Reader)
    (k : SolverKind) : Prop :=
  ∀ G, initProblem F M e' c' (hydroParams F c') G k →
    AlwaysMoves (hydroParams F c') (solverOps e' c' (hydroParams F c') k)
      (AliveBlocks T (rawParams (lit 0) F c) k) G (cfgFloat F c' "run" "tCurrent" 0) 0


end Spec

theorem alwaysMoves_mono {R : Type} [RealOps R] {q : Params R} {S : SolverOps R} {A B : Nat → Mem Arr R → Prop}
    {G : Mem Arr R} {t : R} {sv : Int} (h : ∀ n m, A n m → B n m) (hA : AlwaysMoves q S A G t sv) :
    AlwaysMoves q S B G t sv :=
  ⟨fun m hm => h _ _ (hA.1 m hm), fun k a m hr hf hp => h _ _ (hA.2 k a m hr hf hp)⟩

/-- **C105 (MPI = serial, hydro).**  In IEEE 754 arithmetic, for hydrodynamics without gravity: if at every time step of the
serial run every block contains a cell whose density is not `+inf` and whose momenta are not NaN, every execution of the MPI
program ends with every process holding its block of the serial result, bit for bit — even if other cells have become NaN. -/
theorem C105_mpi_hydro (F : FloatLib (Ieee Φ)) (M : MathLib (Ieee Φ)) {file file' : Option (List Char)}
    {k : SolverKind} {e : EnvMpi T (Ieee Φ)} {e' : Env (Ieee Φ)} {st : T.Rank → RunState (Ieee Φ)}
    {flow : Flow Ctl T.Rank (RunState (Ieee Φ)) (Msg (Ieee Φ))} {s' : RunState (Ieee Φ)} :
    let c := Ini.broadcastMpi file
    let p := hydroParamsMpi T F c
    WholeDomain T c (Ini.broadcastSerial file') → findSolver (mainSolverName c) = some k → k = .hydro2 ∨ k = .hydro3 →
    (gravityParams c).enabled = false → IeeeRun p k →
    FinitePos p.settings.cfl → NamedFaces T p k → StartsBlockwise F M T c e.ju e'.ju k →
    GasIeee (globalParams T (rawParams (lit 0) F c)).settings →
    FinitePos (globalParams T (rawParams (lit 0) F c)).dx → FinitePos (globalParams T (rawParams (lit 0) F c)).dy →
    (k = .hydro3 → FinitePos (globalParams T (rawParams (lit 0) F c)).dz) →
    SerialAlive T F M e' c (Ini.broadcastSerial file') k →
    e.ident = Spec.Ieee.lowest → e'.ident = Spec.Ieee.lowest →
    MpiStarts F M e file st flow → serialMain F M e' file' (.finished s') →
    AlwaysEnds flow st fun s => PartOf T (rawParams (lit 0) F c) k s s' := by
  intro c p hw hk hk' hg hp hcfl hbc hst hgas hx hy hz hal hi hi' h h'
  refine C105_mpi_is_serial F M hw hk hp hcfl hbc hst (fun G hG => alwaysMoves_mono (fun n m hm => ?_) (hal G hG)) hi hi' h h'
  rcases hk' with rfl | rfl
  · exact C105_alive_moves_2d hgas hx hy hg hm
  · exact C105_alive_moves_3d hgas hx hy (hz rfl) hg hm

end EulerKokkos
