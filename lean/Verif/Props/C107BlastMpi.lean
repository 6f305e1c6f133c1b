import Verif.Props.C107Blast
import Verif.Props.C107Mpi

/-!
# C107: a blast without contrast, MPI build
-/

set_option linter.constructorNameAsVariable false

namespace EulerKokkos
open Spec Ieee64 Spmd

variable {T : Topo}

/-- **C107, the flat blast, 2D MPI**: every process initialises its block with the blast problem (same parameters on all
processes); every execution of the MPI program ends, and no file of any process shows a trace of the disc. -/
theorem C107_flat_blast_mpi_2d {lay : Layout} {M : MathLib Double} {p : Params Double} (hp : Hydro2 (localParams T p))
    (hwide : Wide2 (localParams T p)) (hbc : NamedBC2 T (localParams T p))
    (hv : p.implementationVersion = 0 ∨ p.implementationVersion = 1)
    (hn : p.nlog ≠ 0) (hcfl : FinitePos p.settings.cfl) {g : GravityParams} (hg : g.enabled = false)
    {q : BlastParams Double} (hq : FlatBlast q)
    (h : CalmRun (globalParams T p) q.density_out (q.pressure_out / (p.settings.gamma0 - lit 1)))
    {rnd : T.Rank → Int → Int → Int → Nat → Double} {m : T.Rank → Mem Arr Double}
    (hm : ∀ r, runLaunches (initHydro2 M (localParams T p) (T.coords r) (rnd r) (.blast q)) freshMem (m r))
    {jk : T.Rank → Junk Double} {t : Double} {sv : Int} :
    AlwaysEnds (mpiMain (localParams T p) (mpiHydro2 lay T (localParams T p) g Spec.Ieee.lowest jk))
      (fun r => startState (m r) t sv) fun s => ∀ r, ∀ o ∈ (s r).outputs,
        Still (localParams T p) q.density_out (q.pressure_out / (p.settings.gamma0 - lit 1)) (fileState o.data) := by
  have hpg := hydro2_global hp hwide
  have hG := (initHydro2_iff M (globalParams T p) (0, 0, 0) (rnd (T.cartRank 0 0 0)) (.blast q) freshMem _).2 rfl
  have hB := (C56_initial_block_2d (q := fun _ => .blast q) (q' := .blast q) hp M (fun _ => .refl _) (fun _ => trivial)
    hm hG).1
  exact alwaysEnds_imp (fun s hs r => (hs r).2) (C107_mpi_2d hp hwide hbc hv hn hcfl hg h (flat_still hpg.wf hq hG)
    fun r i j v hij hv => hB r i j v (int_inGrid2 hp.wf hij) hv)

/-- **C107, the flat blast, 3D MPI.** -/
theorem C107_flat_blast_mpi_3d {lay : Layout} {M : MathLib Double} {p : Params Double} (hp : Hydro3 (localParams T p))
    (hwide : Wide3 (localParams T p)) (hbc : NamedBC3 T (localParams T p))
    (hv : p.implementationVersion = 0 ∨ p.implementationVersion = 1)
    (hn : p.nlog ≠ 0) (hcfl : FinitePos p.settings.cfl) {g : GravityParams} (hg : g.enabled = false)
    {q : BlastParams Double} (hq : FlatBlast q)
    (h : CalmRun3 (globalParams T p) q.density_out (q.pressure_out / (p.settings.gamma0 - lit 1)))
    {rnd : T.Rank → Int → Int → Int → Nat → Double} {m : T.Rank → Mem Arr Double}
    (hm : ∀ r, runLaunches (initHydro3 M (localParams T p) (T.coords r) (rnd r) (.blast q)) freshMem (m r))
    {jk : T.Rank → Junk Double} {t : Double} {sv : Int} :
    AlwaysEnds (mpiMain (localParams T p) (mpiHydro3 lay T (localParams T p) g Spec.Ieee.lowest jk))
      (fun r => startState (m r) t sv) fun s => ∀ r, ∀ o ∈ (s r).outputs,
        Still3 (localParams T p) q.density_out (q.pressure_out / (p.settings.gamma0 - lit 1)) (fileState3 o.data) := by
  have hpg := hydro3_global hp hwide
  have hG := (initHydro3_iff M (globalParams T p) (0, 0, 0) (rnd (T.cartRank 0 0 0)) (.blast q) freshMem _).2 rfl
  have hB := (C56_initial_block_3d (q := fun _ => .blast q) (q' := .blast q) hp M (fun _ => .refl _) (fun _ => trivial)
    hm hG).1
  exact alwaysEnds_imp (fun s hs r => (hs r).2) (C107_mpi_3d hp hwide hbc hv hn hcfl hg h (flat_still3 hpg.wf hq hG)
    fun r i j k v hij hv => hB r i j k v (int_inGrid3 hp.wf hij) hv)

/-- the hypotheses are met by the two processes of the sample of `C107_mpi_2d` -/
example (lay : Layout) (M : MathLib Double) (q : BlastParams Double) (rnd : topo211.Rank → Int → Int → Int → Nat → Double)
    (jk : topo211.Rank → Junk Double) : ∃ m : topo211.Rank → Mem Arr Double,
    (∀ r, runLaunches (initHydro2 M (localParams topo211 stillRaw) (topo211.coords r) (rnd r) (.blast { q with
      density_in := lit 1, density_out := lit 1, pressure_in := lit (1/2), pressure_out := lit (1/2) })) freshMem (m r)) ∧
    AlwaysEnds (mpiMain (localParams topo211 stillRaw)
        (mpiHydro2 lay topo211 (localParams topo211 stillRaw) ⟨false, false⟩ Spec.Ieee.lowest jk))
      (fun r => startState (m r) (lit 0) 0) fun s => ∀ r, ∀ o ∈ (s r).outputs,
        Still (localParams topo211 stillRaw) (lit 1) (lit (1/2)) (fileState o.data) := by
  have hp : Hydro2 (localParams topo211 stillRaw) :=
    ⟨wf_local topo211 (Params.init_wf _ (by decide) (by decide) (by decide) (by decide)), rfl,
      ⟨still_hydro.valid.slope, still_hydro.valid.riemann⟩,
      ⟨.inr (by decide), .inr (by decide), .inr (by decide), .inl rfl⟩⟩
  have hm : ∀ r, ∃ m, runLaunches (initHydro2 M (localParams topo211 stillRaw) (topo211.coords r) (rnd r) (.blast { q with
      density_in := lit 1, density_out := lit 1, pressure_in := lit (1/2), pressure_out := lit (1/2) })) freshMem m :=
    fun r => ⟨_, (initHydro2_iff _ _ _ _ _ _ _).2 rfl⟩
  choose m hm using hm
  refine ⟨m, hm, ?_⟩
  have := C107_flat_blast_mpi_2d (lay := lay) (jk := jk) (t := lit 0) (sv := 0) hp ⟨by decide, by decide⟩
    ⟨.inr (.inr (.inr (.inl rfl))), .inr (.inr (.inr (.inl rfl))), .inl rfl, .inl rfl⟩ (.inl rfl)
    (by decide) (finitePos_lit Tie.rh (by norm_num)) (g := ⟨false, false⟩) rfl ⟨rfl, rfl⟩
    (by show CalmRun (globalParams topo211 stillRaw) (lit 1) (lit (1/2) / (stillParams.settings.gamma0 - lit 1))
        rw [flat_energy]; exact still_calm_global) hm
  rw [show (lit (1/2) / (stillRaw.settings.gamma0 - lit 1) : Double) = lit (1/2) from flat_energy] at this
  exact this

end EulerKokkos
