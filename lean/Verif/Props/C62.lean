import Verif.Props.C61

/-!
# C62: distributed MHD runs keep the divergence of `B` zero across process boundaries

Composition of C59 (serial runs) with C61 (distributed runs are serial runs).
-/

set_option linter.constructorNameAsVariable false
set_option linter.unusedSectionVars false

namespace EulerKokkos

open Spec Spmd

/-- **C62, 2d** (exact arithmetic, all implementation versions, all process grids, layouts, schedules): put
together, the files written by the processes are files of the whole grid in which the discrete divergence of `B`
is zero in every cell — also in the cells whose faces belong to different processes — and all of them have the
same totals of mass, energy, momentum and magnetic field. -/
theorem C62_distributed_files_2d {lay : Layout} {T : Topo} {p : Params ℝ} (hp : Mhd2 (localParams T p))
    (hwide : Wide2 (localParams T p)) (hbc : NamedBC2 T (localParams T p)) (hP : PeriodicBox2 p)
    (hi : p.implementationVersion = 0 ∨ p.implementationVersion = 1 ∨ p.implementationVersion = 2)
    (hg : GoodGrid (localParams T p)) (he : p.enableOutput = decide (p.nOutput ≠ 0))
    (hlog : p.nlog ≠ 0) {ident : ℝ} (hid : ident ≤ 0) {jk : T.Rank → JunkM ℝ}
    (M : MathLib ℝ) {q : MhdProblem ℝ} (hq : Blockwise2 q) (hs : Solenoidal2 (globalParams T p) q)
    {rnd : T.Rank → Int → Int → Int → Nat → ℝ} {t : ℝ} {sv : Int} {m : T.Rank → Mem Arr ℝ}
    (hm : ∀ r, runLaunches (initMhd2 M (localParams T p) (T.coords r) (rnd r) q) freshMem (m r))
    {buf : Prop} {n : Nat} {y : FConfig Ctl T.Rank (RunState ℝ) (Msg ℝ)}
    (hy : FSteps buf (mpiMain (localParams T p) (mpiMhd2 lay T (localParams T p) ident jk)) n
        (FConfig.init (.pre 0) (fun r => startState (m r) t sv)) y)
    (hd : y.Done (mpiMain (localParams T p) (mpiMhd2 lay T (localParams T p) ident jk))) :
    ∃ files : List (Output ℝ),
      (∀ r, List.Forall₂ (BlockFile2 T p r) (y.c.st r).outputs files) ∧
      (∀ o ∈ files, ∀ i j, interior2 (globalParams T p) i j →
        divB2 (globalParams T p) (fillM2 (globalParams T p) (fun i j => shownM o.data i j 0)) i j = 0) ∧
      ∀ o ∈ files, ∀ o' ∈ files, ∀ v < 8,
        total2 (globalParams T p) (fun i j => o.data ⟨(), i, j, 0, v⟩) =
          total2 (globalParams T p) (fun i j => o'.data ⟨(), i, j, 0, v⟩) := by
  have hpg := mhd2_global hp hwide
  have hPg : PeriodicBox2 (globalParams T p) := ⟨hP.xmin, hP.xmax, hP.ymin, hP.ymax⟩
  have hgg : GoodGrid (globalParams T p) := ⟨hg.settings, hg.cfl, hg.dx, hg.dy, hg.dz⟩
  have hdir : DirectionOk2 q := by
    cases q <;> trivial
  obtain ⟨G, hG, _⟩ := C57_init_unique_mhd_2d M (globalParams T p) (0, 0, 0) (fun _ _ _ _ => 0) hdir freshMem
  have hT := total_mhd2 hpg.wf hpg.faces (-1) (fun _ _ _ _ => MS.zero)
  obtain ⟨s, hst⟩ := C14_starts (p := globalParams T p) hT G t sv
  obtain ⟨_, s₁, _, _, hser⟩ := C14_completes hT (show (globalParams T p).nlog ≠ 0 from hlog) hst
  generalize hs1 : mainSave (globalParams T p) s₁ = s' at hser
  obtain ⟨N, hN⟩ := C61_run_2d (lay := lay) (jk := jk) hp hwide hbc hi hg he hlog hid
    (by norm_num : (-1 : ℝ) ≤ 0) M hq hG hser hm
  obtain ⟨_, _, h3⟩ := hN buf n y hy
  obtain ⟨_, h4, _⟩ := h3 hd
  refine ⟨s'.outputs, fun r => (h4 r).2.2.2, ?_, ?_⟩
  · exact C59_files_divergence_free_2d M hpg hPg hi hgg he hdir hs hG (by norm_num : (-1 : ℝ) ≤ 0) _ hser
  · intro o ho o' ho' v hv
    have k := C54_mhd_files_2d hpg hPg hi hgg he (by norm_num : (-1 : ℝ) ≤ 0) _ hser
    exact ((k o ho).1 v hv).trans ((k o' ho').1 v hv).symm

/-- **C62, 3d** (exact arithmetic, all implementation versions, all process grids, layouts, schedules): put
together, the files written by the processes are files of the whole grid in which the discrete divergence of `B`
is zero in every cell — also in the cells whose faces belong to different processes — and all of them have the
same totals of mass, energy, momentum and magnetic field. -/
theorem C62_distributed_files_3d {lay : Layout} {T : Topo} {p : Params ℝ} (hp : Mhd3 (localParams T p))
    (hwide : Wide3 (localParams T p)) (hbc : NamedBC3 T (localParams T p)) (hP : PeriodicBox3 p)
    (hi : p.implementationVersion = 0 ∨ p.implementationVersion = 1 ∨ p.implementationVersion = 2)
    (hg : GoodGrid (localParams T p)) (he : p.enableOutput = decide (p.nOutput ≠ 0))
    (hlog : p.nlog ≠ 0) {ident : ℝ} (hid : ident ≤ 0) {jk : T.Rank → JunkM ℝ}
    (M : MathLib ℝ) {q : MhdProblem ℝ} (hq : Blockwise3 T p q) (hs : Solenoidal3 (globalParams T p) q)
    {rnd : T.Rank → Int → Int → Int → Nat → ℝ} {t : ℝ} {sv : Int} {m : T.Rank → Mem Arr ℝ}
    (hm : ∀ r, runLaunches (initMhd3 M (localParams T p) (T.coords r) (rnd r) q) freshMem (m r))
    {buf : Prop} {n : Nat} {y : FConfig Ctl T.Rank (RunState ℝ) (Msg ℝ)}
    (hy : FSteps buf (mpiMain (localParams T p) (mpiMhd3 lay T (localParams T p) ident jk)) n
        (FConfig.init (.pre 0) (fun r => startState (m r) t sv)) y)
    (hd : y.Done (mpiMain (localParams T p) (mpiMhd3 lay T (localParams T p) ident jk))) :
    ∃ files : List (Output ℝ),
      (∀ r, List.Forall₂ (BlockFile3 T p r) (y.c.st r).outputs files) ∧
      (∀ o ∈ files, ∀ i j k, interior3 (globalParams T p) i j k →
        divB3 (globalParams T p) (fillM3 (globalParams T p) (fun i j k => shownM o.data i j k)) i j k = 0) ∧
      ∀ o ∈ files, ∀ o' ∈ files, ∀ v < 8,
        total3 (globalParams T p) (fun i j k => o.data ⟨(), i, j, k, v⟩) =
          total3 (globalParams T p) (fun i j k => o'.data ⟨(), i, j, k, v⟩) := by
  have hpg := mhd3_global hp hwide
  have hPg : PeriodicBox3 (globalParams T p) := ⟨hP.xmin, hP.xmax, hP.ymin, hP.ymax, hP.zmin, hP.zmax⟩
  have hgg : GoodGrid (globalParams T p) := ⟨hg.settings, hg.cfl, hg.dx, hg.dy, hg.dz⟩
  have hdir : DirectionOk3 q := by
    cases q with
    | brioWu q =>
      have hs : q.direction = 0 ∨ q.direction = 1 ∨ (q.direction = 2 ∧ (p.ny = p.nz ∨ T.mz = 1)) := hq
      show q.direction = 0 ∨ q.direction = 1 ∨ q.direction = 2
      tauto
    | _ => trivial
  obtain ⟨G, hG, _⟩ := C57_init_unique_mhd_3d M (globalParams T p) (0, 0, 0) (fun _ _ _ _ => 0) hdir freshMem
  have hT := total_mhd3 hpg.wf hpg.faces (-1) (fun _ _ _ _ => MS.zero)
  obtain ⟨s, hst⟩ := C14_starts (p := globalParams T p) hT G t sv
  obtain ⟨_, s₁, _, _, hser⟩ := C14_completes hT (show (globalParams T p).nlog ≠ 0 from hlog) hst
  generalize hs1 : mainSave (globalParams T p) s₁ = s' at hser
  obtain ⟨N, hN⟩ := C61_run_3d (lay := lay) (jk := jk) hp hwide hbc hi hg he hlog hid
    (by norm_num : (-1 : ℝ) ≤ 0) M hq hG hser hm
  obtain ⟨_, _, h3⟩ := hN buf n y hy
  obtain ⟨_, h4, _⟩ := h3 hd
  refine ⟨s'.outputs, fun r => (h4 r).2.2.2, ?_, ?_⟩
  · exact C59_files_divergence_free_3d M hpg hPg hi hgg he hdir hs hG (by norm_num : (-1 : ℝ) ≤ 0) _ hser
  · intro o ho o' ho' v hv
    have k := C54_mhd_files_3d hpg hPg hi hgg he (by norm_num : (-1 : ℝ) ≤ 0) _ hser
    exact ((k o ho).1 v hv).trans ((k o' ho').1 v hv).symm

/-- Orszag-Tang on six processes with periodic boundaries meets the hypotheses, and completed executions exist. -/
example (M : MathLib ℝ) (q : OrszagTangParams ℝ) (jk : topo321.Rank → JunkM ℝ)
    (rnd : topo321.Rank → Int → Int → Int → Nat → ℝ) :
    let p := sampleM .periodic .periodic 1
    Blockwise2 (.orszagTang q) ∧ Solenoidal2 (globalParams topo321 p) (.orszagTang q) ∧ PeriodicBox2 p ∧
    ∃ m : topo321.Rank → Mem Arr ℝ,
    (∀ r, runLaunches (initMhd2 M (localParams topo321 p) (topo321.coords r) (rnd r) (.orszagTang q))
      freshMem (m r)) ∧
      ∃ n y,
        FSteps False (mpiMain (localParams topo321 p)
          (mpiMhd2 .left topo321 (localParams topo321 p) (-1) jk)) n
          (FConfig.init (.pre 0) (fun r => startState (m r) 0 0)) y ∧
        y.Done (mpiMain (localParams topo321 p)
          (mpiMhd2 .left topo321 (localParams topo321 p) (-1) jk)) := by
  intro p
  have hd : DirectionOk2 (MhdProblem.orszagTang q) := trivial
  choose m hm _ using fun r => C57_init_unique_mhd_2d M (localParams topo321 p) (topo321.coords r) (rnd r) hd
    freshMem
  obtain ⟨G, hG, _⟩ := C57_init_unique_mhd_2d M (globalParams topo321 p) (0, 0, 0) (fun _ _ _ _ => 0) hd freshMem
  obtain ⟨_, _, n, y, h1, h2, _⟩ := sample_mpi_mhd2 (Or.inr rfl) G jk (fun _ _ _ _ => MS.zero)
    (C61_initial_block_2d (sampleM_local2 _) M (q := .orszagTang q) trivial hm hG)
  exact ⟨trivial, trivial, ⟨rfl, rfl, rfl, rfl⟩, m, hm, n, y, h1, h2⟩

end EulerKokkos
