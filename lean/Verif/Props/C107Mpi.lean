import Verif.Props.C107Runs
import Verif.Props.C105Sample

/-!
# C107 for the MPI build
-/

set_option linter.constructorNameAsVariable false

namespace EulerKokkos
open Spec Ieee64 Spmd

variable {T : Topo}

theorem alwaysEnds_imp {flow : Flow Ctl T.Rank (RunState Double) (Msg Double)} {st : T.Rank → RunState Double}
    {P Q : (T.Rank → RunState Double) → Prop} (hPQ : ∀ s, P s → Q s) (h : AlwaysEnds flow st P) : AlwaysEnds flow st Q := by
  obtain ⟨N, h⟩ := h
  refine ⟨N, fun buf n y hy => ?_⟩
  obtain ⟨a, b, c⟩ := h buf n y hy
  exact ⟨a, b, fun hd => ⟨(c hd).1, hPQ _ (c hd).2⟩⟩

theorem finitePos_rate {x : Double} (h : FinitePos x) : Spec.Ieee.Rate x := by
  obtain ⟨m, _, rfl⟩ := h
  exact ⟨rfl, rfl⟩

theorem still_rate {p : Params Double} {d e : Double} (h : CalmRun p d e) {g : GravityParams}
    (hg : g.enabled = false) {u : HS Double} (hu : StillCell d e u) (a : Double × Double) :
    cellRate2 p g u a = gasSound p.settings d e / p.dx + gasSound p.settings d e / p.dy := by
  obtain ⟨a1, a2, a3, a4⟩ := prim_still h.gas hu
  have ec : (computePrimitives2 p.settings u).2 = gasSound p.settings d e := by
    have : (computePrimitives2 p.settings u).2 = RealOps.sqrt (p.settings.gamma0 *
      (computePrimitives2 p.settings u).1.p / (computePrimitives2 p.settings u).1.d) := rfl
    rw [this, a1, a2]
    rfl
  unfold cellRate2
  dsimp only
  rw [if_neg (by rw [hg]; decide), ec, pos_add h.sound (zero_fabs a3), pos_add h.sound (zero_fabs a4)]

theorem still_rate3 {p : Params Double} {d e : Double} (h : CalmRun3 p d e) {g : GravityParams}
    (hg : g.enabled = false) {u : HS Double} (hu : StillCell3 d e u) (a : Double × Double × Double) :
    cellRate3 p g u a =
      gasSound p.settings d e / p.dx + gasSound p.settings d e / p.dy + gasSound p.settings d e / p.dz := by
  obtain ⟨⟨a1, a2, a3, a4⟩, a5⟩ := prim_still3 h.gas hu
  have ec : (computePrimitives3 p.settings u).2 = gasSound p.settings d e := by
    have : (computePrimitives3 p.settings u).2 = RealOps.sqrt (p.settings.gamma0 *
      (computePrimitives3 p.settings u).1.p / (computePrimitives3 p.settings u).1.d) := rfl
    rw [this, a1, a2]
    rfl
  unfold cellRate3
  dsimp only
  rw [if_neg (by rw [hg]; decide), ec, pos_add h.sound (zero_fabs a3), pos_add h.sound (zero_fabs a4),
    pos_add h.sound (zero_fabs a5)]

theorem still_setup {p : Params Double} (hp : Hydro2 p) {g : GravityParams} {d e : Double}
    {jk : Junk Double} {m A : Mem Arr Double} (hu : Still p d e (hs2 m .U))
    (h : (hydroOps2 p g Spec.Ieee.lowest jk).setup m A) : Still p d e (hs2 A .U) := by
  obtain ⟨mb, hb, hc⟩ := h
  obtain ⟨b1, b2⟩ := makeBoundaries2_hs2 hp Ieee.signLaws hb
  have hm1 : A = fun l => if l.arr = .U2 then mb { l with arr := .U } else mb l := hc
  intro i j hij
  have e1 : hs2 A .U i j = hs2 mb .U i j := by rw [hm1]; rfl
  rw [e1, b2 i j (int_inGrid2 hp.wf hij)]
  exact fill_still hp hu i j (int_inGrid2 hp.wf hij)

theorem still_reaches {p : Params Double} (hp : Hydro2 p) (hv : p.implementationVersion = 0 ∨ p.implementationVersion = 1)
    {g : GravityParams} (hg : g.enabled = false) {d e : Double} (h : CalmRun p d e)
    {jk : Junk Double} {m : Mem Arr Double} (hu : Still p d e (hs2 m .U)) {t : Double} {sv : Int} {k : Nat}
    {s : RunState Double} (hr : reaches p (hydroOps2 p g Spec.Ieee.lowest jk) m t sv k s) : StillRun p d e s := by
  obtain ⟨s0, ⟨m1, hs, d1, hd1, rfl⟩, hk⟩ := hr
  exact still_turns hp hv hg h hk (still_main ⟨still_setup hp hu hs, fun o ho => absurd ho List.not_mem_nil⟩)

theorem still_moves {p : Params Double} (hp : Hydro2 (localParams T p)) (hpg : Hydro2 (globalParams T p))
    (hv : p.implementationVersion = 0 ∨ p.implementationVersion = 1)
    {g : GravityParams} (hg : g.enabled = false) {d e : Double} (h : CalmRun (globalParams T p) d e)
    {jk : Junk Double} {G : Mem Arr Double} (hu : Still (globalParams T p) d e (hs2 G .U)) {t : Double} {sv : Int} :
    AlwaysMoves (globalParams T p) (hydroOps2 (globalParams T p) g Spec.Ieee.lowest jk)
      (BlocksMove Spec.Ieee.Rate T p g .hydro2) G t sv := by
  have key : ∀ n A, Still (globalParams T p) d e (hs2 A (pingIn n)) → BlocksMove Spec.Ieee.Rate T p g .hydro2 n A := by
    intro n A hA r
    have hw := hp.wf
    have h1 := hw.nx_pos
    have h2 := hw.ny_pos
    have h4 := hw.isize_eq
    have h5 := hw.jsize_eq
    have hin : interior2 (localParams T p) (localParams T p).ghostWidth (localParams T p).ghostWidth :=
      ⟨le_rfl, by omega, le_rfl, by omega⟩
    refine ⟨_, _, hin, ?_⟩
    exact (congrArg Spec.Ieee.Rate (still_rate h hg (hA _ _ (interior2_block hw T r hin)) _)).mpr
      (finitePos_rate h.rate)
  refine ⟨fun A hA => key 0 A (still_setup hpg hu hA), fun k a A hr hf hpre => ?_⟩
  obtain rfl : A = a.mem := hpre
  have := (still_reaches hpg hv hg h hu hr).1
  rw [reaches_iteration hr] at this
  exact key k _ this

/-- **C107, the MPI program, 2D**: the processes, on any process grid, hold the blocks of uniform gas at rest.  Every execution
ends, whatever the interleaving of the processes, the schedules of their kernels and the buffering of the messages, and
every process has then written, and holds, exactly the initial gas. -/
theorem C107_mpi_2d {lay : Layout} {p : Params Double} (hp : Hydro2 (localParams T p)) (hwide : Wide2 (localParams T p))
    (hbc : NamedBC2 T (localParams T p)) (hv : p.implementationVersion = 0 ∨ p.implementationVersion = 1)
    (hn : p.nlog ≠ 0) (hcfl : FinitePos p.settings.cfl) {g : GravityParams} (hg : g.enabled = false) {d e : Double}
    (h : CalmRun (globalParams T p) d e) {jk : T.Rank → Junk Double} {m : T.Rank → Mem Arr Double} {G : Mem Arr Double}
    (hu : Still (globalParams T p) d e (hs2 G .U)) (hU : HoldsBlock2 T p .U (interior2 (localParams T p)) m G)
    {t : Double} {sv : Int} :
    AlwaysEnds (mpiMain (localParams T p) (mpiHydro2 lay T (localParams T p) g Spec.Ieee.lowest jk))
      (fun r => startState (m r) t sv) fun s => ∀ r,
        Still (localParams T p) d e (hs2 (s r).mem (pingIn (s r).iteration)) ∧
        ∀ o ∈ (s r).outputs, Still (localParams T p) d e (fileState o.data) := by
  have hpg := hydro2_global hp hwide
  obtain ⟨s', hs'⟩ := runMain_total (p := globalParams T p) (once_hydro2 Ieee.maxLaws hpg.wf hpg.faces hv
    (Ieee.finitePos_sg h.dx) (Ieee.finitePos_sg h.dy) g Ieee.num_lowest
    (jk (T.cartRank 0 0 0))).toTotal hn G t sv
  obtain ⟨c, hc, ec⟩ := hcfl
  have hend := C104_run_hydro_2d (lay := lay) (jk := jk) Ieee.maxLaws (by rw [ec]; exact Ieee.divLaws hc) Ieee.signLaws hp hwide
    hbc hv (Ieee.finitePos_sg h.dx) (Ieee.finitePos_sg h.dy) Ieee.num_lowest Ieee.num_lowest Ieee.lowest_not_rate
    Ieee.lowest_not_rate hs' (still_moves hp hpg hv hg h hu) hU (fun he => by rw [hg] at he; cases he)
  have hfin := C107_main hpg hv hg h hu hs'
  refine alwaysEnds_imp (fun s hs r => ⟨fun i j hij => ?_, fun o ho i j hij => ?_⟩) hend
  · rw [(hs.clock r).1, holds_hs2 hp.nbvar hs.mem r i j hij]
    exact hfin.1 _ _ (interior2_block hp.wf T r hij)
  · obtain ⟨o', ho', ⟨-, -, hf⟩, -⟩ := forall₂_mem (hs.files r) ho
    have e : ∀ v, v < 4 → _ := fun v hv => hf i j v hij (by have : p.nbvar = 4 := hp.nbvar; omega)
    have := hfin.2 o' ho' _ _ (interior2_block hp.wf T r hij)
    unfold fileState
    rw [e ID (by decide), e IP (by decide), e IU (by decide), e IV (by decide)]
    exact this

/-! ### Three dimensions -/

theorem still_setup3 {p : Params Double} (hp : Hydro3 p) {g : GravityParams} {d e : Double}
    {jk : Junk Double} {m A : Mem Arr Double} (hu : Still3 p d e (hs3 m .U))
    (h : (hydroOps3 p g Spec.Ieee.lowest jk).setup m A) : Still3 p d e (hs3 A .U) := by
  obtain ⟨mb, hb, hc⟩ := h
  obtain ⟨b1, b2⟩ := makeBoundaries3_hs3 hp Ieee.signLaws hb
  have hm1 : A = fun l => if l.arr = .U2 then mb { l with arr := .U } else mb l := hc
  intro i j k hij
  have e1 : hs3 A .U i j k = hs3 mb .U i j k := by rw [hm1]; rfl
  rw [e1, b2 i j k (int_inGrid3 hp.wf hij)]
  exact fill_still3 hp hu i j k (int_inGrid3 hp.wf hij)

theorem still_reaches3 {p : Params Double} (hp : Hydro3 p)
    (hv : p.implementationVersion = 0 ∨ p.implementationVersion = 1)
    {g : GravityParams} (hg : g.enabled = false) {d e : Double} (h : CalmRun3 p d e)
    {jk : Junk Double} {m : Mem Arr Double} (hu : Still3 p d e (hs3 m .U)) {t : Double} {sv : Int} {k : Nat}
    {s : RunState Double} (hr : reaches p (hydroOps3 p g Spec.Ieee.lowest jk) m t sv k s) : StillRun3 p d e s := by
  obtain ⟨s0, ⟨m1, hs, d1, hd1, rfl⟩, hk⟩ := hr
  exact still_turns3 hp hv hg h hk (still_main3 ⟨still_setup3 hp hu hs, fun o ho => absurd ho List.not_mem_nil⟩)

theorem still_moves3 {p : Params Double} (hp : Hydro3 (localParams T p)) (hpg : Hydro3 (globalParams T p))
    (hv : p.implementationVersion = 0 ∨ p.implementationVersion = 1)
    {g : GravityParams} (hg : g.enabled = false) {d e : Double} (h : CalmRun3 (globalParams T p) d e)
    {jk : Junk Double} {G : Mem Arr Double} (hu : Still3 (globalParams T p) d e (hs3 G .U)) {t : Double} {sv : Int} :
    AlwaysMoves (globalParams T p) (hydroOps3 (globalParams T p) g Spec.Ieee.lowest jk)
      (BlocksMove Spec.Ieee.Rate T p g .hydro3) G t sv := by
  have key : ∀ n A, Still3 (globalParams T p) d e (hs3 A (pingIn n)) → BlocksMove Spec.Ieee.Rate T p g .hydro3 n A := by
    intro n A hA r
    have hw := hp.wf
    have h1 := hw.nx_pos
    have h2 := hw.ny_pos
    have h3 := hw.nz_pos
    have h4 := hw.isize_eq
    have h5 := hw.jsize_eq
    have h6 := hw.ksize_eq
    have hin : interior3 (localParams T p) (localParams T p).ghostWidth (localParams T p).ghostWidth
        (localParams T p).ghostWidth := ⟨⟨le_rfl, by omega⟩, ⟨le_rfl, by omega⟩, le_rfl, by omega⟩
    refine ⟨_, _, _, hin, ?_⟩
    exact (congrArg Spec.Ieee.Rate (still_rate3 h hg (hA _ _ _ (interior3_block hw T r hin)) _)).mpr
      (finitePos_rate h.rate)
  refine ⟨fun A hA => key 0 A (still_setup3 hpg hu hA), fun k a A hr hf hpre => ?_⟩
  obtain rfl : A = a.mem := hpre
  have := (still_reaches3 hpg hv hg h hu hr).1
  rw [reaches_iteration hr] at this
  exact key k _ this

/-- **C107, the MPI program, 3D.** -/
theorem C107_mpi_3d {lay : Layout} {p : Params Double} (hp : Hydro3 (localParams T p)) (hwide : Wide3 (localParams T p))
    (hbc : NamedBC3 T (localParams T p)) (hv : p.implementationVersion = 0 ∨ p.implementationVersion = 1)
    (hn : p.nlog ≠ 0) (hcfl : FinitePos p.settings.cfl) {g : GravityParams} (hg : g.enabled = false) {d e : Double}
    (h : CalmRun3 (globalParams T p) d e) {jk : T.Rank → Junk Double} {m : T.Rank → Mem Arr Double} {G : Mem Arr Double}
    (hu : Still3 (globalParams T p) d e (hs3 G .U)) (hU : HoldsBlock T p .U (interior3 (localParams T p)) m G)
    {t : Double} {sv : Int} :
    AlwaysEnds (mpiMain (localParams T p) (mpiHydro3 lay T (localParams T p) g Spec.Ieee.lowest jk))
      (fun r => startState (m r) t sv) fun s => ∀ r,
        Still3 (localParams T p) d e (hs3 (s r).mem (pingIn (s r).iteration)) ∧
        ∀ o ∈ (s r).outputs, Still3 (localParams T p) d e (fileState3 o.data) := by
  have hpg := hydro3_global hp hwide
  obtain ⟨s', hs'⟩ := runMain_total (p := globalParams T p) (once_hydro3 Ieee.maxLaws hpg.wf hpg.faces hv
    (Ieee.finitePos_sg h.dx) (Ieee.finitePos_sg h.dy) (Ieee.finitePos_sg h.dz) g Ieee.num_lowest
    (jk (T.cartRank 0 0 0))).toTotal hn G t sv
  obtain ⟨c, hc, ec⟩ := hcfl
  have hend := C104_run_hydro_3d (lay := lay) (jk := jk) Ieee.maxLaws (by rw [ec]; exact Ieee.divLaws hc) Ieee.signLaws hp hwide
    hbc hv (Ieee.finitePos_sg h.dx) (Ieee.finitePos_sg h.dy) (Ieee.finitePos_sg h.dz) Ieee.num_lowest Ieee.num_lowest
    Ieee.lowest_not_rate Ieee.lowest_not_rate hs' (still_moves3 hp hpg hv hg h hu) hU (fun he => by rw [hg] at he; cases he)
  have hfin := C107_main_3d hpg hv hg h hu hs'
  refine alwaysEnds_imp (fun s hs r => ⟨fun i j k hij => ?_, fun o ho i j k hij => ?_⟩) hend
  · rw [(hs.clock r).1, holds_hs3 hp.nbvar hs.mem r i j k hij]
    exact hfin.1 _ _ _ (interior3_block hp.wf T r hij)
  · obtain ⟨o', ho', ⟨-, -, hf⟩, -⟩ := forall₂_mem (hs.files r) ho
    have e : ∀ v, v < 5 → _ := fun v hv => hf i j k v hij (by have : p.nbvar = 5 := hp.nbvar; omega)
    have := hfin.2 o' ho' _ _ _ (interior3_block hp.wf T r hij)
    unfold fileState3
    rw [e ID (by decide), e IP (by decide), e IU (by decide), e IV (by decide), e IW (by decide)]
    exact this

/-! ### The hypotheses are met -/

/-- two processes, each with two by four of the unit cells of `stillParams` -/
noncomputable def stillRaw : Params Double := { stillParams with
  nx := 2
  nz := 1
  xmax := lit 4
  ymax := lit 4 }

theorem still_cells : (globalParams topo211 stillRaw).dx = lit 1 ∧ (globalParams topo211 stillRaw).dy = lit 1 := by
  have r0 : Rep 0 := ⟨0, 0, by norm_num, by norm_num, by norm_num, by norm_num⟩
  have r4 : Rep 4 := ⟨4, 0, by norm_num, by norm_num, by norm_num, by norm_num⟩
  have e : ((lit 4 - lit 0) / lit 4 : Double) = lit 1 := by
    rw [show (lit 4 - lit 0 : Double) = lit 4 from sub_rep r4 r0 (by norm_num) r4]
    exact div_rep r4 r4 (by norm_num) (by norm_num) Tie.r1
  have i4 : (intLit 4 : Double) = lit 4 := by simp [intLit]
  exact ⟨by show ((lit 4 - lit 0) / intLit 4 : Double) = _; rw [i4, e],
    by show ((lit 4 - lit 0) / intLit 4 : Double) = _; rw [i4, e]⟩

theorem still_calm_global : CalmRun (globalParams topo211 stillRaw) (lit 1) (lit (1/2)) := by
  have h := still_calm_run.1
  have hd := h.gas
  have hf : CalmState stillParams.settings (lit 1) (gasPressure stillParams.settings (lit 1) (lit (1/2))) := hd.face
  have r21 : Rep (1/2097152) := ⟨1, -21, by norm_num, by norm_num, by norm_num, by norm_num⟩
  have r2 : Rep 2 := ⟨2, 0, by norm_num, by norm_num, by norm_num, by norm_num⟩
  have rs : Rep (1/1024) := ⟨1, -10, by norm_num, by norm_num, by norm_num, by norm_num⟩
  have rss : Rep (1/1048576) := ⟨1, -20, by norm_num, by norm_num, by norm_num, by norm_num⟩
  have eP : gasPressure stillParams.settings (lit 1) (lit (1/2)) = lit (1/2) := by
    show ((lit 2 - lit 1) * lit 1 * (lit (1/2) / lit 1) : Double) = _
    rw [show (lit 2 - lit 1 : Double) = lit 1 from sub_rep r2 Tie.r1 (by norm_num) Tie.r1,
      show (lit 1 * lit 1 : Double) = lit 1 from mul_rep Tie.r1 Tie.r1 (by norm_num) Tie.r1,
      show (lit (1/2) / lit 1 : Double) = lit (1/2) from div_rep Tie.rh Tie.r1 (by norm_num) (by norm_num) Tie.rh]
    exact mul_rep Tie.r1 Tie.rh (by norm_num) Tie.rh
  have fl : RealOps.lt (lit 1 * (globalParams topo211 stillRaw).settings.smallp)
      (gasPressure stillParams.settings (lit 1) (lit (1/2))) = true := by
    rw [eP]
    show RealOps.lt (lit 1 * (lit (1/1024) * lit (1/1024) / lit 2) : Double) _ = true
    rw [show (lit (1/1024) * lit (1/1024) : Double) = lit (1/1048576) from mul_rep rs rs (by norm_num) rss,
      show (lit (1/1048576) / lit 2 : Double) = lit (1/2097152) from div_rep rss r2 (by norm_num) (by norm_num) r21,
      show (lit 1 * lit (1/2097152) : Double) = lit (1/2097152) from mul_rep Tie.r1 r21 (by norm_num) r21]
    exact lt_rep r21 Tie.rh (by norm_num)
  have cell : CalmCell (globalParams topo211 stillRaw).settings (lit 1)
      (gasPressure stillParams.settings (lit 1) (lit (1/2))) :=
    ⟨hf.pos_r, hf.pos_p, hf.floor_r, fl, hf.half_r, hf.pos_e⟩
  have gas : CalmGas .hllc (globalParams topo211 stillRaw).settings (lit 1) (lit (1/2)) :=
    ⟨hd.gamma, hd.slope, hd.energy, hd.specific, cell,
      ⟨cell, hf.pos_c, hf.rc, hf.rc2, hf.rcc, hf.rcp, hf.pressure, hf.density, hf.ce, hf.ep⟩, hd.pressure⟩
  have p1 : FinitePos (lit 1 : Double) := finitePos_lit Tie.r1 (by norm_num)
  have es : restStep (globalParams topo211 stillRaw) (lit 1) (lit (1/2)) = restStep stillParams (lit 1) (lit (1/2)) := by
    unfold restStep
    rw [still_cells.1, still_cells.2]
    rfl
  refine ⟨gas, by rw [still_cells.1]; exact p1, by rw [still_cells.2]; exact p1, p1, h.sound, ?_, ?_, ?_, ?_, ?_, ?_⟩
  · rw [still_cells.1, still_cells.2]; exact h.rate
  · rw [es]; exact h.pos
  · rw [es, still_cells.1]; exact h.step.ratio_x
  · rw [es, still_cells.2]; exact h.step.ratio_y
  · rw [es, still_cells.1]; exact h.step.kick_x
  · rw [es, still_cells.2]; exact h.step.kick_y

/-- the hypotheses of `C107_mpi_2d` hold for two processes, periodic in x, reflecting below, open above -/
example (lay : Layout) (jk : topo211.Rank → Junk Double) :
    let gas : Mem Arr Double := fun l => if l.v = ID then lit 1 else if l.v = IP then lit (1/2) else lit 0
    AlwaysEnds (mpiMain (localParams topo211 stillRaw)
        (mpiHydro2 lay topo211 (localParams topo211 stillRaw) ⟨false, false⟩ Spec.Ieee.lowest jk))
      (fun _ => startState gas (lit 0) 0) fun s => ∀ r,
        Still (localParams topo211 stillRaw) (lit 1) (lit (1/2)) (hs2 (s r).mem (pingIn (s r).iteration)) ∧
        ∀ o ∈ (s r).outputs, Still (localParams topo211 stillRaw) (lit 1) (lit (1/2)) (fileState o.data) := by
  have hp : Hydro2 (localParams topo211 stillRaw) :=
    ⟨wf_local topo211 (Params.init_wf _ (by decide) (by decide) (by decide) (by decide)), rfl,
      ⟨still_hydro.valid.slope, still_hydro.valid.riemann⟩,
      ⟨.inr (by decide), .inr (by decide), .inr (by decide), .inl rfl⟩⟩
  exact C107_mpi_2d (m := fun _ => fun l => if l.v = ID then lit 1 else if l.v = IP then lit (1/2) else lit 0)
    hp ⟨by decide, by decide⟩ ⟨.inr (.inr (.inr (.inl rfl))), .inr (.inr (.inr (.inl rfl))), .inl rfl, .inl rfl⟩ (.inl rfl)
    (by decide) (finitePos_lit Tie.rh (by norm_num)) rfl still_calm_global
    (G := fun l => if l.v = ID then lit 1 else if l.v = IP then lit (1/2) else lit 0)
    (fun _ _ _ => ⟨rfl, rfl, zero_lit, zero_lit⟩) (fun _ _ _ _ _ _ => rfl)

/-- two processes, each with two by four by four of the cells of `stillParamsZ` -/
noncomputable def stillRawZ : Params Double := { stillParamsZ with
  nx := 2
  xmax := lit 4
  ymax := lit 4
  zmax := lit 2 }

theorem still_cellsZ : (globalParams topo211 stillRawZ).dx = lit 1 ∧ (globalParams topo211 stillRawZ).dy = lit 1 ∧
    (globalParams topo211 stillRawZ).dz = lit (1/2) := by
  have r0 : Rep 0 := ⟨0, 0, by norm_num, by norm_num, by norm_num, by norm_num⟩
  have r4 : Rep 4 := ⟨4, 0, by norm_num, by norm_num, by norm_num, by norm_num⟩
  have r2 : Rep 2 := ⟨2, 0, by norm_num, by norm_num, by norm_num, by norm_num⟩
  have i4 : (intLit 4 : Double) = lit 4 := by simp [intLit]
  refine ⟨still_cells.1, still_cells.2, ?_⟩
  show ((lit 2 - lit 0) / intLit 4 : Double) = _
  rw [i4, show (lit 2 - lit 0 : Double) = lit 2 from sub_rep r2 r0 (by norm_num) r2]
  exact div_rep r2 r4 (by norm_num) (by norm_num) Tie.rh

theorem still_calm_globalZ : CalmRun3 (globalParams topo211 stillRawZ) (lit 1) (lit (1/2)) := by
  have h := still_calm_run3.1
  obtain ⟨cx, cy, cz⟩ := still_cellsZ
  have p1 : FinitePos (lit 1 : Double) := finitePos_lit Tie.r1 (by norm_num)
  have es : restStep3 (globalParams topo211 stillRawZ) (lit 1) (lit (1/2)) = restStep3 stillParamsZ (lit 1) (lit (1/2)) := by
    unfold restStep3
    rw [cx, cy, cz]
    rfl
  refine ⟨still_calm_global.gas, by rw [cx]; exact p1, by rw [cy]; exact p1,
    by rw [cz]; exact finitePos_lit Tie.rh (by norm_num), p1, h.sound, ?_, ?_, ⟨?_, ?_, ?_, ?_⟩, ?_, ?_⟩
  · rw [cx, cy, cz]; exact h.rate
  · rw [es]; exact h.pos
  · rw [es, cx]; exact h.step.ratio_x
  · rw [es, cy]; exact h.step.ratio_y
  · rw [es, cx]; exact h.step.kick_x
  · rw [es, cy]; exact h.step.kick_y
  · rw [es, cz]; exact h.step.ratio_z
  · rw [es, cz]; exact h.step.kick_z

/-- the hypotheses of `C107_mpi_3d` hold for two processes -/
example (lay : Layout) (jk : topo211.Rank → Junk Double) :
    let gas : Mem Arr Double := fun l => if l.v = ID then lit 1 else if l.v = IP then lit (1/2) else lit 0
    AlwaysEnds (mpiMain (localParams topo211 stillRawZ)
        (mpiHydro3 lay topo211 (localParams topo211 stillRawZ) ⟨false, false⟩ Spec.Ieee.lowest jk))
      (fun _ => startState gas (lit 0) 0) fun s => ∀ r,
        Still3 (localParams topo211 stillRawZ) (lit 1) (lit (1/2)) (hs3 (s r).mem (pingIn (s r).iteration)) ∧
        ∀ o ∈ (s r).outputs, Still3 (localParams topo211 stillRawZ) (lit 1) (lit (1/2)) (fileState3 o.data) := by
  have hp : Hydro3 (localParams topo211 stillRawZ) :=
    ⟨wf_local topo211 (Params.init_wf _ (by decide) (by decide) (by decide) (by decide)), rfl,
      ⟨still_hydroZ.valid.slope, still_hydroZ.valid.riemann⟩,
      ⟨⟨.inr (by decide), .inr (by decide), .inr (by decide), .inl rfl⟩, .inr (by decide), .inr (by decide)⟩⟩
  exact C107_mpi_3d (m := fun _ => fun l => if l.v = ID then lit 1 else if l.v = IP then lit (1/2) else lit 0)
    hp ⟨⟨by decide, by decide⟩, by decide⟩
    ⟨⟨.inr (.inr (.inr (.inl rfl))), .inr (.inr (.inr (.inl rfl))), .inl rfl, .inl rfl⟩, .inl rfl, .inl rfl⟩ (.inl rfl)
    (by decide) (finitePos_lit Tie.rh (by norm_num)) rfl still_calm_globalZ
    (G := fun l => if l.v = ID then lit 1 else if l.v = IP then lit (1/2) else lit 0)
    (fun _ _ _ _ => ⟨⟨rfl, rfl, zero_lit, zero_lit⟩, zero_lit⟩) (fun _ _ _ _ _ _ _ => rfl)

end EulerKokkos
