import Verif.Lemmas.DistMhd
import Verif.Props.C53

/-!
# C60 — a distributed MHD run is the serial MHD run

The MPI build with the MHD solvers on any process grid, compared with the serial build on the global grid: one
time step with a given `dt` (any arithmetic, bit for bit, for implementation version 0; exact arithmetic for
all), and whole runs of `main` (exact arithmetic): same number of iterations, same times, same files.  The
face-centred magnetic field on the faces shared by two blocks is stored by both ranks (as interior value of one
and ghost value of the other); the theorems say that the copies never diverge.
-/

set_option linter.constructorNameAsVariable false
set_option linter.unusedSectionVars false
set_option linter.unusedSimpArgs false

namespace EulerKokkos
open Spec Spmd

variable {R : Type} [RealOps R]

/-! ## 2D -/

theorem holds_msM2 {T : Topo} {p : Params R} {A : Arr} {on : Int → Int → Prop}
    {s : T.Rank → Mem Arr R} {G : Mem Arr R} (hn : p.nbvar = 8) (h : HoldsBlock2 T p A on s G)
    (r : T.Rank) (i j : Int) (hij : on i j) :
    ms2 (s r) A i j = ms2 G A ((T.coords r).1 * p.nx + i) ((T.coords r).2.1 * p.ny + j) := by
  have e := fun v (hv : v < 8) => h r i j v hij (by omega)
  unfold ms2 ms
  rw [e ID (by decide), e IP (by decide), e IU (by decide), e IV (by decide), e IW (by decide),
    e IA (by decide), e IB (by decide), e IC (by decide)]
  rfl

theorem msM2_holds {T : Topo} {p : Params R} {A : Arr} {on : Int → Int → Prop}
    {s : T.Rank → Mem Arr R} {G : Mem Arr R} (hn : p.nbvar = 8)
    (h : ∀ r i j, on i j → ms2 (s r) A i j = ms2 G A ((T.coords r).1 * p.nx + i) ((T.coords r).2.1 * p.ny + j)) :
    HoldsBlock2 T p A on s G := by
  intro r i j v hij hv
  have e := h r i j hij
  unfold ms2 ms at e
  rw [MS.mk.injEq] at e
  obtain ⟨e1, e2, e3, e4, e5, e6, e7, e8⟩ := e
  have hv' : v = ID ∨ v = IP ∨ v = IU ∨ v = IV ∨ v = IW ∨ v = IA ∨ v = IB ∨ v = IC := by
    simp only [ID, IP, IU, IV, IW, IA, IB, IC]; omega
  rcases hv' with rfl | rfl | rfl | rfl | rfl | rfl | rfl | rfl
  exacts [e1, e2, e3, e4, e5, e6, e7, e8]

theorem distStepM2_run {lay : Layout} {T : Topo} {p : Params R} (hp : Mhd2 (localParams T p))
    (hS : SignLaws R) (hwide : Wide2 (localParams T p)) (hbc : NamedBC2 T (localParams T p))
    (hK : MhdOK2 (localParams T p)) (hKg : MhdOK2 (globalParams T p))
    {dt : R} {jk : T.Rank → JunkM R} {inA outA : Arr} (hpp : PingPong inA outA)
    (hdet : ∀ r, Deterministic (runLaunches (postMhd2 (localParams T p) dt (jk r) inA outA)))
    {jk' : JunkM R} {G G' : Mem Arr R} (hG : godunovMhd2 (globalParams T p) dt jk' inA outA G G')
    {s : T.Rank → Mem Arr R} (hs : HoldsBlock2 T p inA (interior2 (localParams T p)) s G)
    {buf : Prop} {n : Nat} {c : Config T.Rank (Mem Arr R) (Msg R)}
    (hst : Steps buf (godunovMpiMhd2 lay T (localParams T p) dt jk inA outA) n (Config.init s) c) :
    n ≤ 36 * T.size ∧
    (¬ c.Done (godunovMpiMhd2 lay T (localParams T p) dt jk inA outA) →
      ∃ c', Step False (godunovMpiMhd2 lay T (localParams T p) dt jk inA outA) c c') ∧
    (c.Done (godunovMpiMhd2 lay T (localParams T p) dt jk inA outA) →
      HoldsBlock2 T p outA (interior2 (localParams T p)) c.st G') := by
  have hn : p.nbvar = 8 := hp.nbvar
  obtain ⟨s₁, b1, _, _, b2⟩ := distStepM2 (lay := lay) (outA := outA) hp hS hwide hbc hK
    hpp (u := ms2 G inA) (holds_msM2 hn hs)
  choose s₂ k1 k2 using fun r => hdet r (s₁ r)
  have hb : BulkRel (godunovMpiMhd2 lay T (localParams T p) dt jk inA outA) s s₂ :=
    b1.append (BulkRel.loc fun r s' => ⟨fun h => k2 r s' h, fun h => h ▸ k1 r⟩)
  have hm : Matched (godunovMpiMhd2 lay T (localParams T p) dt jk inA outA) :=
    (matched2.append (Matched.single trivial)).append (Matched.single trivial)
  obtain ⟨r1, r2, r3⟩ := hb.run hm hst
  refine ⟨?_, r2, fun hd => ?_⟩
  · have : (godunovMpiMhd2 lay T (localParams T p) dt jk inA outA).length = 12 := rfl
    rw [this, Fintype.card_fin] at r1
    omega
  · rw [(r3 hd).1]
    obtain ⟨_, g3⟩ := godunovMhd2_result (mhd2_global hp hwide) hS hKg hpp hG
    refine msM2_holds hn (fun r i j hij => ?_)
    rw [b2 r dt (jk r) _ (k1 r) i j hij]
    exact (g3 _ _ (interior2_block hp.wf T r hij)).symm

/-- **C60, one step, 2D, bit for bit** (version 0, any arithmetic with exact multiplication by ±1, e.g. IEEE): let
`G'` be the result of the serial MHD step on the global grid.  Every execution of the distributed step from the
blocks of `G` is bounded, never gets stuck, and when complete has on every rank exactly the block of `G'`. -/
theorem C60_step_2d {lay : Layout} {T : Topo} {p : Params R} (hp : Mhd2 (localParams T p))
    (hS : SignLaws R) (hwide : Wide2 (localParams T p)) (hbc : NamedBC2 T (localParams T p))
    (hi : p.implementationVersion = 0)
    {dt : R} {jk : T.Rank → JunkM R} {inA outA : Arr} (hpp : PingPong inA outA)
    {jk' : JunkM R} {G G' : Mem Arr R} (hG : godunovMhd2 (globalParams T p) dt jk' inA outA G G')
    {s : T.Rank → Mem Arr R} (hs : HoldsBlock2 T p inA (interior2 (localParams T p)) s G)
    {buf : Prop} {n : Nat} {c : Config T.Rank (Mem Arr R) (Msg R)}
    (hst : Steps buf (godunovMpiMhd2 lay T (localParams T p) dt jk inA outA) n (Config.init s) c) :
    n ≤ 36 * T.size ∧
    (¬ c.Done (godunovMpiMhd2 lay T (localParams T p) dt jk inA outA) →
      ∃ c', Step False (godunovMpiMhd2 lay T (localParams T p) dt jk inA outA) c c') ∧
    (c.Done (godunovMpiMhd2 lay T (localParams T p) dt jk inA outA) →
      HoldsBlock2 T p outA (interior2 (localParams T p)) c.st G') :=
  distStepM2_run hp hS hwide hbc (mhdOK2_0 hp hi) (mhdOK2_0 (mhd2_global hp hwide) hi) hpp
    (fun r => det_runLaunches (det_postMhd2_0 (localParams T p) hi dt (jk r) hpp)) hG hs hst

/-- **C60, one step, exact arithmetic, all three versions** (2D). -/
theorem C60_step_2d_atomic {lay : Layout} {T : Topo} {p : Params ℝ} (hp : Mhd2 (localParams T p))
    (hwide : Wide2 (localParams T p)) (hbc : NamedBC2 T (localParams T p))
    (hi : p.implementationVersion = 0 ∨ p.implementationVersion = 1 ∨ p.implementationVersion = 2)
    {dt : ℝ} {jk : T.Rank → JunkM ℝ} {inA outA : Arr} (hpp : PingPong inA outA)
    {jk' : JunkM ℝ} {G G' : Mem Arr ℝ} (hG : godunovMhd2 (globalParams T p) dt jk' inA outA G G')
    {s : T.Rank → Mem Arr ℝ} (hs : HoldsBlock2 T p inA (interior2 (localParams T p)) s G)
    {buf : Prop} {n : Nat} {c : Config T.Rank (Mem Arr ℝ) (Msg ℝ)}
    (hst : Steps buf (godunovMpiMhd2 lay T (localParams T p) dt jk inA outA) n (Config.init s) c) :
    n ≤ 36 * T.size ∧
    (¬ c.Done (godunovMpiMhd2 lay T (localParams T p) dt jk inA outA) →
      ∃ c', Step False (godunovMpiMhd2 lay T (localParams T p) dt jk inA outA) c c') ∧
    (c.Done (godunovMpiMhd2 lay T (localParams T p) dt jk inA outA) →
      HoldsBlock2 T p outA (interior2 (localParams T p)) c.st G') :=
  distStepM2_run hp signLaws_real hwide hbc (mhdOK2_real hp hi)
    (mhdOK2_real (mhd2_global hp hwide) hi) hpp
    (fun r => det_runLaunches (det_postMhd2_real _ dt (jk r) hpp)) hG hs hst

/-- the smallest of the ranks' MHD time steps is the time step of the global grid (2D) -/
theorem cflDtM2_blocks {T : Topo} {p : Params ℝ} (hw : (localParams T p).WF)
    (hg : GoodGrid (localParams T p)) {Q : FldM2 ℝ} {ql : T.Rank → FldM2 ℝ}
    (hQ : ∀ a b, PhysM (Q a b))
    (hu : ∀ r i j, interior2 (localParams T p) i j → ql r i j = Q ((T.coords r).1 * p.nx + i) ((T.coords r).2.1 * p.ny + j)) :
    AllreduceMin (fun r => (localParams T p).settings.cfl / sSup {x | ∃ i j,
        interior2 (localParams T p) i j ∧ x = mhdRate2 (localParams T p).settings.gamma0 (localParams T p).dx (localParams T p).dy (ql r i j)})
      ((globalParams T p).settings.cfl / sSup {x | ∃ i j, interior2 (globalParams T p) i j ∧
        x = mhdRate2 (globalParams T p).settings.gamma0 (globalParams T p).dx (globalParams T p).dy (Q i j)}) := by
  have hx : 1 ≤ p.nx := hw.nx_pos
  have hy : 1 ≤ p.ny := hw.ny_pos
  have hz : 1 ≤ p.nz := hw.nz_pos
  have hU : ∀ x, x ∈ {x | ∃ i j, interior2 (globalParams T p) i j ∧
        x = mhdRate2 (globalParams T p).settings.gamma0 (globalParams T p).dx (globalParams T p).dy (Q i j)} ↔
      ∃ r : T.Rank, x ∈ {x | ∃ i j, interior2 (localParams T p) i j ∧
        x = mhdRate2 (localParams T p).settings.gamma0 (localParams T p).dx (localParams T p).dy (ql r i j)} := by
    intro x
    constructor
    · rintro ⟨a, b, ⟨h1, h2, h3, h4⟩, rfl⟩
      obtain ⟨X, i, x0, x1, i0, i1, rfl⟩ := block_exists (m := T.mx) hx h1 h2
      obtain ⟨Y, j, y0, y1, j0, j1, rfl⟩ := block_exists (m := T.my) hy h3 h4
      have hij : interior2 (localParams T p) i j := ⟨i0, i1, j0, j1⟩
      refine ⟨T.cartRank X Y 0, i, j, hij, ?_⟩
      rw [hu _ _ _ hij, T.coords_cartRank, Int.emod_eq_of_lt x0 x1, Int.emod_eq_of_lt y0 y1]
      rfl
    · rintro ⟨r, i, j, hij, rfl⟩
      exact ⟨_, _, interior2_block hw T r hij, by rw [hu r i j hij]; rfl⟩
  have hne : ∀ r : T.Rank, {x | ∃ i j, interior2 (localParams T p) i j ∧
      x = mhdRate2 (localParams T p).settings.gamma0 (localParams T p).dx (localParams T p).dy (ql r i j)}.Nonempty := fun r =>
    ⟨_, _, _, interior2_first hw, rfl⟩
  have r0 : T.Rank := T.cartRank 0 0 0
  refine allreduce_cfl hg.cfl ?_ hne (fun r => ?_) ?_ hU
  · obtain ⟨x, hx⟩ := hne r0
    exact ⟨x, (hU x).2 ⟨r0, hx⟩⟩
  · refine ((range2 (localParams T p).isize (localParams T p).jsize).finite_toSet.image
      (fun t => mhdRate2 (localParams T p).settings.gamma0 (localParams T p).dx (localParams T p).dy (ql r t.1 t.2))).subset ?_
    rintro x ⟨i, j, hij, rfl⟩
    exact ⟨(i, j), interior2_range hw hij, rfl⟩
  · rintro r x ⟨i, j, hij, rfl⟩
    rw [hu r i j hij]
    exact mhdRate2_pos hg (hQ _ _)

/-- the ranks hold the blocks of the field `u` (2D) -/
def DistInvM2 (T : Topo) (p : Params ℝ) (n : Nat) (m : T.Rank → Mem Arr ℝ) (u : FldM2 ℝ) : Prop :=
  ∀ r i j, interior2 (localParams T p) i j → ms2 (m r) (pingIn n) i j = u ((T.coords r).1 * p.nx + i) ((T.coords r).2.1 * p.ny + j)

/-- a file of rank `r` shows its block of `u` (2D) -/
def ShowsBlockM2 (T : Topo) (p : Params ℝ) (r : T.Rank) (data : Loc Unit → ℝ) (u : FldM2 ℝ) : Prop :=
  ∀ i j, interior2 (localParams T p) i j → shownM data i j 0 = u ((T.coords r).1 * p.nx + i) ((T.coords r).2.1 * p.ny + j)

theorem distDtM2 {T : Topo} {p : Params ℝ} (hp : Mhd2 (localParams T p))
    (hg : GoodGrid (localParams T p)) {ident : ℝ} (hid : ident ≤ 0) (jk : T.Rank → JunkM ℝ)
    {s₁ : T.Rank → Mem Arr ℝ} {x : FldM2 ℝ}
    (b2 : ∀ r i j, interior2 (localParams T p) i j → ms2 (s₁ r) .Q i j =
        primM2 (globalParams T p) (fillM2 (globalParams T p) x) ((T.coords r).1 * p.nx + i) ((T.coords r).2.1 * p.ny + j)) :
    ∃ d : T.Rank → ℝ, (∀ r d', computeDtLocalMhd2 (localParams T p) ident (s₁ r) d' ↔ d' = d r) ∧
      AllreduceMin d (cflDtM2 (globalParams T p) x) := by
  have hgg : GoodGrid (globalParams T p) := ⟨hg.settings, hg.cfl, hg.dx, hg.dy, hg.dz⟩
  have hph : ∀ a b, PhysM (primM2 (globalParams T p) (fillM2 (globalParams T p) x) a b) :=
    fun a b => primM2_phys hgg.settings _ a b
  have heq := fun r d (h : computeDtLocalMhd2 (localParams T p) ident (s₁ r) d) =>
    (dtLocalM2_eq hp.wf hg hid (Q := ms2 (s₁ r) .Q) (fun _ _ _ => rfl)
      (fun i j hij => by rw [b2 r i j hij]; exact hph _ _) h).1
  refine ⟨_, fun r d' => ⟨heq r d', fun hd => ?_⟩, by unfold cflDtM2; exact cflDtM2_blocks hp.wf hg hph b2⟩
  obtain ⟨d0, h0⟩ : ∃ d, computeDtLocalMhd2 (localParams T p) ident (s₁ r) d :=
    (total_mhd2 hp.wf hp.faces ident (jk r)).dt 0 (s₁ r)
  have e : d' = d0 := hd.trans (heq r d0 h0).symm
  exact e ▸ h0

theorem distRefinesM2 {lay : Layout} {T : Topo} {p : Params ℝ} (hp : Mhd2 (localParams T p))
    (hwide : Wide2 (localParams T p)) (hbc : NamedBC2 T (localParams T p))
    (hi : p.implementationVersion = 0 ∨ p.implementationVersion = 1 ∨ p.implementationVersion = 2)
    (hg : GoodGrid (localParams T p)) {ident : ℝ} (hid : ident ≤ 0) (jk : T.Rank → JunkM ℝ) :
    DistRefines (mpiMhd2 lay T (localParams T p) ident jk)
      (mhd2 (globalParams T p)) (DistInvM2 T p) (ShowsBlockM2 T p) where
  view n m x h r i j hij := by rw [← h r i j hij]; rfl
  step n m x h := by
    obtain ⟨s₁, b1, _, b2, b3⟩ := distStepM2 (lay := lay) hp signLaws_real hwide hbc
      (mhdOK2_real hp hi) (pingPong n) h
    obtain ⟨d, d1, d2⟩ := distDtM2 hp hg hid jk b2
    refine ⟨s₁, d, b1, d1, d2, fun dt => ?_⟩
    choose m₂ k1 k2 using fun r =>
      det_runLaunches (det_postMhd2_real (localParams T p) dt (jk r) (pingPong n)) (s₁ r)
    refine ⟨s₁, m₂, BulkRel.nil _, fun r m' => ⟨fun hm => k2 r m' hm, fun hm => hm ▸ k1 r⟩, ?_⟩
    intro r i j hij
    rw [← pingOut_succ]
    exact b3 r dt (jk r) _ (k1 r) i j hij
  matched := ⟨matched2.append (Matched.single trivial),
    fun U V => matched2.append (Matched.single trivial), fun U n => by simp [mpiMhd2]⟩

/-- **C60, whole runs, 2D** (exact arithmetic, all implementation versions): let `s'` be the result of a complete
run of the serial build with the 2D MHD solver on the global grid from `G`.  Every execution of the MPI build from
the blocks of `G` — any interleaving of the ranks, any kernel schedule, buffered or not — has a bounded number of
steps, never gets stuck, and when complete every rank has made the same iterations, is at the same time, has no
message left over, has written the same files (each holding its block of the serial file) and holds its block of
the final solution. -/
theorem C60_run_2d {lay : Layout} {T : Topo} {p : Params ℝ} (hp : Mhd2 (localParams T p))
    (hwide : Wide2 (localParams T p)) (hbc : NamedBC2 T (localParams T p))
    (hi : p.implementationVersion = 0 ∨ p.implementationVersion = 1 ∨ p.implementationVersion = 2)
    (hg : GoodGrid (localParams T p)) (he : p.enableOutput = decide (p.nOutput ≠ 0))
    (hlog : p.nlog ≠ 0) {ident ident' : ℝ} (hid : ident ≤ 0)
    (hid' : ident' ≤ 0) {jk : T.Rank → JunkM ℝ} {jk' : JunkM ℝ} {G : Mem Arr ℝ} {t : ℝ} {sv : Int}
    {s' : RunState ℝ}
    (hser : runMain (globalParams T p) (mhdOps2 (globalParams T p) ident' jk') G t sv s')
    {m : T.Rank → Mem Arr ℝ} (hm : HoldsBlock2 T p .U (interior2 (localParams T p)) m G) :
    ∃ N, ∀ (buf : Prop) n y,
      FSteps buf (mpiMain (localParams T p) (mpiMhd2 lay T (localParams T p) ident jk)) n
        (FConfig.init (.pre 0) (fun r => startState (m r) t sv)) y →
      n ≤ N ∧
      (¬ y.Done (mpiMain (localParams T p) (mpiMhd2 lay T (localParams T p) ident jk)) →
        ∃ z, FStep False (mpiMain (localParams T p) (mpiMhd2 lay T (localParams T p) ident jk))
          y z) ∧
      (y.Done (mpiMain (localParams T p) (mpiMhd2 lay T (localParams T p) ident jk)) →
        (∀ a b tag, y.c.chan a b tag = []) ∧
        (∀ r, (y.c.st r).iteration = s'.iteration ∧ (y.c.st r).t = s'.t ∧
          (y.c.st r).times_saved = s'.times_saved ∧
          List.Forall₂ (BlockFile2 T p r) (y.c.st r).outputs s'.outputs) ∧
        HoldsBlock2 T p (pingIn s'.iteration) (interior2 (localParams T p))
          (fun r => (y.c.st r).mem) s'.mem) := by
  have hn : p.nbvar = 8 := hp.nbvar
  have hpg := mhd2_global hp hwide
  have hgg : GoodGrid (globalParams T p) := ⟨hg.settings, hg.cfl, hg.dx, hg.dy, hg.dz⟩
  obtain ⟨a1, a2⟩ := refine_run (refines_mhd2 hpg hi hgg hid' jk') he
    (x := ms2 G .U) (fun m₁ hm i j hij => setup_mhd2 hpg signLaws_real hm i j hij) hser
  obtain ⟨m₁, b1, b2, b3, _⟩ := distStepM2 (lay := lay) hp signLaws_real
    hwide hbc (mhdOK2_real hp hi) (inA := .U) (outA := .U2) (Or.inl ⟨rfl, rfl⟩)
    (holds_msM2 hn hm)
  obtain ⟨d, d1, _⟩ := distDtM2 hp hg hid jk b3
  obtain ⟨K, N, k1, k2⟩ := dist_run (p := localParams T p)
    (distRefinesM2 (lay := lay) hp hwide hbc hi hg hid jk) hlog he (t := t)
    (sv := sv) (x := ms2 G .U) (m := m) ⟨m₁, d, b1, d1, fun r i j hij =>
      (b2 r i j (interior_inGrid2 hp.wf hij)).trans
        (fillM2_interior _ _ (interior2_block hp.wf T r hij))⟩
  have hK : K = s'.iteration := k1.unique a1
  subst hK
  refine ⟨N, fun buf n y hy => ?_⟩
  obtain ⟨c1, c2, c3⟩ := k2 buf n y hy
  refine ⟨c1, c2, fun hd => ?_⟩
  obtain ⟨d1, d2⟩ := c3 hd
  refine ⟨d2, fun r => ⟨(d1.n r).trans a2.n.symm, (d1.t r).trans a2.t.symm,
    (d1.next r).trans a2.next.symm, forall₂_both ?_ (d1.files r) a2.files⟩, ?_⟩
  · rintro o o' ⟨n, t, u⟩ ⟨h1, h2, h3⟩ ⟨h1', h2', h3'⟩
    refine ⟨h1.trans h1'.symm, h2.trans h2'.symm, fun i j v hij hv => ?_⟩
    have e := (h3 i j hij).trans (h3' _ _ (interior2_block hp.wf T r hij)).symm
    unfold shownM at e
    rw [MS.mk.injEq] at e
    obtain ⟨e1, e2, e3, e4, e5, e6, e7, e8⟩ := e
    have hv' : v = ID ∨ v = IP ∨ v = IU ∨ v = IV ∨ v = IW ∨ v = IA ∨ v = IB ∨ v = IC := by
      simp only [ID, IP, IU, IV, IW, IA, IB, IC]; omega
    rcases hv' with rfl | rfl | rfl | rfl | rfl | rfl | rfl | rfl
    exacts [e1, e2, e3, e4, e5, e6, e7, e8]
  · refine msM2_holds hn (fun r i j hij => ?_)
    have e1 := d1.inv r i j hij
    have e2 := a2.inv _ _ (interior2_block hp.wf T r hij)
    have hn : (Sim.result (localParams T p) (mhd2 (globalParams T p)) (ms2 G .U) t sv
      s'.iteration).n = s'.iteration := a2.n.symm
    rw [hn] at e1
    exact e1.trans e2.symm

/-! ## 3D -/

theorem holds_msM3 {T : Topo} {p : Params R} {A : Arr} {on : Int → Int → Int → Prop}
    {s : T.Rank → Mem Arr R} {G : Mem Arr R} (hn : p.nbvar = 8) (h : HoldsBlock T p A on s G)
    (r : T.Rank) (i j k : Int) (hij : on i j k) :
    ms (s r) A i j k = ms G A ((T.coords r).1 * p.nx + i) ((T.coords r).2.1 * p.ny + j) ((T.coords r).2.2 * p.nz + k) := by
  have e := fun v (hv : v < 8) => h r i j k v hij (by omega)
  unfold ms
  rw [e ID (by decide), e IP (by decide), e IU (by decide), e IV (by decide), e IW (by decide),
    e IA (by decide), e IB (by decide), e IC (by decide)]
  rfl

theorem msM3_holds {T : Topo} {p : Params R} {A : Arr} {on : Int → Int → Int → Prop}
    {s : T.Rank → Mem Arr R} {G : Mem Arr R} (hn : p.nbvar = 8)
    (h : ∀ r i j k, on i j k → ms (s r) A i j k = ms G A ((T.coords r).1 * p.nx + i) ((T.coords r).2.1 * p.ny + j) ((T.coords r).2.2 * p.nz + k)) :
    HoldsBlock T p A on s G := by
  intro r i j k v hij hv
  have e := h r i j k hij
  unfold ms at e
  rw [MS.mk.injEq] at e
  obtain ⟨e1, e2, e3, e4, e5, e6, e7, e8⟩ := e
  have hv' : v = ID ∨ v = IP ∨ v = IU ∨ v = IV ∨ v = IW ∨ v = IA ∨ v = IB ∨ v = IC := by
    simp only [ID, IP, IU, IV, IW, IA, IB, IC]; omega
  rcases hv' with rfl | rfl | rfl | rfl | rfl | rfl | rfl | rfl
  exacts [e1, e2, e3, e4, e5, e6, e7, e8]

theorem distStepM3_run {lay : Layout} {T : Topo} {p : Params R} (hp : Mhd3 (localParams T p))
    (hS : SignLaws R) (hwide : Wide3 (localParams T p)) (hbc : NamedBC3 T (localParams T p))
    (hK : MhdOK3 (localParams T p)) (hKg : MhdOK3 (globalParams T p))
    {dt : R} {jk : T.Rank → JunkM R} {inA outA : Arr} (hpp : PingPong inA outA)
    (hdet : ∀ r, Deterministic (runLaunches (postMhd3 (localParams T p) dt (jk r) inA outA)))
    {jk' : JunkM R} {G G' : Mem Arr R} (hG : godunovMhd3 (globalParams T p) dt jk' inA outA G G')
    {s : T.Rank → Mem Arr R} (hs : HoldsBlock T p inA (interior3 (localParams T p)) s G)
    {buf : Prop} {n : Nat} {c : Config T.Rank (Mem Arr R) (Msg R)}
    (hst : Steps buf (godunovMpiMhd3 lay T (localParams T p) dt jk inA outA) n (Config.init s) c) :
    n ≤ 51 * T.size ∧
    (¬ c.Done (godunovMpiMhd3 lay T (localParams T p) dt jk inA outA) →
      ∃ c', Step False (godunovMpiMhd3 lay T (localParams T p) dt jk inA outA) c c') ∧
    (c.Done (godunovMpiMhd3 lay T (localParams T p) dt jk inA outA) →
      HoldsBlock T p outA (interior3 (localParams T p)) c.st G') := by
  have hn : p.nbvar = 8 := hp.nbvar
  obtain ⟨s₁, b1, _, _, b2⟩ := distStepM3 (lay := lay) (outA := outA) hp hS hwide hbc hK
    hpp (u := ms G inA) (holds_msM3 hn hs)
  choose s₂ k1 k2 using fun r => hdet r (s₁ r)
  have hb : BulkRel (godunovMpiMhd3 lay T (localParams T p) dt jk inA outA) s s₂ :=
    b1.append (BulkRel.loc fun r s' => ⟨fun h => k2 r s' h, fun h => h ▸ k1 r⟩)
  have hm : Matched (godunovMpiMhd3 lay T (localParams T p) dt jk inA outA) :=
    (matched3.append (Matched.single trivial)).append (Matched.single trivial)
  obtain ⟨r1, r2, r3⟩ := hb.run hm hst
  refine ⟨?_, r2, fun hd => ?_⟩
  · have : (godunovMpiMhd3 lay T (localParams T p) dt jk inA outA).length = 17 := rfl
    rw [this, Fintype.card_fin] at r1
    omega
  · rw [(r3 hd).1]
    obtain ⟨_, g3⟩ := godunovMhd3_result (mhd3_global hp hwide) hS hKg hpp hG
    refine msM3_holds hn (fun r i j k hij => ?_)
    rw [b2 r dt (jk r) _ (k1 r) i j k hij]
    exact (g3 _ _ _ (interior3_block hp.wf T r hij)).symm

/-- **C60, one step, 3D, bit for bit** (version 0, any arithmetic with exact multiplication by ±1, e.g. IEEE): let
`G'` be the result of the serial MHD step on the global grid.  Every execution of the distributed step from the
blocks of `G` is bounded, never gets stuck, and when complete has on every rank exactly the block of `G'`. -/
theorem C60_step_3d {lay : Layout} {T : Topo} {p : Params R} (hp : Mhd3 (localParams T p))
    (hS : SignLaws R) (hwide : Wide3 (localParams T p)) (hbc : NamedBC3 T (localParams T p))
    (hi : p.implementationVersion = 0)
    {dt : R} {jk : T.Rank → JunkM R} {inA outA : Arr} (hpp : PingPong inA outA)
    {jk' : JunkM R} {G G' : Mem Arr R} (hG : godunovMhd3 (globalParams T p) dt jk' inA outA G G')
    {s : T.Rank → Mem Arr R} (hs : HoldsBlock T p inA (interior3 (localParams T p)) s G)
    {buf : Prop} {n : Nat} {c : Config T.Rank (Mem Arr R) (Msg R)}
    (hst : Steps buf (godunovMpiMhd3 lay T (localParams T p) dt jk inA outA) n (Config.init s) c) :
    n ≤ 51 * T.size ∧
    (¬ c.Done (godunovMpiMhd3 lay T (localParams T p) dt jk inA outA) →
      ∃ c', Step False (godunovMpiMhd3 lay T (localParams T p) dt jk inA outA) c c') ∧
    (c.Done (godunovMpiMhd3 lay T (localParams T p) dt jk inA outA) →
      HoldsBlock T p outA (interior3 (localParams T p)) c.st G') :=
  distStepM3_run hp hS hwide hbc (mhdOK3_0 hp hi) (mhdOK3_0 (mhd3_global hp hwide) hi) hpp
    (fun r => det_runLaunches (det_postMhd3_0 (localParams T p) hi dt (jk r) hpp)) hG hs hst

/-- **C60, one step, exact arithmetic, all three versions** (3D). -/
theorem C60_step_3d_atomic {lay : Layout} {T : Topo} {p : Params ℝ} (hp : Mhd3 (localParams T p))
    (hwide : Wide3 (localParams T p)) (hbc : NamedBC3 T (localParams T p))
    (hi : p.implementationVersion = 0 ∨ p.implementationVersion = 1 ∨ p.implementationVersion = 2)
    {dt : ℝ} {jk : T.Rank → JunkM ℝ} {inA outA : Arr} (hpp : PingPong inA outA)
    {jk' : JunkM ℝ} {G G' : Mem Arr ℝ} (hG : godunovMhd3 (globalParams T p) dt jk' inA outA G G')
    {s : T.Rank → Mem Arr ℝ} (hs : HoldsBlock T p inA (interior3 (localParams T p)) s G)
    {buf : Prop} {n : Nat} {c : Config T.Rank (Mem Arr ℝ) (Msg ℝ)}
    (hst : Steps buf (godunovMpiMhd3 lay T (localParams T p) dt jk inA outA) n (Config.init s) c) :
    n ≤ 51 * T.size ∧
    (¬ c.Done (godunovMpiMhd3 lay T (localParams T p) dt jk inA outA) →
      ∃ c', Step False (godunovMpiMhd3 lay T (localParams T p) dt jk inA outA) c c') ∧
    (c.Done (godunovMpiMhd3 lay T (localParams T p) dt jk inA outA) →
      HoldsBlock T p outA (interior3 (localParams T p)) c.st G') :=
  distStepM3_run hp signLaws_real hwide hbc (mhdOK3_real hp hi)
    (mhdOK3_real (mhd3_global hp hwide) hi) hpp
    (fun r => det_runLaunches (det_postMhd3_real _ dt (jk r) hpp)) hG hs hst

/-- the smallest of the ranks' MHD time steps is the time step of the global grid (3D) -/
theorem cflDtM3_blocks {T : Topo} {p : Params ℝ} (hw : (localParams T p).WF)
    (hg : GoodGrid (localParams T p)) {Q : FldM3 ℝ} {ql : T.Rank → FldM3 ℝ}
    (hQ : ∀ a b c, PhysM (Q a b c))
    (hu : ∀ r i j k, interior3 (localParams T p) i j k → ql r i j k = Q ((T.coords r).1 * p.nx + i) ((T.coords r).2.1 * p.ny + j) ((T.coords r).2.2 * p.nz + k)) :
    AllreduceMin (fun r => (localParams T p).settings.cfl / sSup {x | ∃ i j k,
        interior3 (localParams T p) i j k ∧ x = mhdRate3 (localParams T p).settings.gamma0 (localParams T p).dx (localParams T p).dy (localParams T p).dz (ql r i j k)})
      ((globalParams T p).settings.cfl / sSup {x | ∃ i j k, interior3 (globalParams T p) i j k ∧
        x = mhdRate3 (globalParams T p).settings.gamma0 (globalParams T p).dx (globalParams T p).dy (globalParams T p).dz (Q i j k)}) := by
  have hx : 1 ≤ p.nx := hw.nx_pos
  have hy : 1 ≤ p.ny := hw.ny_pos
  have hz : 1 ≤ p.nz := hw.nz_pos
  have hU : ∀ x, x ∈ {x | ∃ i j k, interior3 (globalParams T p) i j k ∧
        x = mhdRate3 (globalParams T p).settings.gamma0 (globalParams T p).dx (globalParams T p).dy (globalParams T p).dz (Q i j k)} ↔
      ∃ r : T.Rank, x ∈ {x | ∃ i j k, interior3 (localParams T p) i j k ∧
        x = mhdRate3 (localParams T p).settings.gamma0 (localParams T p).dx (localParams T p).dy (localParams T p).dz (ql r i j k)} := by
    intro x
    constructor
    · rintro ⟨a, b, c, ⟨⟨h1, h2⟩, ⟨h3, h4⟩, h5, h6⟩, rfl⟩
      obtain ⟨X, i, x0, x1, i0, i1, rfl⟩ := block_exists (m := T.mx) hx h1 h2
      obtain ⟨Y, j, y0, y1, j0, j1, rfl⟩ := block_exists (m := T.my) hy h3 h4
      obtain ⟨Z, k, z0, z1, k0, k1, rfl⟩ := block_exists (m := T.mz) hz h5 h6
      have hij : interior3 (localParams T p) i j k := ⟨⟨i0, i1⟩, ⟨j0, j1⟩, k0, k1⟩
      refine ⟨T.cartRank X Y Z, i, j, k, hij, ?_⟩
      rw [hu _ _ _ _ hij, T.coords_cartRank, Int.emod_eq_of_lt x0 x1, Int.emod_eq_of_lt y0 y1,
        Int.emod_eq_of_lt z0 z1]
      rfl
    · rintro ⟨r, i, j, k, hij, rfl⟩
      exact ⟨_, _, _, interior3_block hw T r hij, by rw [hu r i j k hij]; rfl⟩
  have hne : ∀ r : T.Rank, {x | ∃ i j k, interior3 (localParams T p) i j k ∧
      x = mhdRate3 (localParams T p).settings.gamma0 (localParams T p).dx (localParams T p).dy (localParams T p).dz (ql r i j k)}.Nonempty := fun r =>
    ⟨_, _, _, _, interior3_first hw, rfl⟩
  have r0 : T.Rank := T.cartRank 0 0 0
  refine allreduce_cfl hg.cfl ?_ hne (fun r => ?_) ?_ hU
  · obtain ⟨x, hx⟩ := hne r0
    exact ⟨x, (hU x).2 ⟨r0, hx⟩⟩
  · refine ((range3 (localParams T p).isize (localParams T p).jsize (localParams T p).ksize).finite_toSet.image
      (fun t => mhdRate3 (localParams T p).settings.gamma0 (localParams T p).dx (localParams T p).dy (localParams T p).dz (ql r t.1 t.2.1 t.2.2))).subset ?_
    rintro x ⟨i, j, k, hij, rfl⟩
    exact ⟨(i, j, k), interior3_range hw hij, rfl⟩
  · rintro r x ⟨i, j, k, hij, rfl⟩
    rw [hu r i j k hij]
    exact mhdRate3_pos hg (hQ _ _ _)

/-- the ranks hold the blocks of the field `u` (3D) -/
def DistInvM3 (T : Topo) (p : Params ℝ) (n : Nat) (m : T.Rank → Mem Arr ℝ) (u : FldM3 ℝ) : Prop :=
  ∀ r i j k, interior3 (localParams T p) i j k → ms (m r) (pingIn n) i j k = u ((T.coords r).1 * p.nx + i) ((T.coords r).2.1 * p.ny + j) ((T.coords r).2.2 * p.nz + k)

/-- a file of rank `r` shows its block of `u` (3D) -/
def ShowsBlockM3 (T : Topo) (p : Params ℝ) (r : T.Rank) (data : Loc Unit → ℝ) (u : FldM3 ℝ) : Prop :=
  ∀ i j k, interior3 (localParams T p) i j k → shownM data i j k = u ((T.coords r).1 * p.nx + i) ((T.coords r).2.1 * p.ny + j) ((T.coords r).2.2 * p.nz + k)

theorem distDtM3 {T : Topo} {p : Params ℝ} (hp : Mhd3 (localParams T p))
    (hg : GoodGrid (localParams T p)) {ident : ℝ} (hid : ident ≤ 0) (jk : T.Rank → JunkM ℝ)
    {s₁ : T.Rank → Mem Arr ℝ} {x : FldM3 ℝ}
    (b2 : ∀ r i j k, interior3 (localParams T p) i j k → ms (s₁ r) .Q i j k =
        primM3 (globalParams T p) (fillM3 (globalParams T p) x) ((T.coords r).1 * p.nx + i) ((T.coords r).2.1 * p.ny + j) ((T.coords r).2.2 * p.nz + k)) :
    ∃ d : T.Rank → ℝ, (∀ r d', computeDtLocalMhd3 (localParams T p) ident (s₁ r) d' ↔ d' = d r) ∧
      AllreduceMin d (cflDtM3 (globalParams T p) x) := by
  have hgg : GoodGrid (globalParams T p) := ⟨hg.settings, hg.cfl, hg.dx, hg.dy, hg.dz⟩
  have hph : ∀ a b c, PhysM (primM3 (globalParams T p) (fillM3 (globalParams T p) x) a b c) :=
    fun a b c => primM3_phys hgg.settings _ a b c
  have heq := fun r d (h : computeDtLocalMhd3 (localParams T p) ident (s₁ r) d) =>
    (dtLocalM3_eq hp.wf hg hid (Q := ms (s₁ r) .Q) (fun _ _ _ _ => rfl)
      (fun i j k hij => by rw [b2 r i j k hij]; exact hph _ _ _) h).1
  refine ⟨_, fun r d' => ⟨heq r d', fun hd => ?_⟩, by unfold cflDtM3; exact cflDtM3_blocks hp.wf hg hph b2⟩
  obtain ⟨d0, h0⟩ : ∃ d, computeDtLocalMhd3 (localParams T p) ident (s₁ r) d :=
    (total_mhd3 hp.wf hp.faces ident (jk r)).dt 0 (s₁ r)
  have e : d' = d0 := hd.trans (heq r d0 h0).symm
  exact e ▸ h0

theorem distRefinesM3 {lay : Layout} {T : Topo} {p : Params ℝ} (hp : Mhd3 (localParams T p))
    (hwide : Wide3 (localParams T p)) (hbc : NamedBC3 T (localParams T p))
    (hi : p.implementationVersion = 0 ∨ p.implementationVersion = 1 ∨ p.implementationVersion = 2)
    (hg : GoodGrid (localParams T p)) {ident : ℝ} (hid : ident ≤ 0) (jk : T.Rank → JunkM ℝ) :
    DistRefines (mpiMhd3 lay T (localParams T p) ident jk)
      (mhd3 (globalParams T p)) (DistInvM3 T p) (ShowsBlockM3 T p) where
  view n m x h r i j k hij := by rw [← h r i j k hij]; rfl
  step n m x h := by
    obtain ⟨s₁, b1, _, b2, b3⟩ := distStepM3 (lay := lay) hp signLaws_real hwide hbc
      (mhdOK3_real hp hi) (pingPong n) h
    obtain ⟨d, d1, d2⟩ := distDtM3 hp hg hid jk b2
    refine ⟨s₁, d, b1, d1, d2, fun dt => ?_⟩
    choose m₂ k1 k2 using fun r =>
      det_runLaunches (det_postMhd3_real (localParams T p) dt (jk r) (pingPong n)) (s₁ r)
    refine ⟨s₁, m₂, BulkRel.nil _, fun r m' => ⟨fun hm => k2 r m' hm, fun hm => hm ▸ k1 r⟩, ?_⟩
    intro r i j k hij
    rw [← pingOut_succ]
    exact b3 r dt (jk r) _ (k1 r) i j k hij
  matched := ⟨matched3.append (Matched.single trivial),
    fun U V => matched3.append (Matched.single trivial), fun U n => by simp [mpiMhd3]⟩

/-- **C60, whole runs, 3D** (exact arithmetic, all implementation versions): let `s'` be the result of a complete
run of the serial build with the 3D MHD solver on the global grid from `G`.  Every execution of the MPI build from
the blocks of `G` — any interleaving of the ranks, any kernel schedule, buffered or not — has a bounded number of
steps, never gets stuck, and when complete every rank has made the same iterations, is at the same time, has no
message left over, has written the same files (each holding its block of the serial file) and holds its block of
the final solution. -/
theorem C60_run_3d {lay : Layout} {T : Topo} {p : Params ℝ} (hp : Mhd3 (localParams T p))
    (hwide : Wide3 (localParams T p)) (hbc : NamedBC3 T (localParams T p))
    (hi : p.implementationVersion = 0 ∨ p.implementationVersion = 1 ∨ p.implementationVersion = 2)
    (hg : GoodGrid (localParams T p)) (he : p.enableOutput = decide (p.nOutput ≠ 0))
    (hlog : p.nlog ≠ 0) {ident ident' : ℝ} (hid : ident ≤ 0)
    (hid' : ident' ≤ 0) {jk : T.Rank → JunkM ℝ} {jk' : JunkM ℝ} {G : Mem Arr ℝ} {t : ℝ} {sv : Int}
    {s' : RunState ℝ}
    (hser : runMain (globalParams T p) (mhdOps3 (globalParams T p) ident' jk') G t sv s')
    {m : T.Rank → Mem Arr ℝ} (hm : HoldsBlock T p .U (interior3 (localParams T p)) m G) :
    ∃ N, ∀ (buf : Prop) n y,
      FSteps buf (mpiMain (localParams T p) (mpiMhd3 lay T (localParams T p) ident jk)) n
        (FConfig.init (.pre 0) (fun r => startState (m r) t sv)) y →
      n ≤ N ∧
      (¬ y.Done (mpiMain (localParams T p) (mpiMhd3 lay T (localParams T p) ident jk)) →
        ∃ z, FStep False (mpiMain (localParams T p) (mpiMhd3 lay T (localParams T p) ident jk))
          y z) ∧
      (y.Done (mpiMain (localParams T p) (mpiMhd3 lay T (localParams T p) ident jk)) →
        (∀ a b tag, y.c.chan a b tag = []) ∧
        (∀ r, (y.c.st r).iteration = s'.iteration ∧ (y.c.st r).t = s'.t ∧
          (y.c.st r).times_saved = s'.times_saved ∧
          List.Forall₂ (BlockFile3 T p r) (y.c.st r).outputs s'.outputs) ∧
        HoldsBlock T p (pingIn s'.iteration) (interior3 (localParams T p))
          (fun r => (y.c.st r).mem) s'.mem) := by
  have hn : p.nbvar = 8 := hp.nbvar
  have hpg := mhd3_global hp hwide
  have hgg : GoodGrid (globalParams T p) := ⟨hg.settings, hg.cfl, hg.dx, hg.dy, hg.dz⟩
  obtain ⟨a1, a2⟩ := refine_run (refines_mhd3 hpg hi hgg hid' jk') he
    (x := ms G .U) (fun m₁ hm i j k hij => setup_mhd3 hpg signLaws_real hm i j k hij) hser
  obtain ⟨m₁, b1, b2, b3, _⟩ := distStepM3 (lay := lay) hp signLaws_real
    hwide hbc (mhdOK3_real hp hi) (inA := .U) (outA := .U2) (Or.inl ⟨rfl, rfl⟩)
    (holds_msM3 hn hm)
  obtain ⟨d, d1, _⟩ := distDtM3 hp hg hid jk b3
  obtain ⟨K, N, k1, k2⟩ := dist_run (p := localParams T p)
    (distRefinesM3 (lay := lay) hp hwide hbc hi hg hid jk) hlog he (t := t)
    (sv := sv) (x := ms G .U) (m := m) ⟨m₁, d, b1, d1, fun r i j k hij =>
      (b2 r i j k (interior_inGrid3 hp.wf hij)).trans
        (fillM3_interior _ _ (interior3_block hp.wf T r hij))⟩
  have hK : K = s'.iteration := k1.unique a1
  subst hK
  refine ⟨N, fun buf n y hy => ?_⟩
  obtain ⟨c1, c2, c3⟩ := k2 buf n y hy
  refine ⟨c1, c2, fun hd => ?_⟩
  obtain ⟨d1, d2⟩ := c3 hd
  refine ⟨d2, fun r => ⟨(d1.n r).trans a2.n.symm, (d1.t r).trans a2.t.symm,
    (d1.next r).trans a2.next.symm, forall₂_both ?_ (d1.files r) a2.files⟩, ?_⟩
  · rintro o o' ⟨n, t, u⟩ ⟨h1, h2, h3⟩ ⟨h1', h2', h3'⟩
    refine ⟨h1.trans h1'.symm, h2.trans h2'.symm, fun i j k v hij hv => ?_⟩
    have e := (h3 i j k hij).trans (h3' _ _ _ (interior3_block hp.wf T r hij)).symm
    unfold shownM at e
    rw [MS.mk.injEq] at e
    obtain ⟨e1, e2, e3, e4, e5, e6, e7, e8⟩ := e
    have hv' : v = ID ∨ v = IP ∨ v = IU ∨ v = IV ∨ v = IW ∨ v = IA ∨ v = IB ∨ v = IC := by
      simp only [ID, IP, IU, IV, IW, IA, IB, IC]; omega
    rcases hv' with rfl | rfl | rfl | rfl | rfl | rfl | rfl | rfl
    exacts [e1, e2, e3, e4, e5, e6, e7, e8]
  · refine msM3_holds hn (fun r i j k hij => ?_)
    have e1 := d1.inv r i j k hij
    have e2 := a2.inv _ _ _ (interior3_block hp.wf T r hij)
    have hn : (Sim.result (localParams T p) (mhd3 (globalParams T p)) (ms G .U) t sv
      s'.iteration).n = s'.iteration := a2.n.symm
    rw [hn] at e1
    exact e1.trans e2.symm

/-! ## The hypotheses are met -/

theorem sampleM_local2 (a : BC) : Mhd2 (localParams topo321 (sampleM a .periodic 1)) := by
  obtain ⟨w, gw, nb, ⟨v1, v2⟩, f⟩ := sampleM_mhd2 a .periodic 1
  have w' : (sampleM a .periodic 1).init.WF :=
    Params.init_wf _ w.nx_pos w.ny_pos w.nz_pos w.gw_pos
  obtain ⟨w1, w2, w3, w4, w5, w6, w7, w8, w9, w10, w11, w12, w13⟩ := w'
  exact ⟨⟨w1, w2, w3, w4, w5, w6, w7, w8, w9, w10, w11, w12, w13⟩, gw, nb, ⟨v1, v2⟩, f⟩

/-- A run of the serial code on the 12 × 6 grid exists, and six ranks (3 × 2) started from its blocks can run
to completion; they then are at the time of the serial run. -/
theorem sample_mpi_mhd2 {a : BC} (ha : a = .dirichlet ∨ a = .periodic) (G : Mem Arr ℝ) (jk : topo321.Rank → JunkM ℝ) (jk' : JunkM ℝ)
    {m : topo321.Rank → Mem Arr ℝ}
    (hm : HoldsBlock2 topo321 (sampleM a .periodic 1) .U
      (interior2 (localParams topo321 (sampleM a .periodic 1))) m G) :
    let p := sampleM a .periodic 1
    ∃ s', runMain (globalParams topo321 p) (mhdOps2 (globalParams topo321 p) (-1) jk') G 0 0 s' ∧
      ∃ n y,
        FSteps False (mpiMain (localParams topo321 p)
          (mpiMhd2 .left topo321 (localParams topo321 p) (-1) jk)) n
          (FConfig.init (.pre 0) (fun r => startState (m r) 0 0)) y ∧
        y.Done (mpiMain (localParams topo321 p)
          (mpiMhd2 .left topo321 (localParams topo321 p) (-1) jk)) ∧
        ∀ r, (y.c.st r).t = s'.t := by
  intro p
  have hp : Mhd2 (localParams topo321 p) := sampleM_local2 a
  have hwide : Wide2 (localParams topo321 p) := by
    unfold Wide2
    simp [p, localParams, setupMpi, sampleM, sampleMHD, rawSample, Params.init]
  have hbc : NamedBC2 topo321 (localParams topo321 p) := by
    unfold NamedBC2 BCmpi
    rcases ha with rfl | rfl <;> simp [p, localParams, setupMpi, sampleM, sampleMHD, rawSample, Params.init]
  have hg : GoodGrid (localParams topo321 p) := by
    refine ⟨?_, ?_, ?_, ?_, ?_⟩
    · exact goodSettings_init (by norm_num [p, sampleM, sampleMHD, rawSample, Params.init])
        (by norm_num [p, sampleM, sampleMHD, rawSample, Params.init])
        (by norm_num [p, sampleM, sampleMHD, rawSample, Params.init])
    all_goals simp [p, localParams, setupMpi, sampleM, sampleMHD, rawSample, Params.init, intLit, topo321]
  have hgw := mhd2_global hp hwide
  have hlog : p.nlog ≠ 0 := by simp [p, sampleM, sampleMHD, rawSample, Params.init]
  obtain ⟨s', hs'⟩ : ∃ s', runMain (globalParams topo321 p)
      (mhdOps2 (globalParams topo321 p) (-1) jk') G 0 0 s' := by
    have hT := total_mhd2 hgw.wf hgw.faces (-1) jk'
    obtain ⟨s, hs⟩ := C14_starts (p := globalParams topo321 p) hT G 0 0
    obtain ⟨_, s', _, _, h⟩ := C14_completes hT (show (globalParams topo321 p).nlog ≠ 0 from hlog) hs
    exact ⟨_, h⟩
  obtain ⟨N, hN⟩ := C60_run_2d (lay := .left) (jk := jk) hp hwide hbc
    (Or.inr (Or.inl rfl)) hg
    (by simp [p, sampleM, sampleMHD, rawSample, Params.init]) hlog (by norm_num : (-1 : ℝ) ≤ 0) (by norm_num)
    hs' hm
  obtain ⟨n, y, hy, hd⟩ := flow_completes (fun n y h => ⟨(hN False n y h).1, (hN False n y h).2.1⟩)
  exact ⟨s', hs', n, y, hy, hd, fun r => (((hN False n y hy).2.2 hd).2.1 r).2.1⟩

example (G : Mem Arr ℝ) (jk : topo321.Rank → JunkM ℝ) (jk' : JunkM ℝ) :
    let p := sampleM .dirichlet .periodic 1
    ∃ m : topo321.Rank → Mem Arr ℝ, HoldsBlock2 topo321 p .U (interior2 (localParams topo321 p)) m G ∧
    ∃ s', runMain (globalParams topo321 p) (mhdOps2 (globalParams topo321 p) (-1) jk') G 0 0 s' ∧
      ∃ n y,
        FSteps False (mpiMain (localParams topo321 p)
          (mpiMhd2 .left topo321 (localParams topo321 p) (-1) jk)) n
          (FConfig.init (.pre 0) (fun r => startState (m r) 0 0)) y ∧
        y.Done (mpiMain (localParams topo321 p)
          (mpiMhd2 .left topo321 (localParams topo321 p) (-1) jk)) ∧
        ∀ r, (y.c.st r).t = s'.t := by
  intro p
  let m : topo321.Rank → Mem Arr ℝ := fun r l =>
    G ⟨l.arr, (globalCell topo321 p r l.i l.j 0).1, (globalCell topo321 p r l.i l.j 0).2.1, 0, l.v⟩
  have hm : HoldsBlock2 topo321 p .U (interior2 (localParams topo321 p)) m G := fun r i j v hij hv => rfl
  exact ⟨m, hm, sample_mpi_mhd2 (Or.inl rfl) G jk jk' hm⟩

end EulerKokkos
