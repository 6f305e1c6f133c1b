import Verif.Lemmas.DistRun

/-!
# C11 — a distributed run is the serial run

The MPI build on any process grid, compared with the serial build on the global grid: one time step
(any arithmetic, bit for bit, for implementation versions 0 and 1; exact arithmetic for all), and
whole runs of `main` (exact arithmetic): same number of iterations, same times, same files.
Executions are asynchronous: any interleaving of the ranks, any schedule of the kernels, with or
without message buffering.
-/

set_option linter.constructorNameAsVariable false
set_option linter.unusedSectionVars false
set_option linter.unusedSimpArgs false

namespace EulerKokkos
open Spec Spmd

variable {R : Type} [RealOps R]

namespace Spec
/-- the gravity field of every rank is the block of the global one, ghost cells included (2D) -/
def HoldsGravity2 (T : Topo) (p : Params R) (s : T.Rank → Mem Arr R) (G : Mem Arr R) : Prop :=
  ∀ (r : T.Rank) i j (v : Nat), inGrid2 (localParams T p) i j → v < 2 → s r ⟨.grav, i, j, 0, v⟩ =
    G ⟨.grav, (globalCell T p r i j 0).1, (globalCell T p r i j 0).2.1, 0, v⟩

/-- the gravity field of every rank is the block of the global one (3D) -/
def HoldsGravity3 (T : Topo) (p : Params R) (s : T.Rank → Mem Arr R) (G : Mem Arr R) : Prop :=
  ∀ (r : T.Rank) i j k (v : Nat), inGrid3 (localParams T p) i j k → v < 3 → s r ⟨.grav, i, j, k, v⟩ =
    G ⟨.grav, (globalCell T p r i j k).1, (globalCell T p r i j k).2.1, (globalCell T p r i j k).2.2, v⟩

/-- a file written by rank `r` of the distributed run holds the interior block of the file of the
serial run: same number, time and iteration, and the same values -/
def BlockFile2 (T : Topo) (p : Params R) (r : T.Rank) (o g : Output R) : Prop :=
  o.number = g.number ∧ o.time = g.time ∧ ∀ i j v, interior2 (localParams T p) i j → v < p.nbvar →
    o.data ⟨(), i, j, 0, v⟩ =
      g.data ⟨(), (globalCell T p r i j 0).1, (globalCell T p r i j 0).2.1, 0, v⟩

/-- the same in 3D -/
def BlockFile3 (T : Topo) (p : Params R) (r : T.Rank) (o g : Output R) : Prop :=
  o.number = g.number ∧ o.time = g.time ∧ ∀ i j k v, interior3 (localParams T p) i j k →
    v < p.nbvar → o.data ⟨(), i, j, k, v⟩ =
      g.data ⟨(), (globalCell T p r i j k).1, (globalCell T p r i j k).2.1,
        (globalCell T p r i j k).2.2, v⟩
end Spec

theorem hydro2_global {T : Topo} {p : Params R} (hp : Hydro2 (localParams T p))
    (hwide : Wide2 (localParams T p)) : Hydro2 (globalParams T p) :=
  ⟨globalParams_wf hp.wf T, hp.nbvar, ⟨hp.valid.slope, hp.valid.riemann⟩,
    globalParams_faces2 hp.wf hwide T⟩

theorem hydro3_global {T : Topo} {p : Params R} (hp : Hydro3 (localParams T p))
    (hwide : Wide3 (localParams T p)) : Hydro3 (globalParams T p) :=
  ⟨globalParams_wf hp.wf T, hp.nbvar, ⟨hp.valid.slope, hp.valid.riemann⟩,
    globalParams_faces3 hp.wf hwide T⟩

theorem holds_hs2 {T : Topo} {p : Params R} {A : Arr} {on : Int → Int → Prop}
    {s : T.Rank → Mem Arr R} {G : Mem Arr R} (hn : p.nbvar = 4) (h : HoldsBlock2 T p A on s G)
    (r : T.Rank) (i j : Int) (hij : on i j) :
    hs2 (s r) A i j = hs2 G A ((T.coords r).1 * p.nx + i) ((T.coords r).2.1 * p.ny + j) := by
  have e := fun v (hv : v < 4) => h r i j v hij (by omega)
  unfold hs2
  rw [e ID (by decide), e IP (by decide), e IU (by decide), e IV (by decide)]
  rfl

theorem holds_hs3 {T : Topo} {p : Params R} {A : Arr} {on : Int → Int → Int → Prop}
    {s : T.Rank → Mem Arr R} {G : Mem Arr R} (hn : p.nbvar = 5) (h : HoldsBlock T p A on s G)
    (r : T.Rank) (i j k : Int) (hij : on i j k) :
    hs3 (s r) A i j k = hs3 G A ((T.coords r).1 * p.nx + i) ((T.coords r).2.1 * p.ny + j)
      ((T.coords r).2.2 * p.nz + k) := by
  have e := fun v (hv : v < 5) => h r i j k v hij (by omega)
  unfold hs3
  rw [e ID (by decide), e IP (by decide), e IU (by decide), e IV (by decide), e IW (by decide)]
  rfl

theorem hs2_holds {T : Topo} {p : Params R} {A : Arr} {on : Int → Int → Prop}
    {s : T.Rank → Mem Arr R} {G : Mem Arr R} (hn : p.nbvar = 4)
    (h : ∀ r i j, on i j →
      hs2 (s r) A i j = hs2 G A ((T.coords r).1 * p.nx + i) ((T.coords r).2.1 * p.ny + j)) :
    HoldsBlock2 T p A on s G := by
  intro r i j v hij hv
  have e := h r i j hij
  unfold hs2 at e
  rw [HS.mk.injEq] at e
  obtain ⟨e1, e2, e3, e4, _⟩ := e
  have hv' : v = ID ∨ v = IP ∨ v = IU ∨ v = IV := by
    simp only [ID, IP, IU, IV]; omega
  rcases hv' with rfl | rfl | rfl | rfl
  · exact e1
  · exact e2
  · exact e3
  · exact e4

theorem hs3_holds {T : Topo} {p : Params R} {A : Arr} {on : Int → Int → Int → Prop}
    {s : T.Rank → Mem Arr R} {G : Mem Arr R} (hn : p.nbvar = 5)
    (h : ∀ r i j k, on i j k →
      hs3 (s r) A i j k = hs3 G A ((T.coords r).1 * p.nx + i) ((T.coords r).2.1 * p.ny + j)
        ((T.coords r).2.2 * p.nz + k)) :
    HoldsBlock T p A on s G := by
  intro r i j k v hij hv
  have e := h r i j k hij
  unfold hs3 at e
  rw [HS.mk.injEq] at e
  obtain ⟨e1, e2, e3, e4, e5⟩ := e
  have hv' : v = ID ∨ v = IP ∨ v = IU ∨ v = IV ∨ v = IW := by
    simp only [ID, IP, IU, IV, IW]; omega
  rcases hv' with rfl | rfl | rfl | rfl | rfl
  · exact e1
  · exact e2
  · exact e3
  · exact e4
  · exact e5

theorem holds_grav2 {T : Topo} {p : Params R} {s : T.Rank → Mem Arr R} {G : Mem Arr R}
    (h : HoldsGravity2 T p s G) (r : T.Rank) (i j : Int) (hij : inGrid2 (localParams T p) i j) :
    gravOf (s r) .grav i j =
      gravOf G .grav ((T.coords r).1 * p.nx + i) ((T.coords r).2.1 * p.ny + j) := by
  have e := fun v (hv : v < 2) => h r i j v hij hv
  unfold gravOf
  rw [e IX (by decide), e IY (by decide)]
  rfl

theorem holds_grav3 {T : Topo} {p : Params R} {s : T.Rank → Mem Arr R} {G : Mem Arr R}
    (h : HoldsGravity3 T p s G) (r : T.Rank) (i j k : Int)
    (hij : inGrid3 (localParams T p) i j k) :
    gravOf3 (s r) .grav i j k = gravOf3 G .grav ((T.coords r).1 * p.nx + i)
      ((T.coords r).2.1 * p.ny + j) ((T.coords r).2.2 * p.nz + k) := by
  have e := fun v (hv : v < 3) => h r i j k v hij hv
  unfold gravOf3
  rw [e IX (by decide), e IY (by decide), e IZ (by decide)]
  rfl

/-! ### One step -/

theorem distStep2_run {lay : Layout} {T : Topo} {p : Params R} (hp : Hydro2 (localParams T p))
    (hS : SignLaws R) (hwide : Wide2 (localParams T p)) (hbc : NamedBC2 T (localParams T p))
    (hK : SchemeOK2 (localParams T p)) (hKg : SchemeOK2 (globalParams T p)) {g : GravityParams}
    {dt : R} {jk : T.Rank → Junk R} {inA outA : Arr} (hpp : PingPong inA outA)
    (hdet : ∀ r, Deterministic (Kern.seqs (scheme2 (localParams T p) g dt (jk r) inA outA)))
    {jk' : Junk R} {G G' : Mem Arr R} (hG : godunov2 (globalParams T p) g dt jk' inA outA G G')
    {s : T.Rank → Mem Arr R} (hs : HoldsBlock2 T p inA (interior2 (localParams T p)) s G)
    (hgr : g.enabled = true → HoldsGravity2 T p s G) {buf : Prop} {n : Nat}
    {c : Config T.Rank (Mem Arr R) (Msg R)}
    (hst : Steps buf (godunovMpi2 lay T (localParams T p) g dt jk inA outA) n (Config.init s) c) :
    n ≤ 33 * T.size ∧
    (¬ c.Done (godunovMpi2 lay T (localParams T p) g dt jk inA outA) →
      ∃ c', Step False (godunovMpi2 lay T (localParams T p) g dt jk inA outA) c c') ∧
    (c.Done (godunovMpi2 lay T (localParams T p) g dt jk inA outA) →
      HoldsBlock2 T p outA (interior2 (localParams T p)) c.st G') := by
  have hn : p.nbvar = 4 := hp.nbvar
  obtain ⟨s₁, b1, _, _, b2⟩ := distStep2 (lay := lay) (dt := dt) (outA := outA) hp hS hwide hbc hK
    hpp (u := hs2 G inA) (gf := gravOf G .grav) (holds_hs2 hn hs) (fun he => holds_grav2 (hgr he))
  choose s₂ k1 k2 using fun r => hdet r (s₁ r)
  have hb : BulkRel (godunovMpi2 lay T (localParams T p) g dt jk inA outA) s s₂ :=
    b1.append (BulkRel.loc fun r s' => ⟨fun h => k2 r s' h, fun h => h ▸ k1 r⟩)
  have hm : Matched (godunovMpi2 lay T (localParams T p) g dt jk inA outA) :=
    matched2.append (Matched.single trivial)
  obtain ⟨r1, r2, r3⟩ := hb.run hm hst
  refine ⟨?_, r2, fun hd => ?_⟩
  · have : (godunovMpi2 lay T (localParams T p) g dt jk inA outA).length = 11 := rfl
    rw [this, Fintype.card_fin] at r1
    omega
  · rw [(r3 hd).1]
    obtain ⟨_, _, g3⟩ := godunov2_result (hydro2_global hp hwide) hS hKg hpp hG
    refine hs2_holds hn (fun r i j hij => ?_)
    rw [(b2 r (jk r) _ (k1 r)).2 i j hij]
    have hw := (hydro2_global hp hwide).wf
    have hgw := hw.gw_pos
    have hblk : interior2 (globalParams T p) ((T.coords r).1 * p.nx + i)
      ((T.coords r).2.1 * p.ny + j) := interior2_block hp.wf T r hij
    obtain ⟨a1, a2, a3, a4⟩ := hblk
    exact (g3 _ _ ⟨by omega, by omega, by omega, by omega⟩).symm

theorem distStep3_run {zk : Bool} {lay : Layout} {T : Topo} {p : Params R}
    (hp : Hydro3 (localParams T p))
    (hS : SignLaws R) (hwide : Wide3 (localParams T p)) (hbc : NamedBC3 T (localParams T p))
    (hK : SchemeOK3 zk (localParams T p)) (hKg : SchemeOK3 zk (globalParams T p))
    {g : GravityParams} {dt : R} {jk : T.Rank → Junk R} {inA outA : Arr} (hpp : PingPong inA outA)
    (hdet : ∀ r, Deterministic (Kern.seqs (scheme3 (localParams T p) g dt (jk r) inA outA)))
    {jk' : Junk R} {G G' : Mem Arr R} (hG : godunov3 (globalParams T p) g dt jk' inA outA G G')
    {s : T.Rank → Mem Arr R} (hs : HoldsBlock T p inA (interior3 (localParams T p)) s G)
    (hgr : g.enabled = true → HoldsGravity3 T p s G) {buf : Prop} {n : Nat}
    {c : Config T.Rank (Mem Arr R) (Msg R)}
    (hst : Steps buf (godunovMpi3 lay T (localParams T p) g dt jk inA outA) n (Config.init s) c) :
    n ≤ 48 * T.size ∧
    (¬ c.Done (godunovMpi3 lay T (localParams T p) g dt jk inA outA) →
      ∃ c', Step False (godunovMpi3 lay T (localParams T p) g dt jk inA outA) c c') ∧
    (c.Done (godunovMpi3 lay T (localParams T p) g dt jk inA outA) →
      HoldsBlock T p outA (interior3 (localParams T p)) c.st G') := by
  have hn : p.nbvar = 5 := hp.nbvar
  obtain ⟨s₁, b1, _, _, b2⟩ := distStep3 (lay := lay) (dt := dt) (outA := outA) hp hS hwide hbc hK
    hpp (u := hs3 G inA) (gf := gravOf3 G .grav) (holds_hs3 hn hs)
    (fun he => holds_grav3 (hgr he))
  choose s₂ k1 k2 using fun r => hdet r (s₁ r)
  have hb : BulkRel (godunovMpi3 lay T (localParams T p) g dt jk inA outA) s s₂ :=
    b1.append (BulkRel.loc fun r s' => ⟨fun h => k2 r s' h, fun h => h ▸ k1 r⟩)
  have hm : Matched (godunovMpi3 lay T (localParams T p) g dt jk inA outA) :=
    matched3.append (Matched.single trivial)
  obtain ⟨r1, r2, r3⟩ := hb.run hm hst
  refine ⟨?_, r2, fun hd => ?_⟩
  · have : (godunovMpi3 lay T (localParams T p) g dt jk inA outA).length = 16 := rfl
    rw [this, Fintype.card_fin] at r1
    omega
  · rw [(r3 hd).1]
    obtain ⟨_, _, g3⟩ := godunov3_result (hydro3_global hp hwide) hS hKg hpp hG
    refine hs3_holds hn (fun r i j k hij => ?_)
    rw [(b2 r (jk r) _ (k1 r)).2 i j k hij]
    have hw := (hydro3_global hp hwide).wf
    have hgw := hw.gw_pos
    have hblk : interior3 (globalParams T p) ((T.coords r).1 * p.nx + i)
      ((T.coords r).2.1 * p.ny + j) ((T.coords r).2.2 * p.nz + k) := interior3_block hp.wf T r hij
    obtain ⟨⟨a1, a2⟩, ⟨a3, a4⟩, a5, a6⟩ := hblk
    exact (g3 _ _ _ ⟨⟨by omega, by omega⟩, ⟨by omega, by omega⟩, by omega, by omega⟩).symm

/-- **C11, one step, 2D, bit for bit** (versions 0 and 1, any arithmetic with exact multiplication by
±1, e.g. IEEE): let `G'` be the result of the serial step on the global grid.  Every execution of the
distributed step from the blocks of `G` is bounded, never gets stuck, and when complete has on every
rank exactly the block of `G'`. -/
theorem C11_step_2d {lay : Layout} {T : Topo} {p : Params R} (hp : Hydro2 (localParams T p))
    (hS : SignLaws R) (hwide : Wide2 (localParams T p)) (hbc : NamedBC2 T (localParams T p))
    (hi : p.implementationVersion = 0 ∨ p.implementationVersion = 1) {g : GravityParams} {dt : R}
    {jk : T.Rank → Junk R} {inA outA : Arr} (hpp : PingPong inA outA)
    {jk' : Junk R} {G G' : Mem Arr R} (hG : godunov2 (globalParams T p) g dt jk' inA outA G G')
    {s : T.Rank → Mem Arr R} (hs : HoldsBlock2 T p inA (interior2 (localParams T p)) s G)
    (hgr : g.enabled = true → HoldsGravity2 T p s G) {buf : Prop} {n : Nat}
    {c : Config T.Rank (Mem Arr R) (Msg R)}
    (hst : Steps buf (godunovMpi2 lay T (localParams T p) g dt jk inA outA) n (Config.init s) c) :
    n ≤ 33 * T.size ∧
    (¬ c.Done (godunovMpi2 lay T (localParams T p) g dt jk inA outA) →
      ∃ c', Step False (godunovMpi2 lay T (localParams T p) g dt jk inA outA) c c') ∧
    (c.Done (godunovMpi2 lay T (localParams T p) g dt jk inA outA) →
      HoldsBlock2 T p outA (interior2 (localParams T p)) c.st G') :=
  distStep2_run hp hS hwide hbc (schemeOK2_01 hp hi) (schemeOK2_01 (hydro2_global hp hwide) hi) hpp
    (fun r => det_seqs (det_scheme2 _ g dt (jk r) hpp (fun h => by
      have : p.implementationVersion = 2 := h
      omega))) hG hs hgr hst

/-- **C11, one step, 3D, bit for bit** (versions 0 and 1). -/
theorem C11_step_3d {lay : Layout} {T : Topo} {p : Params R} (hp : Hydro3 (localParams T p))
    (hS : SignLaws R) (hwide : Wide3 (localParams T p)) (hbc : NamedBC3 T (localParams T p))
    (hi : p.implementationVersion = 0 ∨ p.implementationVersion = 1) {g : GravityParams} {dt : R}
    {jk : T.Rank → Junk R} {inA outA : Arr} (hpp : PingPong inA outA)
    {jk' : Junk R} {G G' : Mem Arr R} (hG : godunov3 (globalParams T p) g dt jk' inA outA G G')
    {s : T.Rank → Mem Arr R} (hs : HoldsBlock T p inA (interior3 (localParams T p)) s G)
    (hgr : g.enabled = true → HoldsGravity3 T p s G) {buf : Prop} {n : Nat}
    {c : Config T.Rank (Mem Arr R) (Msg R)}
    (hst : Steps buf (godunovMpi3 lay T (localParams T p) g dt jk inA outA) n (Config.init s) c) :
    n ≤ 48 * T.size ∧
    (¬ c.Done (godunovMpi3 lay T (localParams T p) g dt jk inA outA) →
      ∃ c', Step False (godunovMpi3 lay T (localParams T p) g dt jk inA outA) c c') ∧
    (c.Done (godunovMpi3 lay T (localParams T p) g dt jk inA outA) →
      HoldsBlock T p outA (interior3 (localParams T p)) c.st G') :=
  distStep3_run hp hS hwide hbc (schemeOK3_01 hp hi) (schemeOK3_01 (hydro3_global hp hwide) hi) hpp
    (fun r => det_seqs (det_scheme3 _ g dt (jk r) hpp (fun h => by
      have : p.implementationVersion = 2 := h
      omega))) hG hs hgr hst

/-- **C11, one step, exact arithmetic, all three versions** (2D). -/
theorem C11_step_2d_atomic {lay : Layout} {T : Topo} {p : Params ℝ}
    (hp : Hydro2 (localParams T p)) (hwide : Wide2 (localParams T p))
    (hbc : NamedBC2 T (localParams T p))
    (hi : p.implementationVersion = 0 ∨ p.implementationVersion = 1 ∨ p.implementationVersion = 2)
    {g : GravityParams} {dt : ℝ}
    {jk : T.Rank → Junk ℝ} {inA outA : Arr} (hpp : PingPong inA outA)
    {jk' : Junk ℝ} {G G' : Mem Arr ℝ} (hG : godunov2 (globalParams T p) g dt jk' inA outA G G')
    {s : T.Rank → Mem Arr ℝ} (hs : HoldsBlock2 T p inA (interior2 (localParams T p)) s G)
    (hgr : g.enabled = true → HoldsGravity2 T p s G) {buf : Prop} {n : Nat}
    {c : Config T.Rank (Mem Arr ℝ) (Msg ℝ)}
    (hst : Steps buf (godunovMpi2 lay T (localParams T p) g dt jk inA outA) n (Config.init s) c) :
    n ≤ 33 * T.size ∧
    (¬ c.Done (godunovMpi2 lay T (localParams T p) g dt jk inA outA) →
      ∃ c', Step False (godunovMpi2 lay T (localParams T p) g dt jk inA outA) c c') ∧
    (c.Done (godunovMpi2 lay T (localParams T p) g dt jk inA outA) →
      HoldsBlock2 T p outA (interior2 (localParams T p)) c.st G') :=
  distStep2_run hp signLaws_real hwide hbc (schemeOK2_real hp hi)
    (schemeOK2_real (hydro2_global hp hwide) hi) hpp
    (fun r => det_seqs (det_scheme2 _ g dt (jk r) hpp (fun _ => det_allFluxes2 _ g dt (jk r)
      (by rcases hpp with ⟨rfl, rfl⟩ | ⟨rfl, rfl⟩ <;> decide)
      (by rcases hpp with ⟨rfl, rfl⟩ | ⟨rfl, rfl⟩ <;> decide)))) hG hs hgr hst

/-- **C11, one step, exact arithmetic, all three versions** (3D). -/
theorem C11_step_3d_atomic {lay : Layout} {T : Topo} {p : Params ℝ}
    (hp : Hydro3 (localParams T p)) (hwide : Wide3 (localParams T p))
    (hbc : NamedBC3 T (localParams T p))
    (hi : p.implementationVersion = 0 ∨ p.implementationVersion = 1 ∨ p.implementationVersion = 2)
    {g : GravityParams} {dt : ℝ}
    {jk : T.Rank → Junk ℝ} {inA outA : Arr} (hpp : PingPong inA outA)
    {jk' : Junk ℝ} {G G' : Mem Arr ℝ} (hG : godunov3 (globalParams T p) g dt jk' inA outA G G')
    {s : T.Rank → Mem Arr ℝ} (hs : HoldsBlock T p inA (interior3 (localParams T p)) s G)
    (hgr : g.enabled = true → HoldsGravity3 T p s G) {buf : Prop} {n : Nat}
    {c : Config T.Rank (Mem Arr ℝ) (Msg ℝ)}
    (hst : Steps buf (godunovMpi3 lay T (localParams T p) g dt jk inA outA) n (Config.init s) c) :
    n ≤ 48 * T.size ∧
    (¬ c.Done (godunovMpi3 lay T (localParams T p) g dt jk inA outA) →
      ∃ c', Step False (godunovMpi3 lay T (localParams T p) g dt jk inA outA) c c') ∧
    (c.Done (godunovMpi3 lay T (localParams T p) g dt jk inA outA) →
      HoldsBlock T p outA (interior3 (localParams T p)) c.st G') :=
  distStep3_run hp signLaws_real hwide hbc (schemeOK3_real hp hi)
    (schemeOK3_real (hydro3_global hp hwide) hi) hpp
    (fun r => det_seqs (det_scheme3 _ g dt (jk r) hpp (fun _ => det_allFluxes3 _ g dt (jk r)
      (by rcases hpp with ⟨rfl, rfl⟩ | ⟨rfl, rfl⟩ <;> decide)
      (by rcases hpp with ⟨rfl, rfl⟩ | ⟨rfl, rfl⟩ <;> decide)))) hG hs hgr hst

/-! ### The time step -/

theorem allreduce_cfl {ρ : Type} [Finite ρ] {c : ℝ} (hc : 0 < c) {S : ρ → Set ℝ} {U : Set ℝ}
    (hne : U.Nonempty) (hSne : ∀ r, (S r).Nonempty) (hfin : ∀ r, (S r).Finite)
    (hpos : ∀ r, ∀ x ∈ S r, 0 < x) (hU : ∀ x, x ∈ U ↔ ∃ r, x ∈ S r) :
    AllreduceMin (fun r => c / sSup (S r)) (c / sSup U) := by
  have e : U = ⋃ r, S r := by ext x; simp [hU]
  have hUf : U.Finite := by rw [e]; exact Set.finite_iUnion hfin
  obtain ⟨r, hr⟩ := (hU _).1 (hne.csSup_mem hUf)
  have hle : ∀ r, sSup (S r) ≤ sSup U := fun r =>
    csSup_le_csSup hUf.bddAbove (hSne r) (fun x hx => (hU x).2 ⟨r, hx⟩)
  have hp : ∀ r, 0 < sSup (S r) := fun r => hpos r _ ((hSne r).csSup_mem (hfin r))
  refine ⟨fun a => div_le_div_of_nonneg_left hc.le (hp a) (hle a), r, ?_⟩
  congr 1
  exact le_antisymm (le_csSup (hfin r).bddAbove hr) (hle r)

theorem cflDt2_blocks {T : Topo} {p : Params ℝ} (hw : (localParams T p).WF)
    (hg : GoodGrid (localParams T p)) {g : GravityParams} {gf : Grav2 ℝ} {u : Fld2 ℝ}
    {gl : T.Rank → Grav2 ℝ} {ul : T.Rank → Fld2 ℝ}
    (hu : ∀ r i j, interior2 (localParams T p) i j →
      ul r i j = u ((T.coords r).1 * p.nx + i) ((T.coords r).2.1 * p.ny + j))
    (hgf : g.enabled = true → ∀ r i j, interior2 (localParams T p) i j →
      gl r i j = gf ((T.coords r).1 * p.nx + i) ((T.coords r).2.1 * p.ny + j)) :
    AllreduceMin (fun r => cflDt2 (localParams T p) g (gl r) (ul r))
      (cflDt2 (globalParams T p) g gf u) := by
  have hrate : ∀ r i j, interior2 (localParams T p) i j →
      rate2 (localParams T p) g (gl r) (ul r) i j = rate2 (globalParams T p) g gf u
        ((T.coords r).1 * p.nx + i) ((T.coords r).2.1 * p.ny + j) := by
    intro r i j hij
    unfold rate2
    rw [hu r i j hij]
    by_cases he : g.enabled = true
    · simp only [he, if_true]
      rw [hgf he r i j hij]; rfl
    · simp only [he]; rfl
  have hx : 1 ≤ p.nx := hw.nx_pos
  have hy : 1 ≤ p.ny := hw.ny_pos
  have hU : ∀ x, x ∈ {r | ∃ i j, interior2 (globalParams T p) i j ∧
        r = rate2 (globalParams T p) g gf u i j} ↔
      ∃ r : T.Rank, x ∈ {x | ∃ i j, interior2 (localParams T p) i j ∧
        x = rate2 (localParams T p) g (gl r) (ul r) i j} := by
    intro x
    constructor
    · rintro ⟨a, b, ⟨h1, h2, h3, h4⟩, rfl⟩
      obtain ⟨X, i, x0, x1, i0, i1, rfl⟩ := block_exists (m := T.mx) hx h1 h2
      obtain ⟨Y, j, y0, y1, j0, j1, rfl⟩ := block_exists (m := T.my) hy h3 h4
      have hij : interior2 (localParams T p) i j := ⟨i0, i1, j0, j1⟩
      refine ⟨T.cartRank X Y 0, i, j, hij, ?_⟩
      rw [hrate _ _ _ hij, T.coords_cartRank, Int.emod_eq_of_lt x0 x1, Int.emod_eq_of_lt y0 y1]
    · rintro ⟨r, i, j, hij, rfl⟩
      exact ⟨_, _, interior2_block hw T r hij, hrate r i j hij⟩
  have hne : ∀ r : T.Rank, {x | ∃ i j, interior2 (localParams T p) i j ∧
      x = rate2 (localParams T p) g (gl r) (ul r) i j}.Nonempty := fun r =>
    ⟨_, _, _, interior2_first hw, rfl⟩
  have r0 : T.Rank := T.cartRank 0 0 0
  refine allreduce_cfl hg.cfl ?_ hne (fun r => ?_) ?_ hU
  · obtain ⟨x, hx⟩ := hne r0
    exact ⟨x, (hU x).2 ⟨r0, hx⟩⟩
  · refine ((range2 (localParams T p).isize (localParams T p).jsize).finite_toSet.image
      (fun t => rate2 (localParams T p) g (gl r) (ul r) t.1 t.2)).subset ?_
    rintro x ⟨i, j, hij, rfl⟩
    exact ⟨(i, j), interior2_range hw hij, rfl⟩
  · rintro r x ⟨i, j, hij, rfl⟩
    exact rate2_pos hg _ _ _ _ _

theorem cflDt3_blocks {T : Topo} {p : Params ℝ} (hw : (localParams T p).WF)
    (hg : GoodGrid (localParams T p)) {g : GravityParams} {gf : Grav3 ℝ} {u : Fld3 ℝ}
    {gl : T.Rank → Grav3 ℝ} {ul : T.Rank → Fld3 ℝ}
    (hu : ∀ r i j k, interior3 (localParams T p) i j k → ul r i j k =
      u ((T.coords r).1 * p.nx + i) ((T.coords r).2.1 * p.ny + j) ((T.coords r).2.2 * p.nz + k))
    (hgf : g.enabled = true → ∀ r i j k, interior3 (localParams T p) i j k → gl r i j k =
      gf ((T.coords r).1 * p.nx + i) ((T.coords r).2.1 * p.ny + j) ((T.coords r).2.2 * p.nz + k)) :
    AllreduceMin (fun r => cflDt3 (localParams T p) g (gl r) (ul r))
      (cflDt3 (globalParams T p) g gf u) := by
  have hrate : ∀ r i j k, interior3 (localParams T p) i j k →
      rate3 (localParams T p) g (gl r) (ul r) i j k = rate3 (globalParams T p) g gf u
        ((T.coords r).1 * p.nx + i) ((T.coords r).2.1 * p.ny + j)
        ((T.coords r).2.2 * p.nz + k) := by
    intro r i j k hij
    unfold rate3
    rw [hu r i j k hij]
    by_cases he : g.enabled = true
    · simp only [he, if_true]
      rw [hgf he r i j k hij]; rfl
    · simp only [he]; rfl
  have hx : 1 ≤ p.nx := hw.nx_pos
  have hy : 1 ≤ p.ny := hw.ny_pos
  have hz : 1 ≤ p.nz := hw.nz_pos
  have hU : ∀ x, x ∈ {r | ∃ i j k, interior3 (globalParams T p) i j k ∧
        r = rate3 (globalParams T p) g gf u i j k} ↔
      ∃ r : T.Rank, x ∈ {x | ∃ i j k, interior3 (localParams T p) i j k ∧
        x = rate3 (localParams T p) g (gl r) (ul r) i j k} := by
    intro x
    constructor
    · rintro ⟨a, b, c, ⟨⟨h1, h2⟩, ⟨h3, h4⟩, h5, h6⟩, rfl⟩
      obtain ⟨X, i, x0, x1, i0, i1, rfl⟩ := block_exists (m := T.mx) hx h1 h2
      obtain ⟨Y, j, y0, y1, j0, j1, rfl⟩ := block_exists (m := T.my) hy h3 h4
      obtain ⟨Z, k, z0, z1, k0, k1, rfl⟩ := block_exists (m := T.mz) hz h5 h6
      have hij : interior3 (localParams T p) i j k := ⟨⟨i0, i1⟩, ⟨j0, j1⟩, k0, k1⟩
      refine ⟨T.cartRank X Y Z, i, j, k, hij, ?_⟩
      rw [hrate _ _ _ _ hij, T.coords_cartRank, Int.emod_eq_of_lt x0 x1, Int.emod_eq_of_lt y0 y1,
        Int.emod_eq_of_lt z0 z1]
    · rintro ⟨r, i, j, k, hij, rfl⟩
      exact ⟨_, _, _, interior3_block hw T r hij, hrate r i j k hij⟩
  have hne : ∀ r : T.Rank, {x | ∃ i j k, interior3 (localParams T p) i j k ∧
      x = rate3 (localParams T p) g (gl r) (ul r) i j k}.Nonempty := fun r =>
    ⟨_, _, _, _, interior3_first hw, rfl⟩
  have r0 : T.Rank := T.cartRank 0 0 0
  refine allreduce_cfl hg.cfl ?_ hne (fun r => ?_) ?_ hU
  · obtain ⟨x, hx⟩ := hne r0
    exact ⟨x, (hU x).2 ⟨r0, hx⟩⟩
  · refine ((range3 (localParams T p).isize (localParams T p).jsize
      (localParams T p).ksize).finite_toSet.image
      (fun t => rate3 (localParams T p) g (gl r) (ul r) t.1 t.2.1 t.2.2)).subset ?_
    rintro x ⟨i, j, k, hij, rfl⟩
    exact ⟨(i, j, k), interior3_range hw hij, rfl⟩
  · rintro r x ⟨i, j, k, hij, rfl⟩
    exact rate3_pos hg _ _ _ _ _ _

/-! ### Whole runs -/

/-- the ranks hold the blocks of the field `u` and of the gravity field (2D) -/
def DistInv2 (T : Topo) (p : Params ℝ) (g : GravityParams) (gf : Grav2 ℝ) (n : Nat)
    (m : T.Rank → Mem Arr ℝ) (u : Fld2 ℝ) : Prop :=
  (∀ r i j, interior2 (localParams T p) i j → hs2 (m r) (pingIn n) i j =
    u ((T.coords r).1 * p.nx + i) ((T.coords r).2.1 * p.ny + j)) ∧
  (g.enabled = true → ∀ r i j, inGrid2 (localParams T p) i j → gravOf (m r) .grav i j =
    gf ((T.coords r).1 * p.nx + i) ((T.coords r).2.1 * p.ny + j))

/-- the ranks hold the blocks of the field `u` and of the gravity field (3D) -/
def DistInv3 (T : Topo) (p : Params ℝ) (g : GravityParams) (gf : Grav3 ℝ) (n : Nat)
    (m : T.Rank → Mem Arr ℝ) (u : Fld3 ℝ) : Prop :=
  (∀ r i j k, interior3 (localParams T p) i j k → hs3 (m r) (pingIn n) i j k =
    u ((T.coords r).1 * p.nx + i) ((T.coords r).2.1 * p.ny + j) ((T.coords r).2.2 * p.nz + k)) ∧
  (g.enabled = true → ∀ r i j k, inGrid3 (localParams T p) i j k → gravOf3 (m r) .grav i j k =
    gf ((T.coords r).1 * p.nx + i) ((T.coords r).2.1 * p.ny + j) ((T.coords r).2.2 * p.nz + k))

/-- a file of rank `r` shows its block of `u` (2D) -/
def ShowsBlock2 (T : Topo) (p : Params ℝ) (r : T.Rank) (data : Loc Unit → ℝ) (u : Fld2 ℝ) : Prop :=
  ∀ i j, interior2 (localParams T p) i j →
    (⟨data ⟨(), i, j, 0, ID⟩, data ⟨(), i, j, 0, IP⟩, data ⟨(), i, j, 0, IU⟩,
      data ⟨(), i, j, 0, IV⟩, 0⟩ : HS ℝ) =
      u ((T.coords r).1 * p.nx + i) ((T.coords r).2.1 * p.ny + j)

/-- a file of rank `r` shows its block of `u` (3D) -/
def ShowsBlock3 (T : Topo) (p : Params ℝ) (r : T.Rank) (data : Loc Unit → ℝ) (u : Fld3 ℝ) : Prop :=
  ∀ i j k, interior3 (localParams T p) i j k →
    (⟨data ⟨(), i, j, k, ID⟩, data ⟨(), i, j, k, IP⟩, data ⟨(), i, j, k, IU⟩,
      data ⟨(), i, j, k, IV⟩, data ⟨(), i, j, k, IW⟩⟩ : HS ℝ) =
      u ((T.coords r).1 * p.nx + i) ((T.coords r).2.1 * p.ny + j) ((T.coords r).2.2 * p.nz + k)

theorem distRefines2 {lay : Layout} {T : Topo} {p : Params ℝ} (hp : Hydro2 (localParams T p))
    (hwide : Wide2 (localParams T p)) (hbc : NamedBC2 T (localParams T p))
    (hi : p.implementationVersion = 0 ∨ p.implementationVersion = 1 ∨ p.implementationVersion = 2)
    (hg : GoodGrid (localParams T p)) (g : GravityParams) {ident : ℝ} (hid : ident ≤ 0)
    (jk : T.Rank → Junk ℝ) (gf : Grav2 ℝ) :
    DistRefines (mpiHydro2 lay T (localParams T p) g ident jk)
      (hydro2 (globalParams T p) g gf) (DistInv2 T p g gf) (ShowsBlock2 T p) :=
  DistRefines.ofHalo _ (fun _ _ => rfl) (matched2.append (Matched.single trivial))
  (fun n m x h r i j hij => by
    rw [← h.1 r i j hij]
    simp [viewOf, hs2])
  (fun n m x h => by
    refine ⟨fun r => cflDt2 (localParams T p) g (gravOf (m r) .grav) (hs2 (m r) (pingIn n)),
      fun r d' => ⟨fun hd => (dtLocal2_eq hp.wf hg hid hd).1, fun hd => ?_⟩,
      cflDt2_blocks hp.wf hg h.1
        (fun he r i j hij => h.2 he r i j (interior_inGrid2 hp.wf hij))⟩
    obtain ⟨d0, h0⟩ : ∃ d, computeDtLocal2 (localParams T p) g ident n (m r) d :=
      (total_hydro2 hp.wf hp.faces g ident (jk r)).dt n (m r)
    have e : d' = d0 := hd.trans (dtLocal2_eq hp.wf hg hid h0).1.symm
    exact e ▸ h0)
  (fun n m x dt h => by
    have hpp := pingPong n
    obtain ⟨m₁, b1, b2, _, b3⟩ := distStep2 (lay := lay) (dt := dt) hp signLaws_real
      hwide hbc (schemeOK2_real hp hi) hpp h.1 h.2
    choose m₂ k1 k2 using fun r => det_seqs (det_scheme2 (localParams T p) g dt (jk r) hpp
      (fun _ => det_allFluxes2 _ g dt (jk r)
        (by rcases hpp with ⟨_, h'⟩ | ⟨_, h'⟩ <;> rw [h'] <;> decide)
        (by rcases hpp with ⟨_, h'⟩ | ⟨_, h'⟩ <;> rw [h'] <;> decide))) (m₁ r)
    refine ⟨m₁, m₂, b1, fun r m' => ⟨fun hm => k2 r m' hm, fun hm => hm ▸ k1 r⟩, ?_, ?_⟩
    · intro r i j hij
      rw [← pingOut_succ]
      exact (b3 r (jk r) _ (k1 r)).2 i j hij
    · intro he r i j hij
      rw [(b3 r (jk r) _ (k1 r)).1]
      exact h.2 he r i j hij)
  (fun U => matched2)

theorem distRefines3 {lay : Layout} {T : Topo} {p : Params ℝ} (hp : Hydro3 (localParams T p))
    (hwide : Wide3 (localParams T p)) (hbc : NamedBC3 T (localParams T p))
    (hi : p.implementationVersion = 0 ∨ p.implementationVersion = 1 ∨ p.implementationVersion = 2)
    (hg : GoodGrid (localParams T p)) (g : GravityParams) {ident : ℝ} (hid : ident ≤ 0)
    (jk : T.Rank → Junk ℝ) (gf : Grav3 ℝ) :
    DistRefines (mpiHydro3 lay T (localParams T p) g ident jk)
      (hydro3 (zKick p.implementationVersion) (globalParams T p) g gf) (DistInv3 T p g gf)
      (ShowsBlock3 T p) :=
  DistRefines.ofHalo _ (fun _ _ => rfl) (matched3.append (Matched.single trivial))
  (fun n m x h r i j k hij => by
    rw [← h.1 r i j k hij]
    simp [viewOf, hs3])
  (fun n m x h => by
    refine ⟨fun r => cflDt3 (localParams T p) g (gravOf3 (m r) .grav) (hs3 (m r) (pingIn n)),
      fun r d' => ⟨fun hd => (dtLocal3_eq hp.wf hg hid hd).1, fun hd => ?_⟩,
      cflDt3_blocks hp.wf hg h.1
        (fun he r i j k hij => h.2 he r i j k (interior_inGrid3 hp.wf hij))⟩
    obtain ⟨d0, h0⟩ : ∃ d, computeDtLocal3 (localParams T p) g ident n (m r) d :=
      (total_hydro3 hp.wf hp.faces g ident (jk r)).dt n (m r)
    have e : d' = d0 := hd.trans (dtLocal3_eq hp.wf hg hid h0).1.symm
    exact e ▸ h0)
  (fun n m x dt h => by
    have hpp := pingPong n
    obtain ⟨m₁, b1, b2, _, b3⟩ := distStep3 (lay := lay) (dt := dt) hp signLaws_real
      hwide hbc (schemeOK3_real hp hi) hpp h.1 h.2
    choose m₂ k1 k2 using fun r => det_seqs (det_scheme3 (localParams T p) g dt (jk r) hpp
      (fun _ => det_allFluxes3 _ g dt (jk r)
        (by rcases hpp with ⟨_, h'⟩ | ⟨_, h'⟩ <;> rw [h'] <;> decide)
        (by rcases hpp with ⟨_, h'⟩ | ⟨_, h'⟩ <;> rw [h'] <;> decide))) (m₁ r)
    refine ⟨m₁, m₂, b1, fun r m' => ⟨fun hm => k2 r m' hm, fun hm => hm ▸ k1 r⟩, ?_, ?_⟩
    · intro r i j k hij
      rw [← pingOut_succ]
      exact (b3 r (jk r) _ (k1 r)).2 i j k hij
    · intro he r i j k hij
      rw [(b3 r (jk r) _ (k1 r)).1]
      exact h.2 he r i j k hij)
  (fun U => matched3)

/-- **C11, whole runs, 2D** (exact arithmetic, all implementation versions, with or without gravity):
let `s'` be the result of a complete run of the serial build on the global grid from `G`.  Every
execution of the MPI build from the blocks of `G` — any interleaving of the ranks, any kernel schedule,
buffered or not — has a bounded number of steps, never gets stuck, and when complete every rank has
made the same iterations, is at the same time, has no message left over, has written the same files
(each holding its block of the serial file) and holds its block of the final solution. -/
theorem C11_run_2d {lay : Layout} {T : Topo} {p : Params ℝ} (hp : Hydro2 (localParams T p))
    (hwide : Wide2 (localParams T p)) (hbc : NamedBC2 T (localParams T p))
    (hi : p.implementationVersion = 0 ∨ p.implementationVersion = 1 ∨ p.implementationVersion = 2)
    (hg : GoodGrid (localParams T p)) (he : p.enableOutput = decide (p.nOutput ≠ 0))
    (hlog : p.nlog ≠ 0) {g : GravityParams} {ident ident' : ℝ} (hid : ident ≤ 0)
    (hid' : ident' ≤ 0) {jk : T.Rank → Junk ℝ} {jk' : Junk ℝ} {G : Mem Arr ℝ} {t : ℝ} {sv : Int}
    {s' : RunState ℝ}
    (hser : runMain (globalParams T p) (hydroOps2 (globalParams T p) g ident' jk') G t sv s')
    {m : T.Rank → Mem Arr ℝ} (hm : HoldsBlock2 T p .U (interior2 (localParams T p)) m G)
    (hgr : g.enabled = true → HoldsGravity2 T p m G) :
    ∃ N, ∀ (buf : Prop) n y,
      FSteps buf (mpiMain (localParams T p) (mpiHydro2 lay T (localParams T p) g ident jk)) n
        (FConfig.init (.pre 0) (fun r => startState (m r) t sv)) y →
      n ≤ N ∧
      (¬ y.Done (mpiMain (localParams T p) (mpiHydro2 lay T (localParams T p) g ident jk)) →
        ∃ z, FStep False (mpiMain (localParams T p) (mpiHydro2 lay T (localParams T p) g ident jk))
          y z) ∧
      (y.Done (mpiMain (localParams T p) (mpiHydro2 lay T (localParams T p) g ident jk)) →
        (∀ a b tag, y.c.chan a b tag = []) ∧
        (∀ r, (y.c.st r).iteration = s'.iteration ∧ (y.c.st r).t = s'.t ∧
          (y.c.st r).times_saved = s'.times_saved ∧
          List.Forall₂ (BlockFile2 T p r) (y.c.st r).outputs s'.outputs) ∧
        HoldsBlock2 T p (pingIn s'.iteration) (interior2 (localParams T p))
          (fun r => (y.c.st r).mem) s'.mem) := by
  have hn : p.nbvar = 4 := hp.nbvar
  have hpg := hydro2_global hp hwide
  have hgg : GoodGrid (globalParams T p) := ⟨hg.settings, hg.cfl, hg.dx, hg.dy, hg.dz⟩
  obtain ⟨a1, a2⟩ := refine_run (refines_hydro2 hpg hi hgg g hid' jk' (gravOf G .grav)) he
    (fun m₁ hm => setup_hydro2 hpg hm) hser
  obtain ⟨m₁, b1, b2, b3, _⟩ := distStep2 (lay := lay) (dt := 0) (g := g) hp signLaws_real
    hwide hbc (schemeOK2_real hp hi) (inA := .U) (outA := .U2) (Or.inl ⟨rfl, rfl⟩)
    (holds_hs2 hn hm) (fun he => holds_grav2 (hgr he))
  obtain ⟨K, N, k1, k2⟩ := dist_run_halo (p := localParams T p)
    (distRefines2 (lay := lay) hp hwide hbc hi hg g hid jk (gravOf G .grav))
    (fun _ _ => rfl) rfl hlog he (t := t)
    (sv := sv) (x := fill2 (globalParams T p) (hs2 G .U)) (m := m) ⟨m₁, b1,
      fun r i j hij => (b3 r i j (interior_inGrid2 hp.wf hij)),
      fun he r i j hij => (congrFun (congrFun (b2 r) i) j).trans (holds_grav2 (hgr he) r i j hij)⟩
  have hK : K = s'.iteration := k1.unique a1
  subst hK
  refine ⟨N, fun buf n y hy => ?_⟩
  obtain ⟨c1, c2, c3⟩ := k2 buf n y hy
  refine ⟨c1, c2, fun hd => ?_⟩
  obtain ⟨d1, d2⟩ := c3 hd
  refine ⟨d2, fun r => ⟨(d1.n r).trans a2.n.symm, (d1.t r).trans a2.t.symm,
    (d1.next r).trans a2.next.symm, forall₂_both ?_ (d1.files r) a2.files⟩, ?_⟩
  · rintro o o' ⟨n, t, u⟩ ⟨h1, h2, h3⟩ ⟨h1', h2', h3'⟩
    refine ⟨h1.trans h1'.symm, h2.trans h2'.symm, fun i j v hij hv => ?_⟩
    have e := (h3 i j hij).trans (h3' _ _ (interior_inGrid2 hpg.wf (interior2_block hp.wf T r hij))).symm
    rw [HS.mk.injEq] at e
    obtain ⟨e1, e2, e3, e4, _⟩ := e
    have hv' : v = ID ∨ v = IP ∨ v = IU ∨ v = IV := by
      simp only [ID, IP, IU, IV]; omega
    rcases hv' with rfl | rfl | rfl | rfl
    · exact e1
    · exact e2
    · exact e3
    · exact e4
  · refine hs2_holds hn (fun r i j hij => ?_)
    have e1 := d1.inv.1 r i j hij
    have e2 := a2.inv.1 _ _ (interior_inGrid2 hpg.wf (interior2_block hp.wf T r hij))
    have hn : (Sim.result (localParams T p) (hydro2 (globalParams T p) g (gravOf G .grav))
      (fill2 (globalParams T p) (hs2 G .U)) t sv s'.iteration).n = s'.iteration := a2.n.symm
    rw [hn] at e1
    exact e1.trans e2.symm

/-- **C11, whole runs, 3D** (exact arithmetic, all implementation versions, with or without gravity):
let `s'` be the result of a complete run of the serial build on the global grid from `G`.  Every
execution of the MPI build from the blocks of `G` — any interleaving of the ranks, any kernel schedule,
buffered or not — has a bounded number of steps, never gets stuck, and when complete every rank has
made the same iterations, is at the same time, has no message left over, has written the same files
(each holding its block of the serial file) and holds its block of the final solution. -/
theorem C11_run_3d {lay : Layout} {T : Topo} {p : Params ℝ} (hp : Hydro3 (localParams T p))
    (hwide : Wide3 (localParams T p)) (hbc : NamedBC3 T (localParams T p))
    (hi : p.implementationVersion = 0 ∨ p.implementationVersion = 1 ∨ p.implementationVersion = 2)
    (hg : GoodGrid (localParams T p)) (he : p.enableOutput = decide (p.nOutput ≠ 0))
    (hlog : p.nlog ≠ 0) {g : GravityParams} {ident ident' : ℝ} (hid : ident ≤ 0)
    (hid' : ident' ≤ 0) {jk : T.Rank → Junk ℝ} {jk' : Junk ℝ} {G : Mem Arr ℝ} {t : ℝ} {sv : Int}
    {s' : RunState ℝ}
    (hser : runMain (globalParams T p) (hydroOps3 (globalParams T p) g ident' jk') G t sv s')
    {m : T.Rank → Mem Arr ℝ} (hm : HoldsBlock T p .U (interior3 (localParams T p)) m G)
    (hgr : g.enabled = true → HoldsGravity3 T p m G) :
    ∃ N, ∀ (buf : Prop) n y,
      FSteps buf (mpiMain (localParams T p) (mpiHydro3 lay T (localParams T p) g ident jk)) n
        (FConfig.init (.pre 0) (fun r => startState (m r) t sv)) y →
      n ≤ N ∧
      (¬ y.Done (mpiMain (localParams T p) (mpiHydro3 lay T (localParams T p) g ident jk)) →
        ∃ z, FStep False (mpiMain (localParams T p) (mpiHydro3 lay T (localParams T p) g ident jk))
          y z) ∧
      (y.Done (mpiMain (localParams T p) (mpiHydro3 lay T (localParams T p) g ident jk)) →
        (∀ a b tag, y.c.chan a b tag = []) ∧
        (∀ r, (y.c.st r).iteration = s'.iteration ∧ (y.c.st r).t = s'.t ∧
          (y.c.st r).times_saved = s'.times_saved ∧
          List.Forall₂ (BlockFile3 T p r) (y.c.st r).outputs s'.outputs) ∧
        HoldsBlock T p (pingIn s'.iteration) (interior3 (localParams T p))
          (fun r => (y.c.st r).mem) s'.mem) := by
  have hn : p.nbvar = 5 := hp.nbvar
  have hpg := hydro3_global hp hwide
  have hgg : GoodGrid (globalParams T p) := ⟨hg.settings, hg.cfl, hg.dx, hg.dy, hg.dz⟩
  obtain ⟨a1, a2⟩ := refine_run (refines_hydro3 hpg hi hgg g hid' jk' (gravOf3 G .grav)) he
    (fun m₁ hm => setup_hydro3 hpg hm) hser
  obtain ⟨m₁, b1, b2, b3, _⟩ := distStep3 (lay := lay) (dt := 0) (g := g) hp signLaws_real
    hwide hbc (schemeOK3_real hp hi) (inA := .U) (outA := .U2) (Or.inl ⟨rfl, rfl⟩)
    (holds_hs3 hn hm) (fun he => holds_grav3 (hgr he))
  obtain ⟨K, N, k1, k2⟩ := dist_run_halo (p := localParams T p)
    (distRefines3 (lay := lay) hp hwide hbc hi hg g hid jk (gravOf3 G .grav))
    (fun _ _ => rfl) rfl hlog he (t := t)
    (sv := sv) (x := fill3 (globalParams T p) (hs3 G .U)) (m := m) ⟨m₁, b1,
      fun r i j k hij => (b3 r i j k (interior_inGrid3 hp.wf hij)),
      fun he r i j k hij => (congrFun (congrFun (congrFun (b2 r) i) j) k).trans (holds_grav3 (hgr he) r i j k hij)⟩
  have hK : K = s'.iteration := k1.unique a1
  subst hK
  refine ⟨N, fun buf n y hy => ?_⟩
  obtain ⟨c1, c2, c3⟩ := k2 buf n y hy
  refine ⟨c1, c2, fun hd => ?_⟩
  obtain ⟨d1, d2⟩ := c3 hd
  refine ⟨d2, fun r => ⟨(d1.n r).trans a2.n.symm, (d1.t r).trans a2.t.symm,
    (d1.next r).trans a2.next.symm, forall₂_both ?_ (d1.files r) a2.files⟩, ?_⟩
  · rintro o o' ⟨n, t, u⟩ ⟨h1, h2, h3⟩ ⟨h1', h2', h3'⟩
    refine ⟨h1.trans h1'.symm, h2.trans h2'.symm, fun i j k v hij hv => ?_⟩
    have e := (h3 i j k hij).trans (h3' _ _ _ (interior_inGrid3 hpg.wf (interior3_block hp.wf T r hij))).symm
    rw [HS.mk.injEq] at e
    obtain ⟨e1, e2, e3, e4, e5⟩ := e
    have hv' : v = ID ∨ v = IP ∨ v = IU ∨ v = IV ∨ v = IW := by
      simp only [ID, IP, IU, IV, IW]; omega
    rcases hv' with rfl | rfl | rfl | rfl | rfl
    · exact e1
    · exact e2
    · exact e3
    · exact e4
    · exact e5
  · refine hs3_holds hn (fun r i j k hij => ?_)
    have e1 := d1.inv.1 r i j k hij
    have e2 := a2.inv.1 _ _ _ (interior_inGrid3 hpg.wf (interior3_block hp.wf T r hij))
    have hn : (Sim.result (localParams T p) (hydro3 (zKick p.implementationVersion) (globalParams T p) g (gravOf3 G .grav))
      (fill3 (globalParams T p) (hs3 G .U)) t sv s'.iteration).n = s'.iteration := a2.n.symm
    rw [hn] at e1
    exact e1.trans e2.symm

/-! ### Non-vacuity -/

/-- bounded executions that never get stuck can be completed -/
theorem flow_completes {κ ρ S M : Type} [DecidableEq ρ] {F : Flow κ ρ S M} {x : FConfig κ ρ S M}
    {N : Nat}
    (h : ∀ n y, FSteps False F n x y → n ≤ N ∧ (¬ y.Done F → ∃ z, FStep False F y z)) :
    ∃ n y, FSteps False F n x y ∧ y.Done F := by
  by_contra hno
  push Not at hno
  have : ∀ n, ∃ y, FSteps False F n x y := by
    intro n
    induction n with
    | zero => exact ⟨_, FSteps.zero _⟩
    | succ n ih =>
      obtain ⟨y, hy⟩ := ih
      obtain ⟨z, hz⟩ := (h n y hy).2 (hno n y hy)
      exact ⟨z, hy.succ hz⟩
  obtain ⟨y, hy⟩ := this (N + 1)
  have := (h _ y hy).1
  omega

-- The 12 × 6 run on a 3 × 2 process grid, with gravity: the hypotheses hold, the serial run exists, and a
-- complete distributed execution exists, which therefore ends with the serial result.
example (G : Mem Arr ℝ) (jk : topo321.Rank → Junk ℝ) (jk' : Junk ℝ) :
    let p := sample .dirichlet .periodic
    ∃ s', runMain (globalParams topo321 p) (hydroOps2 (globalParams topo321 p) ⟨true, true⟩ (-1) jk')
        G 0 0 s' ∧
      ∃ m : topo321.Rank → Mem Arr ℝ, ∃ n y,
        FSteps False (mpiMain (localParams topo321 p)
          (mpiHydro2 .left topo321 (localParams topo321 p) ⟨true, true⟩ (-1) jk)) n
          (FConfig.init (.pre 0) (fun r => startState (m r) 0 0)) y ∧
        y.Done (mpiMain (localParams topo321 p)
          (mpiHydro2 .left topo321 (localParams topo321 p) ⟨true, true⟩ (-1) jk)) ∧
        ∀ r, (y.c.st r).t = s'.t := by
  intro p
  have hp : Hydro2 (localParams topo321 p) := by
    obtain ⟨w, nb, ⟨v1, v2⟩, f⟩ := sample_hydro2 .dirichlet .periodic
    have w' : (sample .dirichlet .periodic).init.WF :=
      Params.init_wf _ w.nx_pos w.ny_pos w.nz_pos w.gw_pos
    obtain ⟨w1, w2, w3, w4, w5, w6, w7, w8, w9, w10, w11, w12, w13⟩ := w'
    exact ⟨⟨w1, w2, w3, w4, w5, w6, w7, w8, w9, w10, w11, w12, w13⟩, nb, ⟨v1, v2⟩, f⟩
  have hwide : Wide2 (localParams topo321 p) := (sample_wide3 .dirichlet .periodic).1
  have hbc : NamedBC2 topo321 (localParams topo321 p) := (sample_named3 topo321).1
  have hg : GoodGrid (localParams topo321 p) := by
    refine ⟨?_, ?_, ?_, ?_, ?_⟩
    · exact goodSettings_init (by norm_num [p, sample, rawSample, Params.init])
        (by norm_num [p, sample, rawSample, Params.init])
        (by norm_num [p, sample, rawSample, Params.init])
    all_goals simp [p, localParams, setupMpi, sample, rawSample, Params.init, intLit, topo321]
  have hgw := hydro2_global hp hwide
  have hlog : p.nlog ≠ 0 := by simp [p, sample, rawSample, Params.init]
  obtain ⟨s', hs'⟩ : ∃ s', runMain (globalParams topo321 p)
      (hydroOps2 (globalParams topo321 p) ⟨true, true⟩ (-1) jk') G 0 0 s' := by
    have hT := total_hydro2 hgw.wf hgw.faces ⟨true, true⟩ (-1) jk'
    obtain ⟨s, hs⟩ := C14_starts (p := globalParams topo321 p) hT G 0 0
    obtain ⟨_, s', _, _, h⟩ := C14_completes hT (show (globalParams topo321 p).nlog ≠ 0 from hlog) hs
    exact ⟨_, h⟩
  let m : topo321.Rank → Mem Arr ℝ := fun r l =>
    G ⟨l.arr, (globalCell topo321 p r l.i l.j 0).1, (globalCell topo321 p r l.i l.j 0).2.1, 0, l.v⟩
  obtain ⟨N, hN⟩ := C11_run_2d (lay := .left) (jk := jk) hp hwide hbc
    (Or.inl (by simp [p, sample, rawSample, Params.init])) hg
    (by simp [p, sample, rawSample, Params.init]) hlog (by norm_num : (-1 : ℝ) ≤ 0) (by norm_num)
    hs' (m := m) (fun r i j v hij hv => rfl) (fun _ r i j v hij hv => rfl)
  obtain ⟨n, y, hy, hd⟩ := flow_completes (fun n y h => ⟨(hN False n y h).1, (hN False n y h).2.1⟩)
  exact ⟨s', hs', m, n, y, hy, hd, fun r => (((hN False n y hy).2.2 hd).2.1 r).2.1⟩

end EulerKokkos
