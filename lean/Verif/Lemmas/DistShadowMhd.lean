import Verif.Lemmas.DistShadowOps
import Verif.Props.C60

/-!
# The MPI solvers shadow the serial ones: MHD
-/

set_option linter.constructorNameAsVariable false
set_option linter.unusedSectionVars false
set_option linter.unusedSimpArgs false

namespace EulerKokkos
open Spec Spmd Prog

variable {R : Type} [RealOps R] {num sg pos : R → Prop} {T : Topo} {p : Params R} {lay : Layout}

namespace Spec

/-- in the block of every process some cell requires a positive, finite rate; `A` is the serial memory at the time of
`compute_dt`, whose view `Q` holds the primitive variables (2D) -/
def BlocksMoveM2 (pos : R → Prop) (T : Topo) (p : Params R) (_ : Nat) (A : Mem Arr R) : Prop :=
  ∀ r : T.Rank, ∃ i j, interior2 (localParams T p) i j ∧ pos (cellRateM2 (globalParams T p)
    (ms A .Q ((T.coords r).1 * p.nx + i) ((T.coords r).2.1 * p.ny + j) 0))

/-- the same in 3D -/
def BlocksMoveM3 (pos : R → Prop) (T : Topo) (p : Params R) (_ : Nat) (A : Mem Arr R) : Prop :=
  ∀ r : T.Rank, ∃ i j k, interior3 (localParams T p) i j k ∧ pos (cellRateM3 (globalParams T p)
    (ms A .Q ((T.coords r).1 * p.nx + i) ((T.coords r).2.1 * p.ny + j) ((T.coords r).2.2 * p.nz + k)))

end Spec

/-- the ranks hold the blocks of the serial memory `A` (2D MHD) -/
def BlocksM2 (T : Topo) (p : Params R) (n : Nat) (m : T.Rank → Mem Arr R) (A : Mem Arr R) : Prop :=
  ∀ r i j, interior2 (localParams T p) i j → ms2 (m r) (pingIn n) i j =
    ms2 A (pingIn n) ((T.coords r).1 * p.nx + i) ((T.coords r).2.1 * p.ny + j)

/-- the ranks hold the blocks of the serial memory `A` (3D MHD) -/
def BlocksM3 (T : Topo) (p : Params R) (n : Nat) (m : T.Rank → Mem Arr R) (A : Mem Arr R) : Prop :=
  ∀ r i j k, interior3 (localParams T p) i j k → ms (m r) (pingIn n) i j k =
    ms A (pingIn n) ((T.coords r).1 * p.nx + i) ((T.coords r).2.1 * p.ny + j) ((T.coords r).2.2 * p.nz + k)

theorem dtMhd2_in {Q : Arr} {m : Mem Arr R} (hw : p.WF) {t : Int × Int}
    (h : interior2 p t.1 t.2) (a : R) :
    ((computeDtMhd2 p Q t a).run m).1 = fmax a (cellRateM2 p (ms m Q t.1 t.2 0)) := by
  have hc : cellGuard2 p t := (cellGuard2_iff hw t.1 t.2).2 h
  unfold computeDtMhd2
  rw [if_pos hc]
  rfl

theorem dtMhd2_out {Q : Arr} {m : Mem Arr R} (hw : p.WF) {t : Int × Int}
    (h : ¬ interior2 p t.1 t.2) (a : R) : ((computeDtMhd2 p Q t a).run m).1 = a := by
  have hc : ¬ cellGuard2 p t := fun hc => h ((cellGuard2_iff hw t.1 t.2).1 hc)
  unfold computeDtMhd2
  rw [if_neg hc]
  rfl

theorem dtMhd3_in {Q : Arr} {m : Mem Arr R} (hw : p.WF) {t : Int × Int × Int}
    (h : interior3 p t.1 t.2.1 t.2.2) (a : R) :
    ((computeDtMhd3 p Q t a).run m).1 = fmax a (cellRateM3 p (ms m Q t.1 t.2.1 t.2.2)) := by
  have hc : cellGuard3 p t := (cellGuard3_int hw t).2 h
  unfold computeDtMhd3
  rw [if_pos hc]
  rfl

theorem dtMhd3_out {Q : Arr} {m : Mem Arr R} (hw : p.WF) {t : Int × Int × Int}
    (h : ¬ interior3 p t.1 t.2.1 t.2.2) (a : R) : ((computeDtMhd3 p Q t a).run m).1 = a := by
  have hc : ¬ cellGuard3 p t := fun hc => h ((cellGuard3_int hw t).1 hc)
  unfold computeDtMhd3
  rw [if_neg hc]
  rfl

theorem dt_blocksM2 (hL : MaxLaws R num sg) (hD : DivLaws R num pos p.settings.cfl) (hw : (localParams T p).WF)
    (hwg : (globalParams T p).WF) (hx : sg (localParams T p).dx) (hy : sg (localParams T p).dy)
    {ident ident' : R} (hi : num ident) (hi' : num ident')
    (hneg : ¬ pos ident) (hneg' : ¬ pos ident') {n : Nat}
    {m : T.Rank → Mem Arr R} {A : Mem Arr R}
    (hQ : ∀ r i j, interior2 (localParams T p) i j → ms2 (m r) .Q i j =
      ms2 A .Q ((T.coords r).1 * p.nx + i) ((T.coords r).2.1 * p.ny + j))
    (hg : BlocksMoveM2 pos T p n A)
    {d : R} {dl : T.Rank → R} (h : computeDtLocalMhd2 (globalParams T p) ident' A d)
    (hl : ∀ r, computeDtLocalMhd2 (localParams T p) ident (m r) (dl r)) : minOver dl = d := by
  obtain ⟨inv, h, rfl⟩ := h
  choose linv hl hdl using hl
  obtain rfl : dl = fun r => p.settings.cfl / linv r := funext hdl
  have hblk : ∀ (r : T.Rank) i j, interior2 (localParams T p) i j → interior2 (globalParams T p)
      ((T.coords r).1 * p.nx + i) ((T.coords r).2.1 * p.ny + j) := fun r i j hij => interior2_block hw T r hij
  have hcell : ∀ r i j, interior2 (localParams T p) i j → ∀ a,
      ((computeDtMhd2 (localParams T p) .Q (i, j) a).run (m r)).1 =
      ((computeDtMhd2 (globalParams T p) .Q
        ((T.coords r).1 * p.nx + i, (T.coords r).2.1 * p.ny + j) a).run A).1 := by
    intro r i j hij a
    rw [dtMhd2_in hw hij, dtMhd2_in (t := (_, _)) hwg (hblk r i j hij)]
    have e : ms (m r) .Q i j 0 = ms A .Q ((T.coords r).1 * p.nx + i) ((T.coords r).2.1 * p.ny + j) 0 := hQ r i j hij
    show fmax a (cellRateM2 _ (ms (m r) .Q i j 0)) = _
    rw [e]
    rfl
  have hrange : ∀ r i j, interior2 (localParams T p) i j →
      ((T.coords r).1 * p.nx + i, (T.coords r).2.1 * p.ny + j) ∈
        range2 (globalParams T p).isize (globalParams T p).jsize :=
    fun r i j hij => int2_range hwg (hblk r i j hij)
  refine minOver_blocks hL hD (body := computeDtMhd2 (globalParams T p) .Q)
    (lbody := computeDtMhd2 (localParams T p) .Q) (S := range2 (globalParams T p).isize (globalParams T p).jsize)
    (S' := range2 (localParams T p).isize (localParams T p).jsize) (m := m) (G := A)
    (f := fun r t => ((T.coords r).1 * p.nx + t.1, (T.coords r).2.1 * p.ny + t.2))
    (isMax_mhd2 (p := globalParams T p) hL hx hy _ A) (fun r => isMax_mhd2 hL hx hy _ (m r)) hi hi' hneg hneg'
    (fun r t _ => ?_) (fun t _ => ?_) (fun r => ?_) (T.cartRank 0 0 0) h hl
  · by_cases hij : interior2 (localParams T p) t.1 t.2
    · exact .inr ⟨hrange r _ _ hij, hcell r _ _ hij⟩
    · exact .inl (dtMhd2_out hw hij)
  · by_cases hij : interior2 (globalParams T p) t.1 t.2
    · obtain ⟨r, i, j, hl, e1, e2⟩ := block_of2 hw hij
      refine .inr ⟨r, (i, j), int2_range hw hl, fun a => (hcell r i j hl a).trans ?_⟩
      rw [e1, e2]
    · exact .inl (dtMhd2_out hwg hij)
  · obtain ⟨i, j, hij, hp⟩ := hg r
    exact ⟨(i, j), int2_range hw hij, hrange r i j hij,
      ⟨_, hp, fun a => dtMhd2_in (t := ((T.coords r).1 * p.nx + i, (T.coords r).2.1 * p.ny + j)) hwg
        (hblk r i j hij) a⟩, hcell r i j hij⟩

theorem dt_blocksM3 (hL : MaxLaws R num sg) (hD : DivLaws R num pos p.settings.cfl) (hw : (localParams T p).WF)
    (hwg : (globalParams T p).WF) (hx : sg (localParams T p).dx) (hy : sg (localParams T p).dy)
    (hz : sg (localParams T p).dz) {ident ident' : R} (hi : num ident)
    (hi' : num ident') (hneg : ¬ pos ident) (hneg' : ¬ pos ident') {n : Nat}
    {m : T.Rank → Mem Arr R} {A : Mem Arr R}
    (hQ : ∀ r i j k, interior3 (localParams T p) i j k → ms (m r) .Q i j k =
      ms A .Q ((T.coords r).1 * p.nx + i) ((T.coords r).2.1 * p.ny + j) ((T.coords r).2.2 * p.nz + k))
    (hg : BlocksMoveM3 pos T p n A)
    {d : R} {dl : T.Rank → R} (h : computeDtLocalMhd3 (globalParams T p) ident' A d)
    (hl : ∀ r, computeDtLocalMhd3 (localParams T p) ident (m r) (dl r)) : minOver dl = d := by
  obtain ⟨inv, h, rfl⟩ := h
  choose linv hl hdl using hl
  obtain rfl : dl = fun r => p.settings.cfl / linv r := funext hdl
  have hnz : 1 ≤ p.nz := hw.nz_pos
  have hblk : ∀ (r : T.Rank) i j k, interior3 (localParams T p) i j k → interior3 (globalParams T p)
      ((T.coords r).1 * p.nx + i) ((T.coords r).2.1 * p.ny + j) ((T.coords r).2.2 * p.nz + k) :=
    fun r i j k hij => interior3_block hw T r hij
  have hcell : ∀ r i j k, interior3 (localParams T p) i j k → ∀ a,
      ((computeDtMhd3 (localParams T p) .Q (i, j, k) a).run (m r)).1 =
      ((computeDtMhd3 (globalParams T p) .Q
        ((T.coords r).1 * p.nx + i, (T.coords r).2.1 * p.ny + j, (T.coords r).2.2 * p.nz + k) a).run A).1 := by
    intro r i j k hij a
    rw [dtMhd3_in hw hij, dtMhd3_in (t := (_, _, _)) hwg (hblk r i j k hij)]
    show fmax a (cellRateM3 _ (ms (m r) .Q i j k)) = _
    rw [hQ r i j k hij]
    rfl
  have hrange : ∀ r i j k, interior3 (localParams T p) i j k →
      ((T.coords r).1 * p.nx + i, (T.coords r).2.1 * p.ny + j, (T.coords r).2.2 * p.nz + k) ∈
        range3 (globalParams T p).isize (globalParams T p).jsize (globalParams T p).ksize :=
    fun r i j k hij => int3_range hwg (hblk r i j k hij)
  refine minOver_blocks hL hD (body := computeDtMhd3 (globalParams T p) .Q)
    (lbody := computeDtMhd3 (localParams T p) .Q)
    (S := range3 (globalParams T p).isize (globalParams T p).jsize (globalParams T p).ksize)
    (S' := range3 (localParams T p).isize (localParams T p).jsize (localParams T p).ksize) (m := m) (G := A)
    (f := fun r t => ((T.coords r).1 * p.nx + t.1, (T.coords r).2.1 * p.ny + t.2.1, (T.coords r).2.2 * p.nz + t.2.2))
    (isMax_mhd3 (p := globalParams T p) hL hx hy hz _ A) (fun r => isMax_mhd3 hL hx hy hz _ (m r)) hi hi' hneg hneg'
    (fun r t _ => ?_) (fun t _ => ?_) (fun r => ?_) (T.cartRank 0 0 0) h hl
  · by_cases hij : interior3 (localParams T p) t.1 t.2.1 t.2.2
    · exact .inr ⟨hrange r _ _ _ hij, hcell r _ _ _ hij⟩
    · exact .inl (dtMhd3_out hw hij)
  · by_cases hij : interior3 (globalParams T p) t.1 t.2.1 t.2.2
    · obtain ⟨r, i, j, k, hl, e1, e2, e3⟩ := block_of3 hw hnz hij
      refine .inr ⟨r, (i, j, k), int3_range hw hl, fun a => (hcell r i j k hl a).trans ?_⟩
      rw [e1, e2, e3]
    · exact .inl (dtMhd3_out hwg hij)
  · obtain ⟨i, j, k, hij, hp⟩ := hg r
    exact ⟨(i, j, k), int3_range hw hij, hrange r i j k hij,
      ⟨_, hp, fun a => dtMhd3_in (t := ((T.coords r).1 * p.nx + i, (T.coords r).2.1 * p.ny + j,
        (T.coords r).2.2 * p.nz + k)) hwg (hblk r i j k hij) a⟩, hcell r i j k hij⟩

theorem mirrors_mhd2 (hL : MaxLaws R num sg) (hD : DivLaws R num pos p.settings.cfl) (hS : SignLaws R) (hp : Mhd2 (localParams T p))
    (hwide : Wide2 (localParams T p)) (hbc : NamedBC2 T (localParams T p)) (hi : p.implementationVersion = 0)
    (hx : sg (localParams T p).dx) (hy : sg (localParams T p).dy)
    {ident ident' : R} (hid : num ident) (hid' : num ident')
    (hneg : ¬ pos ident) (hneg' : ¬ pos ident')
    (jk : T.Rank → JunkM R) (jk' : JunkM R) :
    Mirrors (mhdOps2 (globalParams T p) ident' jk') (mpiMhd2 lay T (localParams T p) ident jk)
      (BlocksM2 T p 0) (BlocksM2 T p) (BlocksMoveM2 pos T p) (ViewBlock2 T p) := by
  have hpg := mhd2_global hp hwide
  have hK : MhdOK2 (localParams T p) := mhdOK2_0 hp hi
  have hKg : MhdOK2 (globalParams T p) := mhdOK2_0 hpg hi
  have hblk : ∀ (r : T.Rank) i j, interior2 (localParams T p) i j → interior2 (globalParams T p)
      ((T.coords r).1 * p.nx + i) ((T.coords r).2.1 * p.ny + j) := fun r i j hij => interior2_block hp.wf T r hij
  refine ⟨fun m A A₁ hJ hset => ?_, fun n m A A₁ hB hpre => ?_, fun n m A hB r => ?_⟩
  · obtain ⟨s₁, b1, b2, b3, _⟩ := distStepM2 (lay := lay) hp hS hwide hbc hK (inA := .U) (outA := .U2)
      (Or.inl ⟨rfl, rfl⟩) hJ
    refine ⟨s₁, b1, fun r i j hij => ?_, fun d dl hg h hl =>
      dt_blocksM2 hL hD hp.wf hpg.wf hx hy hid hid' hneg hneg' (fun r i j hij => ?_) hg h hl⟩
    · refine ((b2 r i j (int_inGrid2 hp.wf hij)).trans (fillM2_interior _ _ (hblk r i j hij))).trans ?_
      exact (setup_mhd2 hpg hS hset _ _ (hblk r i j hij)).symm
    · exact (b3 r i j hij).trans
        (preMhd2_prim hpg hS (.inl ⟨rfl, rfl⟩) hset (fun _ _ _ => rfl) _ _ (hblk r i j hij)).symm
  · obtain ⟨s₁, b1, b2, b3, b4⟩ := distStepM2 (lay := lay) hp hS hwide hbc hK (pingPong n) hB
    refine ⟨s₁, s₁, b1, BulkRel.nil _, fun d dl hg h hl =>
      dt_blocksM2 hL hD hp.wf hpg.wf hx hy hid hid' hneg hneg' (fun r i j hij => ?_) hg h hl,
      fun dt A₂ m₂ hpost hsch r i j hij => ?_⟩
    · exact (b3 r i j hij).trans
        (preMhd2_prim hpg hS (pingPong n) hpre (fun _ _ _ => rfl) _ _ (hblk r i j hij)).symm
    · rw [← pingOut_succ, b4 r dt (jk r) _ (hsch r) i j hij]
      exact ((godunovMhd2_result hpg hS hKg (pingPong n)
        (show godunovMhd2 (globalParams T p) dt jk' (pingIn n) (pingOut n) A A₂ from ⟨A₁, hpre, hpost⟩)).2 _ _
          (hblk r i j hij)).symm
  · exact fun i j v hij hv => msM2_holds (on := interior2 (localParams T p)) hp.nbvar hB r i j v hij hv

theorem mirrors_mhd3 (hL : MaxLaws R num sg) (hD : DivLaws R num pos p.settings.cfl) (hS : SignLaws R) (hp : Mhd3 (localParams T p))
    (hwide : Wide3 (localParams T p)) (hbc : NamedBC3 T (localParams T p)) (hi : p.implementationVersion = 0)
    (hx : sg (localParams T p).dx) (hy : sg (localParams T p).dy) (hz : sg (localParams T p).dz)
    {ident ident' : R} (hid : num ident) (hid' : num ident')
    (hneg : ¬ pos ident) (hneg' : ¬ pos ident')
    (jk : T.Rank → JunkM R) (jk' : JunkM R) :
    Mirrors (mhdOps3 (globalParams T p) ident' jk') (mpiMhd3 lay T (localParams T p) ident jk)
      (BlocksM3 T p 0) (BlocksM3 T p) (BlocksMoveM3 pos T p) (ViewBlock3 T p) := by
  have hpg := mhd3_global hp hwide
  have hK : MhdOK3 (localParams T p) := mhdOK3_0 hp hi
  have hKg : MhdOK3 (globalParams T p) := mhdOK3_0 hpg hi
  have hblk : ∀ (r : T.Rank) i j k, interior3 (localParams T p) i j k → interior3 (globalParams T p)
      ((T.coords r).1 * p.nx + i) ((T.coords r).2.1 * p.ny + j) ((T.coords r).2.2 * p.nz + k) :=
    fun r i j k hij => interior3_block hp.wf T r hij
  refine ⟨fun m A A₁ hJ hset => ?_, fun n m A A₁ hB hpre => ?_, fun n m A hB r => ?_⟩
  · obtain ⟨s₁, b1, b2, b3, _⟩ := distStepM3 (lay := lay) hp hS hwide hbc hK (inA := .U) (outA := .U2)
      (Or.inl ⟨rfl, rfl⟩) hJ
    refine ⟨s₁, b1, fun r i j k hij => ?_, fun d dl hg h hl =>
      dt_blocksM3 hL hD hp.wf hpg.wf hx hy hz hid hid' hneg hneg' (fun r i j k hij => ?_) hg h hl⟩
    · refine ((b2 r i j k (int_inGrid3 hp.wf hij)).trans (fillM3_interior _ _ (hblk r i j k hij))).trans ?_
      exact (setup_mhd3 hpg hS hset _ _ _ (hblk r i j k hij)).symm
    · exact (b3 r i j k hij).trans
        (preMhd3_prim hpg hS (.inl ⟨rfl, rfl⟩) hset (fun _ _ _ _ => rfl) _ _ _ (hblk r i j k hij)).symm
  · obtain ⟨s₁, b1, b2, b3, b4⟩ := distStepM3 (lay := lay) hp hS hwide hbc hK (pingPong n) hB
    refine ⟨s₁, s₁, b1, BulkRel.nil _, fun d dl hg h hl =>
      dt_blocksM3 hL hD hp.wf hpg.wf hx hy hz hid hid' hneg hneg' (fun r i j k hij => ?_) hg h hl,
      fun dt A₂ m₂ hpost hsch r i j k hij => ?_⟩
    · exact (b3 r i j k hij).trans
        (preMhd3_prim hpg hS (pingPong n) hpre (fun _ _ _ _ => rfl) _ _ _ (hblk r i j k hij)).symm
    · rw [← pingOut_succ, b4 r dt (jk r) _ (hsch r) i j k hij]
      exact ((godunovMhd3_result hpg hS hKg (pingPong n)
        (show godunovMhd3 (globalParams T p) dt jk' (pingIn n) (pingOut n) A A₂ from ⟨A₁, hpre, hpost⟩)).2 _ _ _
          (hblk r i j k hij)).symm
  · exact fun i j k v hij hv => msM3_holds (on := interior3 (localParams T p)) hp.nbvar hB r i j k v hij hv

end EulerKokkos
