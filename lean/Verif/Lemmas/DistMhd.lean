import Verif.Model.MpiMhd
import Verif.Lemmas.MhdDriver
import Verif.Props.C11

/-!
# Distributed MHD steps
-/

set_option linter.constructorNameAsVariable false
set_option linter.unusedSectionVars false
set_option linter.unusedSimpArgs false

namespace EulerKokkos
open Spec Spmd Prog

variable {R : Type} [RealOps R]

theorem mhd2_global {T : Topo} {p : Params R} (hp : Mhd2 (localParams T p))
    (hwide : Wide2 (localParams T p)) : Mhd2 (globalParams T p) :=
  ⟨globalParams_wf hp.wf T, hp.gw, hp.nbvar, ⟨hp.valid.slope, hp.valid.riemann⟩,
    globalParams_faces2 hp.wf hwide T⟩

theorem mhd3_global {T : Topo} {p : Params R} (hp : Mhd3 (localParams T p))
    (hwide : Wide3 (localParams T p)) : Mhd3 (globalParams T p) :=
  ⟨globalParams_wf hp.wf T, hp.gw, hp.nbvar, ⟨hp.valid.slope, hp.valid.riemann⟩,
    globalParams_faces3 hp.wf hwide T⟩

theorem stepM2_block {T : Topo} {p : Params R} {dt : R} {u : FldM2 R} {X Y i j : Int}
    (h1 : interior2 (localParams T p) i j) (h2 : interior2 (globalParams T p) (X + i) (Y + j)) :
    stepM2 (globalParams T p) dt u (X + i) (Y + j) =
      stepM2 (localParams T p) dt (fun a b => u (X + a) (Y + b)) i j := by
  have ht : ∀ a b, tracesM2 (localParams T p) dt (fun a b => u (X + a) (Y + b)) a b =
      tracesM2 (globalParams T p) dt u (X + a) (Y + b) := by
    intro a b
    have := tracesM2_shift (localParams T p) dt u X Y a b
    simp only [add_comm _ X, add_comm _ Y] at this
    exact this
  unfold stepM2
  rw [if_pos h1, if_pos h2]
  simp only [ctUpdate2, fluxUpdateM2, fluxXM2, fluxYM2, emfM2, ht, add_assoc, add_sub_assoc]
  rfl

theorem stepM3_block {T : Topo} {p : Params R} {dt : R} {u : FldM3 R} {X Y Z i j k : Int}
    (h1 : interior3 (localParams T p) i j k)
    (h2 : interior3 (globalParams T p) (X + i) (Y + j) (Z + k)) :
    stepM3 (globalParams T p) dt u (X + i) (Y + j) (Z + k) =
      stepM3 (localParams T p) dt (fun a b c => u (X + a) (Y + b) (Z + c)) i j k := by
  have hs : ∀ a b c,
      ((schemeM3 (localParams T p) dt (fun a b c => u (X + a) (Y + b) (Z + c))).x a b c =
        (schemeM3 (globalParams T p) dt u).x (X + a) (Y + b) (Z + c)) ∧
      ((schemeM3 (localParams T p) dt (fun a b c => u (X + a) (Y + b) (Z + c))).y a b c =
        (schemeM3 (globalParams T p) dt u).y (X + a) (Y + b) (Z + c)) ∧
      ((schemeM3 (localParams T p) dt (fun a b c => u (X + a) (Y + b) (Z + c))).z a b c =
        (schemeM3 (globalParams T p) dt u).z (X + a) (Y + b) (Z + c)) ∧
      ∀ d, ((schemeM3 (localParams T p) dt (fun a b c => u (X + a) (Y + b) (Z + c))).e d a b c =
        (schemeM3 (globalParams T p) dt u).e d (X + a) (Y + b) (Z + c)) := by
    intro a b c
    have := schemeM3_shift (localParams T p) dt u X Y Z a b c
    unfold shiftM3 at this
    simp only [add_comm _ X, add_comm _ Y, add_comm _ Z] at this
    exact this
  unfold stepM3 stepOfM3
  rw [if_pos h1, if_pos h2]
  simp only [ctUpdate3, fluxUpdateM3, (hs _ _ _).1, (hs _ _ _).2.1, (hs _ _ _).2.2.1,
    (hs _ _ _).2.2.2, add_assoc, add_sub_assoc]
  rfl

theorem primMhd2_result {p : Params R} {inA outA : Arr} (hpp : PingPong inA outA) {m m' : Mem Arr R}
    (hm : runLaunches (primMhd2 p inA outA) m m') :
    ms2 m' inA = ms2 m inA ∧ ms2 m' outA = ms2 m' inA ∧
    (∀ i j, 0 ≤ i → i < p.isize - 1 → 0 ≤ j → j < p.jsize - 1 →
      ms2 m' .Q i j = primM2 p (ms2 m' inA) i j) := by
  obtain ⟨v1, v2⟩ := nvM2_ping hpp
  have n1 : inA ≠ .Q := by rcases hpp with ⟨rfl, rfl⟩ | ⟨rfl, rfl⟩ <;> decide
  have n2 : outA ≠ .Q := by rcases hpp with ⟨rfl, rfl⟩ | ⟨rfl, rfl⟩ <;> decide
  have n3 : inA ≠ outA := by rcases hpp with ⟨rfl, rfl⟩ | ⟨rfl, rfl⟩ <;> decide
  obtain ⟨m5, k5, m6, k6, rfl⟩ := hm
  have c1 : ms2 m5 outA = ms2 m inA := by
    funext i j; unfold ms2; rw [deepCopy_ms k5]
  have c0 : SameOff (· = outA) m m5 := (deepCopy_result k5).1
  obtain ⟨d1, d2⟩ := convertMhd2_result v1 n1 k6
  have e1 : ms2 m' inA = ms2 m inA := (d1.ms2 (by simpa using n1)).trans (c0.ms2 n3)
  have e2 : ms2 m' outA = ms2 m inA := (d1.ms2 (by simpa using n2)).trans c1
  refine ⟨e1, by rw [e1, e2], ?_⟩
  rw [e1, ← c0.ms2 n3]; exact d2

theorem primMhd3_result {p : Params R} {inA outA : Arr} (hpp : PingPong inA outA) {m m' : Mem Arr R}
    (hm : runLaunches (primMhd3 p inA outA) m m') :
    ms m' inA = ms m inA ∧ ms m' outA = ms m' inA ∧ PrimOf3 p (ms m' .Q) (ms m' inA) := by
  obtain ⟨v1, v2⟩ := nvM3_ping hpp
  have n1 : inA ≠ .Q := by rcases hpp with ⟨rfl, rfl⟩ | ⟨rfl, rfl⟩ <;> decide
  have n2 : outA ≠ .Q := by rcases hpp with ⟨rfl, rfl⟩ | ⟨rfl, rfl⟩ <;> decide
  have n3 : inA ≠ outA := by rcases hpp with ⟨rfl, rfl⟩ | ⟨rfl, rfl⟩ <;> decide
  obtain ⟨m5, k5, m6, k6, rfl⟩ := hm
  have c1 : ms m5 outA = ms m inA := by
    funext i j k; rw [deepCopy_ms k5]
  have c0 : SameOff (· = outA) m m5 := (deepCopy_result k5).1
  obtain ⟨d1, d2⟩ := convertMhd3_result v1 n1 k6
  have e1 : ms m' inA = ms m inA := (d1.ms (by simpa using n1)).trans (c0.ms n3)
  have e2 : ms m' outA = ms m inA := (d1.ms (by simpa using n2)).trans c1
  refine ⟨e1, by rw [e1, e2], ?_⟩
  rw [e1, ← c0.ms n3]; exact d2

theorem det_primMhd2 {p : Params R} (hw : p.WF) (hf : Faces2Ok p) {inA outA : Arr}
    (hpp : PingPong inA outA) : Deterministic (runLaunches (primMhd2 p inA outA)) :=
  det_runLaunches fun L hL => det_preMhd2 hw hf hpp L (by
    simp only [primMhd2, preMhd2, List.mem_cons, List.not_mem_nil, or_false] at hL ⊢
    tauto)

theorem det_primMhd3 {p : Params R} (hw : p.WF) (hf : Faces3Ok p) {inA outA : Arr}
    (hpp : PingPong inA outA) : Deterministic (runLaunches (primMhd3 p inA outA)) :=
  det_runLaunches fun L hL => det_preMhd3 hw hf hpp L (by
    simp only [primMhd3, preMhd3, List.mem_cons, List.not_mem_nil, or_false] at hL ⊢
    tauto)

/-- **One distributed MHD step on fields (2D).**  Before `compute_dt` every rank holds the block of the filled
global field, its copy, and the primitive variables; after it, the block of the next field. -/
theorem distStepM2 {lay : Layout} {T : Topo} {p : Params R} (hp : Mhd2 (localParams T p))
    (hS : SignLaws R) (hwide : Wide2 (localParams T p)) (hbc : NamedBC2 T (localParams T p))
    (hK : MhdOK2 (localParams T p)) {inA outA : Arr}
    (hpp : PingPong inA outA) {s : T.Rank → Mem Arr R} {u : FldM2 R}
    (hu : ∀ r i j, interior2 (localParams T p) i j → ms2 (s r) inA i j = u ((T.coords r).1 * p.nx + i) ((T.coords r).2.1 * p.ny + j)) :
    ∃ s₁, BulkRel (preMpiMhd2 lay T (localParams T p) inA outA) s s₁ ∧
      (∀ r i j, inGrid2 (localParams T p) i j → ms2 (s₁ r) inA i j = fillM2 (globalParams T p) u ((T.coords r).1 * p.nx + i) ((T.coords r).2.1 * p.ny + j)) ∧
      (∀ r i j, interior2 (localParams T p) i j → ms2 (s₁ r) .Q i j =
        primM2 (globalParams T p) (fillM2 (globalParams T p) u) ((T.coords r).1 * p.nx + i) ((T.coords r).2.1 * p.ny + j)) ∧
      ∀ r dt jk m', runLaunches (postMhd2 (localParams T p) dt jk inA outA) (s₁ r) m' →
        ∀ i j, interior2 (localParams T p) i j → ms2 m' outA i j =
          fullStepM2 (globalParams T p) dt u ((T.coords r).1 * p.nx + i) ((T.coords r).2.1 * p.ny + j) := by
  have hU : NotBuf inA := by
    rcases hpp with ⟨rfl, rfl⟩ | ⟨rfl, rfl⟩ <;> exact fun f => ⟨by simp, by simp⟩
  obtain ⟨s₀, hb, h⟩ := halo2 (lay := lay) (mhd := true) hp.wf hS hU hwide hbc s
  have hv := hp.nbvar
  have hfill : ∀ r i j, inGrid2 (localParams T p) i j → ms2 (s₀ r) inA i j =
      fillM2 (globalParams T p) u ((T.coords r).1 * p.nx + i) ((T.coords r).2.1 * p.ny + j) := by
    intro r i j hij
    have e := fun v (hv8 : v < 8) => (h r).2 (fun a b v => (u a b).get v) (by
      intro r' i j v hij hv
      have hv' : v = ID ∨ v = IP ∨ v = IU ∨ v = IV ∨ v = IW ∨ v = IA ∨ v = IB ∨ v = IC := by
        simp only [ID, IP, IU, IV, IW, IA, IB, IC]; omega
      have := hu r' i j hij
      have e2 : (ms2 (s r') inA i j).get v = (u ((T.coords r').1 * p.nx + i) ((T.coords r').2.1 * p.ny + j)).get v := by rw [this]
      show _ = (u ((T.coords r').1 * p.nx + i) ((T.coords r').2.1 * p.ny + j)).get v
      rw [← e2]
      rcases hv' with rfl | rfl | rfl | rfl | rfl | rfl | rfl | rfl <;>
        simp [ms2, ms, MS.get, ID, IP, IU, IV, IW, IA, IB, IC]) i j v hij (by omega)
    unfold ms2 ms fillM2
    rw [e ID (by decide), e IP (by decide), e IU (by decide), e IV (by decide), e IW (by decide),
      e IA (by decide), e IB (by decide), e IC (by decide)]
    rfl
  choose s₁ k1 k2 using fun r => det_primMhd2 hp.wf hp.faces hpp (s₀ r)
  have hq := fun r => primMhd2_result hpp (k1 r)
  have hfill1 : ∀ r i j, inGrid2 (localParams T p) i j → ms2 (s₁ r) inA i j =
      fillM2 (globalParams T p) u ((T.coords r).1 * p.nx + i) ((T.coords r).2.1 * p.ny + j) := by
    intro r i j hij
    rw [(hq r).1]; exact hfill r i j hij
  have hI := hp.wf.isize_eq
  have hJ := hp.wf.jsize_eq
  have _ := hI
  have hgw := hp.gw
  refine ⟨s₁, hb.append (BulkRel.loc fun r s' => ⟨fun h => k2 r s' h, fun h => h ▸ k1 r⟩), hfill1,
    fun r i j hij => ?_, fun r dt jk m' hm i j hij => ?_⟩
  · obtain ⟨a1, a2, a3, a4⟩ := hij
    rw [(hq r).2.2 i j (by omega) (by omega) (by omega) (by omega)]
    have : primM2 (globalParams T p) (fillM2 (globalParams T p) u) ((T.coords r).1 * p.nx + i) ((T.coords r).2.1 * p.ny + j) =
        primM2 (localParams T p) (fun a b => fillM2 (globalParams T p) u ((T.coords r).1 * p.nx + a) ((T.coords r).2.1 * p.ny + b)) i j := by
      simp only [primM2, add_assoc]; rfl
    rw [this]
    exact primM2_congr (fun a b h1 h2 h3 h4 => hfill1 r a b ⟨by omega, by omega, by omega, by omega⟩)
  · rw [(hK dt jk inA outA hpp (s₁ r) m' (hq r).2.2 (hq r).2.1 hm).2 i j hij]
    unfold fullStepM2
    have hblk := interior2_block hp.wf T r hij
    refine Eq.trans ?_ (stepM2_block hij hblk).symm
    exact stepM2_interior_congr hp (fun a b hab => hfill1 r a b hab) i j hij

/-- **One distributed MHD step on fields (3D).**  Before `compute_dt` every rank holds the block of the filled
global field, its copy, and the primitive variables; after it, the block of the next field. -/
theorem distStepM3 {lay : Layout} {T : Topo} {p : Params R} (hp : Mhd3 (localParams T p))
    (hS : SignLaws R) (hwide : Wide3 (localParams T p)) (hbc : NamedBC3 T (localParams T p))
    (hK : MhdOK3 (localParams T p)) {inA outA : Arr}
    (hpp : PingPong inA outA) {s : T.Rank → Mem Arr R} {u : FldM3 R}
    (hu : ∀ r i j k, interior3 (localParams T p) i j k → ms (s r) inA i j k = u ((T.coords r).1 * p.nx + i) ((T.coords r).2.1 * p.ny + j) ((T.coords r).2.2 * p.nz + k)) :
    ∃ s₁, BulkRel (preMpiMhd3 lay T (localParams T p) inA outA) s s₁ ∧
      (∀ r i j k, inGrid3 (localParams T p) i j k → ms (s₁ r) inA i j k = fillM3 (globalParams T p) u ((T.coords r).1 * p.nx + i) ((T.coords r).2.1 * p.ny + j) ((T.coords r).2.2 * p.nz + k)) ∧
      (∀ r i j k, interior3 (localParams T p) i j k → ms (s₁ r) .Q i j k =
        primM3 (globalParams T p) (fillM3 (globalParams T p) u) ((T.coords r).1 * p.nx + i) ((T.coords r).2.1 * p.ny + j) ((T.coords r).2.2 * p.nz + k)) ∧
      ∀ r dt jk m', runLaunches (postMhd3 (localParams T p) dt jk inA outA) (s₁ r) m' →
        ∀ i j k, interior3 (localParams T p) i j k → ms m' outA i j k =
          fullStepM3 (globalParams T p) dt u ((T.coords r).1 * p.nx + i) ((T.coords r).2.1 * p.ny + j) ((T.coords r).2.2 * p.nz + k) := by
  have hU : NotBuf inA := by
    rcases hpp with ⟨rfl, rfl⟩ | ⟨rfl, rfl⟩ <;> exact fun f => ⟨by simp, by simp⟩
  obtain ⟨s₀, hb, h⟩ := halo3 (lay := lay) (mhd := true) hp.wf hS hU hwide hbc s
  have hv := hp.nbvar
  have hfill : ∀ r i j k, inGrid3 (localParams T p) i j k → ms (s₀ r) inA i j k =
      fillM3 (globalParams T p) u ((T.coords r).1 * p.nx + i) ((T.coords r).2.1 * p.ny + j) ((T.coords r).2.2 * p.nz + k) := by
    intro r i j k hij
    have e := fun v (hv8 : v < 8) => (h r).2 (fun a b c v => (u a b c).get v) (by
      intro r' i j k v hij hv
      have hv' : v = ID ∨ v = IP ∨ v = IU ∨ v = IV ∨ v = IW ∨ v = IA ∨ v = IB ∨ v = IC := by
        simp only [ID, IP, IU, IV, IW, IA, IB, IC]; omega
      have := hu r' i j k hij
      have e2 : (ms (s r') inA i j k).get v = (u ((T.coords r').1 * p.nx + i) ((T.coords r').2.1 * p.ny + j) ((T.coords r').2.2 * p.nz + k)).get v := by rw [this]
      show _ = (u ((T.coords r').1 * p.nx + i) ((T.coords r').2.1 * p.ny + j) ((T.coords r').2.2 * p.nz + k)).get v
      rw [← e2]
      rcases hv' with rfl | rfl | rfl | rfl | rfl | rfl | rfl | rfl <;>
        simp [ms, MS.get, ID, IP, IU, IV, IW, IA, IB, IC]) i j k v hij (by omega)
    unfold ms fillM3
    rw [e ID (by decide), e IP (by decide), e IU (by decide), e IV (by decide), e IW (by decide),
      e IA (by decide), e IB (by decide), e IC (by decide)]
    rfl
  choose s₁ k1 k2 using fun r => det_primMhd3 hp.wf hp.faces hpp (s₀ r)
  have hq := fun r => primMhd3_result hpp (k1 r)
  have hfill1 : ∀ r i j k, inGrid3 (localParams T p) i j k → ms (s₁ r) inA i j k =
      fillM3 (globalParams T p) u ((T.coords r).1 * p.nx + i) ((T.coords r).2.1 * p.ny + j) ((T.coords r).2.2 * p.nz + k) := by
    intro r i j k hij
    rw [(hq r).1]; exact hfill r i j k hij
  have hI := hp.wf.isize_eq
  have hJ := hp.wf.jsize_eq
  have hKK := hp.wf.ksize_eq
  have hgw := hp.gw
  refine ⟨s₁, hb.append (BulkRel.loc fun r s' => ⟨fun h => k2 r s' h, fun h => h ▸ k1 r⟩), hfill1,
    fun r i j k hij => ?_, fun r dt jk m' hm i j k hij => ?_⟩
  · obtain ⟨⟨a1, a2⟩, ⟨a3, a4⟩, a5, a6⟩ := hij
    rw [(hq r).2.2 i j k (by omega) (by omega) (by omega) (by omega) (by omega) (by omega)]
    have : primM3 (globalParams T p) (fillM3 (globalParams T p) u) ((T.coords r).1 * p.nx + i) ((T.coords r).2.1 * p.ny + j) ((T.coords r).2.2 * p.nz + k) =
        primM3 (localParams T p) (fun a b c => fillM3 (globalParams T p) u ((T.coords r).1 * p.nx + a) ((T.coords r).2.1 * p.ny + b) ((T.coords r).2.2 * p.nz + c)) i j k := by
      simp only [primM3, add_assoc]; rfl
    rw [this]
    exact primM3_congr (fun a b c h1 h2 h3 h4 h5 h6 => hfill1 r a b c ⟨⟨by omega, by omega⟩, ⟨by omega, by omega⟩, by omega, by omega⟩)
  · rw [(hK dt jk inA outA hpp (s₁ r) m' (hq r).2.2 (hq r).2.1 hm).2 i j k]
    unfold fullStepM3
    have hblk := interior3_block hp.wf T r hij
    refine Eq.trans ?_ (stepM3_block hij hblk).symm
    exact stepM3_interior_congr hp (fun a b c hab => hfill1 r a b c hab) i j k hij

end EulerKokkos
