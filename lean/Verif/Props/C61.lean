import Verif.Props.C56
import Verif.Props.C57
import Verif.Props.C59
import Verif.Props.C60

/-!
# C61: the distributed MHD initial state is the serial initial state, cut into blocks

The MHD analogue of C56: every process runs the initial-condition kernels of the configured problem on its own
block.  The field loop and, in 3D, the Brio-Wu tube along `z` are exceptions; the deviations are theorems.
-/

set_option linter.constructorNameAsVariable false
set_option linter.unusedSectionVars false
set_option linter.unusedSimpArgs false

namespace EulerKokkos

open Spec Spmd
open Prog (rd wr upd pif forRange)
variable {R : Type} [RealOps R]

namespace Spec

/-- the 2D MHD problems whose initial state does not depend on the decomposition: no random perturbation, no
field loop, a Brio-Wu direction that exists in 2D -/
def Blockwise2 : MhdProblem R → Prop
  | .kelvinHelmholtz q => q.p_rand = false
  | .brioWu q => q.direction = 0 ∨ q.direction = 1
  | .fieldLoop _ => False
  | _ => True

/-- the same in 3D; the Brio-Wu tube along `z` is right if the blocks are cubic in `y`, `z` or not divided
along `z` -/
def Blockwise3 (T : Topo) (p : Params R) : MhdProblem R → Prop
  | .kelvinHelmholtz q => q.p_rand = false
  | .brioWu q => q.direction = 0 ∨ q.direction = 1 ∨ (q.direction = 2 ∧ (p.ny = p.nz ∨ T.mz = 1))
  | .fieldLoop _ => False
  | _ => True

end Spec

theorem mhdCell2_block {T : Topo} (M : MathLib R) (p : Params R) {q : MhdProblem R}
    (hq : Blockwise2 q) (rnd rnd' : Nat → R) (x y : R) :
    mhdCell2 M (localParams T p) rnd x y q = mhdCell2 M (globalParams T p) rnd' x y q := by
  cases q with
  | kelvinHelmholtz q =>
    have hs : q.p_rand = false := hq
    simp only [mhdCell2, khM2, hs]
    rfl
  | _ => rfl

theorem brioWuZ_block {T : Topo} {p : Params R} (h : p.ny = p.nz ∨ T.mz = 1) (r : T.Rank) (i j k : Int) :
    brioWuZ (localParams T p) (T.coords r) k =
      brioWuZ (globalParams T p) (0, 0, 0) (globalCell T p r i j k).2.2 := by
  have e : k + p.ny * (T.coords r).2.2 - p.ghostWidth =
      ((T.coords r).2.2 * p.nz + k) + p.ny * T.my * 0 - p.ghostWidth := by
    rcases h with h | h
    · rw [h]; ring
    · obtain ⟨_, _, z1, z2⟩ := T.coords_range r
      have : (T.coords r).2.2 = 0 := by rw [h] at z2; omega
      rw [this]; ring
  show p.zmin + _ / lit 2 + intLit (k + p.ny * (T.coords r).2.2 - p.ghostWidth) * _ = _
  rw [e]
  rfl

theorem mhdCell3_block {T : Topo} (M : MathLib R) (p : Params R) {q : MhdProblem R}
    (hq : Blockwise3 T p q) (rnd rnd' : Nat → R) (x y z zb zb' : R)
    (hz : ∀ b, q = .brioWu b → b.direction = 2 → zb = zb') :
    mhdCell3 M (localParams T p) rnd x y z zb q = mhdCell3 M (globalParams T p) rnd' x y z zb' q := by
  cases q with
  | kelvinHelmholtz q =>
    have hs : q.p_rand = false := hq
    simp only [mhdCell3, khM3, hs]
    rfl
  | brioWu q =>
    have hs : q.direction = 0 ∨ q.direction = 1 ∨ (q.direction = 2 ∧ (p.ny = p.nz ∨ T.mz = 1)) := hq
    rcases hs with h | h | h
    · simp only [mhdCell3, brioWuM3, h, if_true]
      rfl
    · simp only [mhdCell3, brioWuM3, h]
      rfl
    · rw [hz q rfl h.1]; rfl
  | _ => rfl

theorem inGrid2_of_interior {p : Params R} (hw : p.WF) {i j : Int} (h : interior2 p i j) : inGrid2 p i j := by
  obtain ⟨a, b, c, d⟩ := h
  have := hw.gw_pos
  exact ⟨by omega, by omega, by omega, by omega⟩

theorem inGrid3_of_interior {p : Params R} (hw : p.WF) {i j k : Int} (h : interior3 p i j k) :
    inGrid3 p i j k := by
  obtain ⟨⟨a, b⟩, ⟨c, d⟩, e, f⟩ := h
  have := hw.gw_pos
  exact ⟨⟨by omega, by omega⟩, ⟨by omega, by omega⟩, by omega, by omega⟩

theorem mem_range2_of_inGrid {p : Params R} (hw : p.WF) {i j : Int} (h : inGrid2 p i j) :
    (i, j) ∈ range2 p.isize p.jsize := by
  obtain ⟨a, b, c, d⟩ := h
  exact mem_range2.2 ⟨⟨a, hw.isize_eq ▸ b⟩, c, hw.jsize_eq ▸ d⟩

theorem mem_range3_of_inGrid {p : Params R} (hw : p.WF) {i j k : Int} (h : inGrid3 p i j k) :
    (i, j, k) ∈ range3 p.isize p.jsize p.ksize := by
  obtain ⟨⟨a, b⟩, ⟨c, d⟩, e, f⟩ := h
  exact mem_range3.2 ⟨⟨a, hw.isize_eq ▸ b⟩, ⟨c, hw.jsize_eq ▸ d⟩, e, hw.ksize_eq ▸ f⟩

/-- the one-cell kernel on a block and on the whole grid -/
theorem mhdInit2_block {T : Topo} {p : Params R} (hw : (localParams T p).WF) (M : MathLib R)
    {q : MhdProblem R} (hq : Blockwise2 q) {r : T.Rank} {rnd rnd' : Int → Int → Int → Nat → R}
    {m G : Mem Arr R}
    (hm : forRange (range2 (localParams T p).isize (localParams T p).jsize)
      (mhdInit2 M (localParams T p) (T.coords r) rnd q) freshMem m)
    (hG : forRange (range2 (globalParams T p).isize (globalParams T p).jsize)
      (mhdInit2 M (globalParams T p) (0, 0, 0) rnd' q) freshMem G)
    {i j : Int} (hij : inGrid2 (localParams T p) i j) (v : Nat) :
    m ⟨.U, i, j, 0, v⟩ = G ⟨.U, (globalCell T p r i j 0).1, (globalCell T p r i j 0).2.1, 0, v⟩ := by
  have he : q.EnumOk2 := by cases q <;> trivial
  rw [mhdInitK2_iff _ _ _ _ he] at hm hG
  rw [hm, hG]
  beta_reduce
  rw [if_pos ⟨rfl, mem_range2_of_inGrid hw hij, rfl⟩,
    if_pos ⟨rfl, mem_range2_of_inGrid (globalParams_wf hw T) (inGrid2_block hw r hij), rfl⟩,
    cellX_block p r i j 0, cellY_block p r i j 0, mhdCell2_block M p hq (rnd i j 0) (rnd' _ _ 0)]
  rfl

theorem mhdInit3_block {T : Topo} {p : Params R} (hw : (localParams T p).WF) (M : MathLib R)
    {q : MhdProblem R} (hq : Blockwise3 T p q) {r : T.Rank} {rnd rnd' : Int → Int → Int → Nat → R}
    {m G : Mem Arr R}
    (hm : forRange (range3 (localParams T p).isize (localParams T p).jsize (localParams T p).ksize)
      (mhdInit3 M (localParams T p) (T.coords r) rnd q) freshMem m)
    (hG : forRange (range3 (globalParams T p).isize (globalParams T p).jsize (globalParams T p).ksize)
      (mhdInit3 M (globalParams T p) (0, 0, 0) rnd' q) freshMem G)
    {i j k : Int} (hij : inGrid3 (localParams T p) i j k) (v : Nat) :
    m ⟨.U, i, j, k, v⟩ = G ⟨.U, (globalCell T p r i j k).1, (globalCell T p r i j k).2.1,
      (globalCell T p r i j k).2.2, v⟩ := by
  have he : q.EnumOk3 := by
    cases q with
    | brioWu q =>
      have hs : q.direction = 0 ∨ q.direction = 1 ∨ (q.direction = 2 ∧ (p.ny = p.nz ∨ T.mz = 1)) := hq
      show q.direction = 0 ∨ q.direction = 1 ∨ q.direction = 2
      tauto
    | _ => trivial
  have hz : ∀ b, q = .brioWu b → b.direction = 2 →
      brioWuZ (localParams T p) (T.coords r) k =
        brioWuZ (globalParams T p) (0, 0, 0) (globalCell T p r i j k).2.2 := by
    rintro b rfl hb
    have hs : b.direction = 0 ∨ b.direction = 1 ∨ (b.direction = 2 ∧ (p.ny = p.nz ∨ T.mz = 1)) := hq
    exact brioWuZ_block (by rw [hb] at hs; simpa using hs) r i j k
  rw [mhdInitK3_iff _ _ _ _ he] at hm hG
  rw [hm, hG]
  beta_reduce
  rw [if_pos ⟨rfl, mem_range3_of_inGrid hw hij⟩,
    if_pos ⟨rfl, mem_range3_of_inGrid (globalParams_wf hw T) (inGrid3_block hw r hij)⟩,
    cellX_block p r i j k, cellY_block p r i j k, cellZ_block p r i j k,
    mhdCell3_block M p hq (rnd i j k) (rnd' _ _ _) _ _ _ _ _ hz]
  rfl

/-- **C61, 2D MHD** (any arithmetic): whatever the problem — except the field loop and the randomly perturbed
shear layer — the process grid and the schedules, after `init` every process holds in its interior cells exactly
the block of the serial initial state. -/
theorem C61_initial_block_2d {T : Topo} {p : Params R} (hp : Mhd2 (localParams T p)) (M : MathLib R)
    {q : MhdProblem R} (hq : Blockwise2 q) {rnd : T.Rank → Int → Int → Int → Nat → R}
    {rnd' : Int → Int → Int → Nat → R} {m : T.Rank → Mem Arr R} {G : Mem Arr R}
    (hm : ∀ r, runLaunches (initMhd2 M (localParams T p) (T.coords r) (rnd r) q) freshMem (m r))
    (hG : runLaunches (initMhd2 M (globalParams T p) (0, 0, 0) rnd' q) freshMem G) :
    HoldsBlock2 T p .U (interior2 (localParams T p)) m G := by
  intro r i j v hij hv
  have hw := hp.wf
  have hgr := inGrid2_of_interior hw hij
  have hwG : (globalParams T p).WF := globalParams_wf hw T
  have hmr := hm r
  by_cases ho : ∃ o, q = .orszagTang o
  · obtain ⟨o, rfl⟩ := ho
    obtain ⟨m₁, a1, a2⟩ := hmr
    obtain ⟨G₁, b1, b2⟩ := hG
    have a2 : forRange (range2 (localParams T p).isize (localParams T p).jsize) (orszagEnergyM2 M (localParams T p)) m₁ (m r) := by
      simpa [Kern.seqs, Kern.seq_skip, Launch.kern] using a2
    have b2 : forRange (range2 (globalParams T p).isize (globalParams T p).jsize) (orszagEnergyM2 M (globalParams T p)) G₁ G := by
      simpa [Kern.seqs, Kern.seq_skip, Launch.kern] using b2
    have key := fun {i' j' : Int} (h : inGrid2 (localParams T p) i' j') v =>
      mhdInit2_block hw M hq (r := r) a1 b1 h v
    rw [orszagK2_iff] at a2 b2
    rw [a2, b2]
    beta_reduce
    obtain ⟨c1, c2, c3, c4⟩ := hij
    have g1 := hw.gw_pos
    have hgX := inGrid2_block hw r (i := i + 1) (j := j + 1)
      ⟨by omega, by omega, by omega, by omega⟩
    have eX : (globalCell T p r (i + 1) (j + 1) 0).1 = (globalCell T p r i j 0).1 + 1 := by
      show (T.coords r).1 * p.nx + (i + 1) = (T.coords r).1 * p.nx + i + 1
      ring
    have eY : (globalCell T p r (i + 1) (j + 1) 0).2.1 = (globalCell T p r i j 0).2.1 + 1 := by
      show (T.coords r).2.1 * p.ny + (j + 1) = (T.coords r).2.1 * p.ny + j + 1
      ring
    have eX' : (globalCell T p r (i + 1) j 0).1 = (globalCell T p r i j 0).1 + 1 := eX
    have eY' : (globalCell T p r i (j + 1) 0).2.1 = (globalCell T p r i j 0).2.1 + 1 := eY
    rw [eX, eY] at hgX
    obtain ⟨d1, d2, d3, d4⟩ := hgX
    have s1 := hw.isize_eq
    have s2 := hw.jsize_eq
    have s3 := hwG.isize_eq
    have s4 := hwG.jsize_eq
    by_cases hvp : v = IP
    · subst hvp
      rw [if_pos ⟨⟨rfl, rfl, rfl⟩, mem_range2_of_inGrid hw hgr, show i < _ by omega, show j < _ by omega⟩]
      have : orszagE2 M (localParams T p) m₁ i j =
          orszagE2 M (globalParams T p) G₁ (globalCell T p r i j 0).1 (globalCell T p r i j 0).2.1 := by
        unfold orszagE2
        rw [key hgr IU, key hgr IV, key hgr ID, key hgr IA, key hgr IB,
          key (i' := i + 1) (j' := j) ⟨by omega, by omega, by omega, by omega⟩ IA,
          key (i' := i) (j' := j + 1) ⟨by omega, by omega, by omega, by omega⟩ IB, eX', eY']
        rfl
      rw [this]
      rw [if_pos]
      exact ⟨⟨rfl, rfl, rfl⟩, mem_range2_of_inGrid hwG (inGrid2_block hw r hgr),
          show (globalCell T p r i j 0).1 < _ by omega, show (globalCell T p r i j 0).2.1 < _ by omega⟩
    · rw [if_neg (fun h => hvp h.1.2.1)]
      rw [if_neg (fun h => hvp h.1.2.1)]
      exact key hgr v
  · have hs : ∀ (pp : Params R) pos (rn : Int → Int → Int → Nat → R), initMhd2 M pp pos rn q =
        [.par (range2 pp.isize pp.jsize) (mhdInit2 M pp pos rn q)] := by
      intro pp pos rn
      cases q with
      | orszagTang o => exact absurd ⟨o, rfl⟩ ho
      | fieldLoop o => exact absurd hq (by simp [Blockwise2])
      | _ => rfl
    rw [hs] at hmr hG
    have hmr : forRange (range2 (localParams T p).isize (localParams T p).jsize) (mhdInit2 M (localParams T p) (T.coords r) (rnd r) q) freshMem (m r) := by
      simpa [runLaunches, Kern.seqs, Kern.seq_skip, Launch.kern] using hmr
    have hG : forRange (range2 (globalParams T p).isize (globalParams T p).jsize) (mhdInit2 M (globalParams T p) (0, 0, 0) rnd' q) freshMem G := by
      simpa [runLaunches, Kern.seqs, Kern.seq_skip, Launch.kern] using hG
    exact mhdInit2_block hw M hq hmr hG hgr v

/-- **C61, 3D MHD** (any arithmetic). -/
theorem C61_initial_block_3d {T : Topo} {p : Params R} (hp : Mhd3 (localParams T p)) (M : MathLib R)
    {q : MhdProblem R} (hq : Blockwise3 T p q) {rnd : T.Rank → Int → Int → Int → Nat → R}
    {rnd' : Int → Int → Int → Nat → R} {m : T.Rank → Mem Arr R} {G : Mem Arr R}
    (hm : ∀ r, runLaunches (initMhd3 M (localParams T p) (T.coords r) (rnd r) q) freshMem (m r))
    (hG : runLaunches (initMhd3 M (globalParams T p) (0, 0, 0) rnd' q) freshMem G) :
    HoldsBlock T p .U (interior3 (localParams T p)) m G := by
  intro r i j k v hij hv
  have hw := hp.wf
  have hgr := inGrid3_of_interior hw hij
  have hwG : (globalParams T p).WF := globalParams_wf hw T
  have hmr := hm r
  by_cases ho : ∃ o, q = .orszagTang o
  · obtain ⟨o, rfl⟩ := ho
    obtain ⟨m₁, a1, a2⟩ := hmr
    obtain ⟨G₁, b1, b2⟩ := hG
    have a2 : forRange (range3 (localParams T p).isize (localParams T p).jsize (localParams T p).ksize) (orszagEnergyM3 M (localParams T p)) m₁ (m r) := by
      simpa [Kern.seqs, Kern.seq_skip, Launch.kern] using a2
    have b2 : forRange (range3 (globalParams T p).isize (globalParams T p).jsize (globalParams T p).ksize) (orszagEnergyM3 M (globalParams T p)) G₁ G := by
      simpa [Kern.seqs, Kern.seq_skip, Launch.kern] using b2
    have key := fun {i' j' k' : Int} (h : inGrid3 (localParams T p) i' j' k') v =>
      mhdInit3_block hw M hq (r := r) a1 b1 h v
    rw [orszagK3_iff] at a2 b2
    rw [a2, b2]
    beta_reduce
    obtain ⟨⟨c1, c2⟩, ⟨c3, c4⟩, c5, c6⟩ := hij
    have g1 := hw.gw_pos
    have hgX := inGrid3_block hw r (i := i + 1) (j := j + 1) (k := k + 1)
      ⟨⟨by omega, by omega⟩, ⟨by omega, by omega⟩, by omega, by omega⟩
    have eX : (globalCell T p r (i + 1) (j + 1) (k + 1)).1 = (globalCell T p r i j k).1 + 1 := by
      show (T.coords r).1 * p.nx + (i + 1) = (T.coords r).1 * p.nx + i + 1
      ring
    have eY : (globalCell T p r (i + 1) (j + 1) (k + 1)).2.1 = (globalCell T p r i j k).2.1 + 1 := by
      show (T.coords r).2.1 * p.ny + (j + 1) = (T.coords r).2.1 * p.ny + j + 1
      ring
    have eZ : (globalCell T p r (i + 1) (j + 1) (k + 1)).2.2 = (globalCell T p r i j k).2.2 + 1 := by
      show (T.coords r).2.2 * p.nz + (k + 1) = (T.coords r).2.2 * p.nz + k + 1
      ring
    have eX' : (globalCell T p r (i + 1) j k).1 = (globalCell T p r i j k).1 + 1 := eX
    have eY' : (globalCell T p r i (j + 1) k).2.1 = (globalCell T p r i j k).2.1 + 1 := eY
    have eZ' : (globalCell T p r i j (k + 1)).2.2 = (globalCell T p r i j k).2.2 + 1 := eZ
    rw [eX, eY, eZ] at hgX
    obtain ⟨⟨d1, d2⟩, ⟨d3, d4⟩, d5, d6⟩ := hgX
    have s1 := hw.isize_eq
    have s2 := hw.jsize_eq
    have s2' := hw.ksize_eq
    have s3 := hwG.isize_eq
    have s4 := hwG.jsize_eq
    have s4' := hwG.ksize_eq
    by_cases hvp : v = IP
    · subst hvp
      rw [if_pos ⟨⟨rfl, rfl⟩, mem_range3_of_inGrid hw hgr, show i < _ by omega, show j < _ by omega,
        show k < _ by omega⟩]
      have : orszagE3 M (localParams T p) m₁ i j k =
          orszagE3 M (globalParams T p) G₁ (globalCell T p r i j k).1 (globalCell T p r i j k).2.1
            (globalCell T p r i j k).2.2 := by
        unfold orszagE3
        rw [key hgr IU, key hgr IV, key hgr IW, key hgr ID, key hgr IA, key hgr IB, key hgr IC,
          key (i' := i + 1) (j' := j) (k' := k) ⟨⟨by omega, by omega⟩, ⟨by omega, by omega⟩, by omega, by omega⟩ IA,
          key (i' := i) (j' := j + 1) (k' := k) ⟨⟨by omega, by omega⟩, ⟨by omega, by omega⟩, by omega, by omega⟩ IB,
          key (i' := i) (j' := j) (k' := k + 1) ⟨⟨by omega, by omega⟩, ⟨by omega, by omega⟩, by omega, by omega⟩ IC,
          eX', eY', eZ']
        rfl
      rw [this]
      rw [if_pos]
      exact ⟨⟨rfl, rfl⟩, mem_range3_of_inGrid hwG (inGrid3_block hw r hgr),
          show (globalCell T p r i j k).1 < _ by omega, show (globalCell T p r i j k).2.1 < _ by omega,
          show (globalCell T p r i j k).2.2 < _ by omega⟩
    · rw [if_neg (fun h => hvp h.1.2)]
      rw [if_neg (fun h => hvp h.1.2)]
      exact key hgr v
  · have hs : ∀ (pp : Params R) pos (rn : Int → Int → Int → Nat → R), initMhd3 M pp pos rn q =
        [.par (range3 pp.isize pp.jsize pp.ksize) (mhdInit3 M pp pos rn q)] := by
      intro pp pos rn
      cases q with
      | orszagTang o => exact absurd ⟨o, rfl⟩ ho
      | fieldLoop o => exact absurd hq (by simp [Blockwise3])
      | _ => rfl
    rw [hs] at hmr hG
    have hmr : forRange (range3 (localParams T p).isize (localParams T p).jsize (localParams T p).ksize) (mhdInit3 M (localParams T p) (T.coords r) (rnd r) q) freshMem (m r) := by
      simpa [runLaunches, Kern.seqs, Kern.seq_skip, Launch.kern] using hmr
    have hG : forRange (range3 (globalParams T p).isize (globalParams T p).jsize (globalParams T p).ksize) (mhdInit3 M (globalParams T p) (0, 0, 0) rnd' q) freshMem G := by
      simpa [runLaunches, Kern.seqs, Kern.seq_skip, Launch.kern] using hG
    exact mhdInit3_block hw M hq hmr hG hgr v

/-- **C61, whole MHD runs, 2D** (exact arithmetic, all implementation versions): the serial run starts from the
initial condition on the whole grid, the distributed run starts with every process computing the initial
condition of its own block; every execution of the latter ends with the blocks and the files of the former. -/
theorem C61_run_2d {lay : Layout} {T : Topo} {p : Params ℝ} (hp : Mhd2 (localParams T p))
    (hwide : Wide2 (localParams T p)) (hbc : NamedBC2 T (localParams T p))
    (hi : p.implementationVersion = 0 ∨ p.implementationVersion = 1 ∨ p.implementationVersion = 2)
    (hg : GoodGrid (localParams T p)) (he : p.enableOutput = decide (p.nOutput ≠ 0))
    (hlog : p.nlog ≠ 0) {ident ident' : ℝ} (hid : ident ≤ 0)
    (hid' : ident' ≤ 0) {jk : T.Rank → JunkM ℝ} {jk' : JunkM ℝ}
    (M : MathLib ℝ) {q : MhdProblem ℝ} (hq : Blockwise2 q)
    {rnd : T.Rank → Int → Int → Int → Nat → ℝ}
    {rnd' : Int → Int → Int → Nat → ℝ} {G : Mem Arr ℝ} {t : ℝ} {sv : Int} {s' : RunState ℝ}
    (hG : runLaunches (initMhd2 M (globalParams T p) (0, 0, 0) rnd' q) freshMem G)
    (hser : runMain (globalParams T p) (mhdOps2 (globalParams T p) ident' jk') G t sv s')
    {m : T.Rank → Mem Arr ℝ}
    (hm : ∀ r, runLaunches (initMhd2 M (localParams T p) (T.coords r) (rnd r) q) freshMem (m r)) :
    ∃ N, ∀ (buf : Prop) n y,
      FSteps buf (mpiMain (localParams T p) (mpiMhd2 lay T (localParams T p) ident jk)) n
        (FConfig.init (.pre 0) (fun r => startState (m r) t sv)) y →
      n ≤ N ∧
      (¬ y.Done (mpiMain (localParams T p) (mpiMhd2 lay T (localParams T p) ident jk)) →
        ∃ z, FStep False (mpiMain (localParams T p) (mpiMhd2 lay T (localParams T p) ident jk))
          y z) ∧
      (y.Done (mpiMain (localParams T p) (mpiMhd2 lay T (localParams T p) ident jk)) →
        (∀ a b tag, y.c.chan a b tag = []) ∧
        (∀ r, (y.c.st r).iteration = s'.iteration ∧ (y.c.st r).t = s'.t ∧
          (y.c.st r).times_saved = s'.times_saved ∧
          List.Forall₂ (BlockFile2 T p r) (y.c.st r).outputs s'.outputs) ∧
        HoldsBlock2 T p (pingIn s'.iteration) (interior2 (localParams T p))
          (fun r => (y.c.st r).mem) s'.mem) :=
  C60_run_2d hp hwide hbc hi hg he hlog hid hid' hser (C61_initial_block_2d hp M hq hm hG)

/-- **C61, whole MHD runs, 3D.** -/
theorem C61_run_3d {lay : Layout} {T : Topo} {p : Params ℝ} (hp : Mhd3 (localParams T p))
    (hwide : Wide3 (localParams T p)) (hbc : NamedBC3 T (localParams T p))
    (hi : p.implementationVersion = 0 ∨ p.implementationVersion = 1 ∨ p.implementationVersion = 2)
    (hg : GoodGrid (localParams T p)) (he : p.enableOutput = decide (p.nOutput ≠ 0))
    (hlog : p.nlog ≠ 0) {ident ident' : ℝ} (hid : ident ≤ 0)
    (hid' : ident' ≤ 0) {jk : T.Rank → JunkM ℝ} {jk' : JunkM ℝ}
    (M : MathLib ℝ) {q : MhdProblem ℝ} (hq : Blockwise3 T p q)
    {rnd : T.Rank → Int → Int → Int → Nat → ℝ}
    {rnd' : Int → Int → Int → Nat → ℝ} {G : Mem Arr ℝ} {t : ℝ} {sv : Int} {s' : RunState ℝ}
    (hG : runLaunches (initMhd3 M (globalParams T p) (0, 0, 0) rnd' q) freshMem G)
    (hser : runMain (globalParams T p) (mhdOps3 (globalParams T p) ident' jk') G t sv s')
    {m : T.Rank → Mem Arr ℝ}
    (hm : ∀ r, runLaunches (initMhd3 M (localParams T p) (T.coords r) (rnd r) q) freshMem (m r)) :
    ∃ N, ∀ (buf : Prop) n y,
      FSteps buf (mpiMain (localParams T p) (mpiMhd3 lay T (localParams T p) ident jk)) n
        (FConfig.init (.pre 0) (fun r => startState (m r) t sv)) y →
      n ≤ N ∧
      (¬ y.Done (mpiMain (localParams T p) (mpiMhd3 lay T (localParams T p) ident jk)) →
        ∃ z, FStep False (mpiMain (localParams T p) (mpiMhd3 lay T (localParams T p) ident jk))
          y z) ∧
      (y.Done (mpiMain (localParams T p) (mpiMhd3 lay T (localParams T p) ident jk)) →
        (∀ a b tag, y.c.chan a b tag = []) ∧
        (∀ r, (y.c.st r).iteration = s'.iteration ∧ (y.c.st r).t = s'.t ∧
          (y.c.st r).times_saved = s'.times_saved ∧
          List.Forall₂ (BlockFile3 T p r) (y.c.st r).outputs s'.outputs) ∧
        HoldsBlock T p (pingIn s'.iteration) (interior3 (localParams T p))
          (fun r => (y.c.st r).mem) s'.mem) :=
  C60_run_3d hp hwide hbc hi hg he hlog hid hid' hser (C61_initial_block_3d hp M hq hm hG)

/-! ## Deviations -/

theorem loop2_IW (M : MathLib ℝ) {p : Params ℝ} (hw : p.WF) {pos : Int × Int × Int}
    {rnd : Int → Int → Int → Nat → ℝ} {q : FieldLoopParams ℝ}
    {m : Mem Arr ℝ} (hm : runLaunches (initMhd2 M p pos rnd (.fieldLoop q)) freshMem m) {i j : Int}
    (hij : interior2 p i j) :
    m ⟨.U, i, j, 0, IW⟩ =
      (if Real.sqrt (cellX p pos i * cellX p pos i + cellY p pos j * cellY p pos j) < q.radius
        then q.density_in else 1) * q.vflow * (p.nz : ℝ) /
        Real.sqrt ((p.nx * p.nx + p.ny * p.ny + p.nz * p.nz : ℤ) : ℝ) := by
  have hin := mem_range2_of_interior hw hij
  have hgw := hw.gw_pos
  have e1 := hw.isize_eq
  have e2 := hw.jsize_eq
  obtain ⟨m₁, h1, m₂, h2, m₃, h3, h4⟩ := hm
  cases h4
  have h2 := (loopCondK2_iff p q pos _ _).1 h2
  have h3 := (loopEK2_iff p _ _).1 h3
  have hgd : loopGuard2 p (i, j) = true := by
    obtain ⟨a, b, c, d⟩ := hij
    simp only [loopGuard2, decide_eq_true_eq]
    omega
  rw [h3]
  beta_reduce
  rw [if_neg (by rintro ⟨⟨_, h, _⟩, _⟩; exact absurd (show IW = IP from h) (by decide)), h2]
  beta_reduce
  rw [if_pos ⟨⟨rfl, rfl⟩, hin, hgd⟩]
  simp [stored, loopVals2, ID, IP, IU, IV, IW, IA, IB, IC, intLit]

/-- **The 2D field loop depends on the decomposition**: as soon as the grid is divided, *every* interior cell of
*every* process starts with a `z` momentum different from the serial one (the code scales it with the diagonal of
the local block instead of the global grid). -/
theorem C61_field_loop_differs (M : MathLib ℝ) {T : Topo} {p : Params ℝ} (hw : (localParams T p).WF)
    (hz : T.mz = 1) (hxy : 1 < T.mx ∨ 1 < T.my)
    {q : FieldLoopParams ℝ} (hv : q.vflow ≠ 0) (hd : q.density_in ≠ 0)
    {rnd : T.Rank → Int → Int → Int → Nat → ℝ}
    {rnd' : Int → Int → Int → Nat → ℝ} {m : T.Rank → Mem Arr ℝ} {G : Mem Arr ℝ}
    (hm : ∀ r, runLaunches (initMhd2 M (localParams T p) (T.coords r) (rnd r) (.fieldLoop q)) freshMem (m r))
    (hG : runLaunches (initMhd2 M (globalParams T p) (0, 0, 0) rnd' (.fieldLoop q)) freshMem G)
    (r : T.Rank) {i j : Int} (hij : interior2 (localParams T p) i j) :
    m r ⟨.U, i, j, 0, IW⟩ ≠
      G ⟨.U, (globalCell T p r i j 0).1, (globalCell T p r i j 0).2.1, 0, IW⟩ := by
  have hwG : (globalParams T p).WF := globalParams_wf hw T
  rw [loop2_IW M hw (hm r) hij, loop2_IW M hwG hG (i := (globalCell T p r i j 0).1) (j := (globalCell T p r i j 0).2.1)
      (interior2_block hw T r hij),
    cellX_block p r i j 0, cellY_block p r i j 0]
  have hnx : 1 ≤ p.nx := hw.nx_pos
  have hny : 1 ≤ p.ny := hw.ny_pos
  have hnz : 1 ≤ p.nz := hw.nz_pos
  have hmx := T.hx
  have hmy := T.hy
  generalize hD : (if Real.sqrt _ < q.radius then q.density_in else (1 : ℝ)) = D
  have hD0 : D ≠ 0 := by rw [← hD]; split_ifs <;> simp [hd]
  have eD : (if Real.sqrt (cellX (globalParams T p) (0, 0, 0) (globalCell T p r i j 0).1 *
      cellX (globalParams T p) (0, 0, 0) (globalCell T p r i j 0).1 +
      cellY (globalParams T p) (0, 0, 0) (globalCell T p r i j 0).2.1 *
      cellY (globalParams T p) (0, 0, 0) (globalCell T p r i j 0).2.1) < q.radius then q.density_in else (1 : ℝ)) = D := hD
  have g1 : (globalParams T p).nz = p.nz := by
    show p.nz * T.mz = p.nz
    rw [hz]; simp
  have l1 : (localParams T p).nz = p.nz := rfl
  have l2 : (localParams T p).nx = p.nx := rfl
  have l3 : (localParams T p).ny = p.ny := rfl
  have g2 : (globalParams T p).nx = p.nx * T.mx := rfl
  have g3 : (globalParams T p).ny = p.ny * T.my := rfl
  rw [g1, g2, g3, l1, l2, l3]
  have hlt : p.nx * p.nx + p.ny * p.ny + p.nz * p.nz <
      p.nx * T.mx * (p.nx * T.mx) + p.ny * T.my * (p.ny * T.my) + p.nz * p.nz := by
    have a1 : p.nx ≤ p.nx * T.mx := by nlinarith [show (1 : ℤ) ≤ T.mx by exact_mod_cast hmx]
    have a2 : p.ny ≤ p.ny * T.my := by nlinarith [show (1 : ℤ) ≤ T.my by exact_mod_cast hmy]
    rcases hxy with h | h
    · have : p.nx < p.nx * T.mx := by nlinarith [show (2 : ℤ) ≤ T.mx by exact_mod_cast h]
      nlinarith
    · have : p.ny < p.ny * T.my := by nlinarith [show (2 : ℤ) ≤ T.my by exact_mod_cast h]
      nlinarith
  have hpos : 0 < p.nx * p.nx + p.ny * p.ny + p.nz * p.nz := by nlinarith
  have s1 : 0 < Real.sqrt ((p.nx * p.nx + p.ny * p.ny + p.nz * p.nz : ℤ) : ℝ) :=
    Real.sqrt_pos.2 (by exact_mod_cast hpos)
  have s2 := Real.sqrt_lt_sqrt (by exact_mod_cast hpos.le : (0 : ℝ) ≤
    ((p.nx * p.nx + p.ny * p.ny + p.nz * p.nz : ℤ) : ℝ)) (Int.cast_lt.2 hlt)
  have hN : D * q.vflow * (p.nz : ℝ) ≠ 0 :=
    mul_ne_zero (mul_ne_zero hD0 hv) (by exact_mod_cast (show p.nz ≠ 0 by omega))
  intro h
  rw [div_eq_div_iff s1.ne' (s1.trans s2).ne'] at h
  exact absurd (mul_left_cancel₀ hN h) s2.ne'

/-- **The 3D Brio-Wu tube along `z` depends on the decomposition**: a process at position `c` along `z` sets up
the tube at a height wrong by `(ny - nz) * c` cells — the cell at global height `z` gets the left density exactly
if `z + (ny - nz) * c * dz` is left of the jump.  In the serial build it gets it exactly if `z` is. -/
theorem C61_brio_wu_z (M : MathLib ℝ) {T : Topo} {p : Params ℝ} (hw : (localParams T p).WF)
    {q : BrioWuParams ℝ} (hq : q.direction = 2)
    {rnd : T.Rank → Int → Int → Int → Nat → ℝ}
    {rnd' : Int → Int → Int → Nat → ℝ} {m : T.Rank → Mem Arr ℝ} {G : Mem Arr ℝ}
    (hm : ∀ r, runLaunches (initMhd3 M (localParams T p) (T.coords r) (rnd r) (.brioWu q)) freshMem (m r))
    (hG : runLaunches (initMhd3 M (globalParams T p) (0, 0, 0) rnd' (.brioWu q)) freshMem G)
    (r : T.Rank) {i j k : Int} (hij : interior3 (localParams T p) i j k) :
    let z := (globalParams T p).zmin +
      ((globalCell T p r i j k).2.2 - p.ghostWidth + 1 / 2) * (globalParams T p).dz
    G ⟨.U, (globalCell T p r i j k).1, (globalCell T p r i j k).2.1, (globalCell T p r i j k).2.2, ID⟩ =
      (if z ≤ q.xd then q.rhoL else q.rhoR) ∧
    m r ⟨.U, i, j, k, ID⟩ =
      (if z + (p.ny - p.nz) * (T.coords r).2.2 * (globalParams T p).dz ≤ q.xd then q.rhoL else q.rhoR) := by
  intro z
  have hwG : (globalParams T p).WF := globalParams_wf hw T
  have hdir : DirectionOk3 (MhdProblem.brioWu q) := by
    show q.direction = 0 ∨ q.direction = 1 ∨ q.direction = 2
    exact Or.inr (Or.inr hq)
  rw [initMhd3_field M hwG hdir (by simp) hG (i := (globalCell T p r i j k).1)
      (j := (globalCell T p r i j k).2.1) (k := (globalCell T p r i j k).2.2)
      (interior3_block hw T r hij) (by decide),
    initMhd3_field M hw hdir (by simp) (hm r) hij (by decide)]
  have e1 : brioWuZ (globalParams T p) (0, 0, 0) (globalCell T p r i j k).2.2 = z := by
    show (globalParams T p).zmin + (globalParams T p).dz / lit 2 +
      intLit ((globalCell T p r i j k).2.2 + (globalParams T p).ny * 0 - p.ghostWidth) * (globalParams T p).dz = _
    simp only [z, intLit, RealOps.lit_real]
    push_cast
    ring
  have e2 : brioWuZ (localParams T p) (T.coords r) k =
      z + (p.ny - p.nz) * (T.coords r).2.2 * (globalParams T p).dz := by
    have hk : (globalCell T p r i j k).2.2 = (T.coords r).2.2 * p.nz + k := rfl
    show (globalParams T p).zmin + (globalParams T p).dz / lit 2 +
      intLit (k + p.ny * (T.coords r).2.2 - p.ghostWidth) * (globalParams T p).dz = _
    simp only [z, intLit, RealOps.lit_real, hk]
    push_cast
    ring
  constructor
  · rw [e1]
    simp [stored, mhdCell3, brioWuM3, hq, ID, IP, IU, IV, IW, IA, IB, IC]
  · rw [e2]
    simp [stored, mhdCell3, brioWuM3, hq, ID, IP, IU, IV, IW, IA, IB, IC]

/-- Orszag-Tang on six processes: the initial states exist, the run completes, and it is the serial run. -/
example (M : MathLib ℝ) (q : OrszagTangParams ℝ) (jk : topo321.Rank → JunkM ℝ) (jk' : JunkM ℝ)
    (rnd : topo321.Rank → Int → Int → Int → Nat → ℝ) (rnd' : Int → Int → Int → Nat → ℝ) :
    let p := sampleM .dirichlet .periodic 1
    Blockwise2 (.orszagTang q) ∧
    ∃ (m : topo321.Rank → Mem Arr ℝ) (G : Mem Arr ℝ),
    (∀ r, runLaunches (initMhd2 M (localParams topo321 p) (topo321.coords r) (rnd r) (.orszagTang q))
      freshMem (m r)) ∧
    runLaunches (initMhd2 M (globalParams topo321 p) (0, 0, 0) rnd' (.orszagTang q)) freshMem G ∧
    ∃ s', runMain (globalParams topo321 p) (mhdOps2 (globalParams topo321 p) (-1) jk') G 0 0 s' ∧
      ∃ n y,
        FSteps False (mpiMain (localParams topo321 p)
          (mpiMhd2 .left topo321 (localParams topo321 p) (-1) jk)) n
          (FConfig.init (.pre 0) (fun r => startState (m r) 0 0)) y ∧
        y.Done (mpiMain (localParams topo321 p)
          (mpiMhd2 .left topo321 (localParams topo321 p) (-1) jk)) ∧
        ∀ r, (y.c.st r).t = s'.t := by
  intro p
  have hd : DirectionOk2 (MhdProblem.orszagTang q) := trivial
  choose m hm _ using fun r => C57_init_unique_mhd_2d M (localParams topo321 p) (topo321.coords r) (rnd r) hd
    freshMem
  obtain ⟨G, hG, _⟩ := C57_init_unique_mhd_2d M (globalParams topo321 p) (0, 0, 0) rnd' hd freshMem
  exact ⟨trivial, m, G, hm, hG, sample_mpi_mhd2 (Or.inl rfl) G jk jk'
    (C61_initial_block_2d (sampleM_local2 _) M (q := .orszagTang q) trivial hm hG)⟩

-- six ranks divide the grid, so the field loop differs there
example : topo321.mz = 1 ∧ 1 < topo321.mx := by decide

end EulerKokkos
