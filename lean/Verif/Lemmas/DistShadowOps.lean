import Verif.Lemmas.DistShadow
import Verif.Lemmas.FloatDiv
import Verif.Spec.DtRate
import Verif.Props.C11

/-!
# The four MPI solvers shadow the serial ones: hydro
-/

set_option linter.constructorNameAsVariable false
set_option linter.unusedSectionVars false
set_option linter.unusedSimpArgs false

namespace EulerKokkos
open Spec Spmd Prog

variable {R : Type} [RealOps R] {num sg pos : R → Prop} {T : Topo} {p : Params R} {lay : Layout}

namespace Spec

/-- in the block of every process some cell requires a positive, finite rate: no process would be left without a time
step of its own (2D) -/
def BlocksMove2 (pos : R → Prop) (T : Topo) (p : Params R) (g : GravityParams) (n : Nat) (A : Mem Arr R) : Prop :=
  ∀ r : T.Rank, ∃ i j, interior2 (localParams T p) i j ∧ pos (cellRate2 (globalParams T p) g
    (hs2 A (pingIn n) ((T.coords r).1 * p.nx + i) ((T.coords r).2.1 * p.ny + j))
    (gravOf A .grav ((T.coords r).1 * p.nx + i) ((T.coords r).2.1 * p.ny + j)))

/-- the same in 3D -/
def BlocksMove3 (pos : R → Prop) (T : Topo) (p : Params R) (g : GravityParams) (n : Nat) (A : Mem Arr R) : Prop :=
  ∀ r : T.Rank, ∃ i j k, interior3 (localParams T p) i j k ∧ pos (cellRate3 (globalParams T p) g
    (hs3 A (pingIn n) ((T.coords r).1 * p.nx + i) ((T.coords r).2.1 * p.ny + j) ((T.coords r).2.2 * p.nz + k))
    (gravOf3 A .grav ((T.coords r).1 * p.nx + i) ((T.coords r).2.1 * p.ny + j) ((T.coords r).2.2 * p.nz + k)))

end Spec

/-- the ranks hold the blocks of the serial memory `A` -/
def Blocks2 (T : Topo) (p : Params R) (g : GravityParams) (n : Nat) (m : T.Rank → Mem Arr R) (A : Mem Arr R) : Prop :=
  (∀ r i j, interior2 (localParams T p) i j → hs2 (m r) (pingIn n) i j =
    hs2 A (pingIn n) ((T.coords r).1 * p.nx + i) ((T.coords r).2.1 * p.ny + j)) ∧
  (g.enabled = true → ∀ r i j, inGrid2 (localParams T p) i j → gravOf (m r) .grav i j =
    gravOf A .grav ((T.coords r).1 * p.nx + i) ((T.coords r).2.1 * p.ny + j))

/-- the ranks hold the blocks of the serial memory `A` (3D) -/
def Blocks3 (T : Topo) (p : Params R) (g : GravityParams) (n : Nat) (m : T.Rank → Mem Arr R) (A : Mem Arr R) : Prop :=
  (∀ r i j k, interior3 (localParams T p) i j k → hs3 (m r) (pingIn n) i j k =
    hs3 A (pingIn n) ((T.coords r).1 * p.nx + i) ((T.coords r).2.1 * p.ny + j) ((T.coords r).2.2 * p.nz + k)) ∧
  (g.enabled = true → ∀ r i j k, inGrid3 (localParams T p) i j k → gravOf3 (m r) .grav i j k =
    gravOf3 A .grav ((T.coords r).1 * p.nx + i) ((T.coords r).2.1 * p.ny + j) ((T.coords r).2.2 * p.nz + k))

/-- file contents: the block of the serial contents -/
def ViewBlock2 (T : Topo) (p : Params R) (r : T.Rank) (o g : Loc Unit → R) : Prop :=
  ∀ i j v, interior2 (localParams T p) i j → v < p.nbvar → o ⟨(), i, j, 0, v⟩ =
    g ⟨(), (globalCell T p r i j 0).1, (globalCell T p r i j 0).2.1, 0, v⟩

/-- file contents: the block of the serial contents (3D) -/
def ViewBlock3 (T : Topo) (p : Params R) (r : T.Rank) (o g : Loc Unit → R) : Prop :=
  ∀ i j k v, interior3 (localParams T p) i j k → v < p.nbvar → o ⟨(), i, j, k, v⟩ =
    g ⟨(), (globalCell T p r i j k).1, (globalCell T p r i j k).2.1, (globalCell T p r i j k).2.2, v⟩

/-! ### The reductions -/

/-- the kernel launched by `compute_dt_local` -/
def dtBody2 (p : Params R) (g : GravityParams) (U : Arr) : Int × Int → R → Prog Arr R R :=
  if g.enabled then computeDtGravity2 p p.settings.cfl .grav U else computeDt2 p U

/-- the kernel launched by `compute_dt_local` (3D) -/
def dtBody3 (p : Params R) (g : GravityParams) (U : Arr) : Int × Int × Int → R → Prog Arr R R :=
  if g.enabled then computeDtGravity3 p p.settings.cfl .grav U else computeDt3 p U

theorem dtBody2_in {g : GravityParams} {U : Arr} {m : Mem Arr R} (hw : p.WF) {t : Int × Int}
    (h : interior2 p t.1 t.2) (a : R) :
    ((dtBody2 p g U t a).run m).1 = fmax a (cellRate2 p g (hs2 m U t.1 t.2) (gravOf m .grav t.1 t.2)) := by
  have hc : cellGuard2 p t := (cellGuard2_iff hw t.1 t.2).2 h
  unfold dtBody2 cellRate2
  split_ifs
  · unfold computeDtGravity2
    dsimp only
    rw [if_pos hc]
    rfl
  · unfold computeDt2
    rw [if_pos hc]
    rfl

theorem dtBody2_out {g : GravityParams} {U : Arr} {m : Mem Arr R} (hw : p.WF) {t : Int × Int}
    (h : ¬ interior2 p t.1 t.2) (a : R) : ((dtBody2 p g U t a).run m).1 = a := by
  have hc : ¬ cellGuard2 p t := fun hc => h ((cellGuard2_iff hw t.1 t.2).1 hc)
  unfold dtBody2
  split_ifs
  · unfold computeDtGravity2
    dsimp only
    rw [if_neg hc]
    rfl
  · unfold computeDt2
    rw [if_neg hc]
    rfl

theorem cellGuard3_int (hw : p.WF) (t : Int × Int × Int) : cellGuard3 p t ↔ interior3 p t.1 t.2.1 t.2.2 := by
  have := hw.isize_eq
  have := hw.jsize_eq
  have := hw.ksize_eq
  unfold cellGuard3 interior3
  constructor
  · intro h
    obtain ⟨h1, h2, h3, h4, h5, h6⟩ := h
    exact ⟨⟨by omega, by omega⟩, ⟨by omega, by omega⟩, by omega, by omega⟩
  · rintro ⟨⟨a, b⟩, ⟨c, d⟩, e, f⟩
    exact ⟨by omega, by omega, by omega, by omega, by omega, by omega⟩

theorem dtBody3_in {g : GravityParams} {U : Arr} {m : Mem Arr R} (hw : p.WF) {t : Int × Int × Int}
    (h : interior3 p t.1 t.2.1 t.2.2) (a : R) :
    ((dtBody3 p g U t a).run m).1 =
      fmax a (cellRate3 p g (hs3 m U t.1 t.2.1 t.2.2) (gravOf3 m .grav t.1 t.2.1 t.2.2)) := by
  have hc : cellGuard3 p t := (cellGuard3_int hw t).2 h
  unfold dtBody3 cellRate3
  split_ifs
  · unfold computeDtGravity3
    dsimp only
    rw [if_pos hc]
    rfl
  · unfold computeDt3
    rw [if_pos hc]
    rfl

theorem dtBody3_out {g : GravityParams} {U : Arr} {m : Mem Arr R} (hw : p.WF) {t : Int × Int × Int}
    (h : ¬ interior3 p t.1 t.2.1 t.2.2) (a : R) : ((dtBody3 p g U t a).run m).1 = a := by
  have hc : ¬ cellGuard3 p t := fun hc => h ((cellGuard3_int hw t).1 hc)
  unfold dtBody3
  split_ifs
  · unfold computeDtGravity3
    dsimp only
    rw [if_neg hc]
    rfl
  · unfold computeDt3
    rw [if_neg hc]
    rfl

/-- blocks cover the interior (2D) -/
theorem block_of2 (hw : (localParams T p).WF) {a b : Int} (h : interior2 (globalParams T p) a b) :
    ∃ (r : T.Rank) (i j : Int), interior2 (localParams T p) i j ∧ (T.coords r).1 * p.nx + i = a ∧
      (T.coords r).2.1 * p.ny + j = b := by
  have hx : 1 ≤ p.nx := hw.nx_pos
  have hy : 1 ≤ p.ny := hw.ny_pos
  obtain ⟨h1, h2, h3, h4⟩ := h
  obtain ⟨X, i, x0, x1, i0, i1, rfl⟩ := block_exists (m := T.mx) hx h1 h2
  obtain ⟨Y, j, y0, y1, j0, j1, rfl⟩ := block_exists (m := T.my) hy h3 h4
  refine ⟨T.cartRank X Y 0, i, j, ⟨i0, i1, j0, j1⟩, ?_, ?_⟩
  · rw [T.coords_cartRank, Int.emod_eq_of_lt x0 x1]
  · rw [T.coords_cartRank, Int.emod_eq_of_lt y0 y1]

/-- blocks cover the interior (3D) -/
theorem block_of3 (hw : (localParams T p).WF) {a b c : Int} (hz : 1 ≤ p.nz)
    (h : interior3 (globalParams T p) a b c) :
    ∃ (r : T.Rank) (i j k : Int), interior3 (localParams T p) i j k ∧ (T.coords r).1 * p.nx + i = a ∧
      (T.coords r).2.1 * p.ny + j = b ∧ (T.coords r).2.2 * p.nz + k = c := by
  have hx : 1 ≤ p.nx := hw.nx_pos
  have hy : 1 ≤ p.ny := hw.ny_pos
  obtain ⟨⟨h1, h2⟩, ⟨h3, h4⟩, h5, h6⟩ := h
  obtain ⟨X, i, x0, x1, i0, i1, rfl⟩ := block_exists (m := T.mx) hx h1 h2
  obtain ⟨Y, j, y0, y1, j0, j1, rfl⟩ := block_exists (m := T.my) hy h3 h4
  obtain ⟨Z, k, z0, z1, k0, k1, rfl⟩ := block_exists (m := T.mz) hz h5 h6
  refine ⟨T.cartRank X Y Z, i, j, k, ⟨⟨i0, i1⟩, ⟨j0, j1⟩, k0, k1⟩, ?_, ?_, ?_⟩
  · rw [T.coords_cartRank, Int.emod_eq_of_lt x0 x1]
  · rw [T.coords_cartRank, Int.emod_eq_of_lt y0 y1]
  · rw [T.coords_cartRank, Int.emod_eq_of_lt z0 z1]

theorem int_inGrid2 (hw : p.WF) {i j : Int} (h : interior2 p i j) : inGrid2 p i j := by
  have := hw.isize_eq
  have := hw.jsize_eq
  have := hw.gw_pos
  obtain ⟨a, b, c, d⟩ := h
  exact ⟨by omega, by omega, by omega, by omega⟩

theorem int_inGrid3 (hw : p.WF) {i j k : Int} (h : interior3 p i j k) : inGrid3 p i j k := by
  have := hw.isize_eq
  have := hw.jsize_eq
  have := hw.ksize_eq
  have := hw.gw_pos
  obtain ⟨⟨a, b⟩, ⟨c, d⟩, e, f⟩ := h
  exact ⟨⟨by omega, by omega⟩, ⟨by omega, by omega⟩, by omega, by omega⟩

theorem int2_range (hw : p.WF) {t : Int × Int} (h : interior2 p t.1 t.2) : t ∈ range2 p.isize p.jsize := by
  have := hw.isize_eq
  have := hw.jsize_eq
  have := hw.gw_pos
  obtain ⟨a, b, c, d⟩ := h
  rw [mem_range2]; omega

theorem int3_range (hw : p.WF) {t : Int × Int × Int} (h : interior3 p t.1 t.2.1 t.2.2) :
    t ∈ range3 p.isize p.jsize p.ksize := by
  have := hw.isize_eq
  have := hw.jsize_eq
  have := hw.ksize_eq
  have := hw.gw_pos
  obtain ⟨⟨a, b⟩, ⟨c, d⟩, e, f⟩ := h
  rw [mem_range3]; omega

/-- the time steps, 2D -/
theorem dt_blocks2 (hL : MaxLaws R num sg) (hD : DivLaws R num pos p.settings.cfl) (hw : (localParams T p).WF)
    (hwg : (globalParams T p).WF) (hx : sg (localParams T p).dx) (hy : sg (localParams T p).dy)
    {g : GravityParams} {ident ident' : R} (hi : num ident) (hi' : num ident')
    (hneg : ¬ pos ident) (hneg' : ¬ pos ident') {n : Nat}
    {m : T.Rank → Mem Arr R} {A : Mem Arr R} (hB : Blocks2 T p g n m A) (hg : BlocksMove2 pos T p g n A)
    {d : R} {dl : T.Rank → R} (h : computeDtLocal2 (globalParams T p) g ident' n A d)
    (hl : ∀ r, computeDtLocal2 (localParams T p) g ident n (m r) (dl r)) : minOver dl = d := by
  obtain ⟨inv, h, rfl⟩ := h
  choose linv hl hdl using hl
  obtain rfl : dl = fun r => p.settings.cfl / linv r := funext hdl
  have hblk : ∀ (r : T.Rank) i j, interior2 (localParams T p) i j → interior2 (globalParams T p)
      ((T.coords r).1 * p.nx + i) ((T.coords r).2.1 * p.ny + j) := fun r i j hij => interior2_block hw T r hij
  have hmax : ∀ (q : Params R) (_ : sg q.dx) (_ : sg q.dy) m, IsMax sg (dtBody2 q g (pingIn n)) m := by
    intro q hx hy m
    unfold dtBody2
    split_ifs
    · exact isMax_gravity2 hL hx hy _ _ _ m
    · exact isMax_hydro2 hL hx hy _ m
  have hcell : ∀ r i j, interior2 (localParams T p) i j → ∀ a,
      ((dtBody2 (localParams T p) g (pingIn n) (i, j) a).run (m r)).1 =
      ((dtBody2 (globalParams T p) g (pingIn n)
        ((T.coords r).1 * p.nx + i, (T.coords r).2.1 * p.ny + j) a).run A).1 := by
    intro r i j hij a
    rw [dtBody2_in hw hij, dtBody2_in (t := (_, _)) hwg (hblk r i j hij), hB.1 r i j hij]
    congr 1
    unfold cellRate2
    by_cases he : g.enabled = true
    · simp only [he, if_true]
      rw [hB.2 he r i j (int_inGrid2 hw hij)]
      rfl
    · simp only [he]; rfl
  have hrange : ∀ r i j, interior2 (localParams T p) i j →
      ((T.coords r).1 * p.nx + i, (T.coords r).2.1 * p.ny + j) ∈
        range2 (globalParams T p).isize (globalParams T p).jsize :=
    fun r i j hij => int2_range hwg (interior2_block hw T r hij)
  refine minOver_blocks hL hD (body := dtBody2 (globalParams T p) g (pingIn n))
    (lbody := dtBody2 (localParams T p) g (pingIn n)) (S := range2 (globalParams T p).isize (globalParams T p).jsize)
    (S' := range2 (localParams T p).isize (localParams T p).jsize) (m := m) (G := A)
    (f := fun r t => ((T.coords r).1 * p.nx + t.1, (T.coords r).2.1 * p.ny + t.2))
    (hmax (globalParams T p) hx hy A) (fun r => hmax (localParams T p) hx hy (m r)) hi hi' hneg hneg' (fun r t _ => ?_) (fun t _ => ?_) (fun r => ?_)
    (T.cartRank 0 0 0) ?_ (fun r => ?_)
  · by_cases hij : interior2 (localParams T p) t.1 t.2
    · exact .inr ⟨hrange r _ _ hij, hcell r _ _ hij⟩
    · exact .inl (dtBody2_out hw hij)
  · by_cases hij : interior2 (globalParams T p) t.1 t.2
    · obtain ⟨r, i, j, hl, e1, e2⟩ := block_of2 hw hij
      refine .inr ⟨r, (i, j), int2_range hw hl, fun a => (hcell r i j hl a).trans ?_⟩
      rw [e1, e2]
    · exact .inl (dtBody2_out hwg hij)
  · obtain ⟨i, j, hij, hp⟩ := hg r
    exact ⟨(i, j), int2_range hw hij, hrange r i j hij,
      ⟨_, hp, fun a => dtBody2_in (t := ((T.coords r).1 * p.nx + i, (T.coords r).2.1 * p.ny + j)) hwg
        (hblk r i j hij) a⟩, hcell r i j hij⟩
  · unfold dtBody2
    split_ifs at h ⊢ <;> exact h
  · have := hl r
    unfold dtBody2
    split_ifs at this ⊢ <;> exact this

/-- the time steps, 3D -/
theorem dt_blocks3 (hL : MaxLaws R num sg) (hD : DivLaws R num pos p.settings.cfl) (hw : (localParams T p).WF) (hnz : 1 ≤ p.nz)
    (hwg : (globalParams T p).WF) (hx : sg (localParams T p).dx) (hy : sg (localParams T p).dy) (hz : sg (localParams T p).dz)
    (hblk : ∀ (r : T.Rank) i j k, interior3 (localParams T p) i j k → interior3 (globalParams T p)
      ((T.coords r).1 * p.nx + i) ((T.coords r).2.1 * p.ny + j) ((T.coords r).2.2 * p.nz + k))
    {g : GravityParams} {ident ident' : R} (hi : num ident) (hi' : num ident')
    (hneg : ¬ pos ident) (hneg' : ¬ pos ident') {n : Nat}
    {m : T.Rank → Mem Arr R} {A : Mem Arr R} (hB : Blocks3 T p g n m A) (hg : BlocksMove3 pos T p g n A)
    {d : R} {dl : T.Rank → R} (h : computeDtLocal3 (globalParams T p) g ident' n A d)
    (hl : ∀ r, computeDtLocal3 (localParams T p) g ident n (m r) (dl r)) : minOver dl = d := by
  obtain ⟨inv, h, rfl⟩ := h
  choose linv hl hdl using hl
  obtain rfl : dl = fun r => p.settings.cfl / linv r := funext hdl
  have hmax : ∀ (q : Params R) (_ : sg q.dx) (_ : sg q.dy) (_ : sg q.dz) m, IsMax sg (dtBody3 q g (pingIn n)) m := by
    intro q hx hy hz m
    unfold dtBody3
    split_ifs
    · exact isMax_gravity3 hL hx hy hz _ _ _ m
    · exact isMax_hydro3 hL hx hy hz _ m
  have hcell : ∀ r i j k, interior3 (localParams T p) i j k → ∀ a,
      ((dtBody3 (localParams T p) g (pingIn n) (i, j, k) a).run (m r)).1 =
      ((dtBody3 (globalParams T p) g (pingIn n)
        ((T.coords r).1 * p.nx + i, (T.coords r).2.1 * p.ny + j, (T.coords r).2.2 * p.nz + k) a).run A).1 := by
    intro r i j k hij a
    rw [dtBody3_in hw hij, dtBody3_in (t := (_, _, _)) hwg (hblk r i j k hij), hB.1 r i j k hij]
    congr 1
    unfold cellRate3
    by_cases he : g.enabled = true
    · simp only [he, if_true]
      rw [hB.2 he r i j k (int_inGrid3 hw hij)]
      rfl
    · simp only [he]; rfl
  have hrange : ∀ r i j k, interior3 (localParams T p) i j k →
      ((T.coords r).1 * p.nx + i, (T.coords r).2.1 * p.ny + j, (T.coords r).2.2 * p.nz + k) ∈
        range3 (globalParams T p).isize (globalParams T p).jsize (globalParams T p).ksize :=
    fun r i j k hij => int3_range hwg (hblk r i j k hij)
  refine minOver_blocks hL hD (body := dtBody3 (globalParams T p) g (pingIn n))
    (lbody := dtBody3 (localParams T p) g (pingIn n))
    (S := range3 (globalParams T p).isize (globalParams T p).jsize (globalParams T p).ksize)
    (S' := range3 (localParams T p).isize (localParams T p).jsize (localParams T p).ksize) (m := m) (G := A)
    (f := fun r t => ((T.coords r).1 * p.nx + t.1, (T.coords r).2.1 * p.ny + t.2.1, (T.coords r).2.2 * p.nz + t.2.2))
    (hmax (globalParams T p) hx hy hz A) (fun r => hmax (localParams T p) hx hy hz (m r)) hi hi' hneg hneg' (fun r t _ => ?_) (fun t _ => ?_)
    (fun r => ?_) (T.cartRank 0 0 0) ?_ (fun r => ?_)
  · by_cases hij : interior3 (localParams T p) t.1 t.2.1 t.2.2
    · exact .inr ⟨hrange r _ _ _ hij, hcell r _ _ _ hij⟩
    · exact .inl (dtBody3_out hw hij)
  · by_cases hij : interior3 (globalParams T p) t.1 t.2.1 t.2.2
    · obtain ⟨r, i, j, k, hl, e1, e2, e3⟩ := block_of3 hw hnz hij
      refine .inr ⟨r, (i, j, k), int3_range hw hl, fun a => (hcell r i j k hl a).trans ?_⟩
      rw [e1, e2, e3]
    · exact .inl (dtBody3_out hwg hij)
  · obtain ⟨i, j, k, hij, hp⟩ := hg r
    exact ⟨(i, j, k), int3_range hw hij, hrange r i j k hij,
      ⟨_, hp, fun a => dtBody3_in (t := ((T.coords r).1 * p.nx + i, (T.coords r).2.1 * p.ny + j, (T.coords r).2.2 * p.nz + k))
        hwg (hblk r i j k hij) a⟩, hcell r i j k hij⟩
  · unfold dtBody3
    split_ifs at h ⊢ <;> exact h
  · have := hl r
    unfold dtBody3
    split_ifs at this ⊢ <;> exact this

/-! ### The solvers -/

theorem mirrors_hydro2 (hL : MaxLaws R num sg) (hD : DivLaws R num pos p.settings.cfl) (hS : SignLaws R) (hp : Hydro2 (localParams T p))
    (hwide : Wide2 (localParams T p)) (hbc : NamedBC2 T (localParams T p))
    (hi : p.implementationVersion = 0 ∨ p.implementationVersion = 1) (hx : sg (localParams T p).dx) (hy : sg (localParams T p).dy)
    (g : GravityParams) {ident ident' : R} (hid : num ident) (hid' : num ident')
    (hneg : ¬ pos ident) (hneg' : ¬ pos ident')
    (jk : T.Rank → Junk R) (jk' : Junk R) :
    Mirrors (hydroOps2 (globalParams T p) g ident' jk') (mpiHydro2 lay T (localParams T p) g ident jk)
      (Blocks2 T p g 0) (Blocks2 T p g) (BlocksMove2 pos T p g) (ViewBlock2 T p) := by
  have hpg := hydro2_global hp hwide
  have hK : SchemeOK2 (localParams T p) := schemeOK2_01 hp hi
  have hKg : SchemeOK2 (globalParams T p) := schemeOK2_01 hpg hi
  have hin := fun r {i j} hij => int_inGrid2 hpg.wf (interior2_block (i := i) (j := j) hp.wf T r hij)
  refine ⟨fun m A A₁ hJ hset => ?_, fun n m A A₁ hB hpre => ?_, fun n m A hB r => ?_⟩
  · obtain ⟨s₁, b1, b2, b3, _⟩ := distStep2 (lay := lay) (dt := lit 0) (g := g) hp hS hwide hbc hK
      (inA := .U) (outA := .U2) (Or.inl ⟨rfl, rfl⟩) hJ.1 hJ.2
    obtain ⟨mb, hb, hc⟩ := hset
    obtain ⟨q1, q2⟩ := makeBoundaries2_hs2 hpg hS hb
    have hc' : A₁ = fun l => if l.arr = .U2 then mb { l with arr := .U } else mb l := hc
    have e1 : ∀ i j, hs2 A₁ .U i j = hs2 mb .U i j := by intro i j; rw [hc']; rfl
    have e2 : gravOf A₁ .grav = gravOf A .grav := by
      have : gravOf A₁ .grav = gravOf mb .grav := by rw [hc']; rfl
      exact this.trans (q1.grav (by decide))
    have hB : Blocks2 T p g 0 (fun r l => if l.arr = .U2 then s₁ r { l with arr := .U } else s₁ r l) A₁ := by
      refine ⟨fun r i j hij => ?_, fun he r i j hij => ?_⟩
      · have e3 := b3 r i j (int_inGrid2 hp.wf hij)
        refine Eq.trans ?_ (e3.trans (((e1 _ _).trans (q2 _ _ (hin r hij))).symm))
        rfl
      · rw [e2, ← hJ.2 he r i j hij, ← b2 r]
        rfl
    exact ⟨_, b1.append (BulkRel.loc fun r s' => Iff.rfl), hB,
      fun d dl hg h hl => dt_blocks2 hL hD hp.wf hpg.wf hx hy hid hid' hneg hneg' hB hg h hl⟩
  · obtain rfl : A₁ = A := hpre
    obtain ⟨s₁, b1, b2, b3, _⟩ := distStep2 (lay := lay) (dt := lit 0) hp hS hwide hbc hK (pingPong n) hB.1 hB.2
    refine ⟨m, s₁, BulkRel.nil m, b1,
      fun d dl hg h hl => dt_blocks2 hL hD hp.wf hpg.wf hx hy hid hid' hneg hneg' hB hg h hl,
      fun dt A₂ m₂ hpost hsch => ?_⟩
    obtain ⟨s₁', b1', _, _, b4⟩ := distStep2 (lay := lay) (dt := dt) hp hS hwide hbc hK (pingPong n) hB.1 hB.2
    obtain rfl : s₁' = s₁ := BulkRel.unique b1' b1
    obtain ⟨g1, _, g3⟩ := godunov2_result hpg hS hKg (pingPong n) hpost
    refine ⟨fun r i j hij => ?_, fun he r i j hij => ?_⟩
    · rw [← pingOut_succ, (b4 r (jk r) _ (hsch r)).2 i j hij]
      exact (g3 _ _ (hin r hij)).symm
    · rw [(b4 r (jk r) _ (hsch r)).1, hB.2 he r i j hij]
      refine congrFun (congrFun (g1.grav ?_) _) _ |>.symm
      rcases pingPong n with ⟨e1, e2⟩ | ⟨e1, e2⟩ <;> rw [e1, e2] <;> simp [SchemeOuts]
  · exact fun i j v hij hv => hs2_holds (on := interior2 (localParams T p)) hp.nbvar hB.1 r i j v hij hv

theorem mirrors_hydro3 (hL : MaxLaws R num sg) (hD : DivLaws R num pos p.settings.cfl) (hS : SignLaws R) (hp : Hydro3 (localParams T p))
    (hwide : Wide3 (localParams T p)) (hbc : NamedBC3 T (localParams T p))
    (hi : p.implementationVersion = 0 ∨ p.implementationVersion = 1) (hx : sg (localParams T p).dx)
    (hy : sg (localParams T p).dy) (hz : sg (localParams T p).dz)
    (g : GravityParams) {ident ident' : R} (hid : num ident) (hid' : num ident')
    (hneg : ¬ pos ident) (hneg' : ¬ pos ident')
    (jk : T.Rank → Junk R) (jk' : Junk R) :
    Mirrors (hydroOps3 (globalParams T p) g ident' jk') (mpiHydro3 lay T (localParams T p) g ident jk)
      (Blocks3 T p g 0) (Blocks3 T p g) (BlocksMove3 pos T p g) (ViewBlock3 T p) := by
  have hpg := hydro3_global hp hwide
  have hK : SchemeOK3 (zKick p.implementationVersion) (localParams T p) := schemeOK3_01 hp hi
  have hKg : SchemeOK3 (zKick p.implementationVersion) (globalParams T p) := schemeOK3_01 hpg hi
  have hblk : ∀ (r : T.Rank) i j k, interior3 (localParams T p) i j k → interior3 (globalParams T p)
      ((T.coords r).1 * p.nx + i) ((T.coords r).2.1 * p.ny + j) ((T.coords r).2.2 * p.nz + k) :=
    fun r i j k hij => interior3_block hp.wf T r hij
  have hin := fun r {i j k} hij => int_inGrid3 hpg.wf (hblk r i j k hij)
  have hnz : 1 ≤ p.nz := hp.wf.nz_pos
  refine ⟨fun m A A₁ hJ hset => ?_, fun n m A A₁ hB hpre => ?_, fun n m A hB r => ?_⟩
  · obtain ⟨s₁, b1, b2, b3, _⟩ := distStep3 (lay := lay) (dt := lit 0) (g := g) hp hS hwide hbc hK
      (inA := .U) (outA := .U2) (Or.inl ⟨rfl, rfl⟩) hJ.1 hJ.2
    obtain ⟨mb, hb, hc⟩ := hset
    obtain ⟨q1, q2⟩ := makeBoundaries3_hs3 hpg hS hb
    have hc' : A₁ = fun l => if l.arr = .U2 then mb { l with arr := .U } else mb l := hc
    have e1 : ∀ i j k, hs3 A₁ .U i j k = hs3 mb .U i j k := by intro i j k; rw [hc']; rfl
    have e2 : gravOf3 A₁ .grav = gravOf3 A .grav := by
      have : gravOf3 A₁ .grav = gravOf3 mb .grav := by rw [hc']; rfl
      exact this.trans (q1.grav3 (by decide))
    have hB : Blocks3 T p g 0 (fun r l => if l.arr = .U2 then s₁ r { l with arr := .U } else s₁ r l) A₁ := by
      refine ⟨fun r i j k hij => ?_, fun he r i j k hij => ?_⟩
      · have e3 := b3 r i j k (int_inGrid3 hp.wf hij)
        refine Eq.trans ?_ (e3.trans (((e1 _ _ _).trans (q2 _ _ _ (hin r hij))).symm))
        rfl
      · rw [e2, ← hJ.2 he r i j k hij, ← b2 r]
        rfl
    exact ⟨_, b1.append (BulkRel.loc fun r s' => Iff.rfl), hB,
      fun d dl hg h hl => dt_blocks3 hL hD hp.wf hnz hpg.wf hx hy hz hblk hid hid' hneg hneg' hB hg h hl⟩
  · obtain rfl : A₁ = A := hpre
    obtain ⟨s₁, b1, b2, b3, _⟩ := distStep3 (lay := lay) (dt := lit 0) hp hS hwide hbc hK (pingPong n) hB.1 hB.2
    refine ⟨m, s₁, BulkRel.nil m, b1,
      fun d dl hg h hl => dt_blocks3 hL hD hp.wf hnz hpg.wf hx hy hz hblk hid hid' hneg hneg' hB hg h hl,
      fun dt A₂ m₂ hpost hsch => ?_⟩
    obtain ⟨s₁', b1', _, _, b4⟩ := distStep3 (lay := lay) (dt := dt) hp hS hwide hbc hK (pingPong n) hB.1 hB.2
    obtain rfl : s₁' = s₁ := BulkRel.unique b1' b1
    obtain ⟨g1, _, g3⟩ := godunov3_result hpg hS hKg (pingPong n) hpost
    refine ⟨fun r i j k hij => ?_, fun he r i j k hij => ?_⟩
    · rw [← pingOut_succ, (b4 r (jk r) _ (hsch r)).2 i j k hij]
      exact (g3 _ _ _ (hin r hij)).symm
    · rw [(b4 r (jk r) _ (hsch r)).1, hB.2 he r i j k hij]
      refine congrFun (congrFun (congrFun (g1.grav3 ?_) _) _) _ |>.symm
      rcases pingPong n with ⟨e1, e2⟩ | ⟨e1, e2⟩ <;> rw [e1, e2] <;> simp [SchemeOuts3]
  · exact fun i j k v hij hv => hs3_holds (on := interior3 (localParams T p)) hp.nbvar hB.1 r i j k v hij hv

end EulerKokkos
