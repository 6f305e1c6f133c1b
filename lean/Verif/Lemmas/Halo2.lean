import Verif.Lemmas.Halo
import Verif.Props.C37

/-!
# The halo exchange in 2D and 3D
-/

set_option linter.constructorNameAsVariable false
set_option linter.unusedSectionVars false
set_option linter.unusedSimpArgs false

namespace EulerKokkos

variable {R : Type} [RealOps R]
open Spec Spmd

/-- blocks are at least as wide as the ghost layer -/
def Spec.Wide2 (p : Params R) : Prop := p.ghostWidth ≤ p.nx ∧ p.ghostWidth ≤ p.ny
/-- blocks are at least as wide as the ghost layer -/
def Spec.Wide3 (p : Params R) : Prop := Wide2 p ∧ p.ghostWidth ≤ p.nz

/-- the boundary conditions are named ones (or there is one process along the axis) -/
def Spec.NamedBC2 (T : Topo) (p : Params R) : Prop :=
  BCmpi p.boundary_type_xmin T.mx ∧ BCmpi p.boundary_type_xmax T.mx ∧
  BCmpi p.boundary_type_ymin T.my ∧ BCmpi p.boundary_type_ymax T.my
/-- the boundary conditions are named ones (or there is one process along the axis) -/
def Spec.NamedBC3 (T : Topo) (p : Params R) : Prop :=
  NamedBC2 T p ∧ BCmpi p.boundary_type_zmin T.mz ∧ BCmpi p.boundary_type_zmax T.mz

theorem fillFace2_is {p : Params R} (hw : p.WF) (lay : Layout) (mhd : Bool) (T : Topo) {U : Arr}
    (hU : NotBuf U) (f : Face) (hf2 : f.is2) (hf : FaceOk p f) (r : T.Rank) :
    (fillFace2 lay mhd T p U f r).Is (fillFun mhd T p U (bufExt2 p f) (G2 p f) f r) := by
  intro m m'
  unfold fillFace2 fillFun
  split
  · exact unpackK2_is lay hw U f (hU f).2.symm hf2 m m'
  · exact makeBoundaryK2_is mhd U hw f hf m m'

theorem fillFace3_is {p : Params R} (hw : p.WF) (lay : Layout) (mhd : Bool) (T : Topo) {U : Arr}
    (hU : NotBuf U) (f : Face) (hf : FaceOk p f) (r : T.Rank) :
    (fillFace3 lay mhd T p U f r).Is (fillFun mhd T p U (bufExt3 p f) (G3 p f) f r) := by
  intro m m'
  unfold fillFace3 fillFun
  split
  · exact unpackK3_is lay hw U f (hU f).2.symm m m'
  · exact makeBoundaryK3_is mhd U hw f hf m m'

theorem inBox_G2 {p : Params R} (hw : p.WF) (f : Face) (hf2 : f.is2) (c : Int × Int × Int) :
    InBox (bufExt2 p f) (unshift3 (unpackOff p f) c) ↔ G2 p f c := by
  have hI := hw.isize_eq
  have hJ := hw.jsize_eq
  have hgw := hw.gw_pos
  obtain ⟨i, j, k⟩ := c
  cases f <;> simp only [InBox, bufExt2, unshift3, unpackOff, G2] <;>
    first
      | omega
      | exact hf2.elim

theorem inBox_G3 {p : Params R} (hw : p.WF) (f : Face) (c : Int × Int × Int) :
    InBox (bufExt3 p f) (unshift3 (unpackOff p f) c) ↔ G3 p f c := by
  have hI := hw.isize_eq
  have hJ := hw.jsize_eq
  have hK := hw.ksize_eq
  have hgw := hw.gw_pos
  obtain ⟨i, j, k⟩ := c
  cases f <;> simp only [InBox, bufExt3, unshift3, unpackOff, G3] <;> omega

section two
variable {p : Params R} {T : Topo} {mhd : Bool} {lay : Layout} {U : Arr}

/-- x direction in 2D: lines that held global data along the axis get all of it -/
theorem haloX2 (hw : p.WF) (hS : SignLaws R) (hU : NotBuf U) (hwide : Wide2 p)
    (hbc : NamedBC2 T p) (s : T.Rank → Mem Arr R) :
    ∃ s', BulkRel (exchangeDir2 lay mhd T p U .xmin .xmax 111) s s' ∧ ∀ r,
      (∀ l : Loc Arr, (∀ f, l.arr ≠ .send f ∧ l.arr ≠ .recv f) →
        ¬ (l.arr = U ∧ (G2 p .xmin (cellOf l) ∨ G2 p .xmax (cellOf l)) ∧ l.v < p.nbvar) →
        s' r l = s r l) ∧
      ∀ (g : Int → R) (j : Int) (v : Nat), 0 ≤ j → j < p.jsize → v < p.nbvar →
        (∀ r', (T.coords r').2 = (T.coords r).2 →
          ∀ c, p.ghostWidth ≤ c → c < p.ghostWidth + p.nx →
          s r' ⟨U, c, j, 0, v⟩ = g ((T.coords r').1 * p.nx + c)) →
        ∀ i, 0 ≤ i → i < p.nx + 2 * p.ghostWidth → s' r ⟨U, i, j, 0, v⟩ =
          signed (normalVar mhd 0 v ∧ flips p.boundary_type_xmin p.boundary_type_xmax
            (p.nx * T.mx) p.ghostWidth ((T.coords r).1 * p.nx + i))
          (g (srcCoord p.boundary_type_xmin p.boundary_type_xmax (p.nx * T.mx) p.ghostWidth
            ((T.coords r).1 * p.nx + i))) := by
  have hI := hw.isize_eq
  have hJ := hw.jsize_eq
  have hK := hw.ksize_eq
  have hgw := hw.gw_pos
  obtain ⟨hwx, hwy⟩ := hwide
  obtain ⟨b1, b2, b3, b4⟩ := hbc
  obtain ⟨s', hb, hs'⟩ := exchangeDir_bulk (mhd := mhd) (T := T) (p := p) (U := U) (lay := lay)
    (fmin := .xmin) (fmax := .xmax) (tag := 111) (e := bufExt2 p .xmin) hU (by simp)
    (packK2_is lay hw U .xmin (hU _).1 trivial) (packK2_is lay hw U .xmax (hU _).1 trivial)
    (fillFace2_is hw lay mhd T hU .xmin trivial (Or.inr hwx))
    (fillFace2_is hw lay mhd T hU .xmax trivial (Or.inr hwx))
    (inBox_G2 hw .xmin trivial) (inBox_G2 hw .xmax trivial) s
  refine ⟨s', hb, fun r => ⟨fun l hl => (hs' r).1 l (fun f _ => hl f), ?_⟩⟩
  intro g j v hj hj' hv hg i hc hc'
  obtain ⟨ma, hma⟩ := (hs' r).2.2
  obtain ⟨⟨x1, x2⟩, _, _⟩ := T.coords_range r
  have cmin := C37_neighbour_position T .xmin r
  have cmax := C37_neighbour_position T .xmax r
  simp only [neighbourPos] at cmin cmax
  refine axisMpi hS (mhd := mhd) (axis := 0) (v := v) hw.nx_pos hwx x1 x2 b1 b2
    (A := fun c => s r ⟨U, c, j, 0, v⟩)
    (Lf := fun c => s (T.neighborRank .xmin r) ⟨U, c, j, 0, v⟩)
    (Rt := fun c => s (T.neighborRank .xmax r) ⟨U, c, j, 0, v⟩)
    (mA := fun c => ma ⟨U, c, j, 0, v⟩) (mB := fun c => s' r ⟨U, c, j, 0, v⟩) (g := g)
    ?_ ?_ ?_ ?_ ?_ i hc hc'
  · exact hg r rfl
  · intro c h1 h2
    have := hg _ (by rw [cmin]) c h1 h2
    rw [cmin] at this
    exact this
  · intro c h1 h2
    have := hg _ (by rw [cmax]) c h1 h2
    rw [cmax] at this
    exact this
  · intro c h1 h2
    simp only [(hma c j 0 v hv).1]
    refine if_congr ?_ (if_congr Iff.rfl ?_ rfl) rfl
    · simp only [G2]; constructor
      · rintro ⟨_, h⟩; omega
      · intro h; exact ⟨trivial, by omega⟩
    · congr 2 <;> simp only [packOff, unpackOff] <;> omega
  · intro c h1 h2
    simp only [(hma c j 0 v hv).2]
    refine if_congr ?_ (if_congr Iff.rfl ?_ rfl) rfl
    · simp only [G2]; constructor
      · rintro ⟨_, h⟩; omega
      · intro h; exact ⟨trivial, by omega⟩
    · congr 2 <;> simp only [packOff, unpackOff] <;> omega

/-- y direction in 2D: lines that held global data along the axis get all of it -/
theorem haloY2 (hw : p.WF) (hS : SignLaws R) (hU : NotBuf U) (hwide : Wide2 p)
    (hbc : NamedBC2 T p) (s : T.Rank → Mem Arr R) :
    ∃ s', BulkRel (exchangeDir2 lay mhd T p U .ymin .ymax 211) s s' ∧ ∀ r,
      (∀ l : Loc Arr, (∀ f, l.arr ≠ .send f ∧ l.arr ≠ .recv f) →
        ¬ (l.arr = U ∧ (G2 p .ymin (cellOf l) ∨ G2 p .ymax (cellOf l)) ∧ l.v < p.nbvar) →
        s' r l = s r l) ∧
      ∀ (g : Int → R) (i : Int) (v : Nat), 0 ≤ i → i < p.isize → v < p.nbvar →
        (∀ r', (T.coords r').1 = (T.coords r).1 ∧ (T.coords r').2.2 = (T.coords r).2.2 →
          ∀ c, p.ghostWidth ≤ c → c < p.ghostWidth + p.ny →
          s r' ⟨U, i, c, 0, v⟩ = g ((T.coords r').2.1 * p.ny + c)) →
        ∀ j, 0 ≤ j → j < p.ny + 2 * p.ghostWidth → s' r ⟨U, i, j, 0, v⟩ =
          signed (normalVar mhd 1 v ∧ flips p.boundary_type_ymin p.boundary_type_ymax
            (p.ny * T.my) p.ghostWidth ((T.coords r).2.1 * p.ny + j))
          (g (srcCoord p.boundary_type_ymin p.boundary_type_ymax (p.ny * T.my) p.ghostWidth
            ((T.coords r).2.1 * p.ny + j))) := by
  have hI := hw.isize_eq
  have hJ := hw.jsize_eq
  have hK := hw.ksize_eq
  have hgw := hw.gw_pos
  obtain ⟨hwx, hwy⟩ := hwide
  obtain ⟨b1, b2, b3, b4⟩ := hbc
  obtain ⟨s', hb, hs'⟩ := exchangeDir_bulk (mhd := mhd) (T := T) (p := p) (U := U) (lay := lay)
    (fmin := .ymin) (fmax := .ymax) (tag := 211) (e := bufExt2 p .ymin) hU (by simp)
    (packK2_is lay hw U .ymin (hU _).1 trivial) (packK2_is lay hw U .ymax (hU _).1 trivial)
    (fillFace2_is hw lay mhd T hU .ymin trivial (Or.inr hwy))
    (fillFace2_is hw lay mhd T hU .ymax trivial (Or.inr hwy))
    (inBox_G2 hw .ymin trivial) (inBox_G2 hw .ymax trivial) s
  refine ⟨s', hb, fun r => ⟨fun l hl => (hs' r).1 l (fun f _ => hl f), ?_⟩⟩
  intro g i v hi hi' hv hg j hc hc'
  obtain ⟨ma, hma⟩ := (hs' r).2.2
  obtain ⟨_, ⟨x1, x2⟩, _⟩ := T.coords_range r
  have cmin := C37_neighbour_position T .ymin r
  have cmax := C37_neighbour_position T .ymax r
  simp only [neighbourPos] at cmin cmax
  refine axisMpi hS (mhd := mhd) (axis := 1) (v := v) hw.ny_pos hwy x1 x2 b3 b4
    (A := fun c => s r ⟨U, i, c, 0, v⟩)
    (Lf := fun c => s (T.neighborRank .ymin r) ⟨U, i, c, 0, v⟩)
    (Rt := fun c => s (T.neighborRank .ymax r) ⟨U, i, c, 0, v⟩)
    (mA := fun c => ma ⟨U, i, c, 0, v⟩) (mB := fun c => s' r ⟨U, i, c, 0, v⟩) (g := g)
    ?_ ?_ ?_ ?_ ?_ j hc hc'
  · exact hg r ⟨rfl, rfl⟩
  · intro c h1 h2
    have := hg _ (by rw [cmin]; exact ⟨rfl, rfl⟩) c h1 h2
    rw [cmin] at this
    exact this
  · intro c h1 h2
    have := hg _ (by rw [cmax]; exact ⟨rfl, rfl⟩) c h1 h2
    rw [cmax] at this
    exact this
  · intro c h1 h2
    simp only [(hma i c 0 v hv).1]
    refine if_congr ?_ (if_congr Iff.rfl ?_ rfl) rfl
    · simp only [G2]; constructor
      · rintro ⟨_, h⟩; omega
      · intro h; exact ⟨trivial, by omega⟩
    · congr 2 <;> simp only [packOff, unpackOff] <;> omega
  · intro c h1 h2
    simp only [(hma i c 0 v hv).2]
    refine if_congr ?_ (if_congr Iff.rfl ?_ rfl) rfl
    · simp only [G2]; constructor
      · rintro ⟨_, h⟩; omega
      · intro h; exact ⟨trivial, by omega⟩
    · congr 2 <;> simp only [packOff, unpackOff] <;> omega

/-- x direction in 3D: lines that held global data along the axis get all of it -/
theorem haloX3 (hw : p.WF) (hS : SignLaws R) (hU : NotBuf U) (hwide : Wide3 p)
    (hbc : NamedBC3 T p) (s : T.Rank → Mem Arr R) :
    ∃ s', BulkRel (exchangeDir3 lay mhd T p U .xmin .xmax 111) s s' ∧ ∀ r,
      (∀ l : Loc Arr, (∀ f, l.arr ≠ .send f ∧ l.arr ≠ .recv f) →
        ¬ (l.arr = U ∧ (G3 p .xmin (cellOf l) ∨ G3 p .xmax (cellOf l)) ∧ l.v < p.nbvar) →
        s' r l = s r l) ∧
      ∀ (g : Int → R) (j k : Int) (v : Nat), 0 ≤ j → j < p.jsize → 0 ≤ k → k < p.ksize → v < p.nbvar →
        (∀ r', (T.coords r').2 = (T.coords r).2 →
          ∀ c, p.ghostWidth ≤ c → c < p.ghostWidth + p.nx →
          s r' ⟨U, c, j, k, v⟩ = g ((T.coords r').1 * p.nx + c)) →
        ∀ i, 0 ≤ i → i < p.nx + 2 * p.ghostWidth → s' r ⟨U, i, j, k, v⟩ =
          signed (normalVar mhd 0 v ∧ flips p.boundary_type_xmin p.boundary_type_xmax
            (p.nx * T.mx) p.ghostWidth ((T.coords r).1 * p.nx + i))
          (g (srcCoord p.boundary_type_xmin p.boundary_type_xmax (p.nx * T.mx) p.ghostWidth
            ((T.coords r).1 * p.nx + i))) := by
  have hI := hw.isize_eq
  have hJ := hw.jsize_eq
  have hK := hw.ksize_eq
  have hgw := hw.gw_pos
  obtain ⟨⟨hwx, hwy⟩, hwz⟩ := hwide
  obtain ⟨⟨b1, b2, b3, b4⟩, b5, b6⟩ := hbc
  obtain ⟨s', hb, hs'⟩ := exchangeDir_bulk (mhd := mhd) (T := T) (p := p) (U := U) (lay := lay)
    (fmin := .xmin) (fmax := .xmax) (tag := 111) (e := bufExt3 p .xmin) hU (by simp)
    (packK3_is lay hw U .xmin (hU _).1) (packK3_is lay hw U .xmax (hU _).1)
    (fillFace3_is hw lay mhd T hU .xmin (Or.inr hwx))
    (fillFace3_is hw lay mhd T hU .xmax (Or.inr hwx))
    (inBox_G3 hw .xmin) (inBox_G3 hw .xmax) s
  refine ⟨s', hb, fun r => ⟨fun l hl => (hs' r).1 l (fun f _ => hl f), ?_⟩⟩
  intro g j k v hj hj' hk hk' hv hg i hc hc'
  obtain ⟨ma, hma⟩ := (hs' r).2.2
  obtain ⟨⟨x1, x2⟩, _, _⟩ := T.coords_range r
  have cmin := C37_neighbour_position T .xmin r
  have cmax := C37_neighbour_position T .xmax r
  simp only [neighbourPos] at cmin cmax
  refine axisMpi hS (mhd := mhd) (axis := 0) (v := v) hw.nx_pos hwx x1 x2 b1 b2
    (A := fun c => s r ⟨U, c, j, k, v⟩)
    (Lf := fun c => s (T.neighborRank .xmin r) ⟨U, c, j, k, v⟩)
    (Rt := fun c => s (T.neighborRank .xmax r) ⟨U, c, j, k, v⟩)
    (mA := fun c => ma ⟨U, c, j, k, v⟩) (mB := fun c => s' r ⟨U, c, j, k, v⟩) (g := g)
    ?_ ?_ ?_ ?_ ?_ i hc hc'
  · exact hg r rfl
  · intro c h1 h2
    have := hg _ (by rw [cmin]) c h1 h2
    rw [cmin] at this
    exact this
  · intro c h1 h2
    have := hg _ (by rw [cmax]) c h1 h2
    rw [cmax] at this
    exact this
  · intro c h1 h2
    simp only [(hma c j k v hv).1]
    refine if_congr ?_ (if_congr Iff.rfl ?_ rfl) rfl
    · simp only [G3]; omega
    · congr 2 <;> simp only [packOff, unpackOff] <;> omega
  · intro c h1 h2
    simp only [(hma c j k v hv).2]
    refine if_congr ?_ (if_congr Iff.rfl ?_ rfl) rfl
    · simp only [G3]; omega
    · congr 2 <;> simp only [packOff, unpackOff] <;> omega

/-- y direction in 3D: lines that held global data along the axis get all of it -/
theorem haloY3 (hw : p.WF) (hS : SignLaws R) (hU : NotBuf U) (hwide : Wide3 p)
    (hbc : NamedBC3 T p) (s : T.Rank → Mem Arr R) :
    ∃ s', BulkRel (exchangeDir3 lay mhd T p U .ymin .ymax 211) s s' ∧ ∀ r,
      (∀ l : Loc Arr, (∀ f, l.arr ≠ .send f ∧ l.arr ≠ .recv f) →
        ¬ (l.arr = U ∧ (G3 p .ymin (cellOf l) ∨ G3 p .ymax (cellOf l)) ∧ l.v < p.nbvar) →
        s' r l = s r l) ∧
      ∀ (g : Int → R) (i k : Int) (v : Nat), 0 ≤ i → i < p.isize → 0 ≤ k → k < p.ksize → v < p.nbvar →
        (∀ r', (T.coords r').1 = (T.coords r).1 ∧ (T.coords r').2.2 = (T.coords r).2.2 →
          ∀ c, p.ghostWidth ≤ c → c < p.ghostWidth + p.ny →
          s r' ⟨U, i, c, k, v⟩ = g ((T.coords r').2.1 * p.ny + c)) →
        ∀ j, 0 ≤ j → j < p.ny + 2 * p.ghostWidth → s' r ⟨U, i, j, k, v⟩ =
          signed (normalVar mhd 1 v ∧ flips p.boundary_type_ymin p.boundary_type_ymax
            (p.ny * T.my) p.ghostWidth ((T.coords r).2.1 * p.ny + j))
          (g (srcCoord p.boundary_type_ymin p.boundary_type_ymax (p.ny * T.my) p.ghostWidth
            ((T.coords r).2.1 * p.ny + j))) := by
  have hI := hw.isize_eq
  have hJ := hw.jsize_eq
  have hK := hw.ksize_eq
  have hgw := hw.gw_pos
  obtain ⟨⟨hwx, hwy⟩, hwz⟩ := hwide
  obtain ⟨⟨b1, b2, b3, b4⟩, b5, b6⟩ := hbc
  obtain ⟨s', hb, hs'⟩ := exchangeDir_bulk (mhd := mhd) (T := T) (p := p) (U := U) (lay := lay)
    (fmin := .ymin) (fmax := .ymax) (tag := 211) (e := bufExt3 p .ymin) hU (by simp)
    (packK3_is lay hw U .ymin (hU _).1) (packK3_is lay hw U .ymax (hU _).1)
    (fillFace3_is hw lay mhd T hU .ymin (Or.inr hwy))
    (fillFace3_is hw lay mhd T hU .ymax (Or.inr hwy))
    (inBox_G3 hw .ymin) (inBox_G3 hw .ymax) s
  refine ⟨s', hb, fun r => ⟨fun l hl => (hs' r).1 l (fun f _ => hl f), ?_⟩⟩
  intro g i k v hi hi' hk hk' hv hg j hc hc'
  obtain ⟨ma, hma⟩ := (hs' r).2.2
  obtain ⟨_, ⟨x1, x2⟩, _⟩ := T.coords_range r
  have cmin := C37_neighbour_position T .ymin r
  have cmax := C37_neighbour_position T .ymax r
  simp only [neighbourPos] at cmin cmax
  refine axisMpi hS (mhd := mhd) (axis := 1) (v := v) hw.ny_pos hwy x1 x2 b3 b4
    (A := fun c => s r ⟨U, i, c, k, v⟩)
    (Lf := fun c => s (T.neighborRank .ymin r) ⟨U, i, c, k, v⟩)
    (Rt := fun c => s (T.neighborRank .ymax r) ⟨U, i, c, k, v⟩)
    (mA := fun c => ma ⟨U, i, c, k, v⟩) (mB := fun c => s' r ⟨U, i, c, k, v⟩) (g := g)
    ?_ ?_ ?_ ?_ ?_ j hc hc'
  · exact hg r ⟨rfl, rfl⟩
  · intro c h1 h2
    have := hg _ (by rw [cmin]; exact ⟨rfl, rfl⟩) c h1 h2
    rw [cmin] at this
    exact this
  · intro c h1 h2
    have := hg _ (by rw [cmax]; exact ⟨rfl, rfl⟩) c h1 h2
    rw [cmax] at this
    exact this
  · intro c h1 h2
    simp only [(hma i c k v hv).1]
    refine if_congr ?_ (if_congr Iff.rfl ?_ rfl) rfl
    · simp only [G3]; omega
    · congr 2 <;> simp only [packOff, unpackOff] <;> omega
  · intro c h1 h2
    simp only [(hma i c k v hv).2]
    refine if_congr ?_ (if_congr Iff.rfl ?_ rfl) rfl
    · simp only [G3]; omega
    · congr 2 <;> simp only [packOff, unpackOff] <;> omega

/-- z direction in 3D: lines that held global data along the axis get all of it -/
theorem haloZ3 (hw : p.WF) (hS : SignLaws R) (hU : NotBuf U) (hwide : Wide3 p)
    (hbc : NamedBC3 T p) (s : T.Rank → Mem Arr R) :
    ∃ s', BulkRel (exchangeDir3 lay mhd T p U .zmin .zmax 311) s s' ∧ ∀ r,
      (∀ l : Loc Arr, (∀ f, l.arr ≠ .send f ∧ l.arr ≠ .recv f) →
        ¬ (l.arr = U ∧ (G3 p .zmin (cellOf l) ∨ G3 p .zmax (cellOf l)) ∧ l.v < p.nbvar) →
        s' r l = s r l) ∧
      ∀ (g : Int → R) (i j : Int) (v : Nat), 0 ≤ i → i < p.isize → 0 ≤ j → j < p.jsize → v < p.nbvar →
        (∀ r', (T.coords r').1 = (T.coords r).1 ∧ (T.coords r').2.1 = (T.coords r).2.1 →
          ∀ c, p.ghostWidth ≤ c → c < p.ghostWidth + p.nz →
          s r' ⟨U, i, j, c, v⟩ = g ((T.coords r').2.2 * p.nz + c)) →
        ∀ k, 0 ≤ k → k < p.nz + 2 * p.ghostWidth → s' r ⟨U, i, j, k, v⟩ =
          signed (normalVar mhd 2 v ∧ flips p.boundary_type_zmin p.boundary_type_zmax
            (p.nz * T.mz) p.ghostWidth ((T.coords r).2.2 * p.nz + k))
          (g (srcCoord p.boundary_type_zmin p.boundary_type_zmax (p.nz * T.mz) p.ghostWidth
            ((T.coords r).2.2 * p.nz + k))) := by
  have hI := hw.isize_eq
  have hJ := hw.jsize_eq
  have hK := hw.ksize_eq
  have hgw := hw.gw_pos
  obtain ⟨⟨hwx, hwy⟩, hwz⟩ := hwide
  obtain ⟨⟨b1, b2, b3, b4⟩, b5, b6⟩ := hbc
  obtain ⟨s', hb, hs'⟩ := exchangeDir_bulk (mhd := mhd) (T := T) (p := p) (U := U) (lay := lay)
    (fmin := .zmin) (fmax := .zmax) (tag := 311) (e := bufExt3 p .zmin) hU (by simp)
    (packK3_is lay hw U .zmin (hU _).1) (packK3_is lay hw U .zmax (hU _).1)
    (fillFace3_is hw lay mhd T hU .zmin (Or.inr hwz))
    (fillFace3_is hw lay mhd T hU .zmax (Or.inr hwz))
    (inBox_G3 hw .zmin) (inBox_G3 hw .zmax) s
  refine ⟨s', hb, fun r => ⟨fun l hl => (hs' r).1 l (fun f _ => hl f), ?_⟩⟩
  intro g i j v hi hi' hj hj' hv hg k hc hc'
  obtain ⟨ma, hma⟩ := (hs' r).2.2
  obtain ⟨_, _, x1, x2⟩ := T.coords_range r
  have cmin := C37_neighbour_position T .zmin r
  have cmax := C37_neighbour_position T .zmax r
  simp only [neighbourPos] at cmin cmax
  refine axisMpi hS (mhd := mhd) (axis := 2) (v := v) hw.nz_pos hwz x1 x2 b5 b6
    (A := fun c => s r ⟨U, i, j, c, v⟩)
    (Lf := fun c => s (T.neighborRank .zmin r) ⟨U, i, j, c, v⟩)
    (Rt := fun c => s (T.neighborRank .zmax r) ⟨U, i, j, c, v⟩)
    (mA := fun c => ma ⟨U, i, j, c, v⟩) (mB := fun c => s' r ⟨U, i, j, c, v⟩) (g := g)
    ?_ ?_ ?_ ?_ ?_ k hc hc'
  · exact hg r ⟨rfl, rfl⟩
  · intro c h1 h2
    have := hg _ (by rw [cmin]; exact ⟨rfl, rfl⟩) c h1 h2
    rw [cmin] at this
    exact this
  · intro c h1 h2
    have := hg _ (by rw [cmax]; exact ⟨rfl, rfl⟩) c h1 h2
    rw [cmax] at this
    exact this
  · intro c h1 h2
    simp only [(hma i j c v hv).1]
    refine if_congr ?_ (if_congr Iff.rfl ?_ rfl) rfl
    · simp only [G3]; omega
    · congr 2 <;> simp only [packOff, unpackOff] <;> omega
  · intro c h1 h2
    simp only [(hma i j c v hv).2]
    refine if_congr ?_ (if_congr Iff.rfl ?_ rfl) rfl
    · simp only [G3]; omega
    · congr 2 <;> simp only [packOff, unpackOff] <;> omega

/-- **The 2D halo exchange is the global ghost fill**: if the interior of every block holds the
global field `g`, then afterwards every cell of every block (ghost cells and corners included) holds
what the serial ghost fill of `g` puts there; everything else but the buffers is untouched. -/
theorem halo2 (hw : p.WF) (hS : SignLaws R) (hU : NotBuf U) (hwide : Wide2 p)
    (hbc : NamedBC2 T p) (s : T.Rank → Mem Arr R) :
    ∃ s', BulkRel (makeBoundariesMpi2 lay mhd T p U) s s' ∧ ∀ r,
      (∀ l : Loc Arr, (∀ f, l.arr ≠ .send f ∧ l.arr ≠ .recv f) →
        ¬ (l.arr = U ∧ l.k = 0 ∧ inGrid2 p l.i l.j ∧ ¬ interior2 p l.i l.j ∧ l.v < p.nbvar) →
        s' r l = s r l) ∧
      ∀ g : Int → Int → Nat → R,
        (∀ r' i j v, interior2 p i j → v < p.nbvar → s r' ⟨U, i, j, 0, v⟩ =
          g ((T.coords r').1 * p.nx + i) ((T.coords r').2.1 * p.ny + j) v) →
        ∀ i j v, inGrid2 p i j → v < p.nbvar → s' r ⟨U, i, j, 0, v⟩ =
          ghost2 mhd (globalParams T p) g ((T.coords r).1 * p.nx + i)
            ((T.coords r).2.1 * p.ny + j) v := by
  have hI := hw.isize_eq
  have hJ := hw.jsize_eq
  have hgw := hw.gw_pos
  have hny := hw.ny_pos
  have hnx := hw.nx_pos
  obtain ⟨s1, hb1, h1⟩ := haloX2 (lay := lay) (mhd := mhd) hw hS hU hwide hbc s
  obtain ⟨s2, hb2, h2⟩ := haloY2 (lay := lay) (mhd := mhd) hw hS hU hwide hbc s1
  refine ⟨s2, hb1.append hb2, fun r => ⟨?_, ?_⟩⟩
  · rintro ⟨a, i, j, k, v⟩ hb hl
    rw [(h2 r).1 _ hb, (h1 r).1 _ hb]
    · rintro ⟨ha, hg, hv⟩
      apply hl
      simp only [inGrid2, interior2]
      simp only [cellOf, G2] at hg
      rcases hg with hg | hg <;> (refine ⟨ha, hg.1, ?_, ?_, hv⟩ <;> omega)
    · rintro ⟨ha, hg, hv⟩
      apply hl
      simp only [inGrid2, interior2]
      simp only [cellOf, G2] at hg
      rcases hg with hg | hg <;> (refine ⟨ha, hg.1, ?_, ?_, hv⟩ <;> omega)
  · intro g hg i j v hij hv
    obtain ⟨hi0, hi1, hj0, hj1⟩ := hij
    refine (h2 r).2 (fun Y => signed (normalVar mhd 0 v ∧ flips p.boundary_type_xmin
        p.boundary_type_xmax (p.nx * T.mx) p.ghostWidth ((T.coords r).1 * p.nx + i))
          (g (srcCoord p.boundary_type_xmin p.boundary_type_xmax (p.nx * T.mx) p.ghostWidth
            ((T.coords r).1 * p.nx + i)) Y v)) i v hi0 (by omega) hv ?_ j hj0 hj1
    intro r' hr' c hc hc'
    have := (h1 r').2 (fun X => g X ((T.coords r').2.1 * p.ny + c) v) c v (by omega) (by omega) hv
      (fun r'' hr'' c' h h' => by
        rw [hg r'' c' c v ⟨h, by omega, hc, by omega⟩ hv]
        rw [show (T.coords r'').2.1 = (T.coords r').2.1 by rw [hr'']]) i hi0 hi1
    rw [this, hr'.1]

/-- **The 3D halo exchange is the global ghost fill.** -/
theorem halo3 (hw : p.WF) (hS : SignLaws R) (hU : NotBuf U) (hwide : Wide3 p)
    (hbc : NamedBC3 T p) (s : T.Rank → Mem Arr R) :
    ∃ s', BulkRel (makeBoundariesMpi3 lay mhd T p U) s s' ∧ ∀ r,
      (∀ l : Loc Arr, (∀ f, l.arr ≠ .send f ∧ l.arr ≠ .recv f) →
        ¬ (l.arr = U ∧ inGrid3 p l.i l.j l.k ∧ ¬ interior3 p l.i l.j l.k ∧ l.v < p.nbvar) →
        s' r l = s r l) ∧
      ∀ g : Int → Int → Int → Nat → R,
        (∀ r' i j k v, interior3 p i j k → v < p.nbvar → s r' ⟨U, i, j, k, v⟩ =
          g ((T.coords r').1 * p.nx + i) ((T.coords r').2.1 * p.ny + j)
            ((T.coords r').2.2 * p.nz + k) v) →
        ∀ i j k v, inGrid3 p i j k → v < p.nbvar → s' r ⟨U, i, j, k, v⟩ =
          ghost3 mhd (globalParams T p) g ((T.coords r).1 * p.nx + i)
            ((T.coords r).2.1 * p.ny + j) ((T.coords r).2.2 * p.nz + k) v := by
  have hI := hw.isize_eq
  have hJ := hw.jsize_eq
  have hK := hw.ksize_eq
  have hgw := hw.gw_pos
  have hny := hw.ny_pos
  have hnx := hw.nx_pos
  have hnz := hw.nz_pos
  obtain ⟨s1, hb1, h1⟩ := haloX3 (lay := lay) (mhd := mhd) hw hS hU hwide hbc s
  obtain ⟨s2, hb2, h2⟩ := haloY3 (lay := lay) (mhd := mhd) hw hS hU hwide hbc s1
  obtain ⟨s3, hb3, h3⟩ := haloZ3 (lay := lay) (mhd := mhd) hw hS hU hwide hbc s2
  refine ⟨s3, (hb1.append hb2).append hb3, fun r => ⟨?_, ?_⟩⟩
  · rintro ⟨a, i, j, k, v⟩ hb hl
    have hn : ∀ f f' : Face, ¬ (a = U ∧ (G3 p f (i, j, k) ∨ G3 p f' (i, j, k)) ∧ v < p.nbvar) := by
      have key : ∀ f : Face, G3 p f (i, j, k) → inGrid3 p i j k ∧ ¬ interior3 p i j k := by
        intro f hg
        simp only [inGrid3, interior3]
        cases f <;> simp only [G3] at hg <;> omega
      rintro f f' ⟨ha, hg, hv⟩
      apply hl
      rcases hg with hg | hg
      · exact ⟨ha, (key _ hg).1, (key _ hg).2, hv⟩
      · exact ⟨ha, (key _ hg).1, (key _ hg).2, hv⟩
    rw [(h3 r).1 _ hb (hn _ _), (h2 r).1 _ hb (hn _ _), (h1 r).1 _ hb (hn _ _)]
  · intro g hg i j k v hijk hv
    obtain ⟨⟨hi0, hi1⟩, ⟨hj0, hj1⟩, hk0, hk1⟩ := hijk
    refine (h3 r).2 (fun Z => signed (normalVar mhd 1 v ∧ flips p.boundary_type_ymin
        p.boundary_type_ymax (p.ny * T.my) p.ghostWidth ((T.coords r).2.1 * p.ny + j))
        (signed (normalVar mhd 0 v ∧ flips p.boundary_type_xmin
        p.boundary_type_xmax (p.nx * T.mx) p.ghostWidth ((T.coords r).1 * p.nx + i))
          (g (srcCoord p.boundary_type_xmin p.boundary_type_xmax (p.nx * T.mx) p.ghostWidth
            ((T.coords r).1 * p.nx + i))
             (srcCoord p.boundary_type_ymin p.boundary_type_ymax (p.ny * T.my) p.ghostWidth
            ((T.coords r).2.1 * p.ny + j)) Z v))) i j v hi0 (by omega) hj0 (by omega) hv ?_ k hk0 hk1
    intro r' hr' c hc hc'
    have := (h2 r').2 (fun Y => signed (normalVar mhd 0 v ∧ flips p.boundary_type_xmin
        p.boundary_type_xmax (p.nx * T.mx) p.ghostWidth ((T.coords r').1 * p.nx + i))
          (g (srcCoord p.boundary_type_xmin p.boundary_type_xmax (p.nx * T.mx) p.ghostWidth
            ((T.coords r').1 * p.nx + i)) Y ((T.coords r').2.2 * p.nz + c) v)) i c v hi0 (by omega)
            (by omega) (by omega) hv ?_ j hj0 hj1
    · rw [this, hr'.1, hr'.2]
    intro r1 hr1 c1 hc1 hc1'
    have := (h1 r1).2 (fun X => g X ((T.coords r1).2.1 * p.ny + c1)
      ((T.coords r1).2.2 * p.nz + c) v) c1 c v (by omega) (by omega) (by omega) (by omega) hv
      (fun r'' hr'' c' h h' => by
        rw [hg r'' c' c1 c v ⟨⟨h, h'⟩, ⟨hc1, hc1'⟩, hc, hc'⟩ hv]
        rw [show (T.coords r'').2.1 = (T.coords r1).2.1 by rw [hr''],
          show (T.coords r'').2.2 = (T.coords r1).2.2 by rw [hr'']]) i hi0 hi1
    rw [this, hr1.1, hr1.2]

theorem matched2 : Matched (makeBoundariesMpi2 lay mhd T p U) :=
  (exchangeDir_matched (C37_neighbours_mutual T .xmin) (C37_neighbours_mutual T .xmax)).append
    (exchangeDir_matched (C37_neighbours_mutual T .ymin) (C37_neighbours_mutual T .ymax))

theorem matched3 : Matched (makeBoundariesMpi3 lay mhd T p U) :=
  ((exchangeDir_matched (C37_neighbours_mutual T .xmin) (C37_neighbours_mutual T .xmax)).append
    (exchangeDir_matched (C37_neighbours_mutual T .ymin) (C37_neighbours_mutual T .ymax))).append
    (exchangeDir_matched (C37_neighbours_mutual T .zmin) (C37_neighbours_mutual T .zmax))

end two

end EulerKokkos
