import Verif.Lemmas.Mpi
import Verif.Lemmas.Wedge
import Verif.Props.C01
import Verif.Props.C02
import Verif.Props.C31
import Verif.Props.Sample

/-!
# C86: the time-step reductions, the halo kernels and the double Mach border stay inside the views

C06, C31, C41, C46 and C57 treat the kernels of a time step and of the initialisation.  Here are the
remaining kernels: the reductions of `compute_dt`, the functors that pack and unpack the border buffers,
the `MPI_Sendrecv` on those buffers, and `MakeBoundariesFunctor2D_wedge`.
-/

set_option linter.constructorNameAsVariable false
set_option linter.unusedSectionVars false
set_option linter.unusedSimpArgs false

namespace EulerKokkos

open Prog (rd wr foot_mono)
variable {R : Type} [RealOps R]

namespace Spec

/-- an access of a 2D halo kernel is in bounds: an element of the state view (`isize × jsize × nbvar`,
`/repo/src/muscl/SolverHydroMuscl.h:200-202`), or of one of the eight border buffers, whose extents are
`ghostWidth × jsize × nbvar` along x and `isize × ghostWidth × nbvar` along y
(`/repo/src/shared/SolverBase.cpp:79-90`) -/
def HaloElem2 (p : Params R) (U : Arr) (l : Loc Arr) : Prop :=
  l.v < p.nbvar ∧ l.k = 0 ∧
  ((l.arr = U ∧ (0 ≤ l.i ∧ l.i < p.isize) ∧ (0 ≤ l.j ∧ l.j < p.jsize)) ∨
   ((l.arr = .send .xmin ∨ l.arr = .send .xmax ∨ l.arr = .recv .xmin ∨ l.arr = .recv .xmax) ∧
     (0 ≤ l.i ∧ l.i < p.ghostWidth) ∧ (0 ≤ l.j ∧ l.j < p.jsize)) ∨
   ((l.arr = .send .ymin ∨ l.arr = .send .ymax ∨ l.arr = .recv .ymin ∨ l.arr = .recv .ymax) ∧
     (0 ≤ l.i ∧ l.i < p.isize) ∧ (0 ≤ l.j ∧ l.j < p.ghostWidth)))

/-- an access of a 3D halo kernel is in bounds (buffers: `/repo/src/shared/SolverBase.cpp:91-106`) -/
def HaloElem3 (p : Params R) (U : Arr) (l : Loc Arr) : Prop :=
  l.v < p.nbvar ∧
  ((l.arr = U ∧ (0 ≤ l.i ∧ l.i < p.isize) ∧ (0 ≤ l.j ∧ l.j < p.jsize) ∧ (0 ≤ l.k ∧ l.k < p.ksize)) ∨
   ((l.arr = .send .xmin ∨ l.arr = .send .xmax ∨ l.arr = .recv .xmin ∨ l.arr = .recv .xmax) ∧
     (0 ≤ l.i ∧ l.i < p.ghostWidth) ∧ (0 ≤ l.j ∧ l.j < p.jsize) ∧ (0 ≤ l.k ∧ l.k < p.ksize)) ∨
   ((l.arr = .send .ymin ∨ l.arr = .send .ymax ∨ l.arr = .recv .ymin ∨ l.arr = .recv .ymax) ∧
     (0 ≤ l.i ∧ l.i < p.isize) ∧ (0 ≤ l.j ∧ l.j < p.ghostWidth) ∧ (0 ≤ l.k ∧ l.k < p.ksize)) ∨
   ((l.arr = .send .zmin ∨ l.arr = .send .zmax ∨ l.arr = .recv .zmin ∨ l.arr = .recv .zmax) ∧
     (0 ≤ l.i ∧ l.i < p.isize) ∧ (0 ≤ l.j ∧ l.j < p.jsize) ∧ (0 ≤ l.k ∧ l.k < p.ghostWidth)))

end Spec

open Spec

/-! ### Reductions: allocated elements only, and nothing is written -/

/-- **C86, time step, 2D hydro**: whatever the accumulator, each iteration of the reduction only reads, and
only allocated elements. -/
theorem C86_dt_reads_in_bounds_2d {p : Params R} (hw : p.WF) (hn : p.nbvar = 4) (g : GravityParams)
    {U : Arr} (hU : U = .U ∨ U = .U2) (t : Int × Int) (acc : R) :
    (computeDt2 p U t acc).Foot (Alloc2 p g) (fun _ => False) (fun _ => False) := by
  have hgw := hw.gw_pos
  unfold computeDt2
  refine Prog.foot_ite (fun h => ?_) (fun _ => Prog.foot_pure _ _ _ _)
  obtain ⟨h1, h2, h3, h4⟩ := h
  refine Prog.foot_bind (foot_getHS2 fun v hv => ?_) (fun _ => Prog.foot_pure _ _ _ _)
  refine ⟨⟨by dsimp only; omega, by dsimp only; omega⟩, ⟨by dsimp only; omega, by dsimp only; omega⟩, rfl, ?_⟩
  rcases hU with rfl | rfl <;> (show v < p.nbvar; omega)

/-- **C86, time step with gravity, 2D hydro**: the gravity view is read only when it is allocated. -/
theorem C86_dt_gravity_reads_in_bounds_2d {p : Params R} (hw : p.WF) (hn : p.nbvar = 4)
    {g : GravityParams} (hg : g.enabled = true) (cfl : R)
    {U : Arr} (hU : U = .U ∨ U = .U2) (t : Int × Int) (acc : R) :
    (computeDtGravity2 p cfl .grav U t acc).Foot (Alloc2 p g) (fun _ => False) (fun _ => False) := by
  have hgw := hw.gw_pos
  unfold computeDtGravity2
  refine Prog.foot_ite (fun h => ?_) (fun _ => Prog.foot_pure _ _ _ _)
  obtain ⟨h1, h2, h3, h4⟩ := h
  have hG : ∀ v < 2, Alloc2 p g ⟨.grav, t.1, t.2, 0, v⟩ := fun v hv =>
    ⟨⟨by dsimp only; omega, by dsimp only; omega⟩, ⟨by dsimp only; omega, by dsimp only; omega⟩, rfl, hg, hv⟩
  refine Prog.foot_bind (foot_getHS2 fun v hv => ?_) (fun _ => ?_)
  · refine ⟨⟨by dsimp only; omega, by dsimp only; omega⟩, ⟨by dsimp only; omega, by dsimp only; omega⟩,
      rfl, ?_⟩
    rcases hU with rfl | rfl <;> (show v < p.nbvar; omega)
  · refine Prog.foot_bind ((Prog.foot_rd _ _ _ _).2 (hG 0 (by decide))) (fun _ => ?_)
    exact Prog.foot_bind ((Prog.foot_rd _ _ _ _).2 (hG 1 (by decide))) (fun _ => Prog.foot_pure _ _ _ _)

/-- **C86, time step, 3D hydro**. -/
theorem C86_dt_reads_in_bounds_3d {p : Params R} (hw : p.WF) (hn : p.nbvar = 5) (g : GravityParams)
    {U : Arr} (hU : U = .U ∨ U = .U2) (t : Int × Int × Int) (acc : R) :
    (computeDt3 p U t acc).Foot (Alloc3 p g) (fun _ => False) (fun _ => False) := by
  have hgw := hw.gw_pos
  unfold computeDt3
  refine Prog.foot_ite (fun h => ?_) (fun _ => Prog.foot_pure _ _ _ _)
  obtain ⟨h1, h2, h3, h4, h5, h6⟩ := h
  refine Prog.foot_bind (foot_getHS3 fun v hv => ?_) (fun _ => Prog.foot_pure _ _ _ _)
  refine ⟨⟨by dsimp only; omega, by dsimp only; omega⟩, ⟨by dsimp only; omega, by dsimp only; omega⟩,
    ⟨by dsimp only; omega, by dsimp only; omega⟩, ?_⟩
  rcases hU with rfl | rfl <;> (show v < p.nbvar; omega)

/-- **C86, time step with gravity, 3D hydro**. -/
theorem C86_dt_gravity_reads_in_bounds_3d {p : Params R} (hw : p.WF) (hn : p.nbvar = 5)
    {g : GravityParams} (hg : g.enabled = true) (cfl : R)
    {U : Arr} (hU : U = .U ∨ U = .U2) (t : Int × Int × Int) (acc : R) :
    (computeDtGravity3 p cfl .grav U t acc).Foot (Alloc3 p g) (fun _ => False) (fun _ => False) := by
  have hgw := hw.gw_pos
  unfold computeDtGravity3
  refine Prog.foot_ite (fun h => ?_) (fun _ => Prog.foot_pure _ _ _ _)
  obtain ⟨h1, h2, h3, h4, h5, h6⟩ := h
  have hG : ∀ v < 3, Alloc3 p g ⟨.grav, t.1, t.2.1, t.2.2, v⟩ := fun v hv =>
    ⟨⟨by dsimp only; omega, by dsimp only; omega⟩, ⟨by dsimp only; omega, by dsimp only; omega⟩,
      ⟨by dsimp only; omega, by dsimp only; omega⟩, hg, hv⟩
  refine Prog.foot_bind (foot_getHS3 fun v hv => ?_) (fun _ => ?_)
  · refine ⟨⟨by dsimp only; omega, by dsimp only; omega⟩, ⟨by dsimp only; omega, by dsimp only; omega⟩,
      ⟨by dsimp only; omega, by dsimp only; omega⟩, ?_⟩
    rcases hU with rfl | rfl <;> (show v < p.nbvar; omega)
  · refine Prog.foot_bind ((Prog.foot_rd _ _ _ _).2 (hG 0 (by decide))) (fun _ => ?_)
    refine Prog.foot_bind ((Prog.foot_rd _ _ _ _).2 (hG 1 (by decide))) (fun _ => ?_)
    exact Prog.foot_bind ((Prog.foot_rd _ _ _ _).2 (hG 2 (by decide))) (fun _ => Prog.foot_pure _ _ _ _)

/-- **C86, time step, 2D MHD**. -/
theorem C86_mhd_dt_reads_in_bounds_2d {p : Params R} (hw : p.WF) (hn : p.nbvar = 8)
    (t : Int × Int) (acc : R) :
    (computeDtMhd2 p .Q t acc).Foot (AllocM2 p) (fun _ => False) (fun _ => False) := by
  have hgw := hw.gw_pos
  unfold computeDtMhd2
  refine Prog.foot_ite (fun h => ?_) (fun _ => Prog.foot_pure _ _ _ _)
  obtain ⟨h1, h2, h3, h4⟩ := h
  refine Prog.foot_bind (foot_getMS fun v hv => ?_) (fun _ => Prog.foot_pure _ _ _ _)
  exact ⟨⟨by dsimp only; omega, by dsimp only; omega⟩, ⟨by dsimp only; omega, by dsimp only; omega⟩, rfl,
    (by show v < p.nbvar; omega)⟩

/-- **C86, time step, 3D MHD**. -/
theorem C86_mhd_dt_reads_in_bounds_3d {p : Params R} (hw : p.WF) (hn : p.nbvar = 8)
    (t : Int × Int × Int) (acc : R) :
    (computeDtMhd3 p .Q t acc).Foot (AllocM3 p) (fun _ => False) (fun _ => False) := by
  have hgw := hw.gw_pos
  unfold computeDtMhd3
  refine Prog.foot_ite (fun h => ?_) (fun _ => Prog.foot_pure _ _ _ _)
  obtain ⟨h1, h2, h3, h4, h5, h6⟩ := h
  refine Prog.foot_bind (foot_getMS fun v hv => ?_) (fun _ => Prog.foot_pure _ _ _ _)
  exact ⟨⟨by dsimp only; omega, by dsimp only; omega⟩, ⟨by dsimp only; omega, by dsimp only; omega⟩,
    ⟨by dsimp only; omega, by dsimp only; omega⟩, (by show v < p.nbvar; omega)⟩

/-! ### Border buffers -/

section halo
variable {p : Params R}

theorem haloElem_state2 {U : Arr} {i j : Int} {v : Nat} (hi : 0 ≤ i ∧ i < p.isize) (hj : 0 ≤ j ∧ j < p.jsize)
    (hv : v < p.nbvar) : HaloElem2 p U ⟨U, i, j, 0, v⟩ := ⟨hv, rfl, Or.inl ⟨rfl, hi, hj⟩⟩

theorem haloElem_state3 {U : Arr} {i j k : Int} {v : Nat} (hi : 0 ≤ i ∧ i < p.isize)
    (hj : 0 ≤ j ∧ j < p.jsize) (hk : 0 ≤ k ∧ k < p.ksize)
    (hv : v < p.nbvar) : HaloElem3 p U ⟨U, i, j, k, v⟩ := ⟨hv, Or.inl ⟨rfl, hi, hj, hk⟩⟩

/-- **C86, packing, 2D**: for every grid, layout, face and iteration, the functor filling a border buffer
reads inside the state view and writes inside the buffer. -/
theorem C86_pack_in_bounds_2d (hw : p.WF) (lay : Layout) (U : Arr) (f : Face) (t : Int)
    (ht : t ∈ range1 (nbIterBuf2 p f)) : (packBuf2 lay p U f t).Safe (HaloElem2 p U) := by
  have h1 := hw.gw_pos
  have h2 := hw.isize_eq
  have h3 := hw.jsize_eq
  have h4 := hw.nx_pos
  have h5 := hw.ny_pos
  rw [mem_range1] at ht
  unfold Prog.Safe
  cases f <;> simp only [packBuf2, nbIterBuf2] at ht ⊢
  case zmin => exact Prog.foot_pure _ _ _ _
  case zmax => exact Prog.foot_pure _ _ _ _
  case xmin | xmax =>
    obtain ⟨a, b, -⟩ := C01_index_coord_index_2d lay t p.ghostWidth p.jsize (by omega) (by omega) ht
    generalize index2coord2 lay t p.ghostWidth p.jsize = c at a b ⊢
    refine foot_copyCell (fun v hv => haloElem_state2 ⟨?_, ?_⟩ b hv) (fun v hv => ?_)
    · dsimp only; omega
    · dsimp only; omega
    · exact ⟨hv, rfl, Or.inr (Or.inl ⟨by simp, a, b⟩)⟩
  case ymin | ymax =>
    obtain ⟨a, b, -⟩ := C01_index_coord_index_2d lay t p.isize p.ghostWidth (by omega) (by omega) ht
    generalize index2coord2 lay t p.isize p.ghostWidth = c at a b ⊢
    refine foot_copyCell (fun v hv => haloElem_state2 a ⟨?_, ?_⟩ hv) (fun v hv => ?_)
    · dsimp only; omega
    · dsimp only; omega
    · exact ⟨hv, rfl, Or.inr (Or.inr ⟨by simp, a, b⟩)⟩

/-- **C86, unpacking, 2D**. -/
theorem C86_unpack_in_bounds_2d (hw : p.WF) (lay : Layout) (U : Arr) (f : Face) (t : Int)
    (ht : t ∈ range1 (nbIterBuf2 p f)) : (unpackBuf2 lay p U f t).Safe (HaloElem2 p U) := by
  have h1 := hw.gw_pos
  have h2 := hw.isize_eq
  have h3 := hw.jsize_eq
  have h4 := hw.nx_pos
  have h5 := hw.ny_pos
  rw [mem_range1] at ht
  unfold Prog.Safe
  cases f <;> simp only [unpackBuf2, nbIterBuf2] at ht ⊢
  case zmin => exact Prog.foot_pure _ _ _ _
  case zmax => exact Prog.foot_pure _ _ _ _
  case xmin | xmax =>
    obtain ⟨a, b, -⟩ := C01_index_coord_index_2d lay t p.ghostWidth p.jsize (by omega) (by omega) ht
    generalize index2coord2 lay t p.ghostWidth p.jsize = c at a b ⊢
    refine foot_copyCell (fun v hv => ?_) (fun v hv => haloElem_state2 ⟨?_, ?_⟩ b hv)
    · exact ⟨hv, rfl, Or.inr (Or.inl ⟨by simp, a, b⟩)⟩
    · dsimp only; omega
    · dsimp only; omega
  case ymin | ymax =>
    obtain ⟨a, b, -⟩ := C01_index_coord_index_2d lay t p.isize p.ghostWidth (by omega) (by omega) ht
    generalize index2coord2 lay t p.isize p.ghostWidth = c at a b ⊢
    refine foot_copyCell (fun v hv => ?_) (fun v hv => haloElem_state2 a ⟨?_, ?_⟩ hv)
    · exact ⟨hv, rfl, Or.inr (Or.inr ⟨by simp, a, b⟩)⟩
    · dsimp only; omega
    · dsimp only; omega

/-- **C86, packing, 3D**. -/
theorem C86_pack_in_bounds_3d (hw : p.WF) (lay : Layout) (U : Arr) (f : Face) (t : Int)
    (ht : t ∈ range1 (nbIterBuf3 p f)) : (packBuf3 lay p U f t).Safe (HaloElem3 p U) := by
  have h1 := hw.gw_pos
  have h2 := hw.isize_eq
  have h3 := hw.jsize_eq
  have h4 := hw.nx_pos
  have h5 := hw.ny_pos
  have h6 := hw.nz_pos
  have h7 := hw.ksize_eq
  rw [mem_range1] at ht
  unfold Prog.Safe
  cases f <;> simp only [packBuf3, nbIterBuf3] at ht ⊢
  case xmin | xmax =>
    obtain ⟨a, b, c', -⟩ := C01_index_coord_index_3d lay t p.ghostWidth p.jsize p.ksize (by omega) (by omega)
      (by omega) ht
    generalize index2coord3 lay t p.ghostWidth p.jsize p.ksize = c at a b c' ⊢
    refine foot_copyCell (fun v hv => haloElem_state3 ⟨?_, ?_⟩ b c' hv) (fun v hv => ?_)
    · dsimp only; omega
    · dsimp only; omega
    · exact ⟨hv, Or.inr (Or.inl ⟨by simp, a, b, c'⟩)⟩
  case ymin | ymax =>
    obtain ⟨a, b, c', -⟩ := C01_index_coord_index_3d lay t p.isize p.ghostWidth p.ksize (by omega) (by omega)
      (by omega) ht
    generalize index2coord3 lay t p.isize p.ghostWidth p.ksize = c at a b c' ⊢
    refine foot_copyCell (fun v hv => haloElem_state3 a ⟨?_, ?_⟩ c' hv) (fun v hv => ?_)
    · dsimp only; omega
    · dsimp only; omega
    · exact ⟨hv, Or.inr (Or.inr (Or.inl ⟨by simp, a, b, c'⟩))⟩
  case zmin | zmax =>
    obtain ⟨a, b, c', -⟩ := C01_index_coord_index_3d lay t p.isize p.jsize p.ghostWidth (by omega) (by omega)
      (by omega) ht
    generalize index2coord3 lay t p.isize p.jsize p.ghostWidth = c at a b c' ⊢
    refine foot_copyCell (fun v hv => haloElem_state3 a b ⟨?_, ?_⟩ hv) (fun v hv => ?_)
    · dsimp only; omega
    · dsimp only; omega
    · exact ⟨hv, Or.inr (Or.inr (Or.inr ⟨by simp, a, b, c'⟩))⟩

/-- **C86, unpacking, 3D**. -/
theorem C86_unpack_in_bounds_3d (hw : p.WF) (lay : Layout) (U : Arr) (f : Face) (t : Int)
    (ht : t ∈ range1 (nbIterBuf3 p f)) : (unpackBuf3 lay p U f t).Safe (HaloElem3 p U) := by
  have h1 := hw.gw_pos
  have h2 := hw.isize_eq
  have h3 := hw.jsize_eq
  have h4 := hw.nx_pos
  have h5 := hw.ny_pos
  have h6 := hw.nz_pos
  have h7 := hw.ksize_eq
  rw [mem_range1] at ht
  unfold Prog.Safe
  cases f <;> simp only [unpackBuf3, nbIterBuf3] at ht ⊢
  case xmin | xmax =>
    obtain ⟨a, b, c', -⟩ := C01_index_coord_index_3d lay t p.ghostWidth p.jsize p.ksize (by omega) (by omega)
      (by omega) ht
    generalize index2coord3 lay t p.ghostWidth p.jsize p.ksize = c at a b c' ⊢
    refine foot_copyCell (fun v hv => ?_) (fun v hv => haloElem_state3 ⟨?_, ?_⟩ b c' hv)
    · exact ⟨hv, Or.inr (Or.inl ⟨by simp, a, b, c'⟩)⟩
    · dsimp only; omega
    · dsimp only; omega
  case ymin | ymax =>
    obtain ⟨a, b, c', -⟩ := C01_index_coord_index_3d lay t p.isize p.ghostWidth p.ksize (by omega) (by omega)
      (by omega) ht
    generalize index2coord3 lay t p.isize p.ghostWidth p.ksize = c at a b c' ⊢
    refine foot_copyCell (fun v hv => ?_) (fun v hv => haloElem_state3 a ⟨?_, ?_⟩ c' hv)
    · exact ⟨hv, Or.inr (Or.inr (Or.inl ⟨by simp, a, b, c'⟩))⟩
    · dsimp only; omega
    · dsimp only; omega
  case zmin | zmax =>
    obtain ⟨a, b, c', -⟩ := C01_index_coord_index_3d lay t p.isize p.jsize p.ghostWidth (by omega) (by omega)
      (by omega) ht
    generalize index2coord3 lay t p.isize p.jsize p.ghostWidth = c at a b c' ⊢
    refine foot_copyCell (fun v hv => ?_) (fun v hv => haloElem_state3 a b ⟨?_, ?_⟩ hv)
    · exact ⟨hv, Or.inr (Or.inr (Or.inr ⟨by simp, a, b, c'⟩))⟩
    · dsimp only; omega
    · dsimp only; omega

/-- the elements of the state view are those the solvers allocate -/
theorem haloElem2_alloc {g : GravityParams} {U : Arr} (hU : U = .U ∨ U = .U2) {l : Loc Arr}
    (h : HaloElem2 p U l) (hl : l.arr = U) : Alloc2 p g l ∧ AllocM2 p l := by
  obtain ⟨hv, hk, h⟩ := h
  rcases h with ⟨_, hi, hj⟩ | ⟨h, _⟩ | ⟨h, _⟩
  · unfold Alloc2 AllocM2
    rcases hU with rfl | rfl <;> rw [hl] <;> exact ⟨⟨hi, hj, hk, hv⟩, hi, hj, hk, hv⟩
  all_goals rcases hU with rfl | rfl <;> rw [hl] at h <;> simp at h

theorem haloElem3_alloc {g : GravityParams} {U : Arr} (hU : U = .U ∨ U = .U2) {l : Loc Arr}
    (h : HaloElem3 p U l) (hl : l.arr = U) : Alloc3 p g l ∧ AllocM3 p l := by
  obtain ⟨hv, h⟩ := h
  rcases h with ⟨_, hi, hj, hk⟩ | ⟨h, _⟩ | ⟨h, _⟩ | ⟨h, _⟩
  · unfold Alloc3 AllocM3
    rcases hU with rfl | rfl <;> rw [hl] <;> exact ⟨⟨hi, hj, hk, hv⟩, hi, hj, hk, hv⟩
  all_goals rcases hU with rfl | rfl <;> rw [hl] at h <;> simp at h

end halo

/-! ### Messages -/

/-- a position inside the storage of a view is the position of one of its elements -/
theorem viewElem_range (lay : Layout) {e : Int × Int × Int} {nb : Int}
    (he : 0 < e.1 ∧ 0 < e.2.1 ∧ 0 < e.2.2) (hnb : 0 < nb) {q : Int} (hq : 0 ≤ q ∧ q < viewSize e nb) :
    let c := viewElem lay e nb q
    (0 ≤ c.1 ∧ c.1 < e.1) ∧ (0 ≤ c.2.1 ∧ c.2.1 < e.2.1) ∧ (0 ≤ c.2.2.1 ∧ c.2.2.1 < e.2.2) ∧
      (0 ≤ c.2.2.2 ∧ c.2.2.2 < nb) ∧ viewOffset lay e nb c.1 c.2.1 c.2.2.1 c.2.2.2 = q := by
  obtain ⟨a, b, c⟩ := e
  obtain ⟨ha, hb, hc⟩ := he
  obtain ⟨q0, q1⟩ := hq
  simp only [viewSize] at ha hb hc q1
  cases lay
  · simp only [viewElem, viewOffset]
    have d1 := Int.emod_add_mul_ediv q a
    have d2 := Int.emod_add_mul_ediv (q / a) b
    have d3 := Int.emod_add_mul_ediv (q / a / b) c
    refine ⟨⟨Int.emod_nonneg _ ha.ne', Int.emod_lt_of_pos _ ha⟩,
      ⟨Int.emod_nonneg _ hb.ne', Int.emod_lt_of_pos _ hb⟩,
      ⟨Int.emod_nonneg _ hc.ne', Int.emod_lt_of_pos _ hc⟩, ⟨?_, ?_⟩, ?_⟩
    · exact Int.ediv_nonneg (Int.ediv_nonneg (Int.ediv_nonneg q0 ha.le) hb.le) hc.le
    · refine Int.ediv_lt_of_lt_mul hc (Int.ediv_lt_of_lt_mul hb (Int.ediv_lt_of_lt_mul ha ?_))
      calc q < a * b * c * nb := q1
        _ = nb * c * b * a := by ring
    · rw [d3, d2, d1]
  · simp only [viewElem, viewOffset]
    have d1 := Int.mul_ediv_add_emod q nb
    have d2 := Int.mul_ediv_add_emod (q / nb) c
    have d3 := Int.mul_ediv_add_emod (q / nb / c) b
    refine ⟨⟨?_, ?_⟩, ⟨Int.emod_nonneg _ hb.ne', Int.emod_lt_of_pos _ hb⟩,
      ⟨Int.emod_nonneg _ hc.ne', Int.emod_lt_of_pos _ hc⟩,
      ⟨Int.emod_nonneg _ hnb.ne', Int.emod_lt_of_pos _ hnb⟩, ?_⟩
    · exact Int.ediv_nonneg (Int.ediv_nonneg (Int.ediv_nonneg q0 hnb.le) hc.le) hb.le
    · refine Int.ediv_lt_of_lt_mul hb (Int.ediv_lt_of_lt_mul hc (Int.ediv_lt_of_lt_mul hnb ?_))
      calc q < a * b * c * nb := q1
        _ = a * b * c * nb := by ring
    · rw [Int.mul_comm _ b, d3, Int.mul_comm _ c, d2, Int.mul_comm _ nb, d1]

/-- **C86, messages, 2D**: for every pair of opposite faces, the message a process sends from its buffer of
one face has exactly the size of the buffer the neighbour receives it into, and both ends only touch elements of
their buffers: position `q` of the message is element `c` of either view, inside its extents, and no other. -/
theorem C86_message_fits_2d {p : Params R} (hw : p.WF) (hn : 0 < p.nbvar) (lay : Layout) (f f' : Face)
    (hf : (f = .xmin ∧ f' = .xmax) ∨ (f = .xmax ∧ f' = .xmin) ∨ (f = .ymin ∧ f' = .ymax) ∨
      (f = .ymax ∧ f' = .ymin)) (m : Mem Arr R) :
    (sendView lay (bufExt2 p f) p.nbvar (.send f) m).count = viewSize (bufExt2 p f') p.nbvar ∧
    ∀ q, 0 ≤ q → q < viewSize (bufExt2 p f') p.nbvar → ∃ (i j : Int) (v : Nat),
      HaloElem2 p .U ⟨.send f, i, j, 0, v⟩ ∧ HaloElem2 p .U ⟨.recv f', i, j, 0, v⟩ ∧
      (sendView lay (bufExt2 p f) p.nbvar (.send f) m).data q = m ⟨.send f, i, j, 0, v⟩ ∧
      viewOffset lay (bufExt2 p f') p.nbvar i j 0 v = q := by
  have h1 := hw.gw_pos
  have h2 := hw.isize_eq
  have h3 := hw.jsize_eq
  have h4 := hw.nx_pos
  have h5 := hw.ny_pos
  have e : bufExt2 p f = bufExt2 p f' := by rcases hf with ⟨rfl, rfl⟩ | ⟨rfl, rfl⟩ | ⟨rfl, rfl⟩ | ⟨rfl, rfl⟩ <;> rfl
  refine ⟨by rw [← e]; rfl, fun q q0 q1 => ?_⟩
  have hpos : 0 < (bufExt2 p f').1 ∧ 0 < (bufExt2 p f').2.1 ∧ 0 < (bufExt2 p f').2.2 := by
    rcases hf with ⟨rfl, rfl⟩ | ⟨rfl, rfl⟩ | ⟨rfl, rfl⟩ | ⟨rfl, rfl⟩ <;> refine ⟨?_, ?_, ?_⟩ <;>
      dsimp only [bufExt2] <;> omega
  obtain ⟨a, b, c, d, hq⟩ := viewElem_range lay hpos (by omega : (0 : Int) < p.nbvar) ⟨q0, q1⟩
  have hs : (sendView lay (bufExt2 p f) p.nbvar (.send f) m).data q =
      m ⟨.send f, (viewElem lay (bufExt2 p f') p.nbvar q).1, (viewElem lay (bufExt2 p f') p.nbvar q).2.1,
        (viewElem lay (bufExt2 p f') p.nbvar q).2.2.1,
        (viewElem lay (bufExt2 p f') p.nbvar q).2.2.2.toNat⟩ := by rw [← e]; rfl
  generalize viewElem lay (bufExt2 p f') p.nbvar q = w at a b c d hq hs
  obtain ⟨i, j, k, v⟩ := w
  dsimp only at a b c d hq hs
  have hk : k = 0 := by
    rcases hf with ⟨rfl, rfl⟩ | ⟨rfl, rfl⟩ | ⟨rfl, rfl⟩ | ⟨rfl, rfl⟩ <;> dsimp only [bufExt2] at c <;> omega
  subst hk
  refine ⟨i, j, v.toNat, ?_, ?_, hs, ?_⟩
  · refine ⟨by dsimp only; omega, rfl, ?_⟩
    rcases hf with ⟨rfl, rfl⟩ | ⟨rfl, rfl⟩ | ⟨rfl, rfl⟩ | ⟨rfl, rfl⟩
    · exact Or.inr (Or.inl ⟨by simp, a, b⟩)
    · exact Or.inr (Or.inl ⟨by simp, a, b⟩)
    · exact Or.inr (Or.inr ⟨by simp, a, b⟩)
    · exact Or.inr (Or.inr ⟨by simp, a, b⟩)
  · refine ⟨by dsimp only; omega, rfl, ?_⟩
    rcases hf with ⟨rfl, rfl⟩ | ⟨rfl, rfl⟩ | ⟨rfl, rfl⟩ | ⟨rfl, rfl⟩
    · exact Or.inr (Or.inl ⟨by simp, a, b⟩)
    · exact Or.inr (Or.inl ⟨by simp, a, b⟩)
    · exact Or.inr (Or.inr ⟨by simp, a, b⟩)
    · exact Or.inr (Or.inr ⟨by simp, a, b⟩)
  · rw [Int.toNat_of_nonneg d.1]; exact hq

/-- **C86, messages, 3D**. -/
theorem C86_message_fits_3d {p : Params R} (hw : p.WF) (hn : 0 < p.nbvar) (lay : Layout) (f f' : Face)
    (hf : (f = .xmin ∧ f' = .xmax) ∨ (f = .xmax ∧ f' = .xmin) ∨ (f = .ymin ∧ f' = .ymax) ∨
      (f = .ymax ∧ f' = .ymin) ∨ (f = .zmin ∧ f' = .zmax) ∨ (f = .zmax ∧ f' = .zmin)) (m : Mem Arr R) :
    (sendView lay (bufExt3 p f) p.nbvar (.send f) m).count = viewSize (bufExt3 p f') p.nbvar ∧
    ∀ q, 0 ≤ q → q < viewSize (bufExt3 p f') p.nbvar → ∃ (i j k : Int) (v : Nat),
      HaloElem3 p .U ⟨.send f, i, j, k, v⟩ ∧ HaloElem3 p .U ⟨.recv f', i, j, k, v⟩ ∧
      (sendView lay (bufExt3 p f) p.nbvar (.send f) m).data q = m ⟨.send f, i, j, k, v⟩ ∧
      viewOffset lay (bufExt3 p f') p.nbvar i j k v = q := by
  have h1 := hw.gw_pos
  have h2 := hw.isize_eq
  have h3 := hw.jsize_eq
  have h4 := hw.nx_pos
  have h5 := hw.ny_pos
  have h6 := hw.nz_pos
  have h7 := hw.ksize_eq
  have e : bufExt3 p f = bufExt3 p f' := by
    rcases hf with ⟨rfl, rfl⟩ | ⟨rfl, rfl⟩ | ⟨rfl, rfl⟩ | ⟨rfl, rfl⟩ | ⟨rfl, rfl⟩ | ⟨rfl, rfl⟩ <;> rfl
  refine ⟨by rw [← e]; rfl, fun q q0 q1 => ?_⟩
  have hpos : 0 < (bufExt3 p f').1 ∧ 0 < (bufExt3 p f').2.1 ∧ 0 < (bufExt3 p f').2.2 := by
    cases f' <;> refine ⟨?_, ?_, ?_⟩ <;> dsimp only [bufExt3] <;> omega
  obtain ⟨a, b, c, d, hq⟩ := viewElem_range lay hpos (by omega : (0 : Int) < p.nbvar) ⟨q0, q1⟩
  have hs : (sendView lay (bufExt3 p f) p.nbvar (.send f) m).data q =
      m ⟨.send f, (viewElem lay (bufExt3 p f') p.nbvar q).1, (viewElem lay (bufExt3 p f') p.nbvar q).2.1,
        (viewElem lay (bufExt3 p f') p.nbvar q).2.2.1,
        (viewElem lay (bufExt3 p f') p.nbvar q).2.2.2.toNat⟩ := by rw [← e]; rfl
  generalize viewElem lay (bufExt3 p f') p.nbvar q = w at a b c d hq hs
  obtain ⟨i, j, k, v⟩ := w
  dsimp only at a b c d hq hs
  have key : ∀ A : Arr, (A = .send f ∨ A = .recv f') → HaloElem3 p .U ⟨A, i, j, k, v.toNat⟩ := by
    intro A hA
    refine ⟨by dsimp only; omega, ?_⟩
    rcases hf with ⟨rfl, rfl⟩ | ⟨rfl, rfl⟩ | ⟨rfl, rfl⟩ | ⟨rfl, rfl⟩ | ⟨rfl, rfl⟩ | ⟨rfl, rfl⟩
    · exact Or.inr (Or.inl ⟨by rcases hA with rfl | rfl <;> simp, a, b, c⟩)
    · exact Or.inr (Or.inl ⟨by rcases hA with rfl | rfl <;> simp, a, b, c⟩)
    · exact Or.inr (Or.inr (Or.inl ⟨by rcases hA with rfl | rfl <;> simp, a, b, c⟩))
    · exact Or.inr (Or.inr (Or.inl ⟨by rcases hA with rfl | rfl <;> simp, a, b, c⟩))
    · exact Or.inr (Or.inr (Or.inr ⟨by rcases hA with rfl | rfl <;> simp, a, b, c⟩))
    · exact Or.inr (Or.inr (Or.inr ⟨by rcases hA with rfl | rfl <;> simp, a, b, c⟩))
  exact ⟨i, j, k, v.toNat, key _ (Or.inl rfl), key _ (Or.inr rfl), hs,
    by rw [Int.toNat_of_nonneg d.1]; exact hq⟩

/-! ### The double Mach reflection border -/

/-- **C86, double Mach border**: every iteration, including those whose index decodes to no ghost cell, only
touches allocated elements. -/
theorem C86_wedge_in_bounds {p : Params R} (hw : p.WF) (hn : p.nbvar = 4) (g : GravityParams)
    (w : WedgeParams R) {U : Arr} (hU : U = .U ∨ U = .U2) (f : Face) (t : Int)
    (ht : t ∈ range1 (nbIter2 p)) : (makeBoundaryWedge p w U f t).Safe (Alloc2 p g) := by
  have hgw := hw.gw_pos
  have hx := hw.nx_pos
  have hy := hw.ny_pos
  have hI := hw.isize_eq
  have hJ := hw.jsize_eq
  have i0 := hw.imin_eq
  have i1 := hw.imax_eq
  have j0 := hw.jmin_eq
  have j1 := hw.jmax_eq
  have hb : ∀ (i j : Int), (0 ≤ i ∧ i < p.isize) → (0 ≤ j ∧ j < p.jsize) → ∀ v < 4,
      Alloc2 p g ⟨U, i, j, 0, v⟩ := by
    intro i j hi hj v hv
    refine ⟨hi, hj, rfl, ?_⟩
    rcases hU with rfl | rfl <;> (show v < p.nbvar; omega)
  unfold Prog.Safe
  cases f <;> simp only [makeBoundaryWedge]
  case zmin => exact Prog.foot_pure _ _ _ _
  case zmax => exact Prog.foot_pure _ _ _ _
  case xmin =>
    refine Prog.foot_ite (fun h => ?_) (fun _ => Prog.foot_pure _ _ _ _)
    exact foot_putHS2 (hb _ _ ⟨by omega, by omega⟩ ⟨by omega, by omega⟩)
  case xmax =>
    refine Prog.foot_ite (fun h => ?_) (fun _ => Prog.foot_pure _ _ _ _)
    rw [hn]
    exact foot_wedgeCopy U (hb _ _ ⟨by omega, by omega⟩ ⟨by omega, by omega⟩)
      (hb _ _ ⟨by omega, by omega⟩ ⟨by omega, by omega⟩)
  case ymin =>
    refine Prog.foot_ite (fun h => ?_) (fun _ => Prog.foot_pure _ _ _ _)
    refine Prog.foot_ite (fun _ => foot_putHS2 (hb _ _ ⟨by omega, by omega⟩ ⟨by omega, by omega⟩)) (fun _ => ?_)
    rw [hn]
    exact foot_copyVars (hb _ _ ⟨by dsimp only; omega, by dsimp only; omega⟩ ⟨by dsimp only; omega, by dsimp only; omega⟩)
      (hb _ _ ⟨by dsimp only; omega, by dsimp only; omega⟩ ⟨by dsimp only; omega, by dsimp only; omega⟩)
  case ymax =>
    refine Prog.foot_ite (fun h => ?_) (fun _ => Prog.foot_pure _ _ _ _)
    refine Prog.foot_ite (fun _ => foot_putHS2 (hb _ _ ⟨by omega, by omega⟩ ⟨by omega, by omega⟩)) (fun _ => ?_)
    rw [hn]
    exact foot_wedgeCopy U (hb _ _ ⟨by omega, by omega⟩ ⟨by omega, by omega⟩)
      (hb _ _ ⟨by omega, by omega⟩ ⟨by omega, by omega⟩)

/-- non-vacuity: the sample grid meets the hypotheses, and its loops are not empty -/
example : (sample .periodic .dirichlet).WF ∧ (sample .periodic .dirichlet).nbvar = 4 ∧
    (0 : Int) ∈ range1 (nbIterBuf2 (sample .periodic .dirichlet) .xmin) := by
  refine ⟨sample_wf _ _, rfl, ?_⟩
  have h := sample_wf BC.periodic BC.dirichlet
  have h1 := h.gw_pos
  have h2 := h.jsize_eq
  have h3 := h.ny_pos
  rw [mem_range1]
  refine ⟨le_refl _, ?_⟩
  simp only [nbIterBuf2]
  exact Int.mul_pos (by omega) (by omega)

end EulerKokkos
