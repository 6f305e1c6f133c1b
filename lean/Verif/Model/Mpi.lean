import Verif.Core.Spmd
import Verif.Model.Boundaries
import Verif.Model.Index
import Verif.Model.Driver

/-!
# MPI build: topology, border buffers, halo exchange

Models `/repo/src/utils/mpi/MpiCommCart.{h,cpp}`, `HydroParams::setup_mpi`
(`/repo/src/shared/HydroParams.cpp:185-320`), `/repo/src/shared/mpiBorderUtils.h` and the MPI part of
`/repo/src/shared/SolverBase.cpp` (`make_boundaries_mpi`, `copy_boundaries`, `transfer_boundaries_*`,
`copy_boundaries_back`, `compute_dt`).  The MPI library itself is modelled by `Core/Spmd.lean`
(`MPI_Sendrecv`, `MPI_Barrier`, `MPI_Allreduce`) and by `cartRank`/`cartCoords` (`MPI_Cart_*`).

Not modelled: more processes than `mx*my*mz` (the extra ones get `MPI_COMM_NULL` and crash), MPI
errors.
-/

set_option linter.constructorNameAsVariable false

namespace EulerKokkos

variable {R : Type} [RealOps R]
open Prog (rd wr forN forRange)

/-! ### Topology -/

/-- The Cartesian topology created by `main` (`/repo/src/main.cpp:68-78`); a 2D topology is the 3D
one with a single process along z (`mx × my × 1` has the same ranks as `mx × my`).
`setup_mpi` reads the same three numbers (`/repo/src/shared/HydroParams.cpp:188-191`). -/
structure Topo where
  mx : Nat
  my : Nat
  mz : Nat
  hx : 0 < mx
  hy : 0 < my
  hz : 0 < mz

namespace Topo

/-- number of processes -/
def size (T : Topo) : Nat := T.mx * T.my * T.mz

/-- ranks of the Cartesian communicator -/
abbrev Rank (T : Topo) := Fin T.size

/-- `MPI_Cart_rank` in a periodic topology: coordinates are wrapped, ranks are row-major (MPI 3.1,
section 7.5.4); called by `/repo/src/utils/mpi/MpiCommCart.h:77-84`. -/
def cartRankNat (T : Topo) (x y z : Int) : Nat :=
  ((x % T.mx).toNat * T.my + (y % T.my).toNat) * T.mz + (z % T.mz).toNat

theorem cartRankNat_lt (T : Topo) (x y z : Int) : T.cartRankNat x y z < T.size := by
  unfold cartRankNat size
  obtain ⟨mx, my, mz, hx, hy, hz⟩ := T
  simp only
  have h1 : (x % mx).toNat < mx := by
    have := Int.emod_lt_of_pos x (by omega : (0 : Int) < mx)
    have := Int.emod_nonneg x (by omega : (mx : Int) ≠ 0)
    omega
  have h2 : (y % my).toNat < my := by
    have := Int.emod_lt_of_pos y (by omega : (0 : Int) < my)
    have := Int.emod_nonneg y (by omega : (my : Int) ≠ 0)
    omega
  have h3 : (z % mz).toNat < mz := by
    have := Int.emod_lt_of_pos z (by omega : (0 : Int) < mz)
    have := Int.emod_nonneg z (by omega : (mz : Int) ≠ 0)
    omega
  generalize (x % mx).toNat = a at *
  generalize (y % my).toNat = b at *
  generalize (z % mz).toNat = c at *
  have e1 : a * my + b + 1 ≤ mx * my := by
    calc a * my + b + 1 ≤ a * my + my := by omega
      _ = (a + 1) * my := by ring
      _ ≤ mx * my := Nat.mul_le_mul_right _ h1
  calc (a * my + b) * mz + c < (a * my + b) * mz + mz := by omega
    _ = (a * my + b + 1) * mz := by ring
    _ ≤ mx * my * mz := Nat.mul_le_mul_right _ e1

/-- `MpiCommCart::getCartRank`, `/repo/src/utils/mpi/MpiCommCart.h:77-84` -/
def cartRank (T : Topo) (x y z : Int) : T.Rank := ⟨T.cartRankNat x y z, T.cartRankNat_lt x y z⟩

/-- `MPI_Cart_coords` (row-major), called by `/repo/src/utils/mpi/MpiCommCart.h:87-91`;
`getMyCoords`, `:95-104` -/
def coords (T : Topo) (r : T.Rank) : Int × Int × Int :=
  ((r.val / (T.my * T.mz) : Nat), (r.val / T.mz % T.my : Nat), (r.val % T.mz : Nat))

/-- `MpiCommCart::getNeighborRank<nl>`, `/repo/src/utils/mpi/MpiCommCart.h:114-181`;
`neighborsRank[nl]`, `/repo/src/shared/HydroParams.cpp:231-263` -/
def neighborRank (T : Topo) (nl : Face) (r : T.Rank) : T.Rank :=
  let c := T.coords r
  match nl with
  | .xmin => T.cartRank (c.1 - 1) c.2.1 c.2.2
  | .xmax => T.cartRank (c.1 + 1) c.2.1 c.2.2
  | .ymin => T.cartRank c.1 (c.2.1 - 1) c.2.2
  | .ymax => T.cartRank c.1 (c.2.1 + 1) c.2.2
  | .zmin => T.cartRank c.1 c.2.1 (c.2.2 - 1)
  | .zmax => T.cartRank c.1 c.2.1 (c.2.2 + 1)

end Topo

/-- `neighborsBC[nl]`, `/repo/src/shared/HydroParams.cpp:239-310` (the z entries are never read in
2D) -/
def neighborsBC (T : Topo) (p : Params R) (r : T.Rank) (nl : Face) : BC :=
  let c := T.coords r
  match nl with
  | .xmin => if c.1 = 0 then p.boundary_type_xmin else .copy
  | .xmax => if c.1 = T.mx - 1 then p.boundary_type_xmax else .copy
  | .ymin => if c.2.1 = 0 then p.boundary_type_ymin else .copy
  | .ymax => if c.2.1 = T.my - 1 then p.boundary_type_ymax else .copy
  | .zmin => if c.2.2 = 0 then p.boundary_type_zmin else .copy
  | .zmax => if c.2.2 = T.mz - 1 then p.boundary_type_zmax else .copy

/-- the grid spacing set by `setup_mpi`, `/repo/src/shared/HydroParams.cpp:302-306` (C++ evaluates
the `int` products `nx*mx` first) -/
def setupMpi (T : Topo) (p : Params R) : Params R :=
  { p with
    dx := (p.xmax - p.xmin) / intLit (p.nx * T.mx)
    dy := (p.ymax - p.ymin) / intLit (p.ny * T.my)
    dz := (p.zmax - p.zmin) / intLit (p.nz * T.mz) }

/-- the parameters of a process of the MPI build: `HydroParams::setup` calls `init()` and then
`setup_mpi`, `/repo/src/shared/HydroParams.cpp:174-178` -/
def localParams (T : Topo) (p : Params R) : Params R := setupMpi T p.init

/-! ### Border buffers -/

/-- extents of the border buffer of a face, 2D (`/repo/src/shared/SolverBase.cpp:79-90`) -/
def bufExt2 (p : Params R) (f : Face) : Int × Int × Int :=
  match f with
  | .xmin | .xmax => (p.ghostWidth, p.jsize, 1)
  | _ => (p.isize, p.ghostWidth, 1)

/-- extents of the border buffer of a face, 3D (`/repo/src/shared/SolverBase.cpp:91-106`) -/
def bufExt3 (p : Params R) (f : Face) : Int × Int × Int :=
  match f with
  | .xmin | .xmax => (p.ghostWidth, p.jsize, p.ksize)
  | .ymin | .ymax => (p.isize, p.ghostWidth, p.ksize)
  | _ => (p.isize, p.jsize, p.ghostWidth)

/-- the loop `for nVar: B(dst,nVar) = A(src,nVar)` of the border functors -/
def copyCell (nbvar : Nat) (B A : Arr) (d s : Int × Int × Int) : Prog Arr R Unit :=
  forN nbvar fun v => do
    let x ← rd ⟨A, s.1, s.2.1, s.2.2, v⟩
    wr ⟨B, d.1, d.2.1, d.2.2, v⟩ x

/-- `CopyDataArray_To_BorderBuf<f, TWO_D>::operator()`,
`/repo/src/shared/mpiBorderUtils.h:209-256` -/
def packBuf2 (lay : Layout) (p : Params R) (U : Arr) (f : Face) (index : Int) : Prog Arr R Unit :=
  let gw := p.ghostWidth
  match f with
  | .xmin =>
    let c := index2coord2 lay index gw p.jsize
    copyCell p.nbvar (.send .xmin) U (c.1, c.2, 0) (gw + c.1, c.2, 0)
  | .xmax =>
    let c := index2coord2 lay index gw p.jsize
    copyCell p.nbvar (.send .xmax) U (c.1, c.2, 0) (p.isize - 2 * gw + c.1, c.2, 0)
  | .ymin =>
    let c := index2coord2 lay index p.isize gw
    copyCell p.nbvar (.send .ymin) U (c.1, c.2, 0) (c.1, gw + c.2, 0)
  | .ymax =>
    let c := index2coord2 lay index p.isize gw
    copyCell p.nbvar (.send .ymax) U (c.1, c.2, 0) (c.1, p.jsize - 2 * gw + c.2, 0)
  | .zmin => pure ()
  | .zmax => pure ()

/-- `CopyBorderBuf_To_DataArray<f, TWO_D>::operator()`,
`/repo/src/shared/mpiBorderUtils.h:62-101` -/
def unpackBuf2 (lay : Layout) (p : Params R) (U : Arr) (f : Face) (index : Int) :
    Prog Arr R Unit :=
  let gw := p.ghostWidth
  match f with
  | .xmin =>
    let c := index2coord2 lay index gw p.jsize
    copyCell p.nbvar U (.recv .xmin) (0 + c.1, c.2, 0) (c.1, c.2, 0)
  | .xmax =>
    let c := index2coord2 lay index gw p.jsize
    copyCell p.nbvar U (.recv .xmax) (p.isize - gw + c.1, c.2, 0) (c.1, c.2, 0)
  | .ymin =>
    let c := index2coord2 lay index p.isize gw
    copyCell p.nbvar U (.recv .ymin) (c.1, 0 + c.2, 0) (c.1, c.2, 0)
  | .ymax =>
    let c := index2coord2 lay index p.isize gw
    copyCell p.nbvar U (.recv .ymax) (c.1, p.jsize - gw + c.2, 0) (c.1, c.2, 0)
  | .zmin => pure ()
  | .zmax => pure ()

/-- `CopyDataArray_To_BorderBuf<f, THREE_D>::operator()`,
`/repo/src/shared/mpiBorderUtils.h:258-320` -/
def packBuf3 (lay : Layout) (p : Params R) (U : Arr) (f : Face) (index : Int) : Prog Arr R Unit :=
  let gw := p.ghostWidth
  match f with
  | .xmin =>
    let c := index2coord3 lay index gw p.jsize p.ksize
    copyCell p.nbvar (.send .xmin) U c (gw + c.1, c.2.1, c.2.2)
  | .xmax =>
    let c := index2coord3 lay index gw p.jsize p.ksize
    copyCell p.nbvar (.send .xmax) U c (p.isize - 2 * gw + c.1, c.2.1, c.2.2)
  | .ymin =>
    let c := index2coord3 lay index p.isize gw p.ksize
    copyCell p.nbvar (.send .ymin) U c (c.1, gw + c.2.1, c.2.2)
  | .ymax =>
    let c := index2coord3 lay index p.isize gw p.ksize
    copyCell p.nbvar (.send .ymax) U c (c.1, p.jsize - 2 * gw + c.2.1, c.2.2)
  | .zmin =>
    let c := index2coord3 lay index p.isize p.jsize gw
    copyCell p.nbvar (.send .zmin) U c (c.1, c.2.1, gw + c.2.2)
  | .zmax =>
    let c := index2coord3 lay index p.isize p.jsize gw
    copyCell p.nbvar (.send .zmax) U c (c.1, c.2.1, p.ksize - 2 * gw + c.2.2)

/-- `CopyBorderBuf_To_DataArray<f, THREE_D>::operator()`,
`/repo/src/shared/mpiBorderUtils.h:103-156` -/
def unpackBuf3 (lay : Layout) (p : Params R) (U : Arr) (f : Face) (index : Int) :
    Prog Arr R Unit :=
  let gw := p.ghostWidth
  match f with
  | .xmin =>
    let c := index2coord3 lay index gw p.jsize p.ksize
    copyCell p.nbvar U (.recv .xmin) (0 + c.1, c.2.1, c.2.2) c
  | .xmax =>
    let c := index2coord3 lay index gw p.jsize p.ksize
    copyCell p.nbvar U (.recv .xmax) (p.isize - gw + c.1, c.2.1, c.2.2) c
  | .ymin =>
    let c := index2coord3 lay index p.isize gw p.ksize
    copyCell p.nbvar U (.recv .ymin) (c.1, 0 + c.2.1, c.2.2) c
  | .ymax =>
    let c := index2coord3 lay index p.isize gw p.ksize
    copyCell p.nbvar U (.recv .ymax) (c.1, p.jsize - gw + c.2.1, c.2.2) c
  | .zmin =>
    let c := index2coord3 lay index p.isize p.jsize gw
    copyCell p.nbvar U (.recv .zmin) (c.1, c.2.1, 0 + c.2.2) c
  | .zmax =>
    let c := index2coord3 lay index p.isize p.jsize gw
    copyCell p.nbvar U (.recv .zmax) (c.1, c.2.1, p.ksize - gw + c.2.2) c

/-- loop bounds `nbIter` of `copy_boundaries` and `copy_boundaries_back`, 2D,
`/repo/src/shared/SolverBase.cpp:678-694, 850-883` -/
def nbIterBuf2 (p : Params R) (f : Face) : Int :=
  match f with
  | .xmin | .xmax => p.ghostWidth * p.jsize
  | _ => p.isize * p.ghostWidth

/-- loop bounds `nbIter` of `copy_boundaries` and `copy_boundaries_back`, 3D,
`/repo/src/shared/SolverBase.cpp:711-735, 897-945` -/
def nbIterBuf3 (p : Params R) (f : Face) : Int :=
  match f with
  | .xmin | .xmax => p.ghostWidth * p.jsize * p.ksize
  | .ymin | .ymax => p.isize * p.ghostWidth * p.ksize
  | _ => p.isize * p.jsize * p.ghostWidth

/-- one `CopyDataArray_To_BorderBuf<…>::apply`, 2D -/
def packK2 (lay : Layout) (p : Params R) (U : Arr) (f : Face) : Kern Arr R :=
  forRange (range1 (nbIterBuf2 p f)) (packBuf2 lay p U f)
/-- one `CopyBorderBuf_To_DataArray<…>::apply`, 2D -/
def unpackK2 (lay : Layout) (p : Params R) (U : Arr) (f : Face) : Kern Arr R :=
  forRange (range1 (nbIterBuf2 p f)) (unpackBuf2 lay p U f)
/-- one `CopyDataArray_To_BorderBuf<…>::apply`, 3D -/
def packK3 (lay : Layout) (p : Params R) (U : Arr) (f : Face) : Kern Arr R :=
  forRange (range1 (nbIterBuf3 p f)) (packBuf3 lay p U f)
/-- one `CopyBorderBuf_To_DataArray<…>::apply`, 3D -/
def unpackK3 (lay : Layout) (p : Params R) (U : Arr) (f : Face) : Kern Arr R :=
  forRange (range1 (nbIterBuf3 p f)) (unpackBuf3 lay p U f)

/-! ### Messages -/

/-- a message: the first `count` elements starting at `data()` -/
structure Msg (R : Type) where
  count : Int
  data : Int → R

/-- Offset of element `(i,j,k,v)` of a Kokkos view with extents `e` and `nb` variables, in its
storage (`LayoutLeft`/`LayoutRight` strides, no padding).  A 2D view `A(i,j,v)` has extent 1 along
`k`. -/
def viewOffset (lay : Layout) (e : Int × Int × Int) (nb : Int) (i j k v : Int) : Int :=
  match lay with
  | .left => i + e.1 * (j + e.2.1 * (k + e.2.2 * v))
  | .right => ((i * e.2.1 + j) * e.2.2 + k) * nb + v

/-- element stored at offset `q` (inverse of `viewOffset`) -/
def viewElem (lay : Layout) (e : Int × Int × Int) (nb : Int) (q : Int) : Int × Int × Int × Int :=
  match lay with
  | .left => (q % e.1, q / e.1 % e.2.1, q / e.1 / e.2.1 % e.2.2, q / e.1 / e.2.1 / e.2.2)
  | .right => (q / nb / e.2.2 / e.2.1, q / nb / e.2.2 % e.2.1, q / nb % e.2.2, q % nb)

/-- number of elements, `view.size()` -/
def viewSize (e : Int × Int × Int) (nb : Int) : Int := e.1 * e.2.1 * e.2.2 * nb

/-- what `MPI_Sendrecv(view_send, …)` sends: `view_send.size()` elements from `view_send.data()`,
`/repo/src/utils/mpi/MpiComm.h:480-510` -/
def sendView (lay : Layout) (e : Int × Int × Int) (nb : Nat) (a : Arr) (m : Mem Arr R) : Msg R where
  count := viewSize e nb
  data q :=
    let c := viewElem lay e nb q
    m ⟨a, c.1, c.2.1, c.2.2.1, c.2.2.2.toNat⟩

/-- is the location an element of a view with extents `e` and `nb` variables -/
def inView (e : Int × Int × Int) (nb : Nat) (l : Loc Arr) : Prop :=
  (0 ≤ l.i ∧ l.i < e.1) ∧ (0 ≤ l.j ∧ l.j < e.2.1) ∧ (0 ≤ l.k ∧ l.k < e.2.2) ∧ l.v < nb

instance (e : Int × Int × Int) (nb : Nat) (l : Loc Arr) : Decidable (inView e nb l) := by
  unfold inView; infer_instance

/-- what receiving a message into `view_recv` does: the elements of the message are stored from
`view_recv.data()` on (a message shorter than the view leaves the rest unchanged) -/
def recvView (lay : Layout) (e : Int × Int × Int) (nb : Nat) (a : Arr) (x : Msg R)
    (m : Mem Arr R) : Mem Arr R :=
  fun l => if l.arr = a ∧ inView e nb l ∧ viewOffset lay e nb l.i l.j l.k l.v < x.count
    then x.data (viewOffset lay e nb l.i l.j l.k l.v) else m l

/-! ### Halo exchange -/

open Spmd (Phase)

/-- `MPI_Barrier` -/
def barrier (ρ S : Type) : Phase ρ S (Msg R) := .coll (fun _ => ⟨0, fun _ => lit 0⟩) (fun _ s => s)

/-- Does the rank take the ghost cells of this face from its neighbour
(`/repo/src/shared/SolverBase.cpp:533` and the similar tests) -/
def fromNeighbour (T : Topo) (p : Params R) (r : T.Rank) (f : Face) : Prop :=
  neighborsBC T p r f = .copy ∨ neighborsBC T p r f = .periodic

instance (T : Topo) (p : Params R) (r : T.Rank) (f : Face) : Decidable (fromNeighbour T p r f) := by
  unfold fromNeighbour; infer_instance

/-- ghost cells of one face: `copy_boundaries_back` or `make_boundary`, 2D
(`/repo/src/shared/SolverBase.cpp:533-549, 560-576`) -/
def fillFace2 (lay : Layout) (mhd : Bool) (T : Topo) (p : Params R) (U : Arr) (f : Face)
    (r : T.Rank) : Kern Arr R :=
  if fromNeighbour T p r f then unpackK2 lay p U f else makeBoundaryK2 mhd p U f

/-- ghost cells of one face, 3D (`/repo/src/shared/SolverBase.cpp:594-660`) -/
def fillFace3 (lay : Layout) (mhd : Bool) (T : Topo) (p : Params R) (U : Arr) (f : Face)
    (r : T.Rank) : Kern Arr R :=
  if fromNeighbour T p r f then unpackK3 lay p U f else makeBoundaryK3 mhd p U f

/-- One direction of `make_boundaries_mpi`, 2D: `copy_boundaries`, `transfer_boundaries_2d`, the two
faces, `MPI_Barrier` (`/repo/src/shared/SolverBase.cpp:528-553, 555-580, 669-699, 743-790`) -/
def exchangeDir2 (lay : Layout) (mhd : Bool) (T : Topo) (p : Params R) (U : Arr) (fmin fmax : Face)
    (tag : Nat) : List (Phase T.Rank (Mem Arr R) (Msg R)) :=
  [ .loc fun _ => Kern.seq (packK2 lay p U fmin) (packK2 lay p U fmax),
    .exch (T.neighborRank fmin) (T.neighborRank fmax) tag tag
      (sendView lay (bufExt2 p fmin) p.nbvar (.send fmin))
      (recvView lay (bufExt2 p fmax) p.nbvar (.recv fmax)),
    .exch (T.neighborRank fmax) (T.neighborRank fmin) tag tag
      (sendView lay (bufExt2 p fmax) p.nbvar (.send fmax))
      (recvView lay (bufExt2 p fmin) p.nbvar (.recv fmin)),
    .loc fun r => Kern.seq (fillFace2 lay mhd T p U fmin r) (fillFace2 lay mhd T p U fmax r),
    barrier _ _ ]

/-- One direction of `make_boundaries_mpi`, 3D (`/repo/src/shared/SolverBase.cpp:592-664, 703-739,
794-846`) -/
def exchangeDir3 (lay : Layout) (mhd : Bool) (T : Topo) (p : Params R) (U : Arr) (fmin fmax : Face)
    (tag : Nat) : List (Phase T.Rank (Mem Arr R) (Msg R)) :=
  [ .loc fun _ => Kern.seq (packK3 lay p U fmin) (packK3 lay p U fmax),
    .exch (T.neighborRank fmin) (T.neighborRank fmax) tag tag
      (sendView lay (bufExt3 p fmin) p.nbvar (.send fmin))
      (recvView lay (bufExt3 p fmax) p.nbvar (.recv fmax)),
    .exch (T.neighborRank fmax) (T.neighborRank fmin) tag tag
      (sendView lay (bufExt3 p fmax) p.nbvar (.send fmax))
      (recvView lay (bufExt3 p fmin) p.nbvar (.recv fmin)),
    .loc fun r => Kern.seq (fillFace3 lay mhd T p U fmin r) (fillFace3 lay mhd T p U fmax r),
    barrier _ _ ]

/-- `SolverBase::make_boundaries_mpi` 2D, `/repo/src/shared/SolverBase.cpp:517-582` -/
def makeBoundariesMpi2 (lay : Layout) (mhd : Bool) (T : Topo) (p : Params R) (U : Arr) :
    List (Phase T.Rank (Mem Arr R) (Msg R)) :=
  exchangeDir2 lay mhd T p U .xmin .xmax 111 ++ exchangeDir2 lay mhd T p U .ymin .ymax 211

/-- `SolverBase::make_boundaries_mpi` 3D, `/repo/src/shared/SolverBase.cpp:586-664` -/
def makeBoundariesMpi3 (lay : Layout) (mhd : Bool) (T : Topo) (p : Params R) (U : Arr) :
    List (Phase T.Rank (Mem Arr R) (Msg R)) :=
  exchangeDir3 lay mhd T p U .xmin .xmax 111 ++ exchangeDir3 lay mhd T p U .ymin .ymax 211 ++
    exchangeDir3 lay mhd T p U .zmin .zmax 311

end EulerKokkos
