import Verif.Core.CInt
import Verif.Model.Boundaries
import Verif.Model.Mpi
import Verif.Model.Hdf5

/-!
# The integer computations of the program in 32-bit integers

The rest of the model computes grid sizes, loop bounds and cell coordinates with unbounded integers.  Here the same
source lines are transcribed once more with every `int` operation checked (`i32`: overflow is undefined behaviour,
`none`), every `int64_t` operation checked (`i64`), in the order of the source.
-/

namespace EulerKokkos

variable {R : Type} [RealOps R]

/-! ### Grid sizes -/

/-- one direction of `HydroParams::init`, `/repo/src/shared/HydroParams.cpp:332-342`: the largest index
`n - 1 + 2 * ghostWidth` and the extent `max - min + 1` (with `min = 0`) -/
def initSize32 (n gw : Int) : Option (Int × Int) := do
  let a ← i32 (n - 1)
  let b ← i32 (2 * gw)
  let hi ← i32 (a + b)
  let c ← i32 (hi - 0)
  let size ← i32 (c + 1)
  pure (hi, size)

/-! ### Ghost fill of the domain boundary -/

/-- `int nbIter = ghostWidth * std::max(isize, jsize)`, `/repo/src/shared/SolverBase.cpp:318` -/
def nbIter2I (p : Params R) : Option Int := i32 (p.ghostWidth * max p.isize p.jsize)

/-- `int nbIter = ghostWidth * max_size * max_size`, `/repo/src/shared/SolverBase.cpp:390-392` -/
def nbIter3I (p : Params R) : Option Int := do
  let max_size := max (max p.isize p.jsize) p.ksize
  let a ← i32 (p.ghostWidth * max_size)
  i32 (a * max_size)

/-- the source coordinate on a *min* face, `/repo/src/shared/BoundariesFunctors.h:73-87` -/
def bcSrcMinI (bc : BC) (n gw i : Int) : Option Int :=
  if bc = .dirichlet then do
    let a ← i32 (2 * gw)
    let b ← i32 (a - 1)
    i32 (b - i)
  else if bc = .neumann then some gw
  else i32 (n + i)

/-- the source coordinate on a *max* face, `/repo/src/shared/BoundariesFunctors.h:112-126` -/
def bcSrcMaxI (bc : BC) (n gw i : Int) : Option Int :=
  if bc = .dirichlet then do
    let a ← i32 (2 * n)
    let b ← i32 (2 * gw)
    let c ← i32 (a + b)
    let d ← i32 (c - 1)
    i32 (d - i)
  else if bc = .neumann then do
    let a ← i32 (n + gw)
    i32 (a - 1)
  else i32 (i - n)

/-- `slow = index / gw; fast = index - slow * gw` (2D; `/repo/src/shared/BoundariesFunctors.h:61-62,
100-101, 140-141, 179-180`; MHD `:578-579, 620-621, 662-663, 703-704`) -/
def decode2I (gw index : Int) : Option (Int × Int) := do
  let slow ← div32 index gw
  let a ← i32 (slow * gw)
  let fast ← i32 (index - a)
  pure (fast, slow)

/-- `k = index / (A * B); j = (index - k * A * B) / A; i = index - j * A - k * A * B` (3D;
`/repo/src/shared/BoundariesFunctors.h:277-279, 317-319, 358-360, 399-401, 441-443, 480-482`; MHD `:802-804` etc.), with `A, B` =
`ghostWidth, jsize` (x faces), `isize, ghostWidth` (y faces), `isize, jsize` (z faces) -/
def decode3I (A B index : Int) : Option (Int × Int × Int) := do
  let ab ← i32 (A * B)
  let k ← div32 index ab
  let a1 ← i32 (k * A)
  let a2 ← i32 (a1 * B)
  let b ← i32 (index - a2)
  let j ← div32 b A
  let c ← i32 (j * A)
  let d ← i32 (index - c)
  let e1 ← i32 (k * A)
  let e2 ← i32 (e1 * B)
  let i ← i32 (d - e2)
  pure (i, j, k)

/-- `i += (n + ghostWidth)` and the test `i >= n + ghostWidth && i <= n + 2 * ghostWidth - 1` of a *max* face, e.g.
`/repo/src/shared/BoundariesFunctors.h:103-106`.  (All operands are evaluated; in the source `&&` may skip some.) -/
def maxFaceI (n gw i : Int) : Option (Int × Bool) := do
  let a ← i32 (n + gw)
  let i ← i32 (i + a)
  let lo ← i32 (n + gw)
  let b ← i32 (2 * gw)
  let c ← i32 (n + b)
  let hi ← i32 (c - 1)
  pure (i, decide (i ≥ lo ∧ i ≤ hi))

/-- `MakeBoundariesFunctor2D<face>::operator()` and `MakeBoundariesFunctor2D_MHD<face>`,
`/repo/src/shared/BoundariesFunctors.h:36-206, 553-740` -/
def makeBoundary2I (mhd : Bool) (p : Params R) (U : Arr) (f : Face) (index : Int) :
    Option (Prog Arr R Unit) :=
  let gw := p.ghostWidth
  match f with
  | .xmin => do
    let (i, j) ← decode2I gw index
    if j ≥ p.jmin ∧ j ≤ p.jmax ∧ i ≥ 0 ∧ i < gw then do
      let i0 ← bcSrcMinI p.boundary_type_xmin p.nx gw i
      pure (copyVars p.nbvar U (i, j, 0) (i0, j, 0) (bcSign mhd p.boundary_type_xmin IU IA))
    else pure (pure ())
  | .xmax => do
    let (i, j) ← decode2I gw index
    let (i, ok) ← maxFaceI p.nx gw i
    if j ≥ p.jmin ∧ j ≤ p.jmax ∧ ok = true then do
      let i0 ← bcSrcMaxI p.boundary_type_xmax p.nx gw i
      pure (copyVars p.nbvar U (i, j, 0) (i0, j, 0) (bcSign mhd p.boundary_type_xmax IU IA))
    else pure (pure ())
  | .ymin => do
    let (j, i) ← decode2I gw index
    if i ≥ p.imin ∧ i ≤ p.imax ∧ j ≥ 0 ∧ j < gw then do
      let j0 ← bcSrcMinI p.boundary_type_ymin p.ny gw j
      pure (copyVars p.nbvar U (i, j, 0) (i, j0, 0) (bcSign mhd p.boundary_type_ymin IV IB))
    else pure (pure ())
  | .ymax => do
    let (j, i) ← decode2I gw index
    let (j, ok) ← maxFaceI p.ny gw j
    if i ≥ p.imin ∧ i ≤ p.imax ∧ ok = true then do
      let j0 ← bcSrcMaxI p.boundary_type_ymax p.ny gw j
      pure (copyVars p.nbvar U (i, j, 0) (i, j0, 0) (bcSign mhd p.boundary_type_ymax IV IB))
    else pure (pure ())
  | .zmin => pure (pure ())
  | .zmax => pure (pure ())

/-- `MakeBoundariesFunctor3D<face>::operator()` and `MakeBoundariesFunctor3D_MHD<face>`,
`/repo/src/shared/BoundariesFunctors.h:240-516, 767-1040` -/
def makeBoundary3I (mhd : Bool) (p : Params R) (U : Arr) (f : Face) (index : Int) :
    Option (Prog Arr R Unit) :=
  let gw := p.ghostWidth
  match f with
  | .xmin => do
    let (i, j, k) ← decode3I gw p.jsize index
    if k ≥ p.kmin ∧ k ≤ p.kmax ∧ j ≥ p.jmin ∧ j ≤ p.jmax ∧ i ≥ 0 ∧ i < gw then do
      let i0 ← bcSrcMinI p.boundary_type_xmin p.nx gw i
      pure (copyVars p.nbvar U (i, j, k) (i0, j, k) (bcSign mhd p.boundary_type_xmin IU IA))
    else pure (pure ())
  | .xmax => do
    let (i, j, k) ← decode3I gw p.jsize index
    let (i, ok) ← maxFaceI p.nx gw i
    if k ≥ p.kmin ∧ k ≤ p.kmax ∧ j ≥ p.jmin ∧ j ≤ p.jmax ∧ ok = true then do
      let i0 ← bcSrcMaxI p.boundary_type_xmax p.nx gw i
      pure (copyVars p.nbvar U (i, j, k) (i0, j, k) (bcSign mhd p.boundary_type_xmax IU IA))
    else pure (pure ())
  | .ymin => do
    let (i, j, k) ← decode3I p.isize gw index
    if k ≥ p.kmin ∧ k ≤ p.kmax ∧ j ≥ 0 ∧ j < gw ∧ i ≥ p.imin ∧ i ≤ p.imax then do
      let j0 ← bcSrcMinI p.boundary_type_ymin p.ny gw j
      pure (copyVars p.nbvar U (i, j, k) (i, j0, k) (bcSign mhd p.boundary_type_ymin IV IB))
    else pure (pure ())
  | .ymax => do
    let (i, j, k) ← decode3I p.isize gw index
    let (j, ok) ← maxFaceI p.ny gw j
    if k ≥ p.kmin ∧ k ≤ p.kmax ∧ ok = true ∧ i ≥ p.imin ∧ i ≤ p.imax then do
      let j0 ← bcSrcMaxI p.boundary_type_ymax p.ny gw j
      pure (copyVars p.nbvar U (i, j, k) (i, j0, k) (bcSign mhd p.boundary_type_ymax IV IB))
    else pure (pure ())
  | .zmin => do
    let (i, j, k) ← decode3I p.isize p.jsize index
    if k ≥ 0 ∧ k < gw ∧ j ≥ p.jmin ∧ j ≤ p.jmax ∧ i ≥ p.imin ∧ i ≤ p.imax then do
      let k0 ← bcSrcMinI p.boundary_type_zmin p.nz gw k
      pure (copyVars p.nbvar U (i, j, k) (i, j, k0) (bcSign mhd p.boundary_type_zmin IW IC))
    else pure (pure ())
  | .zmax => do
    let (i, j, k) ← decode3I p.isize p.jsize index
    let (k, ok) ← maxFaceI p.nz gw k
    if ok = true ∧ j ≥ p.jmin ∧ j ≤ p.jmax ∧ i ≥ p.imin ∧ i ≤ p.imax then do
      let k0 ← bcSrcMaxI p.boundary_type_zmax p.nz gw k
      pure (copyVars p.nbvar U (i, j, k) (i, j, k0) (bcSign mhd p.boundary_type_zmax IW IC))
    else pure (pure ())

/-- `SolverBase::make_boundary` 2D, `/repo/src/shared/SolverBase.cpp:313-379` -/
noncomputable def makeBoundaryK2I (mhd : Bool) (p : Params R) (U : Arr) (f : Face) : Option (Kern Arr R) :=
  launch (nbIter2I p) (makeBoundary2I mhd p U f)

/-- `SolverBase::make_boundary` 3D, `/repo/src/shared/SolverBase.cpp:383-484` -/
noncomputable def makeBoundaryK3I (mhd : Bool) (p : Params R) (U : Arr) (f : Face) : Option (Kern Arr R) :=
  launch (nbIter3I p) (makeBoundary3I mhd p U f)

/-! ### Border buffers of the MPI build -/

/-- 2D `index2coord(int64_t index, int & i, int & j, int Nx, int Ny)`, `/repo/src/shared/kokkos_shared.h:54-69`: the
quotient is an `int64_t` converted to `int`, the product `int`, the difference `int64_t` converted to `int` -/
def index2coord2I (lay : Layout) (index Nx Ny : Int) : Option (Int × Int) :=
  match lay with
  | .left => do
    let q ← div64 index Nx
    let j ← i32 q
    let a ← i32 (j * Nx)
    let d ← i64 (index - a)
    let i ← i32 d
    pure (i, j)
  | .right => do
    let q ← div64 index Ny
    let i ← i32 q
    let a ← i32 (i * Ny)
    let d ← i64 (index - a)
    let j ← i32 d
    pure (i, j)

/-- 3D `index2coord`, `/repo/src/shared/kokkos_shared.h:87-103` -/
def index2coord3I (lay : Layout) (index Nx Ny Nz : Int) : Option (Int × Int × Int) :=
  match lay with
  | .left => do
    let NxNy ← i32 (Nx * Ny)
    let q ← div64 index NxNy
    let k ← i32 q
    let a ← i32 (k * NxNy)
    let b ← i64 (index - a)
    let q ← div64 b Nx
    let j ← i32 q
    let c ← i32 (j * Nx)
    let d ← i64 (index - c)
    let a ← i32 (k * NxNy)
    let e ← i64 (d - a)
    let i ← i32 e
    pure (i, j, k)
  | .right => do
    let NyNz ← i32 (Ny * Nz)
    let q ← div64 index NyNz
    let i ← i32 q
    let a ← i32 (i * NyNz)
    let b ← i64 (index - a)
    let q ← div64 b Nz
    let j ← i32 q
    let c ← i32 (j * Nz)
    let d ← i64 (index - c)
    let a ← i32 (i * NyNz)
    let e ← i64 (d - a)
    let k ← i32 e
    pure (i, j, k)

/-- `int offset = U.extent(d) - 2 * ghostWidth` (`size_t` arithmetic, converted to `int`),
`/repo/src/shared/mpiBorderUtils.h:219-222, 287-292` -/
def sendOffsetI (ext gw : Int) : Option Int := do
  let a ← i32 (2 * gw)
  i32 (ext - a)

/-- `CopyDataArray_To_BorderBuf<f, TWO_D>::operator()`, `/repo/src/shared/mpiBorderUtils.h:209-256` -/
def packBuf2I (lay : Layout) (p : Params R) (U : Arr) (f : Face) (index : Int) :
    Option (Prog Arr R Unit) :=
  let gw := p.ghostWidth
  match f with
  | .xmin => do
    let (i, j) ← index2coord2I lay index gw p.jsize
    let s ← i32 (gw + i)
    pure (copyCell p.nbvar (.send .xmin) U (i, j, 0) (s, j, 0))
  | .xmax => do
    let o ← sendOffsetI p.isize gw
    let (i, j) ← index2coord2I lay index gw p.jsize
    let s ← i32 (o + i)
    pure (copyCell p.nbvar (.send .xmax) U (i, j, 0) (s, j, 0))
  | .ymin => do
    let (i, j) ← index2coord2I lay index p.isize gw
    let s ← i32 (gw + j)
    pure (copyCell p.nbvar (.send .ymin) U (i, j, 0) (i, s, 0))
  | .ymax => do
    let o ← sendOffsetI p.jsize gw
    let (i, j) ← index2coord2I lay index p.isize gw
    let s ← i32 (o + j)
    pure (copyCell p.nbvar (.send .ymax) U (i, j, 0) (i, s, 0))
  | .zmin => pure (pure ())
  | .zmax => pure (pure ())

/-- `CopyBorderBuf_To_DataArray<f, TWO_D>::operator()`, `/repo/src/shared/mpiBorderUtils.h:62-101` -/
def unpackBuf2I (lay : Layout) (p : Params R) (U : Arr) (f : Face) (index : Int) :
    Option (Prog Arr R Unit) :=
  let gw := p.ghostWidth
  match f with
  | .xmin => do
    let (i, j) ← index2coord2I lay index gw p.jsize
    let s ← i32 (0 + i)
    pure (copyCell p.nbvar U (.recv .xmin) (s, j, 0) (i, j, 0))
  | .xmax => do
    let o ← i32 (p.isize - gw)
    let (i, j) ← index2coord2I lay index gw p.jsize
    let s ← i32 (o + i)
    pure (copyCell p.nbvar U (.recv .xmax) (s, j, 0) (i, j, 0))
  | .ymin => do
    let (i, j) ← index2coord2I lay index p.isize gw
    let s ← i32 (0 + j)
    pure (copyCell p.nbvar U (.recv .ymin) (i, s, 0) (i, j, 0))
  | .ymax => do
    let o ← i32 (p.jsize - gw)
    let (i, j) ← index2coord2I lay index p.isize gw
    let s ← i32 (o + j)
    pure (copyCell p.nbvar U (.recv .ymax) (i, s, 0) (i, j, 0))
  | .zmin => pure (pure ())
  | .zmax => pure (pure ())

/-- `CopyDataArray_To_BorderBuf<f, THREE_D>::operator()`, `/repo/src/shared/mpiBorderUtils.h:258-320` -/
def packBuf3I (lay : Layout) (p : Params R) (U : Arr) (f : Face) (index : Int) :
    Option (Prog Arr R Unit) :=
  let gw := p.ghostWidth
  match f with
  | .xmin => do
    let (i, j, k) ← index2coord3I lay index gw p.jsize p.ksize
    let s ← i32 (gw + i)
    pure (copyCell p.nbvar (.send .xmin) U (i, j, k) (s, j, k))
  | .xmax => do
    let (i, j, k) ← index2coord3I lay index gw p.jsize p.ksize
    let o ← sendOffsetI p.isize gw
    let s ← i32 (o + i)
    pure (copyCell p.nbvar (.send .xmax) U (i, j, k) (s, j, k))
  | .ymin => do
    let (i, j, k) ← index2coord3I lay index p.isize gw p.ksize
    let s ← i32 (gw + j)
    pure (copyCell p.nbvar (.send .ymin) U (i, j, k) (i, s, k))
  | .ymax => do
    let (i, j, k) ← index2coord3I lay index p.isize gw p.ksize
    let o ← sendOffsetI p.jsize gw
    let s ← i32 (o + j)
    pure (copyCell p.nbvar (.send .ymax) U (i, j, k) (i, s, k))
  | .zmin => do
    let (i, j, k) ← index2coord3I lay index p.isize p.jsize gw
    let s ← i32 (gw + k)
    pure (copyCell p.nbvar (.send .zmin) U (i, j, k) (i, j, s))
  | .zmax => do
    let (i, j, k) ← index2coord3I lay index p.isize p.jsize gw
    let o ← sendOffsetI p.ksize gw
    let s ← i32 (o + k)
    pure (copyCell p.nbvar (.send .zmax) U (i, j, k) (i, j, s))

/-- `CopyBorderBuf_To_DataArray<f, THREE_D>::operator()`, `/repo/src/shared/mpiBorderUtils.h:103-156` -/
def unpackBuf3I (lay : Layout) (p : Params R) (U : Arr) (f : Face) (index : Int) :
    Option (Prog Arr R Unit) :=
  let gw := p.ghostWidth
  match f with
  | .xmin => do
    let (i, j, k) ← index2coord3I lay index gw p.jsize p.ksize
    let s ← i32 (0 + i)
    pure (copyCell p.nbvar U (.recv .xmin) (s, j, k) (i, j, k))
  | .xmax => do
    let (i, j, k) ← index2coord3I lay index gw p.jsize p.ksize
    let o ← i32 (p.isize - gw)
    let s ← i32 (o + i)
    pure (copyCell p.nbvar U (.recv .xmax) (s, j, k) (i, j, k))
  | .ymin => do
    let (i, j, k) ← index2coord3I lay index p.isize gw p.ksize
    let s ← i32 (0 + j)
    pure (copyCell p.nbvar U (.recv .ymin) (i, s, k) (i, j, k))
  | .ymax => do
    let (i, j, k) ← index2coord3I lay index p.isize gw p.ksize
    let o ← i32 (p.jsize - gw)
    let s ← i32 (o + j)
    pure (copyCell p.nbvar U (.recv .ymax) (i, s, k) (i, j, k))
  | .zmin => do
    let (i, j, k) ← index2coord3I lay index p.isize p.jsize gw
    let s ← i32 (0 + k)
    pure (copyCell p.nbvar U (.recv .zmin) (i, j, s) (i, j, k))
  | .zmax => do
    let (i, j, k) ← index2coord3I lay index p.isize p.jsize gw
    let o ← i32 (p.ksize - gw)
    let s ← i32 (o + k)
    pure (copyCell p.nbvar U (.recv .zmax) (i, j, s) (i, j, k))

/-- `const int nbIter` of `copy_boundaries` and `copy_boundaries_back`, 2D,
`/repo/src/shared/SolverBase.cpp:680, 689, 864, 872, 880, 888` -/
def nbIterBuf2I (p : Params R) (f : Face) : Option Int :=
  match f with
  | .xmin | .xmax => i32 (p.ghostWidth * p.jsize)
  | _ => i32 (p.isize * p.ghostWidth)

/-- `const int nbIter` of `copy_boundaries` and `copy_boundaries_back`, 3D,
`/repo/src/shared/SolverBase.cpp:713, 722, 731, 909-949` -/
def nbIterBuf3I (p : Params R) (f : Face) : Option Int :=
  match f with
  | .xmin | .xmax => do
    let a ← i32 (p.ghostWidth * p.jsize)
    i32 (a * p.ksize)
  | .ymin | .ymax => do
    let a ← i32 (p.isize * p.ghostWidth)
    i32 (a * p.ksize)
  | _ => do
    let a ← i32 (p.isize * p.jsize)
    i32 (a * p.ghostWidth)

/-- one `CopyDataArray_To_BorderBuf<…>::apply`, 2D -/
noncomputable def packK2I (lay : Layout) (p : Params R) (U : Arr) (f : Face) : Option (Kern Arr R) :=
  launch (nbIterBuf2I p f) (packBuf2I lay p U f)
/-- one `CopyBorderBuf_To_DataArray<…>::apply`, 2D -/
noncomputable def unpackK2I (lay : Layout) (p : Params R) (U : Arr) (f : Face) : Option (Kern Arr R) :=
  launch (nbIterBuf2I p f) (unpackBuf2I lay p U f)
/-- one `CopyDataArray_To_BorderBuf<…>::apply`, 3D -/
noncomputable def packK3I (lay : Layout) (p : Params R) (U : Arr) (f : Face) : Option (Kern Arr R) :=
  launch (nbIterBuf3I p f) (packBuf3I lay p U f)
/-- one `CopyBorderBuf_To_DataArray<…>::apply`, 3D -/
noncomputable def unpackK3I (lay : Layout) (p : Params R) (U : Arr) (f : Face) : Option (Kern Arr R) :=
  launch (nbIterBuf3I p f) (unpackBuf3I lay p U f)

/-! ### The transfer buffers of the HDF5 files -/

/-- `int index = i + isize * j`, `/repo/src/utils/io/IO_HDF5.h:122, 576, 1657` -/
def bufIndex2I (p : Params R) (i j : Int) : Option Int := do
  let a ← i32 (p.isize * j)
  i32 (i + a)

/-- `int index = i + isize * j + isize * jsize * k`, `/repo/src/utils/io/IO_HDF5.h:154, 608, 1775` -/
def bufIndex3I (p : Params R) (i j k : Int) : Option Int := do
  let a ← i32 (p.isize * j)
  let b ← i32 (i + a)
  let c ← i32 (p.isize * p.jsize)
  let d ← i32 (c * k)
  i32 (b + d)

end EulerKokkos
