import Verif.Model.Arrays
import Verif.Model.Params

/-!
# Ghost-cell functors and the serial boundary fill

Models `/repo/src/shared/BoundariesFunctors.h` (hydro and MHD, 2D and 3D; the MHD functors differ
from the hydro ones only by also flipping the normal magnetic field, parameter `mhd`) and
`SolverBase::make_boundary`, `make_boundaries_serial` of `/repo/src/shared/SolverBase.cpp:314-512`.
-/

set_option linter.constructorNameAsVariable false

namespace EulerKokkos

variable {R : Type} [RealOps R]
open Prog (rd wr forN forRange)

/-- Source coordinate of a ghost coordinate `i` on a *min* face
(`/repo/src/shared/BoundariesFunctors.h:73-87` and the identical text of the other functors). -/
def bcSrcMin (bc : BC) (n gw i : Int) : Int :=
  if bc = .dirichlet then 2 * gw - 1 - i
  else if bc = .neumann then gw
  else n + i

/-- Source coordinate of a ghost coordinate `i` on a *max* face
(`/repo/src/shared/BoundariesFunctors.h:112-126`). -/
def bcSrcMax (bc : BC) (n gw i : Int) : Int :=
  if bc = .dirichlet then 2 * n + 2 * gw - 1 - i
  else if bc = .neumann then n + gw - 1
  else i - n

/-- The variable `sign` (`/repo/src/shared/BoundariesFunctors.h:71-78`; MHD `:590-600`):
`normal` is the normal momentum index, `normalB` the normal field index. -/
def bcSign (mhd : Bool) (bc : BC) (normal normalB v : Nat) : R :=
  if bc = .dirichlet ∧ (v = normal ∨ (mhd = true ∧ v = normalB)) then lit (-1) else lit 1

/-- The loop over variables `U(dst,v) = U(src,v) * sign` (e.g.
`/repo/src/shared/BoundariesFunctors.h:67-89`). -/
def copyVars (nbvar : Nat) (U : Arr) (d s : Int × Int × Int) (sgn : Nat → R) :
    Prog Arr R Unit :=
  forN nbvar fun v => do
    let x ← rd ⟨U, s.1, s.2.1, s.2.2, v⟩
    wr ⟨U, d.1, d.2.1, d.2.2, v⟩ (x * sgn v)

/-- `MakeBoundariesFunctor2D<face>::operator()` (`mhd = false`,
`/repo/src/shared/BoundariesFunctors.h:36-206`) and `MakeBoundariesFunctor2D_MHD<face>`
(`mhd = true`, `:553-740`). -/
def makeBoundary2 (mhd : Bool) (p : Params R) (U : Arr) (f : Face) (index : Int) :
    Prog Arr R Unit :=
  let gw := p.ghostWidth
  match f with
  | .xmin =>
    let j := index.tdiv gw
    let i := index - j * gw
    if j ≥ p.jmin ∧ j ≤ p.jmax ∧ i ≥ 0 ∧ i < gw then
      copyVars p.nbvar U (i, j, 0) (bcSrcMin p.boundary_type_xmin p.nx gw i, j, 0)
        (bcSign mhd p.boundary_type_xmin IU IA)
    else pure ()
  | .xmax =>
    let j := index.tdiv gw
    let i := index - j * gw
    let i := i + (p.nx + gw)
    if j ≥ p.jmin ∧ j ≤ p.jmax ∧ i ≥ p.nx + gw ∧ i ≤ p.nx + 2 * gw - 1 then
      copyVars p.nbvar U (i, j, 0) (bcSrcMax p.boundary_type_xmax p.nx gw i, j, 0)
        (bcSign mhd p.boundary_type_xmax IU IA)
    else pure ()
  | .ymin =>
    let i := index.tdiv gw
    let j := index - i * gw
    if i ≥ p.imin ∧ i ≤ p.imax ∧ j ≥ 0 ∧ j < gw then
      copyVars p.nbvar U (i, j, 0) (i, bcSrcMin p.boundary_type_ymin p.ny gw j, 0)
        (bcSign mhd p.boundary_type_ymin IV IB)
    else pure ()
  | .ymax =>
    let i := index.tdiv gw
    let j := index - i * gw
    let j := j + (p.ny + gw)
    if i ≥ p.imin ∧ i ≤ p.imax ∧ j ≥ p.ny + gw ∧ j ≤ p.ny + 2 * gw - 1 then
      copyVars p.nbvar U (i, j, 0) (i, bcSrcMax p.boundary_type_ymax p.ny gw j, 0)
        (bcSign mhd p.boundary_type_ymax IV IB)
    else pure ()
  | .zmin => pure ()
  | .zmax => pure ()

/-- `MakeBoundariesFunctor3D<face>::operator()` (`/repo/src/shared/BoundariesFunctors.h:240-516`)
and `MakeBoundariesFunctor3D_MHD<face>` (`:767-1040`). -/
def makeBoundary3 (mhd : Bool) (p : Params R) (U : Arr) (f : Face) (index : Int) :
    Prog Arr R Unit :=
  let gw := p.ghostWidth
  let isize := p.isize
  let jsize := p.jsize
  match f with
  | .xmin =>
    let k := index.tdiv (gw * jsize)
    let j := (index - k * gw * jsize).tdiv gw
    let i := index - j * gw - k * gw * jsize
    if k ≥ p.kmin ∧ k ≤ p.kmax ∧ j ≥ p.jmin ∧ j ≤ p.jmax ∧ i ≥ 0 ∧ i < gw then
      copyVars p.nbvar U (i, j, k) (bcSrcMin p.boundary_type_xmin p.nx gw i, j, k)
        (bcSign mhd p.boundary_type_xmin IU IA)
    else pure ()
  | .xmax =>
    let k := index.tdiv (gw * jsize)
    let j := (index - k * gw * jsize).tdiv gw
    let i := index - j * gw - k * gw * jsize
    let i := i + (p.nx + gw)
    if k ≥ p.kmin ∧ k ≤ p.kmax ∧ j ≥ p.jmin ∧ j ≤ p.jmax ∧ i ≥ p.nx + gw ∧
        i ≤ p.nx + 2 * gw - 1 then
      copyVars p.nbvar U (i, j, k) (bcSrcMax p.boundary_type_xmax p.nx gw i, j, k)
        (bcSign mhd p.boundary_type_xmax IU IA)
    else pure ()
  | .ymin =>
    let k := index.tdiv (isize * gw)
    let j := (index - k * isize * gw).tdiv isize
    let i := index - j * isize - k * isize * gw
    if k ≥ p.kmin ∧ k ≤ p.kmax ∧ j ≥ 0 ∧ j < gw ∧ i ≥ p.imin ∧ i ≤ p.imax then
      copyVars p.nbvar U (i, j, k) (i, bcSrcMin p.boundary_type_ymin p.ny gw j, k)
        (bcSign mhd p.boundary_type_ymin IV IB)
    else pure ()
  | .ymax =>
    let k := index.tdiv (isize * gw)
    let j := (index - k * isize * gw).tdiv isize
    let i := index - j * isize - k * isize * gw
    let j := j + (p.ny + gw)
    if k ≥ p.kmin ∧ k ≤ p.kmax ∧ j ≥ p.ny + gw ∧ j ≤ p.ny + 2 * gw - 1 ∧ i ≥ p.imin ∧
        i ≤ p.imax then
      copyVars p.nbvar U (i, j, k) (i, bcSrcMax p.boundary_type_ymax p.ny gw j, k)
        (bcSign mhd p.boundary_type_ymax IV IB)
    else pure ()
  | .zmin =>
    let k := index.tdiv (isize * jsize)
    let j := (index - k * isize * jsize).tdiv isize
    let i := index - j * isize - k * isize * jsize
    if k ≥ 0 ∧ k < gw ∧ j ≥ p.jmin ∧ j ≤ p.jmax ∧ i ≥ p.imin ∧ i ≤ p.imax then
      copyVars p.nbvar U (i, j, k) (i, j, bcSrcMin p.boundary_type_zmin p.nz gw k)
        (bcSign mhd p.boundary_type_zmin IW IC)
    else pure ()
  | .zmax =>
    let k := index.tdiv (isize * jsize)
    let j := (index - k * isize * jsize).tdiv isize
    let i := index - j * isize - k * isize * jsize
    let k := k + (p.nz + gw)
    if k ≥ p.nz + gw ∧ k ≤ p.nz + 2 * gw - 1 ∧ j ≥ p.jmin ∧ j ≤ p.jmax ∧ i ≥ p.imin ∧
        i ≤ p.imax then
      copyVars p.nbvar U (i, j, k) (i, j, bcSrcMax p.boundary_type_zmax p.nz gw k)
        (bcSign mhd p.boundary_type_zmax IW IC)
    else pure ()

/-- loop bound of the 2D boundary kernels, `/repo/src/shared/SolverBase.cpp:317-318` -/
def nbIter2 (p : Params R) : Int := p.ghostWidth * max p.isize p.jsize

/-- loop bound of the 3D boundary kernels, `/repo/src/shared/SolverBase.cpp:391-395`.
(Unbounded integers: the C++ `int` product overflows for very large grids; `Verif/Model/Int32.lean` models that, C93
states exactly when.) -/
def nbIter3 (p : Params R) : Int :=
  let max_size := max p.isize p.jsize
  let max_size := max max_size p.ksize
  p.ghostWidth * max_size * max_size

/-- `SolverBase::make_boundary` 2D, `/repo/src/shared/SolverBase.cpp:313-379`. -/
def makeBoundaryK2 (mhd : Bool) (p : Params R) (U : Arr) (f : Face) : Kern Arr R :=
  forRange (range1 (nbIter2 p)) (makeBoundary2 mhd p U f)

/-- `SolverBase::make_boundary` 3D, `/repo/src/shared/SolverBase.cpp:383-484`. -/
def makeBoundaryK3 (mhd : Bool) (p : Params R) (U : Arr) (f : Face) : Kern Arr R :=
  forRange (range1 (nbIter3 p)) (makeBoundary3 mhd p U f)

/-- `SolverBase::make_boundaries_serial` 2D, `/repo/src/shared/SolverBase.cpp:488-497`. -/
def makeBoundaries2 (mhd : Bool) (p : Params R) (U : Arr) : Kern Arr R :=
  Kern.seqs [makeBoundaryK2 mhd p U .xmin, makeBoundaryK2 mhd p U .xmax,
    makeBoundaryK2 mhd p U .ymin, makeBoundaryK2 mhd p U .ymax]

/-- `SolverBase::make_boundaries_serial` 3D, `/repo/src/shared/SolverBase.cpp:501-512`. -/
def makeBoundaries3 (mhd : Bool) (p : Params R) (U : Arr) : Kern Arr R :=
  Kern.seqs [makeBoundaryK3 mhd p U .xmin, makeBoundaryK3 mhd p U .xmax,
    makeBoundaryK3 mhd p U .ymin, makeBoundaryK3 mhd p U .ymax,
    makeBoundaryK3 mhd p U .zmin, makeBoundaryK3 mhd p U .zmax]

end EulerKokkos
