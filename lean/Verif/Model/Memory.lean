import Verif.Core.CInt
import Verif.Model.HydroStep
import Verif.Model.HydroStep3
import Verif.Model.Mhd2D
import Verif.Model.Mhd3D

/-!
# The cell count and the memory report of the solver constructors

The products of sizes are evaluated in `int` from left to right (checked, `i32`) until `sizeof(real_t)`, a `size_t`, enters;
from there on the arithmetic is unsigned 64-bit, in which the values that occur are exact (at most 18 terms below
`2^31 * 8`), so it is transcribed with integers.
-/

namespace EulerKokkos

variable {R : Type} [RealOps R]

/-- `isize * jsize * c` in `int`, e.g. `/repo/src/muscl/SolverHydroMuscl.h:204` -/
def sizes2I (p : Params R) (c : Int) : Option Int := do
  let a ← i32 (p.isize * p.jsize)
  i32 (a * c)

/-- `isize * jsize * ksize * c` in `int`, e.g. `/repo/src/muscl/SolverHydroMuscl.h:242` -/
def sizes3I (p : Params R) (c : Int) : Option Int := do
  let a ← i32 (p.isize * p.jsize)
  let b ← i32 (a * p.ksize)
  i32 (b * c)

/-- `m_nCells` of a 2D solver, `/repo/src/muscl/SolverHydroMuscl.h:182`, `/repo/src/muscl/SolverMHDMuscl.h:251` -/
def nCells2I (p : Params R) : Option Int := i32 (p.isize * p.jsize)

/-- `m_nCells` of a 3D solver, `/repo/src/muscl/SolverHydroMuscl.h:182`, `/repo/src/muscl/SolverMHDMuscl.h:251` -/
def nCells3I (p : Params R) : Option Int := do
  let a ← i32 (p.isize * p.jsize)
  i32 (a * p.ksize)

/-- `total_mem_size` of the 2D hydro solver, `/repo/src/muscl/SolverHydroMuscl.h:187-233`; `sz = sizeof(real_t)` -/
def memHydro2I (p : Params R) (g : GravityParams) (sz : Int) : Option Int := do
  let a ← sizes2I p p.nbvar
  let total := a * sz * 3
  let total ←
    if p.implementationVersion = 0 then do
      let a ← sizes2I p p.nbvar
      pure (total + a * sz * 2)
    else if p.implementationVersion = 1 then do
      let a ← sizes2I p p.nbvar
      pure (total + a * sz * 3)
    else pure total
  if g.enabled = true then do
    let a ← sizes2I p 2
    pure (total + a)
  else pure total

/-- `total_mem_size` of the 3D hydro solver, `/repo/src/muscl/SolverHydroMuscl.h:187, 234-274` -/
def memHydro3I (p : Params R) (g : GravityParams) (sz : Int) : Option Int := do
  let a ← sizes3I p p.nbvar
  let total := a * sz * 3
  let total ←
    if p.implementationVersion = 0 then do
      let a ← sizes3I p p.nbvar
      pure (total + a * sz * 3)
    else if p.implementationVersion = 1 then do
      let a ← sizes3I p p.nbvar
      pure (total + a * sz * 4)
    else pure total
  if g.enabled = true then do
    let a ← sizes3I p 3
    pure (total + a)
  else pure total

/-- `total_mem_size` of the 2D MHD solver, `/repo/src/muscl/SolverMHDMuscl.h:256-312` -/
def memMhd2I (p : Params R) (sz : Int) : Option Int := do
  let a ← sizes2I p p.nbvar
  let total := a * sz * 3
  let total ←
    if p.implementationVersion = 0 ∨ p.implementationVersion = 1 then do
      let a ← sizes2I p p.nbvar
      pure (total + a * sz * 8)
    else if p.implementationVersion = 2 then do
      let a ← sizes2I p p.nbvar
      let b ← sizes2I p 1
      let c ← sizes2I p 2
      pure (total + a * sz * (1 + 2) + b * sz * 1 + c * sz * 1)
    else pure total
  if p.implementationVersion = 0 then do
    let a ← sizes2I p p.nbvar
    let b ← sizes2I p 1
    pure (total + a * sz * 2 + b * sz)
  else pure total

/-- `total_mem_size` of the 3D MHD solver, `/repo/src/muscl/SolverMHDMuscl.h:256, 313-381` -/
def memMhd3I (p : Params R) (sz : Int) : Option Int := do
  let a ← sizes3I p p.nbvar
  let total := a * sz * 3
  let total ←
    if p.implementationVersion = 0 ∨ p.implementationVersion = 1 then do
      let a ← sizes3I p p.nbvar
      let b ← sizes3I p 3
      pure (total + (a * sz * 18 + b * sz * 4))
    else if p.implementationVersion = 2 then do
      let a ← sizes3I p p.nbvar
      let b ← sizes3I p 3
      pure (total + (a * sz * (1 + 3) + b * sz * 2))
    else pure total
  if p.implementationVersion = 0 then do
    let a ← sizes3I p p.nbvar
    let b ← sizes3I p 3
    pure (total + (a * sz * 3 + b * sz * 1))
  else pure total

/-! ### Sizes and offsets of the output files -/

/-- `isize * jsize * nvar`, the offset in `Uhost.data()` of variable `nvar` (left layout, 2D),
`/repo/src/utils/io/IO_HDF5.h:129, 583, 1665` -/
def fileOffset2I (p : Params R) (nvar : Int) : Option Int := sizes2I p nvar

/-- `isize * jsize * ksize * nvar` (left layout, 3D), `/repo/src/utils/io/IO_HDF5.h:162, 616, 1784` -/
def fileOffset3I (p : Params R) (nvar : Int) : Option Int := sizes3I p nvar

/-- `nbvar * isize * jsize`, the bytes written divided by `sizeof(real_t)`, 2D, `/repo/src/utils/io/IO_HDF5.h:1448` -/
def writeSize2I (p : Params R) : Option Int := do
  let a ← i32 (p.nbvar * p.isize)
  i32 (a * p.jsize)

/-- `nbvar * isize * jsize * ksize`, 3D, `/repo/src/utils/io/IO_HDF5.h:1450` -/
def writeSize3I (p : Params R) : Option Int := do
  let a ← i32 (p.nbvar * p.isize)
  let b ← i32 (a * p.jsize)
  i32 (b * p.ksize)

end EulerKokkos
