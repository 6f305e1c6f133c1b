import Verif.Model.Mpi

/-!
# Specification: domain decomposition

The global grid has `mx*nx × my*ny × mz*nz` interior cells; process `(x,y,z)` of the process grid
owns the block of `nx × ny × nz` of them that starts at `(x*nx, y*ny, z*nz)`.
-/

set_option linter.constructorNameAsVariable false

namespace EulerKokkos.Spec

variable {R : Type} [RealOps R]

/-- the opposite face -/
def opposite : Face → Face
  | .xmin => .xmax
  | .xmax => .xmin
  | .ymin => .ymax
  | .ymax => .ymin
  | .zmin => .zmax
  | .zmax => .zmin

/-- boundary condition the user asked for on a face of the domain -/
def userBC (p : Params R) : Face → BC
  | .xmin => p.boundary_type_xmin
  | .xmax => p.boundary_type_xmax
  | .ymin => p.boundary_type_ymin
  | .ymax => p.boundary_type_ymax
  | .zmin => p.boundary_type_zmin
  | .zmax => p.boundary_type_zmax

/-- first global cell of the block at position `(x,y,z)` of the process grid (ghost cells not
counted: the block's interior starts at this offset from the global interior) -/
def origin (p : Params R) (c : Int × Int × Int) : Int × Int × Int :=
  (c.1 * p.nx, c.2.1 * p.ny, c.2.2 * p.nz)

/-- the block at position `c` of a process grid with `m` processes per axis reaches the given face
of the global domain -/
def touches (p : Params R) (m : Int × Int × Int) (c : Int × Int × Int) : Face → Prop
  | .xmin => (origin p c).1 = 0
  | .xmax => (origin p c).1 + p.nx = m.1 * p.nx
  | .ymin => (origin p c).2.1 = 0
  | .ymax => (origin p c).2.1 + p.ny = m.2.1 * p.ny
  | .zmin => (origin p c).2.2 = 0
  | .zmax => (origin p c).2.2 + p.nz = m.2.2 * p.nz

/-- position of the neighbour through a face, in a periodic process grid -/
def neighbourPos (m : Int × Int × Int) (c : Int × Int × Int) : Face → Int × Int × Int
  | .xmin => ((c.1 - 1) % m.1, c.2.1, c.2.2)
  | .xmax => ((c.1 + 1) % m.1, c.2.1, c.2.2)
  | .ymin => (c.1, (c.2.1 - 1) % m.2.1, c.2.2)
  | .ymax => (c.1, (c.2.1 + 1) % m.2.1, c.2.2)
  | .zmin => (c.1, c.2.1, (c.2.2 - 1) % m.2.2)
  | .zmax => (c.1, c.2.1, (c.2.2 + 1) % m.2.2)

/-- parameters of the equivalent serial run: the same physical domain, all the cells on one process,
derived values set by `HydroParams::init` -/
def globalParams (T : Topo) (p : Params R) : Params R :=
  Params.init { p with nx := p.nx * T.mx, ny := p.ny * T.my, nz := p.nz * T.mz }

end EulerKokkos.Spec
