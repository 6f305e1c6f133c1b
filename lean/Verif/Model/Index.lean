/-!
# Flat index <-> coordinate conversion

Models `/repo/src/shared/kokkos_shared.h:54-116`.  C++ integer division on the non-negative values
used here is truncating; `Int.tdiv` is C's `/`.  Simplification: unbounded integers (no `int`
overflow; overflow of the C++ `int` is treated in `Verif/Model/Int32.lean` and `Verif/Props/C93.lean`).
-/

namespace EulerKokkos

/-- `KokkosLayout` (`/repo/src/shared/kokkos_shared.h:16-20`): `left` is used when
`KOKKOS_ENABLE_CUDA` is defined, `right` otherwise. -/
inductive Layout
  | left
  | right
deriving DecidableEq, Repr

/-- 2D `index2coord`, `/repo/src/shared/kokkos_shared.h:54-69`. Returns `(i, j)`. -/
def index2coord2 (lay : Layout) (index Nx Ny : Int) : Int × Int :=
  match lay with
  | .left =>
    let j := index.tdiv Nx
    let i := index - j * Nx
    (i, j)
  | .right =>
    let i := index.tdiv Ny
    let j := index - i * Ny
    (i, j)

/-- 2D `coord2index`, `/repo/src/shared/kokkos_shared.h:71-83`. -/
def coord2index2 (lay : Layout) (i j Nx Ny : Int) : Int :=
  match lay with
  | .left => i + Nx * j
  | .right => j + Ny * i

/-- 3D `index2coord`, `/repo/src/shared/kokkos_shared.h:87-103`. Returns `(i, j, k)`. -/
def index2coord3 (lay : Layout) (index Nx Ny Nz : Int) : Int × Int × Int :=
  match lay with
  | .left =>
    let NxNy := Nx * Ny
    let k := index.tdiv NxNy
    let j := (index - k * NxNy).tdiv Nx
    let i := index - j * Nx - k * NxNy
    (i, j, k)
  | .right =>
    let NyNz := Ny * Nz
    let i := index.tdiv NyNz
    let j := (index - i * NyNz).tdiv Nz
    let k := index - j * Nz - i * NyNz
    (i, j, k)

/-- 3D `coord2index`, `/repo/src/shared/kokkos_shared.h:105-117`. -/
def coord2index3 (lay : Layout) (i j k Nx Ny Nz : Int) : Int :=
  match lay with
  | .left => i + Nx * j + Nx * Ny * k
  | .right => k + Nz * j + Nz * Ny * i

end EulerKokkos
