import Mathlib.Data.Nat.Digits.Lemmas
import Verif.Model.Config
import Verif.Model.Mpi

/-!
# VTK output

Models `/repo/src/utils/io/IO_VTK.cpp`: `save_VTK_2D`, `save_VTK_3D` (serial build),
`save_VTK_2D_mpi`, `save_VTK_3D_mpi` and `write_pvti_header` (MPI build), as called by
`IO_ReadWrite::save_data_impl` (`/repo/src/utils/io/IO_ReadWrite.cpp:74-155`) with
`nbvar = params.nbvar` and an empty `debug_name`.

A file is modelled by the attributes it contains and by the raw bytes of the `AppendedData` section;
the concrete XML syntax (tags, quotes, white space) is abstracted.  Opening a file is assumed to
succeed (the code does not check).  `int` products wrap (in C++ the overflow is undefined).
-/

set_option linter.constructorNameAsVariable false

namespace EulerKokkos

variable {R : Type} [RealOps R]

/-! ### Files -/

/-- the six numbers of an `Extent` or `WholeExtent` attribute -/
structure VtkExtent where
  x0 : Int
  x1 : Int
  y0 : Int
  y1 : Int
  z0 : Int
  z1 : Int
deriving DecidableEq

/-- contents of a `<DataArray>`: `format="ascii"` with the numbers in the text, or
`format="appended"` with the `offset` attribute -/
inductive VtkPayload (R : Type)
  | ascii (numbers : List R)
  | appended (offset : Nat)

/-- a `<DataArray>`; `double` is `type="Float64"`, otherwise `type="Float32"` -/
structure VtkArray (R : Type) where
  name : String
  double : Bool
  payload : VtkPayload R

/-- a `.vti` file; `raw` is what follows the underscore in `<AppendedData encoding="raw">` -/
structure VtiFile (R : Type) where
  bigEndian : Bool
  whole : VtkExtent
  piece : VtkExtent
  origin : R × R × R
  spacing : R × R × R
  arrays : List (VtkArray R)
  raw : List UInt8

/-- a `<Piece>` of a `.pvti` file -/
structure VtkPiece where
  extent : VtkExtent
  source : List Char

/-- a `.pvti` file -/
structure PvtiFile (R : Type) where
  bigEndian : Bool
  whole : VtkExtent
  origin : R × R × R
  spacing : R × R × R
  arrays : List (String × Bool)
  pieces : List VtkPiece

/-! ### The machine -/

/-- What the writers need to know about the machine and the C++ library: `isBigEndian()`
(`/repo/src/utils/io/IO_VTK.cpp:15-20`), `sizeof(real_t) == sizeof(double)` (`:62-68`; otherwise
`real_t` is `float`), the object representation of a `real_t`, and the number denoted by the text
`outFile << x` prints (at the default precision, six significant digits). -/
structure Machine (R : Type) where
  bigEndian : Bool
  double : Bool
  obj : R → List UInt8
  shown : R → R

/-- `sizeof(real_t)` -/
def Machine.size (M : Machine R) : Nat := if M.double then 8 else 4

/-- the object representation of a `uint64_t` -/
def u64Bytes (big : Bool) (n : Nat) : List UInt8 :=
  let le := (List.range 8).map fun b => UInt8.ofNat (n / 256 ^ b % 256)
  if big then le.reverse else le

/-- conversion `int → size_t` -/
def toUInt64 (n : Int) : Nat := (n % 18446744073709551616).toNat

/-! ### Names -/

/-- `m_variables_names`, `/repo/src/shared/SolverBase.cpp:59-67`; `at` throws for other indices -/
def varName : Nat → String
  | 0 => "rho"
  | 1 => "energy"
  | 2 => "rho_vx"
  | 3 => "rho_vy"
  | 4 => "rho_vz"
  | 5 => "bx"
  | 6 => "by"
  | 7 => "bz"
  | _ => ""

/-- `ostringstream s; s.width(w); s.fill('0'); s << n;` for `n ≥ 0`,
`/repo/src/utils/io/IO_VTK.cpp:70-74`.  (For `n = 0` the digit `0` is one of the fill characters,
since `w ≥ 1` in all uses.) -/
def zeroPad (w n : Nat) : List Char :=
  (((Nat.digits 10 n) ++ List.replicate (w - (Nat.digits 10 n).length) 0).reverse).map
    fun d => Char.ofNat (48 + d)

/-- file name of the serial build, `/repo/src/utils/io/IO_VTK.cpp:76-79` (2D), `:268-271` (3D) -/
def vtiName (dir pre : List Char) (n : Nat) : List Char :=
  dir ++ '/' :: (pre ++ '_' :: (zeroPad 7 n ++ ".vti".toList))

/-- name of the piece of a rank without the directory, as written in the header,
`/repo/src/utils/io/IO_VTK.cpp:939-944` (2D), `:972-977` (3D) -/
def pieceName (pre : List Char) (n r : Nat) : List Char :=
  pre ++ '_' :: 't' :: 'i' :: 'm' :: 'e' ::
    (zeroPad 7 n ++ '_' :: 'm' :: 'p' :: 'i' :: (zeroPad 5 r ++ ".vti".toList))

/-- file name of a rank of the MPI build, `/repo/src/utils/io/IO_VTK.cpp:484-489` (2D),
`:704-709` (3D) -/
def vtiNameMpi (dir pre : List Char) (n r : Nat) : List Char := dir ++ '/' :: pieceName pre n r

/-- file name of the header of the MPI build, `/repo/src/utils/io/IO_VTK.cpp:492-493` (2D),
`:712-713` (3D) -/
def pvtiName (dir pre : List Char) (n : Nat) : List Char :=
  dir ++ '/' :: (pre ++ '_' :: 't' :: 'i' :: 'm' :: 'e' :: (zeroPad 7 n ++ ".pvti".toList))

/-! ### Cell data -/

/-- values of `i` in `for (int i = lo; i <= hi; i++)` -/
def countUp (lo hi : Int) : List Int := (List.range (hi - lo + 1).toNat).map fun (t : Nat) => lo + (t : Int)

/-- ascii numbers of one variable, 2D, `/repo/src/utils/io/IO_VTK.cpp:129-145` (serial, `nbCells` is
the `int` product) and `:543-558` (MPI, `nbCells` is a `uint64_t` product) -/
def asciiCells2 (M : Machine R) (p : Params R) (nbCells : Int) (U : Loc Unit → R) (iVar : Nat) :
    List R :=
  (List.range nbCells.toNat).filterMap fun (index : Nat) =>
    let j := (index : Int) / p.isize
    let i := (index : Int) - j * p.isize
    if p.jmin + p.ghostWidth ≤ j ∧ j ≤ p.jmax - p.ghostWidth ∧ p.imin + p.ghostWidth ≤ i ∧
        i ≤ p.imax - p.ghostWidth then
      some (M.shown (U ⟨(), i, j, 0, iVar⟩))
    else none

/-- ascii numbers of one variable, 3D, `/repo/src/utils/io/IO_VTK.cpp:327-343` (serial) and
`:767-783` (MPI); `nbCells` is an `int` product in both -/
def asciiCells3 (M : Machine R) (p : Params R) (U : Loc Unit → R) (iVar : Nat) : List R :=
  let ijsize := toInt32 (p.isize * p.jsize)
  let nbCells := toInt32 (p.isize * p.jsize * p.ksize)
  (List.range nbCells.toNat).filterMap fun (index : Nat) =>
    let k := (index : Int) / ijsize
    let j := ((index : Int) - k * ijsize) / p.isize
    let i := (index : Int) - j * p.isize - k * ijsize
    if p.kmin + p.ghostWidth ≤ k ∧ k ≤ p.kmax - p.ghostWidth ∧ p.jmin + p.ghostWidth ≤ j ∧
        j ≤ p.jmax - p.ghostWidth ∧ p.imin + p.ghostWidth ≤ i ∧ i ≤ p.imax - p.ghostWidth then
      some (M.shown (U ⟨(), i, j, k, iVar⟩))
    else none

/-- raw bytes of one variable, 2D: the byte count, then the values;
`/repo/src/utils/io/IO_VTK.cpp:187-199` (serial), `:601-613` (MPI) -/
def rawBlock2 (M : Machine R) (p : Params R) (U : Loc Unit → R) (iVar : Nat) : List UInt8 :=
  let nbOfWords := toUInt64 (toInt32 (p.nx * p.ny)) * M.size
  u64Bytes M.bigEndian nbOfWords ++
    (countUp (p.jmin + p.ghostWidth) (p.jmax - p.ghostWidth)).flatMap fun j =>
      (countUp (p.imin + p.ghostWidth) (p.imax - p.ghostWidth)).flatMap fun i =>
        M.obj (U ⟨(), i, j, 0, iVar⟩)

/-- raw bytes of one variable, 3D; `/repo/src/utils/io/IO_VTK.cpp:386-399` (serial),
`:825-842` (MPI) -/
def rawBlock3 (M : Machine R) (p : Params R) (U : Loc Unit → R) (iVar : Nat) : List UInt8 :=
  let nbOfWords := toUInt64 (toInt32 (p.nx * p.ny * p.nz)) * M.size
  u64Bytes M.bigEndian nbOfWords ++
    (countUp (p.kmin + p.ghostWidth) (p.kmax - p.ghostWidth)).flatMap fun k =>
      (countUp (p.jmin + p.ghostWidth) (p.jmax - p.ghostWidth)).flatMap fun j =>
        (countUp (p.imin + p.ghostWidth) (p.imax - p.ghostWidth)).flatMap fun i =>
          M.obj (U ⟨(), i, j, k, iVar⟩)

/-- the `offset` attribute, 2D: `iVar * nx * ny * sizeof(real_t) + iVar * sizeof(uint64_t)`, where
`iVar * nx * ny` is an `int` and the rest is computed in `size_t`; `/repo/src/utils/io/IO_VTK.cpp:174` (serial), `:588` (MPI) -/
def offset2 (M : Machine R) (p : Params R) (iVar : Nat) : Nat :=
  (toUInt64 (toInt32 (iVar * p.nx * p.ny)) * M.size + iVar * 8) % 18446744073709551616

/-- the `offset` attribute, 3D, `/repo/src/utils/io/IO_VTK.cpp:372` (serial), `:812` (MPI) -/
def offset3 (M : Machine R) (p : Params R) (iVar : Nat) : Nat :=
  (toUInt64 (toInt32 (iVar * p.nx * p.ny * p.nz)) * M.size + iVar * 8) % 18446744073709551616

/-- the arrays of a file; `ascii iVar` are the ascii numbers, `offset iVar` the offsets -/
def vtkArrays (M : Machine R) (p : Params R) (outputVtkAscii : Bool) (ascii : Nat → List R)
    (offset : Nat → Nat) : List (VtkArray R) :=
  (List.range p.nbvar).map fun iVar =>
    { name := varName iVar, double := M.double
      payload := if outputVtkAscii then .ascii (ascii iVar) else .appended (offset iVar) }

/-- `save_VTK_2D`, `/repo/src/utils/io/IO_VTK.cpp:24-208` -/
def saveVtk2 (M : Machine R) (p : Params R) (outputVtkAscii : Bool) (U : Loc Unit → R) :
    VtiFile R where
  bigEndian := M.bigEndian
  whole := ⟨0, p.nx, 0, p.ny, 0, 0⟩
  piece := ⟨0, p.nx, 0, p.ny, 0, 0⟩
  origin := (M.shown p.xmin, M.shown p.ymin, lit 0)
  spacing := (M.shown p.dx, M.shown p.dy, lit 0)
  arrays := vtkArrays M p outputVtkAscii (asciiCells2 M p (toInt32 (p.isize * p.jsize)) U)
    (offset2 M p)
  raw := if outputVtkAscii then [] else (List.range p.nbvar).flatMap (rawBlock2 M p U)

/-- `save_VTK_3D`, `/repo/src/utils/io/IO_VTK.cpp:212-408` -/
def saveVtk3 (M : Machine R) (p : Params R) (outputVtkAscii : Bool) (U : Loc Unit → R) :
    VtiFile R where
  bigEndian := M.bigEndian
  whole := ⟨0, p.nx, 0, p.ny, 0, p.nz⟩
  piece := ⟨0, p.nx, 0, p.ny, 0, p.nz⟩
  origin := (M.shown p.xmin, M.shown p.ymin, M.shown p.zmin)
  spacing := (M.shown p.dx, M.shown p.dy, M.shown p.dz)
  arrays := vtkArrays M p outputVtkAscii (asciiCells3 M p U) (offset3 M p)
  raw := if outputVtkAscii then [] else (List.range p.nbvar).flatMap (rawBlock3 M p U)

/-- `save_VTK_2D_mpi`, the piece of a rank, `/repo/src/utils/io/IO_VTK.cpp:414-623` -/
def saveVtk2Mpi (M : Machine R) (T : Topo) (p : Params R) (r : T.Rank) (outputVtkAscii : Bool)
    (U : Loc Unit → R) : VtiFile R :=
  let c := T.coords r
  let e : VtkExtent := ⟨c.1 * p.nx, c.1 * p.nx + p.nx, c.2.1 * p.ny, c.2.1 * p.ny + p.ny, 0, 0⟩
  { bigEndian := M.bigEndian
    whole := e
    piece := e
    origin := (M.shown p.xmin, M.shown p.ymin, lit 0)
    spacing := (M.shown p.dx, M.shown p.dy, lit 0)
    arrays := vtkArrays M p outputVtkAscii (asciiCells2 M p (p.isize * p.jsize) U) (offset2 M p)
    raw := if outputVtkAscii then [] else (List.range p.nbvar).flatMap (rawBlock2 M p U) }

/-- `save_VTK_3D_mpi`, the piece of a rank, `/repo/src/utils/io/IO_VTK.cpp:631-850` -/
def saveVtk3Mpi (M : Machine R) (T : Topo) (p : Params R) (r : T.Rank) (outputVtkAscii : Bool)
    (U : Loc Unit → R) : VtiFile R :=
  let c := T.coords r
  let e : VtkExtent := ⟨c.1 * p.nx, c.1 * p.nx + p.nx, c.2.1 * p.ny, c.2.1 * p.ny + p.ny,
    c.2.2 * p.nz, c.2.2 * p.nz + p.nz⟩
  { bigEndian := M.bigEndian
    whole := e
    piece := e
    origin := (M.shown p.xmin, M.shown p.ymin, M.shown p.zmin)
    spacing := (M.shown p.dx, M.shown p.dy, M.shown p.dz)
    arrays := vtkArrays M p outputVtkAscii (asciiCells3 M p U) (offset3 M p)
    raw := if outputVtkAscii then [] else (List.range p.nbvar).flatMap (rawBlock3 M p U) }

/-- `coords[a] == 0 ? (0, n) : (coords[a]*n, coords[a]*n + n)`,
`/repo/src/utils/io/IO_VTK.cpp:951-961, 984-998` -/
def pieceRange (c n : Int) : Int × Int := if c = 0 then (0, n) else (c * n, c * n + n)

/-- `write_pvti_header`, called by rank 0, `/repo/src/utils/io/IO_VTK.cpp:861-1010`.  `mx`, `my`, `mz`
are the numbers of the configuration, which are those of the topology. -/
def writePvtiHeader (M : Machine R) (T : Topo) (p : Params R) (pre : List Char) (iStep : Nat) :
    PvtiFile R :=
  let nz := if p.dimType = .three then p.nz else 0
  let mz : Int := if p.dimType = .three then T.mz else 0
  let dz := if p.dimType = .three then p.dz else lit 0
  { bigEndian := M.bigEndian
    whole := ⟨0, T.mx * p.nx, 0, T.my * p.ny, 0, mz * nz⟩
    origin := (M.shown p.xmin, M.shown p.ymin, M.shown p.zmin)
    spacing := (M.shown p.dx, M.shown p.dy, M.shown dz)
    arrays := (List.range p.nbvar).map fun iVar => (varName iVar, M.double)
    pieces := (List.finRange T.size).map fun iPiece =>
      let c := T.coords iPiece
      let x := pieceRange c.1 p.nx
      let y := pieceRange c.2.1 p.ny
      let z := if p.dimType = .three then pieceRange c.2.2 nz else (0, 1)
      { extent := ⟨x.1, x.2, y.1, y.2, z.1, z.2⟩
        source := pieceName pre iStep iPiece.val } }

/-! ### The directory -/

/-- What a process leaves in the output directory: a map from names to contents; writing a name again
replaces the file (`std::ios_base::out` truncates). -/
def Disk (F : Type) := List Char → Option F

/-- write a file -/
def Disk.write {F : Type} (d : Disk F) (name : List Char) (f : F) : Disk F :=
  fun n => if n = name then some f else d n

/-- the files of a serial run, written in the order of the outputs; `save` is `save_VTK_2D` or
`save_VTK_3D`; `SolverBase::save_solution` passes `m_times_saved` as `iStep`
(`/repo/src/shared/SolverBase.cpp:210-219`) -/
def vtkDisk (save : (Loc Unit → R) → VtiFile R) (dir pre : List Char) (outputs : List (Output R)) :
    Disk (VtiFile R) :=
  outputs.foldl (fun d o => d.write (vtiName dir pre o.number.toNat) (save o.data)) fun _ => none

/-- the pieces written by one rank of an MPI run -/
def vtkDiskMpi (save : (Loc Unit → R) → VtiFile R) (dir pre : List Char) (r : Nat)
    (outputs : List (Output R)) : Disk (VtiFile R) :=
  outputs.foldl (fun d o => d.write (vtiNameMpi dir pre o.number.toNat r) (save o.data)) fun _ => none

end EulerKokkos
