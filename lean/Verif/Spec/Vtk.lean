import Verif.Model.Vtk

/-!
# Reading VTK image data

What a program reading the files (ParaView, a script) does, after the VTK file format description:

* cell `(i,j,k)` of an extent is entry `(i-x0) + nx*((j-y0) + ny*(k-z0))` of a cell array (x runs
  fastest), where an extent that is a single plane along one axis counts as one cell along it;
* an array with `format="appended"` starts `offset` bytes after the underscore with a `UInt64` giving
  the number of bytes of data, followed by the data, in the announced byte order and number type;
* the centre of cell `i` is `Origin + (i + 1/2) * Spacing`;
* a `.pvti` file is read by reading the file of the piece that contains the cell.
-/

namespace EulerKokkos.Spec

variable {R : Type}

/-- number of cells along one axis of an extent -/
def cellsAlong (a b : Int) : Nat := if b ≤ a then 1 else (b - a).toNat

/-- the extent contains the cell -/
def hasCell (e : VtkExtent) (i j k : Int) : Prop :=
  (e.x0 ≤ i ∧ i < e.x0 + cellsAlong e.x0 e.x1) ∧ (e.y0 ≤ j ∧ j < e.y0 + cellsAlong e.y0 e.y1) ∧
  (e.z0 ≤ k ∧ k < e.z0 + cellsAlong e.z0 e.z1)

instance (e : VtkExtent) (i j k : Int) : Decidable (hasCell e i j k) := by
  unfold hasCell; infer_instance

/-- position of a cell in a cell array -/
def cellEntry (e : VtkExtent) (i j k : Int) : Nat :=
  ((i - e.x0) + cellsAlong e.x0 e.x1 * ((j - e.y0) + cellsAlong e.y0 e.y1 * (k - e.z0))).toNat

/-- value of eight bytes as an unsigned integer -/
def u64Value (big : Bool) (b : List UInt8) : Nat :=
  (if big then b else b.reverse).foldl (fun a x => 256 * a + x.toNat) 0

/-- number types: `number double bigEndian bytes` is the number a reader makes of the bytes -/
abbrev Numbers (R : Type) := Bool → Bool → List UInt8 → R

/-- entry `n` of an array of the file -/
def readEntry (D : Numbers R) (f : VtiFile R) (a : VtkArray R) (n : Nat) : Option R :=
  match a.payload with
  | .ascii xs => xs[n]?
  | .appended off =>
    let size := if a.double then 8 else 4
    let data := f.raw.drop (off + 8)
    if off + 8 ≤ f.raw.length ∧ (n + 1) * size ≤ u64Value f.bigEndian ((f.raw.drop off).take 8) ∧
        (n + 1) * size ≤ data.length then
      some (D a.double f.bigEndian ((data.drop (n * size)).take size))
    else none

/-- the value of a variable in a cell, as read from a `.vti` file -/
def readCell (D : Numbers R) (f : VtiFile R) (var : String) (i j k : Int) : Option R :=
  if hasCell f.piece i j k then
    (f.arrays.find? fun a => a.name = var).bind fun a =>
      readEntry D f a (cellEntry f.piece i j k)
  else none

/-- the value of a variable in a cell, as read from a `.pvti` file in directory `dir` -/
def readDataset (D : Numbers R) (disk : Disk (VtiFile R)) (dir : List Char) (h : PvtiFile R)
    (var : String) (i j k : Int) : Option R :=
  if hasCell h.whole i j k ∧ var ∈ h.arrays.map Prod.fst then
    (h.pieces.find? fun pc => hasCell pc.extent i j k).bind fun pc =>
      (disk (dir ++ '/' :: pc.source)).bind fun f => readCell D f var i j k
  else none

/-- The reader understands the number format of the machine that wrote the files; `stored x` is the
number kept of `x` (`x` itself when the model's numbers are those of the machine, its rounding when
they are exact reals). -/
structure Understands (M : Machine R) (D : Numbers R) (stored : R → R) : Prop where
  size : ∀ x, (M.obj x).length = M.size
  number : ∀ x, D M.double M.bigEndian (M.obj x) = stored x

/-- Several ranks share one directory: every file a rank has written is there.  (Their names are
different, see `C65_names_mpi`, so it does not matter in which order the ranks write.) -/
def Shared {N : Nat} (disk : Disk (VtiFile R)) (own : Fin N → Disk (VtiFile R)) : Prop :=
  ∀ r name f, own r name = some f → disk name = some f

/-- the number a reader finds for `x`: ascii files hold the six digits that were printed, binary files
the number itself -/
def written (M : Machine R) (stored : R → R) (ascii : Bool) (x : R) : R :=
  if ascii then M.shown x else stored x

/-- the number of cells is small enough for the `int` arithmetic of the writer (2D): ascii files need
the number of cells with ghost cells, binary files the number of values, below `2^31` -/
def Fits2 (ascii : Bool) (p : Params R) : Prop :=
  if ascii then p.isize * p.jsize < 2147483648 else (p.nbvar : Int) * (p.nx * p.ny) < 2147483648

/-- the same, 3D -/
def Fits3 (ascii : Bool) (p : Params R) : Prop :=
  if ascii then p.isize * p.jsize * p.ksize < 2147483648
  else (p.nbvar : Int) * (p.nx * p.ny * p.nz) < 2147483648

end EulerKokkos.Spec
