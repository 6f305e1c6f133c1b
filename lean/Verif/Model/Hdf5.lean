import Verif.Model.Vtk
import Verif.Model.Mpi
import Verif.Model.Config

/-!
# HDF5 dump and reload

Models `Save_HDF5`, `Save_HDF5_mpi`, `Load_HDF5`, `Load_HDF5_mpi`
(`/repo/src/utils/io/IO_HDF5.h:76-520, 530-1500, 1527-2190, 2213-2780`), `IO_ReadWrite::load_data_impl`
(`/repo/src/utils/io/IO_ReadWrite.cpp:196-285`) and `init_restart`
(`/repo/src/muscl/SolverHydroMuscl.h:510-580`, `/repo/src/muscl/SolverMHDMuscl.h:609-639`).

The HDF5 library is modelled by what its reference manual says of simple dataspaces and hyperslabs of
stride 1: a dataset is an array indexed by coordinates (slowest first), a transfer pairs the points of
the two selections in row-major order.  A transfer whose selections leave the extents or have
different numbers of points fails and transfers nothing.

Simplifications: `int` arithmetic does not overflow; values are written and read in the same format
(no precision change, no byte swap); what a dataset holds where nobody wrote is left open (HDF5 would
put its fill value); the contents of the transfer buffer before a read are left open (the code
reads into an uninitialised, reused buffer); attributes other than the step and the time
are not modelled, nothing reads them.
-/

set_option linter.constructorNameAsVariable false

namespace EulerKokkos

variable {R : Type} [RealOps R]

namespace H5

/-- a hyperslab of stride 1: first point and extent, slowest dimension first
(`H5Sselect_hyperslab(…, start, stride = 1, count, block)` with `count` or `block` equal to 1) -/
structure Slab where
  start : List Int
  size : List Int

/-- the points of the box `[0, size)` in row-major order -/
def box : List Int → List (List Int)
  | [] => [[]]
  | n :: ns => (countUp 0 (n - 1)).flatMap fun i => (box ns).map (i :: ·)

/-- the points of a hyperslab in row-major order -/
def Slab.points (s : Slab) : List (List Int) := (box s.size).map (List.zipWith (· + ·) s.start)

/-- the whole extent (`H5S_ALL`, or a dataspace on which nothing was selected) -/
def wholeSpace (dims : List Int) : Slab := ⟨dims.map fun _ => 0, dims⟩

/-- does the box fit in the extent -/
def fits : List Int → List Int → List Int → Bool
  | [], [], [] => true
  | d :: ds, s :: ss, n :: ns => decide (0 ≤ s ∧ 0 ≤ n ∧ s + n ≤ d) && fits ds ss ns
  | _, _, _ => false

/-- is the slab inside the extent (`H5Sselect_valid`) -/
def Slab.inside (s : Slab) (dims : List Int) : Bool := fits dims s.start s.size

/-- position of a point in an array of extent `dims` stored in row-major order -/
def offset (dims point : List Int) : Int :=
  (dims.zip point).foldl (fun a dc => a * dc.1 + dc.2) 0

/-- the pairs (point in memory, point in file) of a transfer -/
def transfer (mdims : List Int) (mem : Slab) (fdims : List Int) (file : Slab) :
    List (List Int × List Int) :=
  if mem.inside mdims && file.inside fdims && mem.points.length == file.points.length then
    mem.points.zip file.points else []

/-- a dataset -/
structure Dataset (R : Type) where
  dims : List Int
  val : List Int → R

/-- Result of `H5Dwrite` into a new dataset by several processes (`ρ = Unit` for the serial library).
Where several processes write the same point, one of the values is stored. -/
def written {ρ : Type} (mdims : List Int) (mem : Slab) (fdims : List Int) (file : ρ → Slab)
    (buf : ρ → Int → R) (d : Dataset R) : Prop :=
  d.dims = fdims ∧ ∀ c, (∃ r x, (x, c) ∈ transfer mdims mem fdims (file r) ∧
      d.val c = buf r (offset mdims x)) ∨
    ∀ r x, (x, c) ∉ transfer mdims mem fdims (file r)

/-- Result of `H5Dread`.  (A file dataspace of another extent than the dataset: nothing is read; the
library is not required to do that, no theorem relies on it.) -/
def read (mdims : List Int) (mem : Slab) (fdims : List Int) (file : Slab) (d : Dataset R)
    (buf buf' : Int → R) : Prop :=
  let tr := if d.dims = fdims then transfer mdims mem fdims file else []
  ∀ q, (∃ x c, (x, c) ∈ tr ∧ offset mdims x = q ∧ buf' q = d.val c) ∨
    ((∀ x c, (x, c) ∈ tr → offset mdims x ≠ q) ∧ buf' q = buf q)

end H5

open H5

/-- a file: the datasets by name, the attributes `time step` and `total time` -/
structure H5File (R : Type) where
  field : String → Option (Dataset R)
  step : Int
  time : R

/-- the options read from the configuration (`output/ghostIncluded`, `output/allghostIncluded`,
`output/reassembleInFile`, `run/restart_upscale`) -/
structure H5Options where
  ghostIncluded : Bool := false
  allghostIncluded : Bool := false
  reassembleInFile : Bool := true
  restartUpscale : Bool := false

/-- the fields written and read, `/repo/src/utils/io/IO_HDF5.h:378-412` (serial),
`:1197-1320` (MPI), `:2080-2110`, `:2640-2675` (load).  `IE` and `IP` are the same number. -/
def h5Fields (p : Params R) : List Nat :=
  [ID, IP, IU, IV] ++ (if p.dimType = .three ∧ p.mhdEnabled = false then [IW] else []) ++
    (if p.mhdEnabled then [IW, IA, IB, IC] else [])

/-- extents of the arrays in memory: `dims_memory`, `/repo/src/utils/io/IO_HDF5.h:281-282, 290-292` -/
def memDims (p : Params R) : List Int :=
  match p.dimType with
  | .two => [p.jsize, p.isize]
  | .three => [p.ksize, p.jsize, p.isize]

/-- logical sizes, slowest first -/
def logical (p : Params R) : List Int :=
  match p.dimType with
  | .two => [p.ny, p.nx]
  | .three => [p.nz, p.ny, p.nx]

/-- the transfer buffer of a 2D field, `/repo/src/utils/io/IO_HDF5.h:107-131` (serial),
`:561-585` (MPI).  `LayoutRight`: the loop fills the buffer; `LayoutLeft`: the buffer is the storage
of `Uhost` from the field on. -/
def saveBuffer2 (lay : Layout) (p : Params R) (U : Loc Unit → R) (nvar : Nat) (junk : Int → R) :
    Int → R :=
  match lay with
  | .right =>
    ((countUp 0 (p.jsize - 1)).flatMap fun j => (countUp 0 (p.isize - 1)).map fun i => (i, j)).foldl
      (fun data ij => Function.update data (ij.1 + p.isize * ij.2) (U ⟨(), ij.1, ij.2, 0, nvar⟩)) junk
  | .left => fun q =>
    let c := viewElem .left (p.isize, p.jsize, 1) p.nbvar (p.isize * p.jsize * nvar + q)
    U ⟨(), c.1, c.2.1, 0, c.2.2.2.toNat⟩

/-- the transfer buffer of a 3D field, `/repo/src/utils/io/IO_HDF5.h:136-163`, `:590-617` -/
def saveBuffer3 (lay : Layout) (p : Params R) (U : Loc Unit → R) (nvar : Nat) (junk : Int → R) :
    Int → R :=
  match lay with
  | .right =>
    ((countUp 0 (p.ksize - 1)).flatMap fun k => (countUp 0 (p.jsize - 1)).flatMap fun j =>
      (countUp 0 (p.isize - 1)).map fun i => (i, j, k)).foldl
      (fun data x => Function.update data (x.1 + p.isize * x.2.1 + p.isize * p.jsize * x.2.2)
        (U ⟨(), x.1, x.2.1, x.2.2, nvar⟩)) junk
  | .left => fun q =>
    let c := viewElem .left (p.isize, p.jsize, p.ksize) p.nbvar
      (p.isize * p.jsize * p.ksize * nvar + q)
    U ⟨(), c.1, c.2.1, c.2.2.1, c.2.2.2.toNat⟩

/-- `copy_buffer` of the writers -/
def saveBuffer (lay : Layout) (p : Params R) (U : Loc Unit → R) (nvar : Nat) (junk : Int → R) :
    Int → R :=
  match p.dimType with
  | .two => saveBuffer2 lay p U nvar junk
  | .three => saveBuffer3 lay p U nvar junk

/-- the hyperslab selected in memory, `/repo/src/utils/io/IO_HDF5.h:298-342` (serial), `:976-1023`
(MPI, where `ghosts` is `ghostIncluded or allghostIncluded`): everything, or the interior -/
def memSlab (ghosts : Bool) (gw : Int) (n : List Int) : Slab :=
  if ghosts then ⟨n.map fun _ => 0, n.map (· + 2 * gw)⟩ else ⟨n.map fun _ => gw, n⟩

/-- `Save_HDF5::save`, `/repo/src/utils/io/IO_HDF5.h:211-507`: the file `f` may result from saving
the view `U`.  `junk` is the uninitialised buffer of `:364-371`. -/
def saveH5 (lay : Layout) (o : H5Options) (p : Params R) (U : Loc Unit → R) (iStep : Int)
    (totalTime : R) (f : H5File R) : Prop :=
  let dims := if o.ghostIncluded then (logical p).map (· + 2 * p.ghostWidth) else logical p
  f.step = iStep ∧ f.time = totalTime ∧
  ∀ nvar ∈ h5Fields p, ∃ d junk, f.field (varName nvar) = some d ∧
    written (ρ := Unit) (memDims p) (memSlab o.ghostIncluded p.ghostWidth (logical p)) dims
      (fun _ => wholeSpace dims) (fun _ => saveBuffer lay p U nvar junk) d

/-- the coordinates of a rank, slowest first, `/repo/src/utils/io/IO_HDF5.h:741-751` -/
def coordsOf (T : Topo) (p : Params R) (r : T.Rank) : List Int :=
  match p.dimType with
  | .two => [(T.coords r).2.1, (T.coords r).1]
  | .three => [(T.coords r).2.2, (T.coords r).2.1, (T.coords r).1]

/-- numbers of sub-domains, slowest first -/
def pieces (T : Topo) (p : Params R) : List Int :=
  match p.dimType with
  | .two => [T.my, T.mx]
  | .three => [T.mz, T.my, T.mx]

/-- `dims_chunk`: what one process contributes -/
def chunk (ghosts : Bool) (gw : Int) (n : List Int) : List Int :=
  if ghosts then n.map (· + 2 * gw) else n

/-- the extent of the dataset when the pieces are assembled, for pieces of logical sizes `n`:
`/repo/src/utils/io/IO_HDF5.h:858-966` (`reassembleInFile`), `:2352-2453` (load) -/
def fileDims (o : H5Options) (gw : Int) (n m : List Int) : List Int :=
  if o.allghostIncluded then List.zipWith (· * ·) m (n.map (· + 2 * gw))
  else if o.ghostIncluded then (List.zipWith (· * ·) n m).map (· + 2 * gw)
  else List.zipWith (· * ·) n m

/-- the piece of a process in the assembled dataset, `/repo/src/utils/io/IO_HDF5.h:1072-1160`,
`:2505-2595` (load); `c` are the coordinates of the process -/
def fileSlab (o : H5Options) (gw : Int) (n c : List Int) : Slab :=
  let ch := chunk (o.ghostIncluded || o.allghostIncluded) gw n
  if o.allghostIncluded then ⟨List.zipWith (· * ·) c ch, ch⟩
  else if o.ghostIncluded then ⟨List.zipWith (· * ·) c n, ch⟩
  else ⟨List.zipWith (· * ·) c ch, ch⟩

/-- the extent of the dataset when the pieces are stacked (`reassembleInFile = false`),
`/repo/src/utils/io/IO_HDF5.h:798-856` -/
def stackedDims (T : Topo) (ch : List Int) : List Int :=
  match ch with
  | a :: as => a * T.size :: as
  | [] => []

/-- the piece of a process when the pieces are stacked, `/repo/src/utils/io/IO_HDF5.h:1035-1062` -/
def stackedSlab (T : Topo) (r : T.Rank) (ch : List Int) : Slab :=
  match ch with
  | a :: as => ⟨(r.val : Int) * a :: as.map fun _ => 0, a :: as⟩
  | [] => ⟨[], []⟩

/-- `Save_HDF5_mpi::save`, `/repo/src/utils/io/IO_HDF5.h:672-1500`: the file all processes write
together.  `p` are the parameters of a process (equal on all processes up to the coordinates), `U r`
the view of process `r`. -/
def saveH5Mpi (lay : Layout) (o : H5Options) (T : Topo) (p : Params R) (U : T.Rank → Loc Unit → R)
    (iStep : Int) (totalTime : R) (f : H5File R) : Prop :=
  let ghosts := o.ghostIncluded || o.allghostIncluded
  let ch := chunk ghosts p.ghostWidth (logical p)
  let dims := if o.reassembleInFile then fileDims o p.ghostWidth (logical p) (pieces T p)
    else stackedDims T ch
  f.step = iStep ∧ f.time = totalTime ∧
  ∀ nvar ∈ h5Fields p, ∃ d, ∃ junk : T.Rank → Int → R, f.field (varName nvar) = some d ∧
    written (memDims p) (memSlab ghosts p.ghostWidth (logical p)) dims
      (fun r => if o.reassembleInFile then fileSlab o p.ghostWidth (logical p) (coordsOf T p r)
        else stackedSlab T r ch)
      (fun r => saveBuffer lay p (U r) nvar (junk r)) d

/-- `copy_buffer` of the reader at the same resolution, 2D, `/repo/src/utils/io/IO_HDF5.h:1644-1667`.
Every element is assigned once, so the loops are written as one simultaneous assignment; the
`memcpy` of the other layout copies `isize*jsize` numbers to the storage from the field on. -/
def loadBuffer2 (lay : Layout) (p : Params R) (data : Int → R) (nvar : Nat) (host : Loc Unit → R) :
    Loc Unit → R := fun l =>
  match lay with
  | .right =>
    if (0 ≤ l.i ∧ l.i < p.isize) ∧ (0 ≤ l.j ∧ l.j < p.jsize) ∧ l.k = 0 ∧ l.v = nvar then
      data (l.i + p.isize * l.j) else host l
  | .left =>
    let q := viewOffset .left (p.isize, p.jsize, 1) p.nbvar l.i l.j l.k l.v - p.isize * p.jsize * nvar
    if (0 ≤ l.i ∧ l.i < p.isize) ∧ (0 ≤ l.j ∧ l.j < p.jsize) ∧ l.k = 0 ∧ l.v < p.nbvar ∧
      0 ≤ q ∧ q < p.isize * p.jsize then data q else host l

/-- `copy_buffer` of the reader at the same resolution, 3D, `/repo/src/utils/io/IO_HDF5.h:1763-1789` -/
def loadBuffer3 (lay : Layout) (p : Params R) (data : Int → R) (nvar : Nat) (host : Loc Unit → R) :
    Loc Unit → R := fun l =>
  match lay with
  | .right =>
    if (0 ≤ l.i ∧ l.i < p.isize) ∧ (0 ≤ l.j ∧ l.j < p.jsize) ∧ (0 ≤ l.k ∧ l.k < p.ksize) ∧
      l.v = nvar then data (l.i + p.isize * l.j + p.isize * p.jsize * l.k) else host l
  | .left =>
    let q := viewOffset .left (p.isize, p.jsize, p.ksize) p.nbvar l.i l.j l.k l.v -
      p.isize * p.jsize * p.ksize * nvar
    if (0 ≤ l.i ∧ l.i < p.isize) ∧ (0 ≤ l.j ∧ l.j < p.jsize) ∧ (0 ≤ l.k ∧ l.k < p.ksize) ∧
      l.v < p.nbvar ∧ 0 ≤ q ∧ q < p.isize * p.jsize * p.ksize then data q else host l

/-- `copy_buffer` of the reader from a file of half the resolution, 2D,
`/repo/src/utils/io/IO_HDF5.h:1594-1642` -/
def upscaleBuffer2 (p : Params R) (data : Int → R) (nvar : Nat) (host : Loc Unit → R) :
    Loc Unit → R := fun l =>
  let gw := p.ghostWidth
  let iL := p.nx / 2 + 2 * gw
  if (0 ≤ l.i ∧ l.i < p.isize) ∧ (0 ≤ l.j ∧ l.j < p.jsize) ∧ l.k = 0 ∧ l.v = nvar then
    let jLow := (l.j + gw) / 2
    let iLow := (l.i + gw) / 2
    if nvar = IA then
      if l.i + gw - 2 * iLow = 0 then data (iLow + iL * jLow)
      else (data (iLow + iL * jLow) + data (iLow + 1 + iL * jLow)) / lit 2
    else if nvar = IB then
      if l.j + gw - 2 * jLow = 0 then data (iLow + iL * jLow)
      else (data (iLow + iL * jLow) + data (iLow + iL * (jLow + 1))) / lit 2
    else data (iLow + iL * jLow)
  else host l

/-- `copy_buffer` of the reader from a file of half the resolution, 3D,
`/repo/src/utils/io/IO_HDF5.h:1686-1761` -/
def upscaleBuffer3 (p : Params R) (data : Int → R) (nvar : Nat) (host : Loc Unit → R) :
    Loc Unit → R := fun l =>
  let gw := p.ghostWidth
  let iL := p.nx / 2 + 2 * gw
  let jL := p.ny / 2 + 2 * gw
  if (0 ≤ l.i ∧ l.i < p.isize) ∧ (0 ≤ l.j ∧ l.j < p.jsize) ∧ (0 ≤ l.k ∧ l.k < p.ksize) ∧
      l.v = nvar then
    let kLow := (l.k + gw) / 2
    let jLow := (l.j + gw) / 2
    let iLow := (l.i + gw) / 2
    if nvar = IA then
      if l.i + gw - 2 * iLow = 0 then data (iLow + iL * jLow + iL * jL * kLow)
      else (data (iLow + iL * jLow + iL * jL * kLow) +
        data (iLow + 1 + iL * jLow + iL * jL * kLow)) / lit 2
    else if nvar = IB then
      if l.j + gw - 2 * jLow = 0 then data (iLow + iL * jLow + iL * jL * kLow)
      else (data (iLow + iL * jLow + iL * jL * kLow) +
        data (iLow + iL * (jLow + 1) + iL * jL * kLow)) / lit 2
    else if nvar = IC then
      if l.k + gw - 2 * kLow = 0 then data (iLow + iL * jLow + iL * jL * kLow)
      else (data (iLow + iL * jLow + iL * jL * kLow) +
        data (iLow + iL * jLow + iL * jL * (kLow + 1))) / lit 2
    else data (iLow + iL * jLow + iL * jL * kLow)
  else host l

/-- `copy_buffer` of the reader -/
def loadBuffer (lay : Layout) (o : H5Options) (p : Params R) (data : Int → R) (nvar : Nat)
    (host : Loc Unit → R) : Loc Unit → R :=
  match p.dimType with
  | .two => if o.restartUpscale then upscaleBuffer2 p data nvar host
    else loadBuffer2 lay p data nvar host
  | .three => if o.restartUpscale then upscaleBuffer3 p data nvar host
    else loadBuffer3 lay p data nvar host

/-- `read_field`, `/repo/src/utils/io/IO_HDF5.h:1811-1846`, `:2216-2243`; the contents of the buffer
before the read are arbitrary.  A missing dataset: nothing is read. -/
def readField (lay : Layout) (o : H5Options) (p : Params R) (mdims : List Int) (mem : Slab)
    (fdims : List Int) (file : Slab) (f : H5File R) (nvar : Nat) (host host' : Loc Unit → R) : Prop :=
  ∃ before data, host' = loadBuffer lay o p data nvar host ∧
    match f.field (varName nvar) with
    | some d => read mdims mem fdims file d before data
    | none => data = before

/-- the fields one after the other -/
def readFields (lay : Layout) (o : H5Options) (p : Params R) (mdims : List Int) (mem : Slab)
    (fdims : List Int) (file : Slab) (f : H5File R) :
    List Nat → (Loc Unit → R) → (Loc Unit → R) → Prop
  | [], h, h' => h' = h
  | v :: vs, h, h' => ∃ h₁, readField lay o p mdims mem fdims file f v h h₁ ∧
      readFields lay o p mdims mem fdims file f vs h₁ h'

/-- the logical sizes to read, `/repo/src/utils/io/IO_HDF5.h:1886-1912`, `:2289-2314` -/
def readSizes (o : H5Options) (p : Params R) : List Int :=
  if o.restartUpscale then (logical p).map (· / 2) else logical p

/-- `Load_HDF5::load`, `/repo/src/utils/io/IO_HDF5.h:1855-2170`: `U` is what `Udata` holds afterwards,
`host` what the new host mirror held; the reader then has `iStep = f.step`, `totalTime = f.time` -/
def loadH5 (lay : Layout) (o : H5Options) (p : Params R) (f : H5File R) (host U : Loc Unit → R) :
    Prop :=
  let n := readSizes o p
  let big := n.map (· + 2 * p.ghostWidth)
  let dims := if o.ghostIncluded then big else n
  readFields lay o p big (memSlab o.ghostIncluded p.ghostWidth n) dims (wholeSpace dims) f
    (h5Fields p) host U

/-- `Load_HDF5_mpi::load`, `/repo/src/utils/io/IO_HDF5.h:2253-2770`, on process `r` -/
def loadH5Mpi (lay : Layout) (o : H5Options) (T : Topo) (p : Params R) (r : T.Rank) (f : H5File R)
    (host U : Loc Unit → R) : Prop :=
  let n := readSizes o p
  let big := n.map (· + 2 * p.ghostWidth)
  let ghosts := o.ghostIncluded || o.allghostIncluded
  readFields lay o p big (memSlab ghosts p.ghostWidth n) (fileDims o p.ghostWidth n (pieces T p))
    (fileSlab o p.ghostWidth n (coordsOf T p r)) f (h5Fields p) host U

/-- does the name end in `.h5`, `/repo/src/utils/io/IO_ReadWrite.cpp:209-222` -/
def isHdf5 (name : List Char) : Bool :=
  if 3 ≤ name.length then decide (name.drop (name.length - 3) = ".h5".toList) else false

/-- What `init_restart` starts the run from, `/repo/src/muscl/SolverHydroMuscl.h:510-535`,
`/repo/src/muscl/SolverMHDMuscl.h:609-633`, with `load_data_impl`,
`/repo/src/utils/io/IO_ReadWrite.cpp:196-285`: the view `U`, the output counter and the time.
`disk name` is the file found under a name; `load f U'` says that loading `f` leaves `U'` in the view;
`U₀` and `tCurrent` are what the view and the time were before. -/
def initRestart (hdf5_enabled resetTotalTime : Bool) (name : List Char) (disk : List Char → Option (H5File R))
    (load : H5File R → (Loc Unit → R) → Prop) (U₀ : Loc Unit → R) (tCurrent : R)
    (U : Loc Unit → R) (times_saved : Int) (t : R) : Prop :=
  ∃ t', t = (if resetTotalTime then lit 0 else t') ∧
    if hdf5_enabled && isHdf5 name then
      ∃ f, disk name = some f ∧ load f U ∧ times_saved = f.step ∧ t' = f.time
    else U = U₀ ∧ times_saved = 0 ∧ t' = tCurrent

end EulerKokkos
