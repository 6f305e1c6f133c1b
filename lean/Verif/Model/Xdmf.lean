import Verif.Model.Hdf5

/-!
# The XDMF index of the HDF5 files

Models `writeXdmfForHdf5Wrapper` (`/repo/src/utils/io/IO_HDF5.cpp:14-377`) and its call in `main`
(`/repo/src/main.cpp:139-148`).  The XML text is represented by the tree a reader of the file gets:
one grid per time step with its topology, geometry and attributes.  Not modelled: the fixed header and
trailer lines, `DataType` (`Float` or `Double`), white space.  All processes of an MPI run write the same
text to the same file name; the race is not modelled.
-/

set_option linter.constructorNameAsVariable false

namespace EulerKokkos

variable {R : Type} [RealOps R]

/-- an `<Attribute>` with its `<DataStructure>`, `/repo/src/utils/io/IO_HDF5.cpp:235-249` and repeats -/
structure XdmfAttribute where
  name : String
  dims : List Int
  file : List Char
  dataset : String

/-- a `<Grid>` of the time series, `/repo/src/utils/io/IO_HDF5.cpp:172-233` -/
structure XdmfGrid where
  name : List Char
  time : Int
  topology : List Int
  origin : List Int
  spacing : List Int
  attributes : List XdmfAttribute

/-- name of an HDF5 file without directory: `/repo/src/utils/io/IO_HDF5.h:249-254` (serial writer),
`:760-765` (MPI writer), `/repo/src/utils/io/IO_HDF5.cpp:176-184` (index) -/
def h5Ref (pre : List Char) (n : Nat) : List Char := pre ++ '_' :: (zeroPad 7 n ++ ".h5".toList)

/-- name under which an HDF5 file is created: `/repo/src/utils/io/IO_HDF5.h:255` (serial), `:766` (MPI) -/
def h5Name (dir pre : List Char) (n : Nat) : List Char := dir ++ '/' :: h5Ref pre n

/-- the sizes `nxg`, `nyg`, `nzg`, `/repo/src/utils/io/IO_HDF5.cpp:24-110`; `T = none` is the serial build -/
def xdmfSizes (T : Option Topo) (o : H5Options) (p : Params R) : Int × Int × Int :=
  let gw := p.ghostWidth
  let s0 : Int × Int × Int := match T with
    | some T => (T.mx * p.nx, T.my * p.ny, T.mz * p.nz)
    | none => (p.nx, p.ny, p.nz)
  let s1 : Int × Int × Int :=
    if o.ghostIncluded then (s0.1 + 2 * gw, s0.2.1 + 2 * gw, s0.2.2 + 2 * gw) else s0
  match T with
  | none => s1
  | some T =>
    let s2 : Int × Int × Int :=
      if o.allghostIncluded then
        (T.mx * (p.nx + 2 * gw), T.my * (p.ny + 2 * gw), T.mz * (p.nz + 2 * gw))
      else s1
    if o.reassembleInFile then s2
    else
      match p.dimType with
      | .two =>
        if o.allghostIncluded || o.ghostIncluded then
          (p.nx + 2 * gw, (p.ny + 2 * gw) * T.mx * T.my, s2.2.2)
        else (p.nx, p.ny * T.mx * T.my, s2.2.2)
      | .three =>
        if o.allghostIncluded || o.ghostIncluded then
          (p.nx + 2 * gw, p.ny + 2 * gw, (p.nz + 2 * gw) * T.mx * T.my * T.mz)
        else (p.nx, p.ny, p.nz * T.mx * T.my * T.mz)

/-- the sizes in the order they are printed: `nyg nxg`, or `nzg nyg nxg` -/
def xdmfDims (T : Option Topo) (o : H5Options) (p : Params R) : List Int :=
  let s := xdmfSizes T o p
  match p.dimType with
  | .two => [s.2.1, s.1]
  | .three => [s.2.2, s.2.1, s.1]

/-- one `<Attribute>`, `/repo/src/utils/io/IO_HDF5.cpp:235-249` (density; the others repeat it) -/
def xdmfAttribute (dims : List Int) (file : List Char) (v : Nat) : XdmfAttribute :=
  ⟨varName v, dims, file, varName v⟩

/-- the body of the loop over the time steps, `/repo/src/utils/io/IO_HDF5.cpp:171-369` -/
def xdmfGrid (T : Option Topo) (o : H5Options) (p : Params R) (pre : List Char) (iStep : Int) : XdmfGrid :=
  let dims := xdmfDims T o p
  let file := h5Ref pre iStep.toNat
  let n := match p.dimType with
    | .two => 2
    | .three => 3
  { name := pre ++ '_' :: zeroPad 7 iStep.toNat
    time := iStep
    topology := dims
    origin := List.replicate n 0
    spacing := List.replicate n 1
    attributes :=
      ([ID, IP, IU, IV] ++ (if p.dimType = .three ∧ p.mhdEnabled = false then [IW] else []) ++
        (if p.mhdEnabled then [IW, IA, IB, IC] else [])).map (xdmfAttribute dims file) }

/-- `writeXdmfForHdf5Wrapper`, `/repo/src/utils/io/IO_HDF5.cpp:14-377`: the grids of the time series.
The loop runs from `startStep` to `stopStep` inclusive (`:158-171`). -/
def writeXdmf (T : Option Topo) (o : H5Options) (p : Params R) (pre : List Char)
    (totalNumberOfSteps : Int) (singleStep : Bool) : List XdmfGrid :=
  let startStep := if singleStep then totalNumberOfSteps else 0
  let stopStep := if singleStep then totalNumberOfSteps + 1 else totalNumberOfSteps
  (countUp startStep stopStep).map (xdmfGrid T o p pre)

/-- name of the index, relative to the working directory, `/repo/src/utils/io/IO_HDF5.cpp:122-134` -/
def xdmfName (pre : List Char) : List Char := pre ++ ".xmf".toList

/-- the index `main` writes after the last output, `/repo/src/main.cpp:139-148` -/
def mainXdmf (T : Option Topo) (o : H5Options) (p : Params R) (pre : List Char) (s : RunState R) :
    List XdmfGrid :=
  writeXdmf T o p pre (s.times_saved - 1) false

/-- The HDF5 files of a run, written one after the other in the order of the outputs; `save` is
`saveH5` or, for a distributed run, `saveH5Mpi` (`/repo/src/utils/io/IO_ReadWrite.cpp:108-127, 145-164`,
`/repo/src/shared/SolverBase.cpp:210-219`). -/
inductive H5Written (save : Output R → H5File R → Prop) (dir pre : List Char) :
    List (Output R) → Disk (H5File R) → Prop
  | nil (d : Disk (H5File R)) : H5Written save dir pre [] d
  | snoc {os : List (Output R)} {d : Disk (H5File R)} {o : Output R} {f : H5File R}
      (h : H5Written save dir pre os d) (hf : save o f) :
      H5Written save dir pre (os ++ [o]) (d.write (h5Name dir pre o.number.toNat) f)

end EulerKokkos
