import Verif.Core.RealOps

/-!
# Parameters

Models `/repo/src/shared/enums.h`, `/repo/src/shared/HydroParams.h`, the numeric part of
`/repo/src/shared/HydroParams.cpp`.
-/

namespace EulerKokkos

/-- `DimensionType`, `/repo/src/shared/enums.h:8-14`. -/
inductive Dim
  | two
  | three
deriving DecidableEq, Repr

/-- `RiemannSolverType`, `/repo/src/shared/enums.h` (`RIEMANN_APPROX` … `RIEMANN_HLLD`). -/
inductive RiemannType
  | approx
  | llf
  | hll
  | hllc
  | hlld
deriving DecidableEq, Repr

/-- `BoundaryConditionType`, `/repo/src/shared/enums.h`.  `other n` is an integer value outside
the enum, which `static_cast` of the configuration integer can produce
(`/repo/src/shared/HydroParams.cpp:68-79`). -/
inductive BC
  | undefined
  /-- `BC_DIRICHLET`: reflecting -/
  | dirichlet
  /-- `BC_NEUMANN`: absorbing -/
  | neumann
  | periodic
  | copy
  | other (n : Int)
deriving DecidableEq, Repr

/-- `static_cast<BoundaryConditionType>(int)`, `/repo/src/shared/HydroParams.cpp:68-79` with the
numbering of `/repo/src/shared/enums.h`. -/
def BC.ofInt : Int → BC
  | 0 => .undefined
  | 1 => .dirichlet
  | 2 => .neumann
  | 3 => .periodic
  | 4 => .copy
  | n => .other n

/-- Field indices, `/repo/src/shared/enums.h` `VarIndex`. -/
abbrev ID : Nat := 0
/-- pressure / energy -/
abbrev IP : Nat := 1
/-- x velocity / momentum -/
abbrev IU : Nat := 2
/-- y velocity / momentum -/
abbrev IV : Nat := 3
/-- z velocity / momentum -/
abbrev IW : Nat := 4
/-- x magnetic field (left face) -/
abbrev IA : Nat := 5
/-- y magnetic field (left face) -/
abbrev IB : Nat := 6
/-- z magnetic field (left face) -/
abbrev IC : Nat := 7

/-- `FaceIdType`, `/repo/src/shared/enums.h`. -/
inductive Face
  | xmin
  | xmax
  | ymin
  | ymax
  | zmin
  | zmax
deriving DecidableEq, Repr

/-- `HydroSettings`, `/repo/src/shared/HydroParams.h:32-69` (the fields read by the modelled
code). -/
structure Settings (R : Type) where
  gamma0 : R
  gamma6 : R
  cfl : R
  slope_type : R
  smallr : R
  smallc : R
  smallp : R
  smallpp : R
  /-- isothermal sound speed (`cIso`, set to 0 by the constructor, never read from the
  configuration) -/
  cIso : R

/-- `HydroParams`, `/repo/src/shared/HydroParams.h:81-197` (fields read by the modelled code). -/
structure Params (R : Type) where
  nStepmax : Int
  tEnd : R
  nOutput : Int
  enableOutput : Bool
  mhdEnabled : Bool
  nlog : Int
  nx : Int
  ny : Int
  nz : Int
  ghostWidth : Int
  nbvar : Nat
  dimType : Dim
  imin : Int
  imax : Int
  jmin : Int
  jmax : Int
  kmin : Int
  kmax : Int
  isize : Int
  jsize : Int
  ksize : Int
  xmin : R
  xmax : R
  ymin : R
  ymax : R
  zmin : R
  zmax : R
  dx : R
  dy : R
  dz : R
  boundary_type_xmin : BC
  boundary_type_xmax : BC
  boundary_type_ymin : BC
  boundary_type_ymax : BC
  boundary_type_zmin : BC
  boundary_type_zmax : BC
  settings : Settings R
  riemannSolverType : RiemannType
  implementationVersion : Int

variable {R : Type} [RealOps R]

/-- Conversion `int → real_t` (implicit in `(xmax - xmin) / nx`). -/
def intLit (n : Int) : R := lit (n : ℚ)

/-- `HydroParams::init()`, `/repo/src/shared/HydroParams.cpp:326-359` (the final version check
aborts only for values already excluded by lines 150-156). -/
def Params.init (p : Params R) : Params R :=
  let imin := 0
  let jmin := 0
  let kmin := 0
  let imax := p.nx - 1 + 2 * p.ghostWidth
  let jmax := p.ny - 1 + 2 * p.ghostWidth
  let kmax := p.nz - 1 + 2 * p.ghostWidth
  let smallp := p.settings.smallc * p.settings.smallc / p.settings.gamma0
  { p with
    imin, jmin, kmin, imax, jmax, kmax
    isize := imax - imin + 1
    jsize := jmax - jmin + 1
    ksize := kmax - kmin + 1
    dx := (p.xmax - p.xmin) / intLit p.nx
    dy := (p.ymax - p.ymin) / intLit p.ny
    dz := (p.zmax - p.zmin) / intLit p.nz
    settings := { p.settings with
      smallp := smallp
      smallpp := p.settings.smallr * smallp
      gamma6 := (p.settings.gamma0 + lit 1) / (lit 2 * p.settings.gamma0) } }

/-- Grid bookkeeping invariant established by `Params.init` and relied upon by the kernels. -/
structure Params.WF (p : Params R) : Prop where
  nx_pos : 1 ≤ p.nx
  ny_pos : 1 ≤ p.ny
  nz_pos : 1 ≤ p.nz
  gw_pos : 2 ≤ p.ghostWidth
  imin_eq : p.imin = 0
  jmin_eq : p.jmin = 0
  kmin_eq : p.kmin = 0
  imax_eq : p.imax = p.nx - 1 + 2 * p.ghostWidth
  jmax_eq : p.jmax = p.ny - 1 + 2 * p.ghostWidth
  kmax_eq : p.kmax = p.nz - 1 + 2 * p.ghostWidth
  isize_eq : p.isize = p.nx + 2 * p.ghostWidth
  jsize_eq : p.jsize = p.ny + 2 * p.ghostWidth
  ksize_eq : p.ksize = p.nz + 2 * p.ghostWidth

/-- `Params.init` establishes the grid invariant. -/
theorem Params.init_wf (p : Params R) (hx : 1 ≤ p.nx) (hy : 1 ≤ p.ny) (hz : 1 ≤ p.nz)
    (hg : 2 ≤ p.ghostWidth) : p.init.WF := by
  constructor <;> simp only [Params.init] <;> omega

end EulerKokkos
