import Verif.Model.Ini
import Verif.Model.Params
import Verif.Model.Mpi

/-!
# From the configuration file to the parameters

Models `get_dim` and the constructor of `HydroParams`, `/repo/src/shared/HydroParams.cpp:13-178`.
Not modelled: the members no modelled code reads (`niter_riemann`, `iorder`, `cp`, `mu`, `kappa`,
`ioVTK`, `ioHDF5`) and the messages printed for invalid names.
-/

namespace EulerKokkos

/-- The C library and compiler facts the constructor relies on: `strtof` (`none`: no conversion, i.e.
`end == value`) widened to `real_t`; the `float` nearest to a literal, widened to `real_t` (defaults are
passed as `float`); conversion `float → int`. -/
structure FloatLib (R : Type) where
  strtof : List Char → Option R
  single : ℚ → R
  trunc : R → Int

/-- implicit conversion `long → int` (two's complement) -/
def toInt32 (n : Int) : Int := (n + 2147483648) % 4294967296 - 2147483648

variable {R : Type}

/-- `int x = configMap.getInteger(section, name, default)` -/
def cfgInt (c : Ini.Reader) (s n : String) (d : Int) : Int :=
  toInt32 (c.getInteger s.toList n.toList d)

/-- `real_t x = configMap.getFloat(section, name, default)` -/
def cfgFloat (F : FloatLib R) (c : Ini.Reader) (s n : String) (d : ℚ) : R :=
  c.getFloat F.strtof s.toList n.toList (F.single d)

/-- `configMap.getString(section, name, default)` -/
def cfgString (c : Ini.Reader) (s n d : String) : List Char :=
  c.getString s.toList n.toList d.toList

/-- `get_dim`, `/repo/src/shared/HydroParams.cpp:15-33` -/
def getDim (c : Ini.Reader) : Dim :=
  let solver_name := cfgString c "run" "solver_name" "unknown"
  if solver_name = "Hydro_Muscl_2D".toList ∨ solver_name = "MHD_Muscl_2D".toList then .two
  else if solver_name = "Hydro_Muscl_3D".toList ∨ solver_name = "MHD_Muscl_3D".toList then .three
  else .two

/-- `nbvar`, `ghostWidth`, `mhdEnabled` from the solver name (initial values 4, 2, false),
`/repo/src/shared/HydroParams.cpp:91-118` -/
def solverShape (solver_name : List Char) : Nat × Int × Bool :=
  if solver_name = "Hydro_Muscl_2D".toList then (4, 2, false)
  else if solver_name = "Hydro_Muscl_3D".toList then (5, 2, false)
  else if solver_name = "MHD_Muscl_2D".toList then (8, 3, true)
  else if solver_name = "MHD_Muscl_3D".toList then (8, 3, true)
  else (4, 2, false)

/-- `riemannSolverType`, `/repo/src/shared/HydroParams.cpp:120-146` -/
def riemannOf (s : List Char) : RiemannType :=
  if s = "approx".toList then .approx
  else if s = "llf".toList then .llf
  else if s = "hll".toList then .hll
  else if s = "hllc".toList then .hllc
  else if s = "hlld".toList then .hlld
  else .approx

/-- `implementationVersion`, `/repo/src/shared/HydroParams.cpp:148-154` -/
def versionOf (v : Int) : Int := if v ≠ 0 ∧ v ≠ 1 ∧ v ≠ 2 then 0 else v

/-- the members before `init()`, `/repo/src/shared/HydroParams.cpp:37-171` -/
def rawParams (zero : R) (F : FloatLib R) (c : Ini.Reader) : Params R :=
  let nOutput := cfgInt c "run" "noutput" 100
  let sh := solverShape (cfgString c "run" "solver_name" "unknown")
  { nStepmax := cfgInt c "run" "nstepmax" 1000
    tEnd := cfgFloat F c "run" "tend" 0
    nOutput := nOutput
    enableOutput := if nOutput = 0 then false else true
    mhdEnabled := sh.2.2
    nlog := cfgInt c "run" "nlog" 10
    nx := cfgInt c "mesh" "nx" 1
    ny := cfgInt c "mesh" "ny" 1
    nz := cfgInt c "mesh" "nz" 1
    ghostWidth := sh.2.1
    nbvar := sh.1
    dimType := getDim c
    imin := 0, imax := 0, jmin := 0, jmax := 0, kmin := 0, kmax := 0
    isize := 0, jsize := 0, ksize := 0
    xmin := cfgFloat F c "mesh" "xmin" 0
    xmax := cfgFloat F c "mesh" "xmax" 1
    ymin := cfgFloat F c "mesh" "ymin" 0
    ymax := cfgFloat F c "mesh" "ymax" 1
    zmin := cfgFloat F c "mesh" "zmin" 0
    zmax := cfgFloat F c "mesh" "zmax" 1
    dx := zero, dy := zero, dz := zero
    boundary_type_xmin := BC.ofInt (cfgInt c "mesh" "boundary_type_xmin" 1)
    boundary_type_xmax := BC.ofInt (cfgInt c "mesh" "boundary_type_xmax" 1)
    boundary_type_ymin := BC.ofInt (cfgInt c "mesh" "boundary_type_ymin" 1)
    boundary_type_ymax := BC.ofInt (cfgInt c "mesh" "boundary_type_ymax" 1)
    boundary_type_zmin := BC.ofInt (cfgInt c "mesh" "boundary_type_zmin" 1)
    boundary_type_zmax := BC.ofInt (cfgInt c "mesh" "boundary_type_zmax" 1)
    settings :=
      { gamma0 := cfgFloat F c "hydro" "gamma0" (14 / 10)
        gamma6 := zero
        cfl := cfgFloat F c "hydro" "cfl" (5 / 10)
        slope_type := cfgFloat F c "hydro" "slope_type" 1
        smallr := cfgFloat F c "hydro" "smallr" (1 / 10000000000)
        smallc := cfgFloat F c "hydro" "smallc" (1 / 10000000000)
        smallp := zero
        smallpp := zero
        cIso := zero }
    riemannSolverType := riemannOf (cfgString c "hydro" "riemann" "approx")
    implementationVersion := versionOf (F.trunc (cfgFloat F c "OTHER" "implementationVersion" 0)) }

variable [RealOps R]

/-- `HydroParams(configMap, par_env)` of the serial build, `/repo/src/shared/HydroParams.cpp:37-178` -/
def hydroParams (F : FloatLib R) (c : Ini.Reader) : Params R := (rawParams (lit 0) F c).init

/-- `HydroParams(configMap, par_env)` of the MPI build: the last lines call `setup_mpi`,
`/repo/src/shared/HydroParams.cpp:174-176` -/
def hydroParamsMpi (T : Topo) (F : FloatLib R) (c : Ini.Reader) : Params R :=
  localParams T (rawParams (lit 0) F c)

end EulerKokkos
