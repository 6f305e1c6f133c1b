import Verif.Model.Config
import Verif.Model.RiemannConfigs

/-!
# Parameters of the initial conditions

Models the parameter structures of `/repo/src/shared/problems/` and their constructors from the
configuration.  `real_t` is `double` (conversions between the two are the identity).
-/

set_option linter.constructorNameAsVariable false

namespace EulerKokkos

/-- Functions of the C mathematical library used by the initial conditions, the constant `M_PI`
(`PI_v<double>`, `PI_F`), and the conversion `double → float` of a computed default value passed to
`getFloat`.  No laws: theorems over a generic `MathLib` hold for any implementation of `libm`. -/
structure MathLib (R : Type) where
  pi : R
  sin : R → R
  cos : R → R
  exp : R → R
  log : R → R
  atan2 : R → R → R
  pow : R → R → R
  asin : R → R
  narrow : R → R

variable {R : Type} [RealOps R]

/-- `real_t x = configMap.getFloat(section, name, default)` with a computed default -/
def cfgFloatD (F : FloatLib R) (M : MathLib R) (c : Ini.Reader) (s n : String) (d : R) : R :=
  c.getFloat F.strtof s.toList n.toList (M.narrow d)

/-- `bool x = configMap.getBool(section, name, default)` -/
def cfgBool (c : Ini.Reader) (s n : String) (d : Bool) : Bool :=
  c.getBool s.toList n.toList d

/-- `ImplodeParams`, `/repo/src/shared/problems/ImplodeParams.h:12-36` -/
structure ImplodeParams (R : Type) where
  rho_out : R
  p_out : R
  u_out : R
  v_out : R
  w_out : R
  Bx_out : R
  By_out : R
  Bz_out : R
  rho_in : R
  p_in : R
  u_in : R
  v_in : R
  w_in : R
  Bx_in : R
  By_in : R
  Bz_in : R
  shape : Int

/-- constructor, `/repo/src/shared/problems/ImplodeParams.h:38-60` -/
def implodeParams (F : FloatLib R) (c : Ini.Reader) : ImplodeParams R where
  rho_out := cfgFloat F c "implode" "density_outer" 1
  p_out := cfgFloat F c "implode" "pressure_outer" 1
  u_out := cfgFloat F c "implode" "vx_outer" 0
  v_out := cfgFloat F c "implode" "vy_outer" 0
  w_out := cfgFloat F c "implode" "vz_outer" 0
  Bx_out := cfgFloat F c "implode" "Bx_outer" 0
  By_out := cfgFloat F c "implode" "By_outer" 0
  Bz_out := cfgFloat F c "implode" "Bz_outer" 0
  rho_in := cfgFloat F c "implode" "density_inner" (1 / 8)
  p_in := cfgFloat F c "implode" "pressure_inner" (14 / 100)
  u_in := cfgFloat F c "implode" "vx_inner" 0
  v_in := cfgFloat F c "implode" "vy_inner" 0
  w_in := cfgFloat F c "implode" "vz_inner" 0
  Bx_in := cfgFloat F c "implode" "Bx_inner" 0
  By_in := cfgFloat F c "implode" "By_inner" 0
  Bz_in := cfgFloat F c "implode" "Bz_inner" 0
  shape := cfgInt c "implode" "shape_region" 0

/-- `BlastParams`, `/repo/src/shared/problems/BlastParams.h:9-26` -/
structure BlastParams (R : Type) where
  radius : R
  center_x : R
  center_y : R
  center_z : R
  density_in : R
  density_out : R
  pressure_in : R
  pressure_out : R
  bx_in : R
  by_in : R
  bz_in : R
  bx_out : R
  by_out : R
  bz_out : R

/-- constructor, `/repo/src/shared/problems/BlastParams.h:28-53`.  Lines 49 and 52 store the values of the
keys `bz_in`, `bz_out` into `blast_by_in`, `blast_by_out` (over the values just read); `blast_bz_in` and
`blast_bz_out` are never assigned: they hold the arbitrary values `junk`. -/
def blastParams (F : FloatLib R) (M : MathLib R) (c : Ini.Reader) (junk : R × R) : BlastParams R :=
  let xmin : R := cfgFloat F c "mesh" "xmin" 0
  let ymin : R := cfgFloat F c "mesh" "ymin" 0
  let zmin : R := cfgFloat F c "mesh" "zmin" 0
  let xmax : R := cfgFloat F c "mesh" "xmax" 1
  let ymax : R := cfgFloat F c "mesh" "ymax" 1
  let zmax : R := cfgFloat F c "mesh" "zmax" 1
  { radius := cfgFloatD F M c "blast" "radius" ((xmin + xmax) / lit 2 / lit 10)
    center_x := cfgFloatD F M c "blast" "center_x" ((xmin + xmax) / lit 2)
    center_y := cfgFloatD F M c "blast" "center_y" ((ymin + ymax) / lit 2)
    center_z := cfgFloatD F M c "blast" "center_z" ((zmin + zmax) / lit 2)
    density_in := cfgFloat F c "blast" "density_in" 1
    density_out := cfgFloat F c "blast" "density_out" (12 / 10)
    pressure_in := cfgFloat F c "blast" "pressure_in" 10
    pressure_out := cfgFloat F c "blast" "pressure_out" (1 / 10)
    bx_in := cfgFloat F c "blast" "bx_in" (1 / 2)
    by_in := cfgFloat F c "blast" "bz_in" (1 / 2)
    bz_in := junk.1
    bx_out := cfgFloat F c "blast" "bx_out" (1 / 2)
    by_out := cfgFloat F c "blast" "bz_out" (1 / 2)
    bz_out := junk.2 }

/-- `KHParams`, `/repo/src/shared/problems/KHParams.h:19-41` (the fields read by the functors) -/
structure KHParams (R : Type) where
  d_in : R
  d_out : R
  pressure : R
  p_sine : Bool
  p_sine_rob : Bool
  p_rand : Bool
  vflow_in : R
  vflow_out : R
  amplitude : R
  mode : Int
  w0 : R
  delta : R

/-- constructor, `/repo/src/shared/problems/KHParams.h:43-89`.  `mode`, `w0`, `delta` are assigned only
when a sine perturbation is selected, the only case in which they are read; the seed is left out (the random
numbers are arbitrary). -/
def khParams (F : FloatLib R) (c : Ini.Reader) : KHParams R where
  d_in := cfgFloat F c "KH" "d_in" 1
  d_out := cfgFloat F c "KH" "d_out" 1
  pressure := cfgFloat F c "KH" "pressure" 10
  p_sine := cfgBool c "KH" "perturbation_sine" false
  p_sine_rob := cfgBool c "KH" "perturbation_sine_robertson" true
  p_rand := cfgBool c "KH" "perturbation_rand" false
  vflow_in := cfgFloat F c "KH" "vflow_in" (-1 / 2)
  vflow_out := cfgFloat F c "KH" "vflow_out" (1 / 2)
  amplitude := cfgFloat F c "KH" "amplitude" (1 / 10)
  mode := cfgInt c "KH" "mode" 2
  w0 := cfgFloat F c "KH" "w0" (1 / 10)
  delta := cfgFloat F c "KH" "delta" (3 / 100)

/-- `GreshoParams`, `/repo/src/shared/problems/GreshoParams.h:15-22` (the advection velocity is not read by
the functors) -/
structure GreshoParams (R : Type) where
  rho0 : R
  Ma : R

/-- constructor, `/repo/src/shared/problems/GreshoParams.h:24-34` -/
def greshoParams (F : FloatLib R) (c : Ini.Reader) : GreshoParams R where
  rho0 := cfgFloat F c "Gresho" "rho0" 1
  Ma := cfgFloat F c "Gresho" "Ma" (1 / 10)

/-- `IsentropicVortexParams`, `/repo/src/shared/problems/IsentropicVortexParams.h:12-36` (the fields read
by the functor) -/
structure VortexParams (R : Type) where
  rho_a : R
  T_a : R
  u_a : R
  v_a : R
  vortex_x : R
  vortex_y : R
  beta : R

/-- constructor, `/repo/src/shared/problems/IsentropicVortexParams.h:38-67` -/
def vortexParams (F : FloatLib R) (M : MathLib R) (c : Ini.Reader) : VortexParams R :=
  let xmin : R := cfgFloat F c "mesh" "xmin" 0
  let ymin : R := cfgFloat F c "mesh" "ymin" 0
  let xmax : R := cfgFloat F c "mesh" "xmax" 1
  let ymax : R := cfgFloat F c "mesh" "ymax" 1
  { rho_a := cfgFloat F c "isentropic_vortex" "density_ambient" 1
    T_a := cfgFloat F c "isentropic_vortex" "temperature_ambient" 1
    u_a := cfgFloat F c "isentropic_vortex" "vx_ambient" 1
    v_a := cfgFloat F c "isentropic_vortex" "vy_ambient" 1
    vortex_x := cfgFloatD F M c "isentropic_vortex" "center_x" ((xmin + xmax) / lit 2)
    vortex_y := cfgFloatD F M c "isentropic_vortex" "center_y" ((ymin + ymax) / lit 2)
    beta := cfgFloat F c "isentropic_vortex" "strength" 5 }

/-- `RayleighTaylorInstabilityParams`, `/repo/src/shared/problems/RayleighTaylorInstabilityParams.h:12-20`
(the magnetic field is not read by the functors) -/
structure RTParams (R : Type) where
  amplitude : R
  d0 : R
  d1 : R
  gx : R
  gy : R
  gz : R

/-- constructor, `/repo/src/shared/problems/RayleighTaylorInstabilityParams.h:22-36` -/
def rtParams (F : FloatLib R) (c : Ini.Reader) : RTParams R where
  amplitude := cfgFloat F c "rayleigh_taylor" "amplitude" (1 / 100)
  d0 := cfgFloat F c "rayleigh_taylor" "d0" 1
  d1 := cfgFloat F c "rayleigh_taylor" "d1" 2
  gx := cfgFloat F c "rayleigh_taylor" "gx" 0
  gy := cfgFloat F c "rayleigh_taylor" "gy" (-1 / 10)
  gz := cfgFloat F c "rayleigh_taylor" "gz" 0

/-- `BrioWuParams`, `/repo/src/shared/problems/BrioWuParams.h:15-40`; `direction` is the enum
`X = 0, Y = 1, Z = 2`, obtained by `static_cast` from the configuration integer -/
structure BrioWuParams (R : Type) where
  rhoL : R
  pL : R
  uL : R
  ByL : R
  rhoR : R
  pR : R
  uR : R
  ByR : R
  Bx : R
  direction : Int
  xd : R

/-- constructor, `/repo/src/shared/problems/BrioWuParams.h:42-76` -/
def brioWuParams (F : FloatLib R) (M : MathLib R) (c : Ini.Reader) : BrioWuParams R :=
  let direction := cfgInt c "brio-wu" "direction" 0
  let mn : R := if direction = 0 then cfgFloat F c "mesh" "xmin" 0
    else if direction = 1 then cfgFloat F c "mesh" "ymin" 0 else cfgFloat F c "mesh" "zmin" 0
  let mx : R := if direction = 0 then cfgFloat F c "mesh" "xmax" 1
    else if direction = 1 then cfgFloat F c "mesh" "ymax" 1 else cfgFloat F c "mesh" "zmax" 1
  { rhoL := cfgFloat F c "brio-wu" "rhoL" 1
    pL := cfgFloat F c "brio-wu" "pL" 1
    uL := cfgFloat F c "brio-wu" "uL" 0
    ByL := cfgFloat F c "brio-wu" "ByL" 1
    rhoR := cfgFloat F c "brio-wu" "rhoR" (1 / 8)
    pR := cfgFloat F c "brio-wu" "pR" (1 / 10)
    uR := cfgFloat F c "brio-wu" "uR" 0
    ByR := cfgFloat F c "brio-wu" "ByR" (-1)
    Bx := cfgFloat F c "brio-wu" "Bx" (3 / 4)
    direction
    xd := cfgFloatD F M c "brio-wu" "xd" ((mn + mx) / lit 2) }

/-- `OrszagTangParams`, `/repo/src/shared/problems/OrszagTangParams.h:11-22`; `vortex_dir`: `X = 0, Y = 1,
Z = 2` -/
structure OrszagTangParams (R : Type) where
  kt : R
  vortex_dir : Int

/-- constructor, `/repo/src/shared/problems/OrszagTangParams.h:24-28` -/
def orszagTangParams (F : FloatLib R) (c : Ini.Reader) : OrszagTangParams R where
  kt := cfgFloat F c "OrszagTang" "kt" 0
  vortex_dir := cfgInt c "OrszagTang" "vortex_dir" 2

/-- `RotorParams`, `/repo/src/shared/problems/RotorParams.h:11-15` -/
structure RotorParams (R : Type) where
  r0 : R
  r1 : R
  u0 : R
  p0 : R
  b0 : R

/-- constructor, `/repo/src/shared/problems/RotorParams.h:17-25` -/
def rotorParams (F : FloatLib R) (M : MathLib R) (c : Ini.Reader) : RotorParams R where
  r0 := cfgFloat F c "rotor" "r0" (1 / 10)
  r1 := cfgFloat F c "rotor" "r1" (115 / 1000)
  u0 := cfgFloat F c "rotor" "u0" 2
  p0 := cfgFloat F c "rotor" "p0" 1
  b0 := cfgFloatD F M c "rotor" "b0" (lit 5 / RealOps.sqrt (lit 4 * M.pi))

/-- `FieldLoopParams`, `/repo/src/shared/problems/FieldLoopParams.h:11-20` (`amp`, `seed` are not read) -/
structure FieldLoopParams (R : Type) where
  radius : R
  density_in : R
  amplitude : R
  vflow : R

/-- constructor, `/repo/src/shared/problems/FieldLoopParams.h:22-31` -/
def fieldLoopParams (F : FloatLib R) (c : Ini.Reader) : FieldLoopParams R where
  radius := cfgFloat F c "FieldLoop" "radius" 1
  density_in := cfgFloat F c "FieldLoop" "density_in" 1
  amplitude := cfgFloat F c "FieldLoop" "amplitude" 1
  vflow := cfgFloat F c "FieldLoop" "vflow" 1

end EulerKokkos
