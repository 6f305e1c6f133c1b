import Verif.Model.InitParams
import Verif.Model.DriverMhd
import Verif.Model.MpiRun

/-!
# Initial conditions

Models `/repo/src/muscl/HydroInitFunctors2D.h`, `/repo/src/muscl/HydroInitFunctors3D.h`,
`/repo/src/muscl/MHDInitFunctors2D.h`, `/repo/src/muscl/MHDInitFunctors3D.h` and the functions `init`,
`init_*` of `SolverHydroMuscl`, `SolverMHDMuscl`.

Each functor is written as the function from the cell to the values stored in it.  Simplification: where a
functor reads back a value it has just stored in the same cell, the model uses the value (no other iteration
writes that cell).  `pos` is `params.myMpiPos` (`(0,0,0)` in the serial build).  `rnd n` is the result of the
`n`-th call of `rand_gen.drand()` by the iteration: an arbitrary number (which generator state an iteration
gets from the pool depends on the schedule).  Restart runs (`init_restart`) are not modelled.
-/

set_option linter.constructorNameAsVariable false

namespace EulerKokkos

open Prog (rd wr)
variable {R : Type} [RealOps R]

/-- `x = xmin + dx / 2 + (i + nx * i_mpi - ghostWidth) * dx`, e.g.
`/repo/src/muscl/HydroInitFunctors2D.h:79` -/
def cellX (p : Params R) (pos : Int × Int × Int) (i : Int) : R :=
  p.xmin + p.dx / lit 2 + intLit (i + p.nx * pos.1 - p.ghostWidth) * p.dx

/-- `y`, e.g. `/repo/src/muscl/HydroInitFunctors2D.h:80` -/
def cellY (p : Params R) (pos : Int × Int × Int) (j : Int) : R :=
  p.ymin + p.dy / lit 2 + intLit (j + p.ny * pos.2.1 - p.ghostWidth) * p.dy

/-- `z`, e.g. `/repo/src/muscl/HydroInitFunctors3D.h:122` -/
def cellZ (p : Params R) (pos : Int × Int × Int) (k : Int) : R :=
  p.zmin + p.dz / lit 2 + intLit (k + p.nz * pos.2.2 - p.ghostWidth) * p.dz

/-- `SQR` -/
def sq (x : R) : R := x * x

/-! ### Hydrodynamics, 2D -/

/-- `InitImplodeFunctor2D`, `/repo/src/muscl/HydroInitFunctors2D.h:53-117`.  The momentum slots receive the
velocities. -/
def implode2 (p : Params R) (q : ImplodeParams R) (x y : R) : HS R :=
  let g := p.settings.gamma0
  let outer : Bool :=
    if q.shape = 1 then RealOps.lt (lit (1 / 2)) (x + y * y) && RealOps.lt (x + y * y) (lit (3 / 2))
    else RealOps.lt ((p.xmin + p.xmax) / lit 2 + p.ymin) (x + y)
  if outer then
    ⟨q.rho_out, q.p_out / (g - lit 1) + lit (1 / 2) * q.rho_out * (q.u_out * q.u_out + q.v_out * q.v_out),
      q.u_out, q.v_out, lit 0⟩
  else
    ⟨q.rho_in, q.p_in / (g - lit 1) + lit (1 / 2) * q.rho_in * (q.u_in * q.u_in + q.v_in * q.v_in),
      q.u_in, q.v_in, lit 0⟩

/-- `InitBlastFunctor2D`, `/repo/src/muscl/HydroInitFunctors2D.h:147-204` -/
def blast2 (p : Params R) (q : BlastParams R) (x y : R) : HS R :=
  let g := p.settings.gamma0
  let d2 := (x - q.center_x) * (x - q.center_x) + (y - q.center_y) * (y - q.center_y)
  if RealOps.lt d2 (q.radius * q.radius) then
    ⟨q.density_in, q.pressure_in / (g - lit 1), lit 0, lit 0, lit 0⟩
  else
    ⟨q.density_out, q.pressure_out / (g - lit 1), lit 0, lit 0, lit 0⟩

/-- the smooth transition `ramp` of the Kelvin-Helmholtz functors, e.g.
`/repo/src/muscl/HydroInitFunctors2D.h:323-324` -/
def khRamp (M : MathLib R) (delta y : R) : R :=
  lit 1 / (lit 1 + M.exp (lit 2 * (y - lit (1 / 4)) / delta)) +
    lit 1 / (lit 1 + M.exp (lit 2 * (lit (3 / 4) - y) / delta))

/-- `InitKelvinHelmholtzFunctor2D`, `/repo/src/muscl/HydroInitFunctors2D.h:235-336`; `none`: nothing is
stored (neither `perturbation_rand` nor `perturbation_sine_robertson`). -/
def kh2 (M : MathLib R) (p : Params R) (q : KHParams R) (rnd : Nat → R) (x y : R) : Option (HS R) :=
  let g := p.settings.gamma0
  let yn := (y - p.ymin) / (p.ymax - p.ymin)
  if q.p_rand then
    let out := RealOps.lt yn (lit (1 / 4)) || RealOps.lt (lit (3 / 4)) yn
    let d := if out then q.d_out else q.d_in
    let u := (if out then q.vflow_out else q.vflow_in) + q.amplitude * (rnd 0 - lit (1 / 2))
    let v := lit 0 + q.amplitude * (rnd 1 - lit (1 / 2))
    some ⟨d, q.pressure / (g - lit 1) + lit (1 / 2) * d * (u * u + v * v), d * u, d * v, lit 0⟩
  else if q.p_sine_rob then
    let ramp := khRamp M q.delta y
    let d := q.d_in + ramp * (q.d_out - q.d_in)
    let u := q.vflow_in + ramp * (q.vflow_out - q.vflow_in)
    let v := q.w0 * M.sin (intLit q.mode * M.pi * x)
    some ⟨d, q.pressure / (g - lit 1) + lit (1 / 2) * d * (u * u + v * v), d * u, d * v, lit 0⟩
  else none

/-- azimuthal velocity and pressure of the Gresho vortex,
`/repo/src/muscl/HydroInitFunctors2D.h:412-432` -/
def greshoProfile (M : MathLib R) (p0 r : R) : R × R :=
  if RealOps.lt r (lit (1 / 5)) then
    (lit 5 * r, p0 + lit 25 / lit 2 * r * r)
  else if RealOps.lt r (lit (2 / 5)) then
    (lit 2 - lit 5 * r,
      p0 + lit 25 / lit 2 * r * r + lit 4 * (lit 1 - lit 5 * r - M.log (lit (1 / 5)) + M.log r))
  else
    (lit 0, p0 - lit 2 + lit 4 * M.log (lit 2))

/-- `InitGreshoVortexFunctor2D`, `/repo/src/muscl/HydroInitFunctors2D.h:370-441` -/
def gresho2 (M : MathLib R) (p : Params R) (q : GreshoParams R) (x y : R) : HS R :=
  let g := p.settings.gamma0
  let p0 := q.rho0 / (g * q.Ma * q.Ma)
  let r := RealOps.sqrt (x * x + y * y)
  let theta := M.atan2 y x
  let f := greshoProfile M p0 r
  let mu := q.rho0 * (-M.sin theta * f.1)
  let mv := q.rho0 * (M.cos theta * f.1)
  ⟨q.rho0, f.2 / (g - lit 1) + lit (1 / 2) * (mu * mu + mv * mv) / q.rho0, mu, mv, lit 0⟩

/-- `InitFourQuadrantFunctor2D`, `/repo/src/muscl/HydroInitFunctors2D.h:465-556` -/
def quadrant2 (p : Params R) (config : Int) (xt yt : R) (x y : R) : HS R :=
  let s := fun n => primToCons2 (getRiemannConfig2d config n) p.settings.gamma0
  { (if RealOps.lt x xt then (if RealOps.lt y yt then s 2 else s 1)
     else (if RealOps.lt y yt then s 3 else s 0)) with w := lit 0 }

/-- `InitIsentropicVortexFunctor2D`, `/repo/src/muscl/HydroInitFunctors2D.h:589-649` -/
def vortex2 (M : MathLib R) (p : Params R) (q : VortexParams R) (x y : R) : HS R :=
  let g := p.settings.gamma0
  let xp := x - q.vortex_x
  let yp := y - q.vortex_y
  let r := RealOps.sqrt (xp * xp + yp * yp)
  let e := M.exp (lit (1 / 2) * (lit 1 - r * r))
  let du := -yp * q.beta / (lit 2 * M.pi) * e
  let dv := xp * q.beta / (lit 2 * M.pi) * e
  let T := q.T_a - (g - lit 1) * q.beta * q.beta / (lit 8 * g * M.pi * M.pi) * M.exp (lit 1 - r * r)
  let rho := q.rho_a * M.pow (T / q.T_a) (lit 1 / (g - lit 1))
  ⟨rho, rho * T / (g - lit 1) + lit (1 / 2) * rho * (q.u_a + du) * (q.u_a + du) +
      lit (1 / 2) * rho * (q.v_a + dv) * (q.v_a + dv), rho * (q.u_a + du), rho * (q.v_a + dv), lit 0⟩

/-- `RayleighTaylorInstabilityFunctor2D`, `/repo/src/muscl/HydroInitFunctors2D.h:692-773` (hydro part) -/
def rayleigh2 (M : MathLib R) (p : Params R) (q : RTParams R) (x y : R) : HS R :=
  let d := if RealOps.lt ((p.ymin + p.ymax) / lit 2) y then q.d1 else q.d0
  ⟨d, (lit 1 + d * (q.gx * x + q.gy * y)) / (p.settings.gamma0 - lit 1), lit 0,
    q.amplitude * d * (lit 1 + M.cos (lit 2 * M.pi * x / (p.xmax - p.xmin))) *
      (lit 1 + M.cos (lit 2 * M.pi * y / (p.ymax - p.ymin))) / lit 4, lit 0⟩

/-- the initial conditions of the hydro solvers with their parameters -/
inductive HydroProblem (R : Type)
  | implode (q : ImplodeParams R)
  | blast (q : BlastParams R)
  | kelvinHelmholtz (q : KHParams R)
  | gresho (q : GreshoParams R)
  | fourQuadrant (config : Int) (xt yt zt : R)
  | isentropicVortex (q : VortexParams R)
  | rayleighTaylor (q : RTParams R)

/-- what the functor of the problem stores in the cell with centre `(x, y)` -/
def hydroCell2 (M : MathLib R) (p : Params R) (rnd : Nat → R) (x y : R) : HydroProblem R → Option (HS R)
  | .implode q => some (implode2 p q x y)
  | .blast q => some (blast2 p q x y)
  | .kelvinHelmholtz q => kh2 M p q rnd x y
  | .gresho q => some (gresho2 M p q x y)
  | .fourQuadrant c xt yt _ => some (quadrant2 p c xt yt x y)
  | .isentropicVortex q => some (vortex2 M p q x y)
  | .rayleighTaylor q => some (rayleigh2 M p q x y)

/-- store the cell, if the functor computed one -/
def storeCell2 (i j : Int) : Option (HS R) → Prog Arr R Unit
  | some s => putHS2 .U i j s
  | none => pure ()

/-- the Rayleigh-Taylor functor also stores the gravity field,
`/repo/src/muscl/HydroInitFunctors2D.h:770-771` -/
def storeGrav2 (i j : Int) : HydroProblem R → Prog Arr R Unit
  | .rayleighTaylor q => do
    wr ⟨.grav, i, j, 0, 0⟩ q.gx
    wr ⟨.grav, i, j, 0, 1⟩ q.gy
  | _ => pure ()

/-- one iteration of a 2D hydro functor -/
def hydroInit2 (M : MathLib R) (p : Params R) (pos : Int × Int × Int) (rnd : Int → Int → Int → Nat → R)
    (q : HydroProblem R) (t : Int × Int) : Prog Arr R Unit := do
  storeCell2 t.1 t.2 (hydroCell2 M p (rnd t.1 t.2 0) (cellX p pos t.1) (cellY p pos t.2) q)
  storeGrav2 t.1 t.2 q

/-! ### Hydrodynamics, 3D -/

/-- `InitImplodeFunctor3D`, `/repo/src/muscl/HydroInitFunctors3D.h:88-163`.  The momentum slots receive the
velocities. -/
def implode3 (p : Params R) (q : ImplodeParams R) (x y z : R) : HS R :=
  let g := p.settings.gamma0
  let outer : Bool :=
    if q.shape = 1 then RealOps.lt (lit (1 / 2)) (x + y + z) && RealOps.lt (x + y + z) (lit (5 / 2))
    else RealOps.lt ((p.xmin + p.xmax) / lit 2 + p.ymin + p.zmin) (x + y + z)
  if outer then
    ⟨q.rho_out, q.p_out / (g - lit 1) +
        lit (1 / 2) * q.rho_out * (q.u_out * q.u_out + q.v_out * q.v_out + q.w_out * q.w_out),
      q.u_out, q.v_out, q.w_out⟩
  else
    ⟨q.rho_in, q.p_in / (g - lit 1) +
        lit (1 / 2) * q.rho_in * (q.u_in * q.u_in + q.v_in * q.v_in + q.w_in * q.w_in),
      q.u_in, q.v_in, q.w_in⟩

/-- `InitBlastFunctor3D`, `/repo/src/muscl/HydroInitFunctors3D.h:193-260` -/
def blast3 (p : Params R) (q : BlastParams R) (x y z : R) : HS R :=
  let g := p.settings.gamma0
  let d2 := (x - q.center_x) * (x - q.center_x) + (y - q.center_y) * (y - q.center_y) +
    (z - q.center_z) * (z - q.center_z)
  if RealOps.lt d2 (q.radius * q.radius) then
    ⟨q.density_in, q.pressure_in / (g - lit 1), lit 0, lit 0, lit 0⟩
  else
    ⟨q.density_out, q.pressure_out / (g - lit 1), lit 0, lit 0, lit 0⟩

/-- `InitKelvinHelmholtzFunctor3D`, `/repo/src/muscl/HydroInitFunctors3D.h:291-414` -/
def kh3 (M : MathLib R) (p : Params R) (q : KHParams R) (rnd : Nat → R) (x y z : R) : Option (HS R) :=
  let g := p.settings.gamma0
  let zn := (z - p.zmin) / (p.zmax - p.zmin)
  if q.p_rand then
    let out := RealOps.lt zn (lit (1 / 4)) || RealOps.lt (lit (3 / 4)) zn
    let d := if out then q.d_out else q.d_in
    let u := (if out then q.vflow_out else q.vflow_in) + q.amplitude * (rnd 0 - lit (1 / 2))
    let v := lit 0 + q.amplitude * (rnd 1 - lit (1 / 2))
    let w := lit 0 + q.amplitude * (rnd 2 - lit (1 / 2))
    some ⟨d, q.pressure / (g - lit 1) + lit (1 / 2) * d * (u * u + v * v + w * w), d * u, d * v, d * w⟩
  else if q.p_sine_rob then
    let ramp := khRamp M q.delta z
    let d := q.d_in + ramp * (q.d_out - q.d_in)
    let u := q.vflow_in + ramp * (q.vflow_out - q.vflow_in)
    let v := q.vflow_in / lit 2 + ramp * (q.vflow_out / lit 2 - q.vflow_in / lit 2)
    let w := q.w0 * M.sin (intLit q.mode * M.pi * x) * M.sin (intLit q.mode * M.pi * y)
    some ⟨d, q.pressure / (g - lit 1) + lit (1 / 2) * d * (u * u + v * v + w * w), d * u, d * v, d * w⟩
  else none

/-- `InitGreshoVortexFunctor3D`, `/repo/src/muscl/HydroInitFunctors3D.h:448-531`.  The z momentum receives
the value of the y momentum. -/
def gresho3 (M : MathLib R) (p : Params R) (q : GreshoParams R) (x y : R) : HS R :=
  let g := p.settings.gamma0
  let p0 := q.rho0 / (g * q.Ma * q.Ma)
  let r := RealOps.sqrt (x * x + y * y)
  let theta := M.atan2 y x
  let f := greshoProfile M p0 r
  let mu := q.rho0 * (-M.sin theta * f.1)
  let mv := q.rho0 * (M.cos theta * f.1)
  let mw := q.rho0 * (M.cos theta * f.1)
  ⟨q.rho0, f.2 / (g - lit 1) + lit (1 / 2) * (mu * mu + mv * mv + mw * mw) / q.rho0, mu, mv, mw⟩

/-- `InitFourQuadrantFunctor3D`, `/repo/src/muscl/HydroInitFunctors3D.h:563-711` -/
def quadrant3 (p : Params R) (config : Int) (xt yt zt : R) (x y z : R) : HS R :=
  let s := fun n => primToCons3 (getRiemannConfig3d config n) p.settings.gamma0
  if RealOps.lt x xt then
    (if RealOps.lt y yt then (if RealOps.lt z zt then s 2 else s 6)
     else (if RealOps.lt z zt then s 1 else s 5))
  else
    (if RealOps.lt y yt then (if RealOps.lt z zt then s 3 else s 7)
     else (if RealOps.lt z zt then s 0 else s 4))

/-- `RayleighTaylorInstabilityFunctor3D`, `/repo/src/muscl/HydroInitFunctors3D.h:755-846` (hydro part) -/
def rayleigh3 (M : MathLib R) (p : Params R) (q : RTParams R) (x y z : R) : HS R :=
  let d := if RealOps.lt ((p.zmin + p.zmax) / lit 2) z then q.d1 else q.d0
  ⟨d, (lit 1 + d * (q.gx * x + q.gy * y + q.gz * z)) / (p.settings.gamma0 - lit 1), lit 0, lit 0,
    q.amplitude * d * (lit 1 + M.cos (lit 2 * M.pi * x / (p.xmax - p.xmin))) *
      (lit 1 + M.cos (lit 2 * M.pi * y / (p.ymax - p.ymin))) / lit 4⟩

/-- what the functor of the problem stores in the cell with centre `(x, y, z)`; the isentropic vortex has no
3D functor (and is not in the 3D dispatch) -/
def hydroCell3 (M : MathLib R) (p : Params R) (rnd : Nat → R) (x y z : R) :
    HydroProblem R → Option (HS R)
  | .implode q => some (implode3 p q x y z)
  | .blast q => some (blast3 p q x y z)
  | .kelvinHelmholtz q => kh3 M p q rnd x y z
  | .gresho q => some (gresho3 M p q x y)
  | .fourQuadrant c xt yt zt => some (quadrant3 p c xt yt zt x y z)
  | .isentropicVortex _ => none
  | .rayleighTaylor q => some (rayleigh3 M p q x y z)

/-- store the cell, if the functor computed one -/
def storeCell3 (i j k : Int) : Option (HS R) → Prog Arr R Unit
  | some s => putHS3 .U i j k s
  | none => pure ()

/-- the Rayleigh-Taylor functor also stores the gravity field,
`/repo/src/muscl/HydroInitFunctors3D.h:842-844` -/
def storeGrav3 (i j k : Int) : HydroProblem R → Prog Arr R Unit
  | .rayleighTaylor q => do
    wr ⟨.grav, i, j, k, 0⟩ q.gx
    wr ⟨.grav, i, j, k, 1⟩ q.gy
    wr ⟨.grav, i, j, k, 2⟩ q.gz
  | _ => pure ()

/-- one iteration of a 3D hydro functor -/
def hydroInit3 (M : MathLib R) (p : Params R) (pos : Int × Int × Int) (rnd : Int → Int → Int → Nat → R)
    (q : HydroProblem R) (t : Int × Int × Int) : Prog Arr R Unit := do
  storeCell3 t.1 t.2.1 t.2.2
    (hydroCell3 M p (rnd t.1 t.2.1 t.2.2) (cellX p pos t.1) (cellY p pos t.2.1) (cellZ p pos t.2.2) q)
  storeGrav3 t.1 t.2.1 t.2.2 q

/-- `m_problem_name`, `/repo/src/shared/SolverBase.cpp:37` -/
def problemName (c : Ini.Reader) : List Char := cfgString c "hydro" "problem" "unknown"

/-- the four-quadrant parameters, `/repo/src/muscl/HydroInitFunctors2D.h:473-475`,
`/repo/src/muscl/HydroInitFunctors3D.h:565-568` -/
def fourQuadrantOf (F : FloatLib R) (c : Ini.Reader) : HydroProblem R :=
  .fourQuadrant (cfgInt c "riemann2d" "config_number" 0) (cfgFloat F c "riemann2d" "x" (8 / 10))
    (cfgFloat F c "riemann2d" "y" (8 / 10)) (cfgFloat F c "riemann2d" "z" (8 / 10))

/-- `SolverHydroMuscl<2>::init` without restart, `/repo/src/muscl/SolverHydroMuscl.cpp:70-125` -/
def hydroProblem2 (F : FloatLib R) (M : MathLib R) (c : Ini.Reader) (junk : R × R) : HydroProblem R :=
  let n := problemName c
  if n = "implode".toList then .implode (implodeParams F c)
  else if n = "blast".toList then .blast (blastParams F M c junk)
  else if n = "kelvin_helmholtz".toList then .kelvinHelmholtz (khParams F c)
  else if n = "gresho_vortex".toList then .gresho (greshoParams F c)
  else if n = "four_quadrant".toList then fourQuadrantOf F c
  else if n = "isentropic_vortex".toList then .isentropicVortex (vortexParams F M c)
  else if n = "rayleigh_taylor".toList then .rayleighTaylor (rtParams F c)
  else .implode (implodeParams F c)

/-- `SolverHydroMuscl<3>::init` without restart, `/repo/src/muscl/SolverHydroMuscl.cpp:127-190` -/
def hydroProblem3 (F : FloatLib R) (M : MathLib R) (c : Ini.Reader) (junk : R × R) : HydroProblem R :=
  let n := problemName c
  if n = "implode".toList then .implode (implodeParams F c)
  else if n = "blast".toList then .blast (blastParams F M c junk)
  else if n = "kelvin_helmholtz".toList then .kelvinHelmholtz (khParams F c)
  else if n = "gresho_vortex".toList then .gresho (greshoParams F c)
  else if n = "four_quadrant".toList then fourQuadrantOf F c
  else if n = "rayleigh_taylor".toList then .rayleighTaylor (rtParams F c)
  else .implode (implodeParams F c)

/-- the views as the constructors allocate them: Kokkos initialises them with zeros
(`/repo/src/muscl/SolverHydroMuscl.h:205-262`, `/repo/src/muscl/SolverMHDMuscl.h:300-370`) -/
def freshMem : Mem Arr R := fun _ => lit 0

/-- the kernel launches of `init(U)`, 2D hydro -/
def initHydro2 (M : MathLib R) (p : Params R) (pos : Int × Int × Int)
    (rnd : Int → Int → Int → Nat → R) (q : HydroProblem R) : List (Launch Arr R) :=
  [.par (range2 p.isize p.jsize) (hydroInit2 M p pos rnd q)]

/-- the kernel launches of `init(U)`, 3D hydro -/
def initHydro3 (M : MathLib R) (p : Params R) (pos : Int × Int × Int)
    (rnd : Int → Int → Int → Nat → R) (q : HydroProblem R) : List (Launch Arr R) :=
  [.par (range3 p.isize p.jsize p.ksize) (hydroInit3 M p pos rnd q)]

end EulerKokkos
