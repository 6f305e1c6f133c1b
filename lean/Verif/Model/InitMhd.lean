import Verif.Model.Init

/-!
# Initial conditions of the MHD solvers

Models `/repo/src/muscl/MHDInitFunctors2D.h`, `/repo/src/muscl/MHDInitFunctors3D.h` and
`SolverMHDMuscl::init`.  A functor that stores variables of one cell only is written as the list of
(variable, value) pairs in the order of the stores; see `Verif.Model.Init` for the conventions.
-/

set_option linter.constructorNameAsVariable false

namespace EulerKokkos

open Prog (rd wr pif)
variable {R : Type} [RealOps R]

/-- the stores `Udata(i,j,k,v) = x`, in order -/
def putVars (a : Arr) (i j k : Int) : List (Nat × R) → Prog Arr R Unit
  | [] => pure ()
  | (v, x) :: l => do
    wr ⟨a, i, j, k, v⟩ x
    putVars a i j k l

/-- the eight stores of a complete state -/
def allVars (s : MS R) : List (Nat × R) :=
  [(ID, s.d), (IP, s.p), (IU, s.u), (IV, s.v), (IW, s.w), (IA, s.a), (IB, s.b), (IC, s.c)]

/-- the outer / inner state of the 3D implosion, `/repo/src/muscl/MHDInitFunctors3D.h:54-145`.  The momentum
slots receive the velocities. -/
def implodeState (g rho pr u v w bx by' bz : R) : MS R :=
  ⟨rho, pr / (g - lit 1) + lit (1 / 2) * rho * (u * u + v * v + w * w) +
    lit (1 / 2) * (bx * bx + by' * by' + bz * bz), u, v, w, bx, by', bz⟩

/-- the two states of the 3D implosion, `/repo/src/muscl/MHDInitFunctors3D.h:114-143` -/
def implodeCell (p : Params R) (q : ImplodeParams R) (outer : Bool) : MS R :=
  if outer then
    implodeState p.settings.gamma0 q.rho_out q.p_out q.u_out q.v_out q.w_out q.Bx_out q.By_out q.Bz_out
  else
    implodeState p.settings.gamma0 q.rho_in q.p_in q.u_in q.v_in q.w_in q.Bx_in q.By_in q.Bz_in

/-- `InitImplodeFunctor2D_MHD`, `/repo/src/muscl/MHDInitFunctors2D.h:57-135`.  The momentum slots receive the
velocities; the third components are zero. -/
def implodeM2 (p : Params R) (q : ImplodeParams R) (x y : R) : MS R :=
  let g := p.settings.gamma0
  let outer : Bool :=
    if q.shape = 1 then RealOps.lt (lit (1 / 2)) (x + y) && RealOps.lt (x + y) (lit (5 / 2))
    else RealOps.lt ((p.xmin + p.xmax) / lit 2 + p.ymin) (x + y)
  if outer then
    ⟨q.rho_out, q.p_out / (g - lit 1) + lit (1 / 2) * q.rho_out * (q.u_out * q.u_out + q.v_out * q.v_out) +
        lit (1 / 2) * (q.Bx_out * q.Bx_out + q.By_out * q.By_out),
      q.u_out, q.v_out, lit 0, q.Bx_out, q.By_out, lit 0⟩
  else
    ⟨q.rho_in, q.p_in / (g - lit 1) + lit (1 / 2) * q.rho_in * (q.u_in * q.u_in + q.v_in * q.v_in) +
        lit (1 / 2) * (q.Bx_in * q.Bx_in + q.By_in * q.By_in),
      q.u_in, q.v_in, lit 0, q.Bx_in, q.By_in, lit 0⟩

/-- `InitImplodeFunctor3D_MHD`, `/repo/src/muscl/MHDInitFunctors3D.h:54-145` -/
def implodeM3 (p : Params R) (q : ImplodeParams R) (x y z : R) : MS R :=
  implodeCell p q
    (if q.shape = 1 then RealOps.lt (lit (1 / 2)) (x + y + z) && RealOps.lt (x + y + z) (lit (5 / 2))
     else RealOps.lt ((p.xmin + p.xmax) / lit 2 + p.ymin + p.zmin) (x + y + z))

/-- `InitBrioWuFunctor2D_MHD`, `/repo/src/muscl/MHDInitFunctors2D.h:165-238`.  Modelled for the values
`0, 1, 2` of the enum `direction` (other configuration values are not values of the enum). -/
def brioWuM2 (p : Params R) (q : BrioWuParams R) (x y : R) : List (Nat × R) :=
  let g := p.settings.gamma0
  let dir0 := q.direction.toNat
  let dir1 := (dir0 + 1) % 2
  let pos := if q.direction = 0 then x else y
  let left := RealOps.le pos q.xd
  let rho := if left then q.rhoL else q.rhoR
  let pr := if left then q.pL else q.pR
  let u := if left then q.uL else q.uR
  let bt := if left then q.ByL else q.ByR
  [(ID, rho),
   (IP, pr / (g - lit 1) + lit (1 / 2) * rho * u * u + lit (1 / 2) * (q.Bx * q.Bx + bt * bt)),
   (IU + dir0, rho * u), (IU + dir1, lit 0), (IW, lit 0),
   (IA + dir0, q.Bx), (IA + dir1, bt), (IC, lit 0)]

/-- `z` of the 3D Brio-Wu functor: the process offset is computed with `nz = params.ny`,
`/repo/src/muscl/MHDInitFunctors3D.h:194,207` -/
def brioWuZ (p : Params R) (pos : Int × Int × Int) (k : Int) : R :=
  p.zmin + p.dz / lit 2 + intLit (k + p.ny * pos.2.2 - p.ghostWidth) * p.dz

/-- `InitBrioWuFunctor3D_MHD`, `/repo/src/muscl/MHDInitFunctors3D.h:175-257` (`direction` as above) -/
def brioWuM3 (p : Params R) (q : BrioWuParams R) (x y z : R) : List (Nat × R) :=
  let g := p.settings.gamma0
  let dir0 := q.direction.toNat
  let dir1 := (dir0 + 1) % 3
  let dir2 := (dir0 + 2) % 3
  let pos := if q.direction = 0 then x else if q.direction = 1 then y else z
  let left := RealOps.le pos q.xd
  let rho := if left then q.rhoL else q.rhoR
  let pr := if left then q.pL else q.pR
  let u := if left then q.uL else q.uR
  let bt := if left then q.ByL else q.ByR
  [(ID, rho),
   (IP, pr / (g - lit 1) + lit (1 / 2) * rho * u * u + lit (1 / 2) * (q.Bx * q.Bx + bt * bt)),
   (IU + dir0, rho * u), (IU + dir1, lit 0), (IU + dir2, lit 0),
   (IA + dir0, q.Bx), (IA + dir1, bt), (IA + dir2, lit 0)]

/-- `InitBlastFunctor2D_MHD`, `/repo/src/muscl/MHDInitFunctors2D.h:268-335`, and
`InitBlastFunctor3D_MHD`, `/repo/src/muscl/MHDInitFunctors3D.h:287-366`, with the squared distance `d2` -/
def blastM (p : Params R) (q : BlastParams R) (d2 : R) : MS R :=
  let g := p.settings.gamma0
  if RealOps.lt d2 (q.radius * q.radius) then
    ⟨q.density_in, q.pressure_in / (g - lit 1) + lit (1 / 2) * (sq q.bx_in + sq q.by_in + sq q.bz_in),
      lit 0, lit 0, lit 0, q.bx_in, q.by_in, q.bz_in⟩
  else
    ⟨q.density_out, q.pressure_out / (g - lit 1) + lit (1 / 2) * (sq q.bx_out + sq q.by_out + sq q.bz_out),
      lit 0, lit 0, lit 0, q.bx_out, q.by_out, q.bz_out⟩

/-- squared distance of the 2D blast functor, `/repo/src/muscl/MHDInitFunctors2D.h:304-305` -/
def blastD2 (q : BlastParams R) (x y : R) : R :=
  (x - q.center_x) * (x - q.center_x) + (y - q.center_y) * (y - q.center_y)

/-- squared distance of the 3D blast functor, `/repo/src/muscl/MHDInitFunctors3D.h:335-337` -/
def blastD3 (q : BlastParams R) (x y z : R) : R :=
  (x - q.center_x) * (x - q.center_x) + (y - q.center_y) * (y - q.center_y) +
    (z - q.center_z) * (z - q.center_z)

/-- the state with uniform field `(1/2, 0, 0)` of the Kelvin-Helmholtz functors -/
def khState (g d pr u v w : R) (kin : R) : MS R :=
  let bx : R := lit (1 / 2)
  let by' : R := lit 0
  let bz : R := lit 0
  ⟨d, pr / (g - lit 1) + lit (1 / 2) * d * kin + lit (1 / 2) * (bx * bx + by' * by' + bz * bz),
    d * u, d * v, d * w, bx, by', bz⟩

/-- `InitKelvinHelmholtzFunctor2D_MHD`, `/repo/src/muscl/MHDInitFunctors2D.h:506-655`.  `IW` is never stored;
nothing at all is stored when no perturbation is selected. -/
def khM2 (M : MathLib R) (p : Params R) (q : KHParams R) (rnd : Nat → R) (x y : R) : List (Nat × R) :=
  let g := p.settings.gamma0
  let yn := (y - p.ymin) / (p.ymax - p.ymin)
  let store : R → R → R → List (Nat × R) := fun d u v =>
    let s := khState g d q.pressure u v (lit 0) (u * u + v * v)
    [(ID, s.d), (IU, s.u), (IV, s.v), (IA, s.a), (IB, s.b), (IC, s.c), (IP, s.p)]
  if q.p_rand then
    let out := RealOps.lt yn (lit (1 / 4)) || RealOps.lt (lit (3 / 4)) yn
    store (if out then q.d_out else q.d_in)
      ((if out then q.vflow_out else q.vflow_in) + q.amplitude * (rnd 0 - lit (1 / 2)))
      (lit 0 + q.amplitude * (rnd 1 - lit (1 / 2)))
  else if q.p_sine_rob then
    let ramp := khRamp M q.delta y
    store (q.d_in + ramp * (q.d_out - q.d_in)) (q.vflow_in + ramp * (q.vflow_out - q.vflow_in))
      (q.w0 * M.sin (intLit q.mode * M.pi * x))
  else if q.p_sine then
    let inside := RealOps.le (lit (1 / 4)) y && RealOps.le y (lit (3 / 4))
    store (if inside then q.d_in else q.d_out) (if inside then q.vflow_in else q.vflow_out)
      (q.w0 * M.sin (intLit q.mode * M.pi * x))
  else []

/-- `InitKelvinHelmholtzFunctor3D_MHD`, `/repo/src/muscl/MHDInitFunctors3D.h:581-744`.  The random branch
stores no magnetic field. -/
def khM3 (M : MathLib R) (p : Params R) (q : KHParams R) (rnd : Nat → R) (x y z : R) : List (Nat × R) :=
  let g := p.settings.gamma0
  let zn := (z - p.zmin) / (p.zmax - p.zmin)
  let store : R → R → R → R → List (Nat × R) := fun d u v w =>
    let s := khState g d q.pressure u v w (u * u + v * v + w * w)
    [(ID, s.d), (IU, s.u), (IV, s.v), (IW, s.w), (IA, s.a), (IB, s.b), (IC, s.c), (IP, s.p)]
  if q.p_rand then
    let out := RealOps.lt zn (lit (1 / 4)) || RealOps.lt (lit (3 / 4)) zn
    let d := if out then q.d_out else q.d_in
    let u := (if out then q.vflow_out else q.vflow_in) + q.amplitude * (rnd 0 - lit (1 / 2))
    let v := lit 0 + q.amplitude * (rnd 1 - lit (1 / 2))
    let w := lit 0 + q.amplitude * (rnd 2 - lit (1 / 2))
    [(ID, d), (IU, d * u), (IV, d * v), (IW, d * w),
     (IP, q.pressure / (g - lit 1) + lit (1 / 2) * d * (u * u + v * v + w * w))]
  else if q.p_sine_rob then
    let ramp := khRamp M q.delta z
    store (q.d_in + ramp * (q.d_out - q.d_in)) (q.vflow_in + ramp * (q.vflow_out - q.vflow_in))
      (q.vflow_in / lit 2 + ramp * (q.vflow_out / lit 2 - q.vflow_in / lit 2))
      (q.w0 * M.sin (intLit q.mode * M.pi * x) * M.sin (intLit q.mode * M.pi * y))
  else if q.p_sine then
    let inside := RealOps.le (lit (1 / 4)) z && RealOps.le z (lit (3 / 4))
    store (if inside then q.d_in else q.d_out) (if inside then q.vflow_in else q.vflow_out) (lit 0)
      (q.w0 * M.sin (intLit q.mode * M.pi * x))
  else []

/-- `InitRotorFunctor2D_MHD`, `/repo/src/muscl/MHDInitFunctors2D.h:698-773` -/
def rotorM2 (p : Params R) (q : RotorParams R) (x y : R) : MS R :=
  let xc := (p.xmax + p.xmin) / lit 2
  let yc := (p.ymax + p.ymin) / lit 2
  let r := RealOps.sqrt ((x - xc) * (x - xc) + (y - yc) * (y - yc))
  let f_r := (q.r1 - r) / (q.r1 - q.r0)
  let s : R × R × R :=
    if RealOps.le r q.r0 then
      (lit 10, -lit 10 * f_r * q.u0 * (y - yc) / q.r0, lit 10 * f_r * q.u0 * (x - xc) / q.r0)
    else if RealOps.le r q.r1 then
      let d := lit 1 + lit 9 * f_r
      (d, -d * f_r * q.u0 * (y - yc) / r, d * f_r * q.u0 * (x - xc) / r)
    else (lit 1, lit 0, lit 0)
  ⟨s.1, q.p0 / (p.settings.gamma0 - lit 1) +
      lit (1 / 2) * (s.2.1 * s.2.1 + s.2.2 * s.2.2 + lit 0 * lit 0) / s.1 + lit (1 / 2) * (q.b0 * q.b0),
    s.2.1, s.2.2, lit 0, q.b0, lit 0, lit 0⟩

/-- `InitRotorFunctor3D_MHD`, `/repo/src/muscl/MHDInitFunctors3D.h:787-867`.  Unlike in 2D, the momentum
slots receive velocities and the inner region has no factor `f_r`. -/
def rotorM3 (p : Params R) (q : RotorParams R) (x y : R) : MS R :=
  let xc := (p.xmax + p.xmin) / lit 2
  let yc := (p.ymax + p.ymin) / lit 2
  let r := RealOps.sqrt ((x - xc) * (x - xc) + (y - yc) * (y - yc))
  let f_r := (q.r1 - r) / (q.r1 - q.r0)
  let s : R × R × R :=
    if RealOps.le r q.r0 then (lit 10, -q.u0 * (y - yc) / q.r0, q.u0 * (x - xc) / q.r0)
    else if RealOps.le r q.r1 then
      (lit 1 + lit 9 * f_r, -f_r * q.u0 * (y - yc) / r, f_r * q.u0 * (x - xc) / r)
    else (lit 1, lit 0, lit 0)
  ⟨s.1, q.p0 / (p.settings.gamma0 - lit 1) +
      (s.2.1 * s.2.1 + s.2.2 * s.2.2 + lit 0 * lit 0) / lit 2 / s.1 + (q.b0 * q.b0) / lit 2,
    s.2.1, s.2.2, lit 0, q.b0, lit 0, lit 0⟩

/-! ### Orszag-Tang -/

/-- `TWOPI_F`, `/repo/src/shared/real_type.h:76` -/
def twoPi (M : MathLib R) : R := lit 2 * M.pi

/-- first kernel of `InitOrszagTangFunctor2D`, `/repo/src/muscl/MHDInitFunctors2D.h:376-433` -/
def orszagM2 (M : MathLib R) (p : Params R) (x y : R) : List (Nat × R) :=
  let g := p.settings.gamma0
  let B0 := lit 1 / RealOps.sqrt (lit 2 * twoPi M)
  let p0 := g / (lit 2 * twoPi M)
  let d0 := g * p0
  let v0 : R := lit 1
  [(ID, d0), (IU, -d0 * v0 * M.sin (y * twoPi M)), (IV, d0 * v0 * M.sin (x * twoPi M)), (IW, lit 0),
   (IA, -B0 * M.sin (y * twoPi M)), (IB, B0 * M.sin (lit 2 * x * twoPi M)), (IC, lit 0)]

/-- second kernel, `/repo/src/muscl/MHDInitFunctors2D.h:435-473` -/
def orszagEnergyM2 (M : MathLib R) (p : Params R) (t : Int × Int) : Prog Arr R Unit := do
  let g := p.settings.gamma0
  let tp := lit 4 * M.asin (lit 1)
  let p0 := g / (lit 2 * tp)
  pif (decide (t.1 < p.isize - 1 ∧ t.2 < p.jsize - 1)) do
    let u ← rd ⟨.U, t.1, t.2, 0, IU⟩
    let d ← rd ⟨.U, t.1, t.2, 0, ID⟩
    let v ← rd ⟨.U, t.1, t.2, 0, IV⟩
    let a ← rd ⟨.U, t.1, t.2, 0, IA⟩
    let a' ← rd ⟨.U, t.1 + 1, t.2, 0, IA⟩
    let b ← rd ⟨.U, t.1, t.2, 0, IB⟩
    let b' ← rd ⟨.U, t.1, t.2 + 1, 0, IB⟩
    wr ⟨.U, t.1, t.2, 0, IP⟩ (p0 / (g - lit 1) + lit (1 / 2) * (sq u / d + sq v / d) +
      lit (1 / 2) * (sq ((a + a') / lit 2) + sq ((b + b') / lit 2)))

/-- first kernel of `InitOrszagTangFunctor3D`, `/repo/src/muscl/MHDInitFunctors3D.h:407-515`; nothing is
stored for other values of `vortex_dir` -/
def orszagM3 (M : MathLib R) (p : Params R) (q : OrszagTangParams R) (x y z : R) : List (Nat × R) :=
  let g := p.settings.gamma0
  let B0 := lit 1 / RealOps.sqrt (lit 4 * M.pi)
  let p0 := g / (lit 4 * M.pi)
  let d0 := g * p0
  let v0 : R := lit 1
  let wave := fun c cmin cmax : R => M.cos (lit 2 * twoPi M * q.kt * (c - cmin) / (cmax - cmin))
  if q.vortex_dir = 2 then
    [(ID, d0), (IU, -d0 * v0 * M.sin (y * twoPi M)), (IV, d0 * v0 * M.sin (x * twoPi M)), (IW, lit 0),
     (IA, -B0 * wave z p.zmin p.zmax * M.sin (y * twoPi M)),
     (IB, B0 * wave z p.zmin p.zmax * M.sin (lit 2 * x * twoPi M)), (IC, lit 0)]
  else if q.vortex_dir = 0 then
    [(ID, d0), (IV, -d0 * v0 * M.sin (z * twoPi M)), (IW, d0 * v0 * M.sin (y * twoPi M)), (IU, lit 0),
     (IB, -B0 * wave x p.xmin p.xmax * M.sin (z * twoPi M)),
     (IC, B0 * wave x p.xmin p.xmax * M.sin (lit 2 * y * twoPi M)), (IA, lit 0)]
  else if q.vortex_dir = 1 then
    [(ID, d0), (IW, -d0 * v0 * M.sin (x * twoPi M)), (IU, d0 * v0 * M.sin (z * twoPi M)), (IV, lit 0),
     (IC, -B0 * wave y p.ymin p.ymax * M.sin (x * twoPi M)),
     (IA, B0 * wave y p.ymin p.ymax * M.sin (lit 2 * z * twoPi M)), (IB, lit 0)]
  else []

/-- second kernel, `/repo/src/muscl/MHDInitFunctors3D.h:517-551` -/
def orszagEnergyM3 (M : MathLib R) (p : Params R) (t : Int × Int × Int) : Prog Arr R Unit := do
  let g := p.settings.gamma0
  let p0 := g / (lit 4 * M.pi)
  let i := t.1
  let j := t.2.1
  let k := t.2.2
  pif (decide (i < p.isize - 1 ∧ j < p.jsize - 1 ∧ k < p.ksize - 1)) do
    let u ← rd ⟨.U, i, j, k, IU⟩
    let d ← rd ⟨.U, i, j, k, ID⟩
    let v ← rd ⟨.U, i, j, k, IV⟩
    let w ← rd ⟨.U, i, j, k, IW⟩
    let a ← rd ⟨.U, i, j, k, IA⟩
    let a' ← rd ⟨.U, i + 1, j, k, IA⟩
    let b ← rd ⟨.U, i, j, k, IB⟩
    let b' ← rd ⟨.U, i, j + 1, k, IB⟩
    let c ← rd ⟨.U, i, j, k, IC⟩
    let c' ← rd ⟨.U, i, j, k + 1, IC⟩
    wr ⟨.U, i, j, k, IP⟩ (p0 / (g - lit 1) + lit (1 / 2) * (sq u / d + sq v / d + sq w / d) +
      lit (1 / 2) * (sq ((a + a') / lit 2) + sq ((b + b') / lit 2) + sq ((c + c') / lit 2)))

/-! ### Field loop -/

/-- `amplitude * (radius - r)` inside the loop, zero outside,
`/repo/src/muscl/MHDInitFunctors2D.h:905-914`, `/repo/src/muscl/MHDInitFunctors3D.h:993-1001` -/
def loopPotential (q : FieldLoopParams R) (x y : R) : R :=
  let r := RealOps.sqrt (x * x + y * y)
  if RealOps.lt r q.radius then q.amplitude * (q.radius - r) else lit 0

/-- `compute_vector_potential`, `/repo/src/muscl/MHDInitFunctors2D.h:876-917` -/
def loopPotK2 (p : Params R) (q : FieldLoopParams R) (pos : Int × Int × Int) (t : Int × Int) :
    Prog Arr R Unit :=
  wr ⟨.vecPot, t.1, t.2, 0, 0⟩ (loopPotential q (cellX p pos t.1) (cellY p pos t.2))

/-- the test of the last two kernels, `/repo/src/muscl/MHDInitFunctors2D.h:957,1006` -/
def loopGuard2 (p : Params R) (t : Int × Int) : Bool :=
  decide (t.1 ≥ p.ghostWidth ∧ t.1 < p.isize - p.ghostWidth ∧ t.2 ≥ p.ghostWidth ∧
    t.2 < p.jsize - p.ghostWidth)

/-- `do_init_condition`, `/repo/src/muscl/MHDInitFunctors2D.h:919-993`; `diag` uses the local grid size -/
def loopCondK2 (p : Params R) (q : FieldLoopParams R) (pos : Int × Int × Int) (t : Int × Int) :
    Prog Arr R Unit := do
  let i := t.1
  let j := t.2
  let cos_theta : R := lit 2 / RealOps.sqrt (lit 5)
  let sin_theta : R := RealOps.sqrt (lit 1 - cos_theta * cos_theta)
  pif (loopGuard2 p t) do
    let x := cellX p pos i
    let y := cellY p pos j
    let diag := RealOps.sqrt (lit 1 * intLit (p.nx * p.nx + p.ny * p.ny + p.nz * p.nz))
    let r := RealOps.sqrt (x * x + y * y)
    let d := if RealOps.lt r q.radius then q.density_in else lit 1
    wr ⟨.U, i, j, 0, ID⟩ d
    wr ⟨.U, i, j, 0, IU⟩ (d * q.vflow * cos_theta)
    wr ⟨.U, i, j, 0, IV⟩ (d * q.vflow * sin_theta)
    wr ⟨.U, i, j, 0, IW⟩ (d * q.vflow * intLit p.nz / diag)
    let a1 ← rd ⟨.vecPot, i, j + 1, 0, 0⟩
    let a0 ← rd ⟨.vecPot, i, j, 0, 0⟩
    wr ⟨.U, i, j, 0, IA⟩ ((a1 - a0) / p.dy)
    let b1 ← rd ⟨.vecPot, i + 1, j, 0, 0⟩
    let b0 ← rd ⟨.vecPot, i, j, 0, 0⟩
    wr ⟨.U, i, j, 0, IB⟩ (-(b1 - b0) / p.dx)
    wr ⟨.U, i, j, 0, IC⟩ (lit 0)

/-- `do_init_energy`, `/repo/src/muscl/MHDInitFunctors2D.h:995-1025` -/
def loopEnergyK2 (p : Params R) (t : Int × Int) : Prog Arr R Unit := do
  let i := t.1
  let j := t.2
  let g := p.settings.gamma0
  pif (loopGuard2 p t) do
    if RealOps.lt (lit 0) p.settings.cIso then wr ⟨.U, i, j, 0, IP⟩ (lit 0)
    else do
      let a ← rd ⟨.U, i, j, 0, IA⟩
      let a' ← rd ⟨.U, i + 1, j, 0, IA⟩
      let b ← rd ⟨.U, i, j, 0, IB⟩
      let b' ← rd ⟨.U, i, j + 1, 0, IB⟩
      let u ← rd ⟨.U, i, j, 0, IU⟩
      let v ← rd ⟨.U, i, j, 0, IV⟩
      let d ← rd ⟨.U, i, j, 0, ID⟩
      wr ⟨.U, i, j, 0, IP⟩ (lit 1 / (g - lit 1) +
        lit (1 / 2) * (lit (1 / 4) * sq (a + a') + lit (1 / 4) * sq (b + b')) +
        lit (1 / 2) * (u * u + v * v) / d)

/-- `compute_vector_potential`, `/repo/src/muscl/MHDInitFunctors3D.h:970-1017` -/
def loopPotK3 (p : Params R) (q : FieldLoopParams R) (pos : Int × Int × Int) (t : Int × Int × Int) :
    Prog Arr R Unit := do
  wr ⟨.vecPot, t.1, t.2.1, t.2.2, 0⟩ (lit 0)
  wr ⟨.vecPot, t.1, t.2.1, t.2.2, 1⟩ (lit 0)
  wr ⟨.vecPot, t.1, t.2.1, t.2.2, 2⟩ (loopPotential q (cellX p pos t.1) (cellY p pos t.2.1))

/-- the test of the last two kernels, `/repo/src/muscl/MHDInitFunctors3D.h:1067-1069,1128-1130` -/
def loopGuard3 (p : Params R) (t : Int × Int × Int) : Bool :=
  decide (t.1 ≥ p.ghostWidth ∧ t.1 < p.isize - p.ghostWidth ∧ t.2.1 ≥ p.ghostWidth ∧
    t.2.1 < p.jsize - p.ghostWidth ∧ t.2.2 ≥ p.ghostWidth ∧ t.2.2 < p.ksize - p.ghostWidth)

/-- `do_init_condition`, `/repo/src/muscl/MHDInitFunctors3D.h:1019-1113` -/
def loopCondK3 (p : Params R) (q : FieldLoopParams R) (pos : Int × Int × Int) (t : Int × Int × Int) :
    Prog Arr R Unit := do
  let i := t.1
  let j := t.2.1
  let k := t.2.2
  let cos_theta : R := lit 2 / RealOps.sqrt (lit 5)
  let sin_theta : R := RealOps.sqrt (lit 1 - cos_theta * cos_theta)
  pif (loopGuard3 p t) do
    let x := cellX p pos i
    let y := cellY p pos j
    let r := RealOps.sqrt (x * x + y * y)
    let d := if RealOps.lt r q.radius then q.density_in else lit 1
    wr ⟨.U, i, j, k, ID⟩ d
    wr ⟨.U, i, j, k, IU⟩ (d * q.vflow * cos_theta)
    wr ⟨.U, i, j, k, IV⟩ (d * q.vflow * sin_theta)
    wr ⟨.U, i, j, k, IW⟩ (d * q.vflow)
    let x0 ← rd ⟨.vecPot, i, j, k, 0⟩
    let y0 ← rd ⟨.vecPot, i, j, k, 1⟩
    let z0 ← rd ⟨.vecPot, i, j, k, 2⟩
    let zj ← rd ⟨.vecPot, i, j + 1, k, 2⟩
    let yk ← rd ⟨.vecPot, i, j, k + 1, 1⟩
    wr ⟨.U, i, j, k, IA⟩ ((zj - z0) / p.dy - (yk - y0) / p.dz)
    let xk ← rd ⟨.vecPot, i, j, k + 1, 0⟩
    let zi ← rd ⟨.vecPot, i + 1, j, k, 2⟩
    wr ⟨.U, i, j, k, IB⟩ ((xk - x0) / p.dz - (zi - z0) / p.dx)
    let yi ← rd ⟨.vecPot, i + 1, j, k, 1⟩
    let xj ← rd ⟨.vecPot, i, j + 1, k, 0⟩
    wr ⟨.U, i, j, k, IC⟩ ((yi - y0) / p.dx - (xj - x0) / p.dy)

/-- `do_init_energy`, `/repo/src/muscl/MHDInitFunctors3D.h:1115-1153` -/
def loopEnergyK3 (p : Params R) (t : Int × Int × Int) : Prog Arr R Unit := do
  let i := t.1
  let j := t.2.1
  let k := t.2.2
  let g := p.settings.gamma0
  pif (loopGuard3 p t) do
    if RealOps.lt (lit 0) p.settings.cIso then wr ⟨.U, i, j, k, IP⟩ (lit 0)
    else do
      let a ← rd ⟨.U, i, j, k, IA⟩
      let a' ← rd ⟨.U, i + 1, j, k, IA⟩
      let b ← rd ⟨.U, i, j, k, IB⟩
      let b' ← rd ⟨.U, i, j + 1, k, IB⟩
      let c ← rd ⟨.U, i, j, k, IC⟩
      let c' ← rd ⟨.U, i, j, k + 1, IC⟩
      let u ← rd ⟨.U, i, j, k, IU⟩
      let v ← rd ⟨.U, i, j, k, IV⟩
      let w ← rd ⟨.U, i, j, k, IW⟩
      let d ← rd ⟨.U, i, j, k, ID⟩
      wr ⟨.U, i, j, k, IP⟩ (lit 1 / (g - lit 1) +
        lit (1 / 2) * (lit (1 / 4) * sq (a + a') + lit (1 / 4) * sq (b + b') + lit (1 / 4) * sq (c + c')) +
        lit (1 / 2) * (u * u + v * v + w * w) / d)

/-! ### Dispatch -/

/-- the initial conditions of the MHD solvers with their parameters -/
inductive MhdProblem (R : Type)
  | blast (q : BlastParams R)
  | implode (q : ImplodeParams R)
  | brioWu (q : BrioWuParams R)
  | orszagTang (q : OrszagTangParams R)
  | kelvinHelmholtz (q : KHParams R)
  | rotor (q : RotorParams R)
  | fieldLoop (q : FieldLoopParams R)

/-- `SolverMHDMuscl::init` without restart, `/repo/src/muscl/SolverMHDMuscl.h:643-706` -/
def mhdProblem (F : FloatLib R) (M : MathLib R) (c : Ini.Reader) (junk : R × R) : MhdProblem R :=
  let n := problemName c
  if n = "blast".toList then .blast (blastParams F M c junk)
  else if n = "implode".toList then .implode (implodeParams F c)
  else if n = "brio-wu".toList then .brioWu (brioWuParams F M c)
  else if n = "orszag_tang".toList then .orszagTang (orszagTangParams F c)
  else if n = "kelvin_helmholtz".toList then .kelvinHelmholtz (khParams F c)
  else if n = "rotor".toList then .rotor (rotorParams F M c)
  else if n = "field_loop".toList ∨ n = "field loop".toList then .fieldLoop (fieldLoopParams F c)
  else .orszagTang (orszagTangParams F c)

/-- the stores of the first (or only) one-cell kernel of a problem, 2D -/
def mhdCell2 (M : MathLib R) (p : Params R) (rnd : Nat → R) (x y : R) : MhdProblem R → List (Nat × R)
  | .blast q => allVars (blastM p q (blastD2 q x y))
  | .implode q => allVars (implodeM2 p q x y)
  | .brioWu q => brioWuM2 p q x y
  | .orszagTang _ => orszagM2 M p x y
  | .kelvinHelmholtz q => khM2 M p q rnd x y
  | .rotor q => allVars (rotorM2 p q x y)
  | .fieldLoop _ => []

/-- the stores of the first (or only) one-cell kernel of a problem, 3D; `zb` is the `z` of the Brio-Wu
functor -/
def mhdCell3 (M : MathLib R) (p : Params R) (rnd : Nat → R) (x y z zb : R) : MhdProblem R → List (Nat × R)
  | .blast q => allVars (blastM p q (blastD3 q x y z))
  | .implode q => allVars (implodeM3 p q x y z)
  | .brioWu q => brioWuM3 p q x y zb
  | .orszagTang q => orszagM3 M p q x y z
  | .kelvinHelmholtz q => khM3 M p q rnd x y z
  | .rotor q => allVars (rotorM3 p q x y)
  | .fieldLoop _ => []

/-- one iteration of the one-cell kernel, 2D -/
def mhdInit2 (M : MathLib R) (p : Params R) (pos : Int × Int × Int) (rnd : Int → Int → Int → Nat → R)
    (q : MhdProblem R) (t : Int × Int) : Prog Arr R Unit :=
  putVars .U t.1 t.2 0 (mhdCell2 M p (rnd t.1 t.2 0) (cellX p pos t.1) (cellY p pos t.2) q)

/-- one iteration of the one-cell kernel, 3D -/
def mhdInit3 (M : MathLib R) (p : Params R) (pos : Int × Int × Int) (rnd : Int → Int → Int → Nat → R)
    (q : MhdProblem R) (t : Int × Int × Int) : Prog Arr R Unit :=
  putVars .U t.1 t.2.1 t.2.2 (mhdCell3 M p (rnd t.1 t.2.1 t.2.2) (cellX p pos t.1) (cellY p pos t.2.1)
    (cellZ p pos t.2.2) (brioWuZ p pos t.2.2) q)

/-- the kernel launches of `init(U)`, 2D MHD -/
def initMhd2 (M : MathLib R) (p : Params R) (pos : Int × Int × Int)
    (rnd : Int → Int → Int → Nat → R) : MhdProblem R → List (Launch Arr R)
  | .orszagTang q =>
    [.par (range2 p.isize p.jsize) (mhdInit2 M p pos rnd (.orszagTang q)),
     .par (range2 p.isize p.jsize) (orszagEnergyM2 M p)]
  | .fieldLoop q =>
    [.par (range2 p.isize p.jsize) (loopPotK2 p q pos),
     .par (range2 p.isize p.jsize) (loopCondK2 p q pos),
     .par (range2 p.isize p.jsize) (loopEnergyK2 p)]
  | q => [.par (range2 p.isize p.jsize) (mhdInit2 M p pos rnd q)]

/-- the kernel launches of `init(U)`, 3D MHD -/
def initMhd3 (M : MathLib R) (p : Params R) (pos : Int × Int × Int)
    (rnd : Int → Int → Int → Nat → R) : MhdProblem R → List (Launch Arr R)
  | .orszagTang q =>
    [.par (range3 p.isize p.jsize p.ksize) (mhdInit3 M p pos rnd (.orszagTang q)),
     .par (range3 p.isize p.jsize p.ksize) (orszagEnergyM3 M p)]
  | .fieldLoop q =>
    [.par (range3 p.isize p.jsize p.ksize) (loopPotK3 p q pos),
     .par (range3 p.isize p.jsize p.ksize) (loopCondK3 p q pos),
     .par (range3 p.isize p.jsize p.ksize) (loopEnergyK3 p)]
  | q => [.par (range3 p.isize p.jsize p.ksize) (mhdInit3 M p pos rnd q)]

end EulerKokkos
