import Verif.Spec.Problems
import Verif.Spec.MhdRiemann
import Verif.Model.InitMhd

/-!
# Specification: the states the provided MHD test problems prescribe

For each problem the primitive state `(ρ, p, u, v, w, Bx, By, Bz)` at a point, as the literature (or the names
of the parameters in the configuration file) gives it.
-/

namespace EulerKokkos.Spec

/-- Brio-Wu shock tube along axis `d`, evaluated at abscissa `s` along that axis: `Bx` along the axis, `By`
along the next axis (cyclically among the first `n` axes) -/
noncomputable def brioWuState (n : Nat) (q : BrioWuParams ℝ) (s : ℝ) : MS ℝ :=
  let left := s ≤ q.xd
  let ρ := if left then q.rhoL else q.rhoR
  let P := if left then q.pL else q.pR
  let U := if left then q.uL else q.uR
  let T := if left then q.ByL else q.ByR
  let d := q.direction
  let vel : Int → ℝ := fun e => if e = d then U else 0
  let fld : Int → ℝ := fun e => if e = d then q.Bx else if e = (d + 1) % n then T else 0
  ⟨ρ, P, vel 0, vel 1, vel 2, fld 0, fld 1, fld 2⟩

/-- MHD rotor (Balsara & Spicer): a dense disk in solid rotation, tapered between `r0` and `r1` -/
noncomputable def rotorState (p : Params ℝ) (q : RotorParams ℝ) (x y : ℝ) : MS ℝ :=
  let a := x - (p.xmin + p.xmax) / 2
  let b := y - (p.ymin + p.ymax) / 2
  let r := Real.sqrt (a ^ 2 + b ^ 2)
  let f := (q.r1 - r) / (q.r1 - q.r0)
  if r ≤ q.r0 then ⟨10, q.p0, -(q.u0 * b / q.r0), q.u0 * a / q.r0, 0, q.b0, 0, 0⟩
  else if r ≤ q.r1 then ⟨1 + 9 * f, q.p0, -(f * q.u0 * b / r), f * q.u0 * a / r, 0, q.b0, 0, 0⟩
  else ⟨1, q.p0, 0, 0, 0, q.b0, 0, 0⟩

/-- Orszag-Tang vortex in the plane -/
noncomputable def orszagState (γ : ℝ) (x y : ℝ) : MS ℝ :=
  let B0 := 1 / Real.sqrt (4 * Real.pi)
  ⟨γ ^ 2 / (4 * Real.pi), γ / (4 * Real.pi), -Real.sin (2 * Real.pi * y), Real.sin (2 * Real.pi * x), 0,
    -(B0 * Real.sin (2 * Real.pi * y)), B0 * Real.sin (4 * Real.pi * x), 0⟩

/-- cyclic permutation of the axes: the first axis of `s` becomes the second -/
def rotate (s : MS ℝ) : MS ℝ := ⟨s.d, s.p, s.w, s.u, s.v, s.c, s.a, s.b⟩

/-- scale the magnetic field of a state -/
def withField (c : ℝ) (s : MS ℝ) : MS ℝ := { s with a := c * s.a, b := c * s.b, c := c * s.c }

/-- Orszag-Tang vortex in space: the planar vortex around the axis `vortex_dir`, its magnetic field modulated
along that axis with wave number `2 kt` -/
noncomputable def orszagState3 (p : Params ℝ) (q : OrszagTangParams ℝ) (x y z : ℝ) : MS ℝ :=
  let wave := fun c lo hi : ℝ => Real.cos (4 * Real.pi * q.kt * (c - lo) / (hi - lo))
  let γ := p.settings.gamma0
  if q.vortex_dir = 2 then withField (wave z p.zmin p.zmax) (orszagState γ x y)
  else if q.vortex_dir = 0 then rotate (withField (wave x p.xmin p.xmax) (orszagState γ y z))
  else rotate (rotate (withField (wave y p.ymin p.ymax) (orszagState γ z x)))

/-- the two states of the magnetised implosion -/
def implodeStateM (q : ImplodeParams ℝ) (outer : Bool) : MS ℝ :=
  if outer then ⟨q.rho_out, q.p_out, q.u_out, q.v_out, q.w_out, q.Bx_out, q.By_out, q.Bz_out⟩
  else ⟨q.rho_in, q.p_in, q.u_in, q.v_in, q.w_in, q.Bx_in, q.By_in, q.Bz_in⟩

/-- the two states of the magnetised blast -/
def blastStateM (q : BlastParams ℝ) (inner : Bool) : MS ℝ :=
  if inner then ⟨q.density_in, q.pressure_in, 0, 0, 0, q.bx_in, q.by_in, q.bz_in⟩
  else ⟨q.density_out, q.pressure_out, 0, 0, 0, q.bx_out, q.by_out, q.bz_out⟩

/-- the prescribed state in the plane for the problems whose field is given pointwise -/
noncomputable def prescribedM2 (p : Params ℝ) (n : Nat → ℝ) (x y : ℝ) : MhdProblem ℝ → MS ℝ
  | .blast q => open Classical in
    blastStateM q (decide (Real.sqrt ((x - q.center_x) ^ 2 + (y - q.center_y) ^ 2) < q.radius))
  | .implode q => open Classical in
    let s := implodeStateM q (decide (if q.shape = 1 then 1 / 2 < x + y ∧ x + y < 5 / 2
      else (p.xmin + p.xmax) / 2 + p.ymin < x + y))
    { s with w := 0, c := 0 }
  | .brioWu q => brioWuState 2 q (if q.direction = 0 then x else y)
  | .orszagTang _ => orszagState p.settings.gamma0 x y
  | .kelvinHelmholtz q =>
    let s := (y - p.ymin) / (p.ymax - p.ymin)
    if q.p_rand then
      let inside := 1 / 4 ≤ s ∧ s ≤ 3 / 4
      ⟨if inside then q.d_in else q.d_out, q.pressure,
        (if inside then q.vflow_in else q.vflow_out) + q.amplitude * (n 0 - 1 / 2), q.amplitude * (n 1 - 1 / 2),
        0, 1 / 2, 0, 0⟩
    else if q.p_sine_rob then
      let a := shearRamp q.delta y
      ⟨(1 - a) * q.d_in + a * q.d_out, q.pressure, (1 - a) * q.vflow_in + a * q.vflow_out,
        q.w0 * Real.sin (q.mode * Real.pi * x), 0, 1 / 2, 0, 0⟩
    else
      let inside := 1 / 4 ≤ y ∧ y ≤ 3 / 4
      ⟨if inside then q.d_in else q.d_out, q.pressure, if inside then q.vflow_in else q.vflow_out,
        q.w0 * Real.sin (q.mode * Real.pi * x), 0, 1 / 2, 0, 0⟩
  | .rotor q => rotorState p q x y
  | .fieldLoop _ => MS.zero

/-- the prescribed state in space -/
noncomputable def prescribedM3 (p : Params ℝ) (x y z : ℝ) : MhdProblem ℝ → MS ℝ
  | .blast q => open Classical in
    blastStateM q (decide
      (Real.sqrt ((x - q.center_x) ^ 2 + (y - q.center_y) ^ 2 + (z - q.center_z) ^ 2) < q.radius))
  | .implode q => open Classical in
    implodeStateM q (decide (if q.shape = 1 then 1 / 2 < x + y + z ∧ x + y + z < 5 / 2
      else (p.xmin + p.xmax) / 2 + p.ymin + p.zmin < x + y + z))
  | .brioWu q => brioWuState 3 q (if q.direction = 0 then x else if q.direction = 1 then y else z)
  | .orszagTang q => orszagState3 p q x y z
  | .kelvinHelmholtz q =>
    if q.p_sine_rob then
      let a := shearRamp q.delta z
      ⟨(1 - a) * q.d_in + a * q.d_out, q.pressure, (1 - a) * q.vflow_in + a * q.vflow_out,
        ((1 - a) * q.vflow_in + a * q.vflow_out) / 2,
        q.w0 * Real.sin (q.mode * Real.pi * x) * Real.sin (q.mode * Real.pi * y), 1 / 2, 0, 0⟩
    else
      let inside := 1 / 4 ≤ z ∧ z ≤ 3 / 4
      ⟨if inside then q.d_in else q.d_out, q.pressure, if inside then q.vflow_in else q.vflow_out, 0,
        q.w0 * Real.sin (q.mode * Real.pi * x), 1 / 2, 0, 0⟩
  | .rotor q => rotorState p q x y
  | .fieldLoop _ => MS.zero

/-- no kinetic energy, or unit density: the only cases in which storing velocities as momenta is harmless -/
def StillOrUnit (ρ u v w : ℝ) : Prop := ρ = 1 ∨ u = 0 ∧ v = 0 ∧ w = 0

/-- parameters and points for which one kernel sets up the prescribed state in the plane (`Verif/Props/C64.lean`
tells what happens otherwise) -/
def FaithfulM2 (p : Params ℝ) (x y : ℝ) : MhdProblem ℝ → Prop
  | .blast q => 0 ≤ q.radius
  | .implode q => StillOrUnit q.rho_out q.u_out q.v_out 0 ∧ StillOrUnit q.rho_in q.u_in q.v_in 0
  | .brioWu q => q.direction = 0 ∨ q.direction = 1
  | .orszagTang _ => False
  | .kelvinHelmholtz q => q.p_rand = true ∨ q.p_sine_rob = true ∨ q.p_sine = true
  | .rotor q => q.r0 < q.r1 ∧
      q.r0 ≤ Real.sqrt ((x - (p.xmin + p.xmax) / 2) ^ 2 + (y - (p.ymin + p.ymax) / 2) ^ 2)
  | .fieldLoop _ => False

/-- the same in space -/
def FaithfulM3 (p : Params ℝ) (x y : ℝ) : MhdProblem ℝ → Prop
  | .blast q => 0 ≤ q.radius
  | .implode q => StillOrUnit q.rho_out q.u_out q.v_out q.w_out ∧ StillOrUnit q.rho_in q.u_in q.v_in q.w_in
  | .brioWu q => q.direction = 0 ∨ q.direction = 1 ∨ q.direction = 2
  | .orszagTang _ => False
  | .kelvinHelmholtz q => q.p_rand = false ∧ (q.p_sine_rob = true ∨ q.p_sine = true)
  | .rotor q => q.u0 = 0 ∧ q.r0 < q.r1 ∨
      max q.r0 q.r1 < Real.sqrt ((x - (p.xmin + p.xmax) / 2) ^ 2 + (y - (p.ymin + p.ymax) / 2) ^ 2)
  | .fieldLoop _ => False

/-- the vector potential of the field loop (Gardiner & Stone), along the `z` axis -/
noncomputable def loopA (q : FieldLoopParams ℝ) (x y : ℝ) : ℝ :=
  q.amplitude * max (q.radius - Real.sqrt (x ^ 2 + y ^ 2)) 0

/-- density of the field loop problem -/
noncomputable def loopDensity (q : FieldLoopParams ℝ) (x y : ℝ) : ℝ :=
  if Real.sqrt (x ^ 2 + y ^ 2) < q.radius then q.density_in else 1

end EulerKokkos.Spec
