import Verif.Spec.Euler
import Verif.Model.Init
import Mathlib.Analysis.SpecialFunctions.Pow.Real
import Mathlib.Analysis.SpecialFunctions.Trigonometric.Basic

/-!
# Specification: the states the provided test problems prescribe

For each problem the primitive state `(ρ, p, u, v, w)` at the point `(x, y)` or `(x, y, z)`, as the literature
(or the parameter names of the configuration file) gives it.
-/

namespace EulerKokkos.Spec

/-- the mathematical library computes the mathematical functions -/
structure ExactMath (M : MathLib ℝ) : Prop where
  pi : M.pi = Real.pi
  sin : M.sin = Real.sin
  cos : M.cos = Real.cos
  exp : M.exp = Real.exp
  log : M.log = Real.log
  pow : ∀ x y, M.pow x y = x ^ y
  asin : M.asin = Real.arcsin
  /-- `atan2 y x` is the angle of the point `(x, y)` -/
  atan2_cos : ∀ x y, Real.sqrt (x ^ 2 + y ^ 2) * Real.cos (M.atan2 y x) = x
  atan2_sin : ∀ x y, Real.sqrt (x ^ 2 + y ^ 2) * Real.sin (M.atan2 y x) = y

/-- centre of cell `n` of a direction starting at `lo`, with `gw` ghost cells of size `h` before the first -/
noncomputable def centre (lo h : ℝ) (gw n : Int) : ℝ := lo + ((n : ℝ) - gw + 1 / 2) * h

/-- the fluid at rest with density `d` and pressure `p` -/
def atRest (d p : ℝ) : HS ℝ := ⟨d, p, 0, 0, 0⟩

/-- weight of the outer fluid in the smoothed shear layers at `1/4` and `3/4` (Robertson et al. 2010) -/
noncomputable def shearRamp (δ y : ℝ) : ℝ :=
  (1 + Real.exp ((y - 1 / 4) / (δ / 2)))⁻¹ + (1 + Real.exp ((3 / 4 - y) / (δ / 2)))⁻¹

/-- azimuthal velocity of the Gresho vortex -/
noncomputable def greshoVel (r : ℝ) : ℝ :=
  if r < 1 / 5 then 5 * r else if r < 2 / 5 then 2 - 5 * r else 0

/-- pressure of the Gresho vortex with central pressure `p0` -/
noncomputable def greshoPres (p0 r : ℝ) : ℝ :=
  if r < 1 / 5 then p0 + 25 / 2 * r ^ 2
  else if r < 2 / 5 then p0 + 25 / 2 * r ^ 2 + 4 * (1 - 5 * r - Real.log (1 / 5) + Real.log r)
  else p0 - 2 + 4 * Real.log 2

/-- temperature of the isentropic vortex at distance `r` of its centre -/
noncomputable def vortexTemp (γ : ℝ) (q : VortexParams ℝ) (r2 : ℝ) : ℝ :=
  q.T_a - (γ - 1) * q.beta ^ 2 / (8 * γ * Real.pi ^ 2) * Real.exp (1 - r2)

/-- isentropic vortex: ambient flow plus a rotating perturbation, constant entropy -/
noncomputable def vortexState (γ : ℝ) (q : VortexParams ℝ) (x y : ℝ) : HS ℝ :=
  let a := x - q.vortex_x
  let b := y - q.vortex_y
  let T := vortexTemp γ q (a ^ 2 + b ^ 2)
  let ρ := q.rho_a * (T / q.T_a) ^ (1 / (γ - 1))
  let ω := q.beta / (2 * Real.pi) * Real.exp ((1 - (a ^ 2 + b ^ 2)) / 2)
  ⟨ρ, ρ * T, q.u_a - b * ω, q.v_a + a * ω, 0⟩

/-- Gresho vortex around the `z` axis, at rest at infinity, Mach number `Ma` -/
noncomputable def greshoState (γ : ℝ) (q : GreshoParams ℝ) (x y : ℝ) : HS ℝ :=
  let r := Real.sqrt (x ^ 2 + y ^ 2)
  ⟨q.rho0, greshoPres (q.rho0 / (γ * q.Ma ^ 2)) r, -(y / r) * greshoVel r, x / r * greshoVel r, 0⟩

/-- the prescribed state in the plane.  `n 0`, `n 1` are the random numbers of the cell. -/
noncomputable def prescribed2 (p : Params ℝ) (n : Nat → ℝ) (x y : ℝ) : HydroProblem ℝ → HS ℝ
  | .implode q =>
    let outer : Prop := if q.shape = 1 then 1 / 2 < x + y ^ 2 ∧ x + y ^ 2 < 3 / 2
      else (p.xmin + p.xmax) / 2 + p.ymin < x + y
    open Classical in
    if outer then ⟨q.rho_out, q.p_out, q.u_out, q.v_out, 0⟩ else ⟨q.rho_in, q.p_in, q.u_in, q.v_in, 0⟩
  | .blast q => if Real.sqrt ((x - q.center_x) ^ 2 + (y - q.center_y) ^ 2) < q.radius
      then atRest q.density_in q.pressure_in else atRest q.density_out q.pressure_out
  | .kelvinHelmholtz q =>
    if q.p_rand then
      let s := (y - p.ymin) / (p.ymax - p.ymin)
      if 1 / 4 ≤ s ∧ s ≤ 3 / 4 then
        ⟨q.d_in, q.pressure, q.vflow_in + q.amplitude * (n 0 - 1 / 2), q.amplitude * (n 1 - 1 / 2), 0⟩
      else ⟨q.d_out, q.pressure, q.vflow_out + q.amplitude * (n 0 - 1 / 2), q.amplitude * (n 1 - 1 / 2), 0⟩
    else
      let a := shearRamp q.delta y
      ⟨(1 - a) * q.d_in + a * q.d_out, q.pressure, (1 - a) * q.vflow_in + a * q.vflow_out,
        q.w0 * Real.sin (q.mode * Real.pi * x), 0⟩
  | .gresho q => greshoState p.settings.gamma0 q x y
  | .fourQuadrant c xt yt _ =>
    ((lax2 c).getD lax2_default) (if x < xt then (if y < yt then 2 else 1) else (if y < yt then 3 else 0))
  | .isentropicVortex q => vortexState p.settings.gamma0 q x y
  | .rayleighTaylor q =>
    let d := if y ≤ (p.ymin + p.ymax) / 2 then q.d0 else q.d1
    ⟨d, 1 + d * (q.gx * x + q.gy * y), 0, q.amplitude *
      ((1 + Real.cos (2 * Real.pi * x / (p.xmax - p.xmin))) / 2) *
      ((1 + Real.cos (2 * Real.pi * y / (p.ymax - p.ymin))) / 2), 0⟩

/-- the prescribed state in space -/
noncomputable def prescribed3 (p : Params ℝ) (n : Nat → ℝ) (x y z : ℝ) : HydroProblem ℝ → HS ℝ
  | .implode q =>
    let outer : Prop := if q.shape = 1 then 1 / 2 < x + y + z ∧ x + y + z < 5 / 2
      else (p.xmin + p.xmax) / 2 + p.ymin + p.zmin < x + y + z
    open Classical in
    if outer then ⟨q.rho_out, q.p_out, q.u_out, q.v_out, q.w_out⟩
    else ⟨q.rho_in, q.p_in, q.u_in, q.v_in, q.w_in⟩
  | .blast q => if Real.sqrt ((x - q.center_x) ^ 2 + (y - q.center_y) ^ 2 + (z - q.center_z) ^ 2) < q.radius
      then atRest q.density_in q.pressure_in else atRest q.density_out q.pressure_out
  | .kelvinHelmholtz q =>
    if q.p_rand then
      let s := (z - p.zmin) / (p.zmax - p.zmin)
      if 1 / 4 ≤ s ∧ s ≤ 3 / 4 then
        ⟨q.d_in, q.pressure, q.vflow_in + q.amplitude * (n 0 - 1 / 2), q.amplitude * (n 1 - 1 / 2),
          q.amplitude * (n 2 - 1 / 2)⟩
      else ⟨q.d_out, q.pressure, q.vflow_out + q.amplitude * (n 0 - 1 / 2), q.amplitude * (n 1 - 1 / 2),
          q.amplitude * (n 2 - 1 / 2)⟩
    else
      let a := shearRamp q.delta z
      ⟨(1 - a) * q.d_in + a * q.d_out, q.pressure, (1 - a) * q.vflow_in + a * q.vflow_out,
        ((1 - a) * q.vflow_in + a * q.vflow_out) / 2,
        q.w0 * Real.sin (q.mode * Real.pi * x) * Real.sin (q.mode * Real.pi * y)⟩
  | .gresho q => greshoState p.settings.gamma0 q x y
  | .fourQuadrant c xt yt zt =>
    getRiemannConfig3d c ((if x < xt then (if y < yt then 2 else 1) else (if y < yt then 3 else 0)) +
      (if z < zt then 0 else 4))
  | .isentropicVortex q => vortexState p.settings.gamma0 q x y
  | .rayleighTaylor q =>
    let d := if z ≤ (p.zmin + p.zmax) / 2 then q.d0 else q.d1
    ⟨d, 1 + d * (q.gx * x + q.gy * y + q.gz * z), 0, 0, q.amplitude *
      ((1 + Real.cos (2 * Real.pi * x / (p.xmax - p.xmin))) / 2) *
      ((1 + Real.cos (2 * Real.pi * y / (p.ymax - p.ymin))) / 2)⟩

/-- parameters for which the code sets up the prescribed state in the plane (see `Verif/Props/C58.lean` for
what happens otherwise) -/
def Faithful2 : HydroProblem ℝ → Prop
  | .implode q => (q.rho_out = 1 ∨ q.u_out = 0 ∧ q.v_out = 0) ∧ (q.rho_in = 1 ∨ q.u_in = 0 ∧ q.v_in = 0)
  | .blast q => 0 ≤ q.radius
  | .kelvinHelmholtz q => q.p_rand = true ∨ q.p_sine_rob = true
  | .gresho q => q.rho0 ≠ 0
  | .fourQuadrant c _ _ _ => c ≠ 18
  | .isentropicVortex _ => True
  | .rayleighTaylor q => q.amplitude = 0

/-- the same in space; there is no isentropic vortex in 3D, and the Gresho vortex is never right -/
def Faithful3 : HydroProblem ℝ → Prop
  | .implode q => (q.rho_out = 1 ∨ q.u_out = 0 ∧ q.v_out = 0 ∧ q.w_out = 0) ∧
      (q.rho_in = 1 ∨ q.u_in = 0 ∧ q.v_in = 0 ∧ q.w_in = 0)
  | .blast q => 0 ≤ q.radius
  | .kelvinHelmholtz q => q.p_rand = true ∨ q.p_sine_rob = true
  | .gresho _ => False
  | .fourQuadrant _ _ _ _ => True
  | .isentropicVortex _ => False
  | .rayleighTaylor q => q.amplitude = 0

end EulerKokkos.Spec
