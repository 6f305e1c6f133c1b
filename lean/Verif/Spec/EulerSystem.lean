import Verif.Spec.EulerPDE
import Verif.Model.EulerEquations

/-!
# Specification: characteristic fields and viscous stress of the Euler / Navier–Stokes system

Textbook definitions on primitive states, independent of `EulerEquations.h` (only its data types are used).
-/

namespace EulerKokkos.Spec
open EulerEq (Dir Grad Vec)

/-- flux of the Euler equations along a direction -/
noncomputable def fluxAlong (γ : ℝ) : Dir → HS ℝ → HS ℝ
  | .x => eulerFlux γ
  | .y => eulerFluxY γ
  | .z => eulerFluxZ γ

/-- velocity along a direction -/
def speedAlong : Dir → HS ℝ → ℝ
  | .x => HS.u
  | .y => HS.v
  | .z => HS.w

/-- each field of `a` times the wave speed of its characteristic family, for a fluid of velocity `s` and
sound speed `c`: the slot of the density holds the family `s - c`, the slot of the energy the family
`s + c`, the slots of the momentum the families moving with the fluid -/
def timesSpeeds (s c : ℝ) (a : HS ℝ) : HS ℝ :=
  ⟨(s - c) * a.d, (s + c) * a.p, s * a.u, s * a.v, s * a.w⟩

/-- component `i`, `j` of the velocity gradient, `∂ⱼ vᵢ` -/
def gradV (g : Grad ℝ) : Dir → Dir → ℝ
  | .x, .x => g.ux | .x, .y => g.uy | .x, .z => g.uz
  | .y, .x => g.vx | .y, .y => g.vy | .y, .z => g.vz
  | .z, .x => g.wx | .z, .y => g.wy | .z, .z => g.wz

/-- component of a vector -/
def comp (v : Vec ℝ) : Dir → ℝ
  | .x => v.x | .y => v.y | .z => v.z

/-- component of the momentum part of a flux -/
def momentum (f : HS ℝ) : Dir → ℝ
  | .x => f.u | .y => f.v | .z => f.w

/-- viscous stress of a Newtonian fluid without bulk viscosity in `dim` dimensions whose velocity
divergence is `div`: `μ (∂ᵢvⱼ + ∂ⱼvᵢ - (2/dim) div δᵢⱼ)` -/
noncomputable def stress (dim mu div : ℝ) (g : Grad ℝ) (i j : Dir) : ℝ :=
  mu * (gradV g i j + gradV g j i - if i = j then 2 / dim * div else 0)

end EulerKokkos.Spec
