import Verif.Spec.RiemannProblem
import Mathlib.Analysis.Calculus.Deriv.Mul
import Mathlib.Analysis.Calculus.Deriv.Add

/-!
# Specification: solutions of the Euler equations and the Hancock predictor

`EulerAt γ W x y z t …` says that the field `W` of primitive states has the given partial derivatives at
the point `(x, y, z, t)` and satisfies there the Euler equations in conservation form,
`∂ₜ U(W) + ∂ₓ F(W) + ∂_y G(W) + ∂_z H(W) = 0`.
-/

namespace EulerKokkos.Spec

/-- component-wise derivative of a state-valued function of one variable -/
structure HasDerivHS (f : ℝ → HS ℝ) (f' : HS ℝ) (x : ℝ) : Prop where
  d : HasDerivAt (fun t => (f t).d) f'.d x
  p : HasDerivAt (fun t => (f t).p) f'.p x
  u : HasDerivAt (fun t => (f t).u) f'.u x
  v : HasDerivAt (fun t => (f t).v) f'.v x
  w : HasDerivAt (fun t => (f t).w) f'.w x

/-- flux of the Euler equations along `y` -/
noncomputable def eulerFluxY (γ : ℝ) (q : HS ℝ) : HS ℝ :=
  ⟨q.d * q.v, q.v * ((toCons γ q).p + q.p), q.d * q.u * q.v, q.d * q.v ^ 2 + q.p, q.d * q.v * q.w⟩

/-- flux of the Euler equations along `z` -/
noncomputable def eulerFluxZ (γ : ℝ) (q : HS ℝ) : HS ℝ :=
  ⟨q.d * q.w, q.w * ((toCons γ q).p + q.p), q.d * q.u * q.w, q.d * q.v * q.w, q.d * q.w ^ 2 + q.p⟩

/-- the field `W` has the partial derivatives `gx, gy, gz, gt` at `(x, y, z, t)` and satisfies the
Euler equations there -/
structure EulerAt (γ : ℝ) (W : ℝ → ℝ → ℝ → ℝ → HS ℝ) (x y z t : ℝ) (gx gy gz gt : HS ℝ) : Prop where
  dx : HasDerivHS (fun ξ => W ξ y z t) gx x
  dy : HasDerivHS (fun η => W x η z t) gy y
  dz : HasDerivHS (fun ζ => W x y ζ t) gz z
  dt : HasDerivHS (fun τ => W x y z τ) gt t
  balance : ∃ C X Y Z : HS ℝ,
    HasDerivHS (fun τ => toCons γ (W x y z τ)) C t ∧
    HasDerivHS (fun ξ => eulerFlux γ (W ξ y z t)) X x ∧
    HasDerivHS (fun η => eulerFluxY γ (W x η z t)) Y y ∧
    HasDerivHS (fun ζ => eulerFluxZ γ (W x y ζ t)) Z z ∧
    C + X + Y + Z = ⟨0, 0, 0, 0, 0⟩

end EulerKokkos.Spec
