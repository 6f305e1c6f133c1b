import Verif.Spec.MhdRiemann
import Mathlib.Analysis.Calculus.Deriv.Mul
import Mathlib.Analysis.Calculus.Deriv.Add

/-!
# Specification: solutions of the ideal MHD equations, and samples of a field on the staggered mesh

`MhdAt γ W x y z t …` says that the field `W` of primitive states has the given partial derivatives at the
point `(x, y, z, t)`, that its magnetic field is divergence free there, and that it satisfies there the ideal
MHD equations in conservation form, `∂ₜ U(W) + ∂ₓ F(W) + ∂_y G(W) + ∂_z H(W) = 0`.
-/

namespace EulerKokkos.Spec

/-- component-wise derivative of a state-valued function of one variable -/
structure HasDerivMS (f : ℝ → MS ℝ) (f' : MS ℝ) (x : ℝ) : Prop where
  d : HasDerivAt (fun t => (f t).d) f'.d x
  p : HasDerivAt (fun t => (f t).p) f'.p x
  u : HasDerivAt (fun t => (f t).u) f'.u x
  v : HasDerivAt (fun t => (f t).v) f'.v x
  w : HasDerivAt (fun t => (f t).w) f'.w x
  a : HasDerivAt (fun t => (f t).a) f'.a x
  b : HasDerivAt (fun t => (f t).b) f'.b x
  c : HasDerivAt (fun t => (f t).c) f'.c x

/-- flux of ideal MHD along `y` (`mhdFlux` is the one along `x`) -/
noncomputable def mhdFluxY (γ : ℝ) (q : MS ℝ) : MS ℝ :=
  ⟨q.d * q.v,
   (mhdEnergy γ q + totalPressure q) * q.v - q.b * (q.u * q.a + q.v * q.b + q.w * q.c),
   q.d * q.u * q.v - q.a * q.b,
   q.d * q.v ^ 2 + totalPressure q - q.b ^ 2,
   q.d * q.v * q.w - q.b * q.c,
   q.a * q.v - q.b * q.u,
   0,
   q.c * q.v - q.b * q.w⟩

/-- flux of ideal MHD along `z` -/
noncomputable def mhdFluxZ (γ : ℝ) (q : MS ℝ) : MS ℝ :=
  ⟨q.d * q.w,
   (mhdEnergy γ q + totalPressure q) * q.w - q.c * (q.u * q.a + q.v * q.b + q.w * q.c),
   q.d * q.u * q.w - q.a * q.c,
   q.d * q.v * q.w - q.b * q.c,
   q.d * q.w ^ 2 + totalPressure q - q.c ^ 2,
   q.a * q.w - q.c * q.u,
   q.b * q.w - q.c * q.v,
   0⟩

/-- the field `W` has the partial derivatives `gx, gy, gz, gt` at `(x, y, z, t)`, is divergence free and
satisfies the ideal MHD equations there -/
structure MhdAt (γ : ℝ) (W : ℝ → ℝ → ℝ → ℝ → MS ℝ) (x y z t : ℝ) (gx gy gz gt : MS ℝ) : Prop where
  dx : HasDerivMS (fun ξ => W ξ y z t) gx x
  dy : HasDerivMS (fun η => W x η z t) gy y
  dz : HasDerivMS (fun ζ => W x y ζ t) gz z
  dt : HasDerivMS (fun τ => W x y z τ) gt t
  divB : gx.a + gy.b + gz.c = 0
  balance : ∃ C X Y Z : MS ℝ,
    HasDerivMS (fun τ => mhdCons γ (W x y z τ)) C t ∧
    HasDerivMS (fun ξ => mhdFlux γ (W ξ y z t)) X x ∧
    HasDerivMS (fun η => mhdFluxY γ (W x η z t)) Y y ∧
    HasDerivMS (fun ζ => mhdFluxZ γ (W x y ζ t)) Z z ∧
    C + X + Y + Z = ⟨0, 0, 0, 0, 0, 0, 0, 0⟩

/-- at time `t` the field `W` is an affine function of the position, with gradients `gx, gy, gz` -/
def AffineAt (W : ℝ → ℝ → ℝ → ℝ → MS ℝ) (x y z t : ℝ) (gx gy gz : MS ℝ) : Prop :=
  ∀ ξ η ζ, W ξ η ζ t = W x y z t + (ξ - x) • gx + (η - y) • gy + (ζ - z) • gz

/-- `q` holds the values of `f` at cell centres, `u` those of the magnetic field at the centres of the left,
lower and back faces; `(x, y, z)` is the centre of cell `(i, j, k)` and `dx, dy, dz` are the mesh sizes -/
structure Samples3 (f : ℝ → ℝ → ℝ → MS ℝ) (dx dy dz : ℝ) (q u : Int → Int → Int → MS ℝ)
    (i j k : Int) (x y z : ℝ) : Prop where
  centre : ∀ a b c : Int, q (i + a) (j + b) (k + c) = f (x + a * dx) (y + b * dy) (z + c * dz)
  faceX : ∀ a b c : Int,
    (u (i + a) (j + b) (k + c)).a = (f (x + (a - 1/2) * dx) (y + b * dy) (z + c * dz)).a
  faceY : ∀ a b c : Int,
    (u (i + a) (j + b) (k + c)).b = (f (x + a * dx) (y + (b - 1/2) * dy) (z + c * dz)).b
  faceZ : ∀ a b c : Int,
    (u (i + a) (j + b) (k + c)).c = (f (x + a * dx) (y + b * dy) (z + (c - 1/2) * dz)).c

/-- two-dimensional version; the `z` component of the field is only used at cell centres -/
structure Samples2 (f : ℝ → ℝ → MS ℝ) (dx dy : ℝ) (q u : Int → Int → MS ℝ) (i j : Int) (x y : ℝ) :
    Prop where
  centre : ∀ a b : Int, q (i + a) (j + b) = f (x + a * dx) (y + b * dy)
  faceX : ∀ a b : Int, (u (i + a) (j + b)).a = (f (x + (a - 1/2) * dx) (y + b * dy)).a
  faceY : ∀ a b : Int, (u (i + a) (j + b)).b = (f (x + a * dx) (y + (b - 1/2) * dy)).b

/-- density raised to `r`, then pressure raised to `P` (a function of the resulting density) -/
noncomputable def raised (r : ℝ) (P : ℝ → ℝ) (q : MS ℝ) : MS ℝ :=
  { q with d := max r q.d, p := max (P (max r q.d)) q.p }

end EulerKokkos.Spec
