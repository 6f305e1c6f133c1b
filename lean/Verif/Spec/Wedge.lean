import Verif.Model.Params
import Verif.Spec.Scheme2D
import Verif.Spec.Problems

/-!
# Specification: the border of the double Mach reflection

A plane shock comes in from the left and meets a wall that starts at `x_f` on the lower side.
-/

namespace EulerKokkos.Spec

variable {R : Type} [RealOps R]

/-- the state seen in a mirror lying along x -/
def mirrorY (s : HS R) : HS R := { s with v := -s.v }

/-- a row extended beyond the left side (inflow state `s`) and the right side (last cell of the row) -/
def wedgeRow (p : Params R) (s : HS R) (u : Fld2 R) : Fld2 R := fun i j =>
  if i < p.ghostWidth then s
  else if p.ghostWidth + p.nx ≤ i then u (p.ghostWidth + p.nx - 1) j
  else u i j

open Classical in
/-- the field with its ghost cells filled.  Below the domain: inflow state `s` in the columns `foot`, mirror
image elsewhere.  Above the domain: inflow state in the cells `front`, last row elsewhere. -/
noncomputable def wedgeFilled (p : Params R) (foot : Int → Prop) (front : Int → Int → Prop) (s : HS R)
    (u : Fld2 R) : Fld2 R := fun i j =>
  if j < p.ghostWidth then
    if foot i then s else mirrorY (wedgeRow p s u i (2 * p.ghostWidth - 1 - j))
  else if p.ghostWidth + p.ny ≤ j then
    if front i j then s else wedgeRow p s u i (p.ghostWidth + p.ny - 1)
  else wedgeRow p s u i j

/-- At time `t` the point `(x, y)` is behind a front that makes the angle `α` with the x axis, passed through
`(x_f, 0)` at time `0` and moves with speed `S` along its normal `(sin α, -cos α)`. -/
noncomputable def Behind (x_f α S t x y : ℝ) : Prop :=
  (x - x_f) * Real.sin α + y * (-Real.cos α) < S * t

/-- flux of the Euler equations through a face with unit normal `(nx, ny)`, of the fluid with primitive state
`q` -/
noncomputable def fluxThrough (γ nx ny : ℝ) (q : HS ℝ) : HS ℝ :=
  let un := q.u * nx + q.v * ny
  ⟨q.d * un, ((toCons γ q).p + q.p) * un, q.d * q.u * un + q.p * nx, q.d * q.v * un + q.p * ny,
    q.d * q.w * un⟩

/-- Rankine–Hugoniot: the states `a` and `b` are the two sides of a discontinuity that moves with speed `S` in
the direction `(nx, ny)` -/
noncomputable def Jump (γ nx ny S : ℝ) (a b : HS ℝ) : Prop :=
  ∀ v < 5, (fluxThrough γ nx ny a).get v - (fluxThrough γ nx ny b).get v =
    S * ((toCons γ a).get v - (toCons γ b).get v)

/-- the file leaves the number `section.key` to the program -/
def Unset (F : FloatLib ℝ) (c : Ini.Reader) (sec key : String) : Prop :=
  ∀ d, c.getFloat F.strtof sec.toList key.toList d = d

/-- `double` and `float` literals and conversions are exact -/
structure ExactLiterals (F : FloatLib ℝ) (M : MathLib ℝ) : Prop where
  single : ∀ q, F.single q = (q : ℝ)
  narrow : ∀ x, M.narrow x = x

end EulerKokkos.Spec
