import Verif.Model.Hydro2D
import Verif.Spec.Boundary

/-!
# Specification of the 2D hydro scheme on fields

What one step of the 2D MUSCL-Hancock scheme computes, as a function from a conservative field
`u : Int → Int → HS R` (ghost cells filled) to the new field.  No memory, no kernels, no schedule.
2D states have four components; `trunc` resets the unused fifth one.
-/

namespace EulerKokkos

variable {R : Type} [RealOps R]

/-- a 2D field of states -/
abbrev Fld2 (R : Type) := Int → Int → HS R
/-- a 2D gravity field (x component, y component) -/
abbrev Grav2 (R : Type) := Int → Int → R × R

namespace Spec

/-- primitive field -/
def prim2 (p : Params R) (u : Fld2 R) : Fld2 R :=
  fun i j => (computePrimitives2 p.settings (u i j)).1

/-- limited slopes of the field `q` in cell `(i,j)` -/
def slopes2 (p : Params R) (q : Fld2 R) (i j : Int) : HS R × HS R :=
  slope2 p.settings (q i j) (q (i + 1) j) (q (i - 1) j) (q i (j + 1)) (q i (j - 1)) HS.zero HS.zero

/-- velocity kick of half a time step of gravity -/
def kick2 (g : GravityParams) (dt : R) (gxy : R × R) (q : HS R) : HS R :=
  if g.enabled && g.hancock_predictor_enabled then
    { q with u := q.u + lit (1/2) * dt * gxy.1, v := q.v + lit (1/2) * dt * gxy.2 }
  else q

/-- state reconstructed at a face of cell `(i,j)` and half a time step later -/
def face2 (p : Params R) (g : GravityParams) (dt : R) (gf : Grav2 R) (q : Fld2 R) (f : Face)
    (i j : Int) : HS R :=
  kick2 g dt (gf i j) (traceAlongDir2 p.settings (q i j) (slopes2 p q i j).1 (slopes2 p q i j).2
    (dt / p.dx) (dt / p.dy) f)

/-- `dt/dx` times the flux through the left x-face of cell `(i,j)` -/
def fluxX2 (p : Params R) (g : GravityParams) (dt : R) (gf : Grav2 R) (q : Fld2 R) (i j : Int) :
    HS R :=
  ((riemannHydro2 p.settings p.riemannSolverType (face2 p g dt gf q .xmax (i - 1) j)
    (face2 p g dt gf q .xmin i j) HS.zero).smul (dt / p.dx)).trunc

/-- `dt/dy` times the flux through the lower y-face of cell `(i,j)` -/
def fluxY2 (p : Params R) (g : GravityParams) (dt : R) (gf : Grav2 R) (q : Fld2 R) (i j : Int) :
    HS R :=
  ((riemannHydro2 p.settings p.riemannSolverType (face2 p g dt gf q .ymax i (j - 1)).swapUV
    (face2 p g dt gf q .ymin i j).swapUV HS.zero).smul (dt / p.dy)).swapUV.trunc

/-- new value of a cell from the fluxes of its four faces -/
def fluxUpdate2 (fx fy : Fld2 R) (u : HS R) (i j : Int) : HS R :=
  ((((u.add (fx i j)).sub (fx (i + 1) j)).add (fy i j)).sub (fy i (j + 1))).trunc

/-- gravity source term: momentum kick with the mean density, work added to the energy -/
def gravity2 (p : Params R) (dt : R) (gxy : R × R) (uOld u : HS R) : HS R :=
  let rhoNew := fmax p.settings.smallr u.d
  let mx := u.u + lit (1/2) * dt * gxy.1 * (uOld.d + rhoNew)
  let my := u.v + lit (1/2) * dt * gxy.2 * (uOld.d + rhoNew)
  let e0 := lit (1/2) * (u.u * u.u + u.v * u.v) / rhoNew
  let e1 := lit (1/2) * (mx * mx + my * my) / rhoNew
  { u with u := mx, v := my, p := u.p + (e1 - e0) }

/-- is `(i,j)` an interior cell -/
def interior2 (p : Params R) (i j : Int) : Prop :=
  p.ghostWidth ≤ i ∧ i < p.ghostWidth + p.nx ∧ p.ghostWidth ≤ j ∧ j < p.ghostWidth + p.ny

instance (p : Params R) (i j : Int) : Decidable (interior2 p i j) := by
  unfold interior2; infer_instance

/-- is `(i,j)` a cell of the grid (interior or ghost) -/
def inGrid2 (p : Params R) (i j : Int) : Prop :=
  0 ≤ i ∧ i < p.nx + 2 * p.ghostWidth ∧ 0 ≤ j ∧ j < p.ny + 2 * p.ghostWidth

/-- One step of the scheme: interior cells are updated, ghost cells are copied. -/
def step2 (p : Params R) (g : GravityParams) (dt : R) (gf : Grav2 R) (u : Fld2 R) : Fld2 R :=
  fun i j =>
    if interior2 p i j then
      let q := prim2 p u
      let v := fluxUpdate2 (fluxX2 p g dt gf q) (fluxY2 p g dt gf q) (u i j) i j
      if g.enabled then gravity2 p dt (gf i j) (u i j) v else v
    else u i j

/-- The field with its ghost cells filled (hydro): each ghost cell takes the state of its source
cell, with the momentum normal to a reflecting face negated. -/
def fill2 (p : Params R) (u : Fld2 R) : Fld2 R := fun i j =>
  let s := u (srcCoord p.boundary_type_xmin p.boundary_type_xmax p.nx p.ghostWidth i)
    (srcCoord p.boundary_type_ymin p.boundary_type_ymax p.ny p.ghostWidth j)
  ⟨s.d, s.p,
   signed (flips p.boundary_type_xmin p.boundary_type_xmax p.nx p.ghostWidth i) s.u,
   signed (flips p.boundary_type_ymin p.boundary_type_ymax p.ny p.ghostWidth j) s.v, lit 0⟩

/-- One complete time step: fill the ghost cells, then apply the scheme. -/
def fullStep2 (p : Params R) (g : GravityParams) (dt : R) (gf : Grav2 R) (u : Fld2 R) : Fld2 R :=
  step2 p g dt gf (fill2 p u)

/-- Parameters for which the slopes and the 2D flux are defined: `slope_type` 0, 1 or 2, and a
Riemann solver of the hydro wrapper. -/
structure Valid2 (p : Params R) : Prop where
  slope : RealOps.beq p.settings.slope_type (lit 0 : R) = true ∨
    RealOps.beq p.settings.slope_type (lit 1 : R) = true ∨
    RealOps.beq p.settings.slope_type (lit 2 : R) = true
  riemann : p.riemannSolverType ≠ .hlld

end Spec
end EulerKokkos
