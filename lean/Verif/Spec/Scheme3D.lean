import Verif.Model.Hydro3D
import Verif.Spec.Scheme2D
import Verif.Lemmas.GhostFill

/-!
# Specification of the 3D hydro scheme on fields

One step of the 3D MUSCL-Hancock scheme as a function on fields; no memory, kernels or schedule.
The flag `zk` says whether the state above a z-face receives the gravity half-step kick, as it does
in all other directions: implementation versions 0 and 2 have `zk = true`, version 1 has
`zk = false`.
-/

namespace EulerKokkos

variable {R : Type} [RealOps R]

/-- a 3D field of states -/
abbrev Fld3 (R : Type) := Int → Int → Int → HS R
/-- a 3D gravity field -/
abbrev Grav3 (R : Type) := Int → Int → Int → R × R × R

namespace Spec

/-- primitive field -/
def prim3 (p : Params R) (u : Fld3 R) : Fld3 R :=
  fun i j k => (computePrimitives3 p.settings (u i j k)).1

/-- limited slopes of the field `q` in cell `(i,j,k)` -/
def slopes3 (p : Params R) (q : Fld3 R) (i j k : Int) : Slopes3 R :=
  slope3 p.settings (q i j k) (q (i + 1) j k) (q (i - 1) j k) (q i (j + 1) k) (q i (j - 1) k)
    (q i j (k + 1)) (q i j (k - 1)) ⟨HS.zero, HS.zero, HS.zero⟩

/-- velocity kick of half a time step of gravity -/
def kick3 (g : GravityParams) (dt : R) (gv : R × R × R) (q : HS R) : HS R :=
  if g.enabled && g.hancock_predictor_enabled then
    { q with u := q.u + lit (1/2) * dt * gv.1, v := q.v + lit (1/2) * dt * gv.2.1,
             w := q.w + lit (1/2) * dt * gv.2.2 }
  else q

/-- state reconstructed at a face half a time step later, without gravity -/
def trace3 (p : Params R) (dt : R) (q : Fld3 R) (f : Face) (i j k : Int) : HS R :=
  traceAlongDir3 p.settings (q i j k) (slopes3 p q i j k) (dt / p.dx) (dt / p.dy) (dt / p.dz) f

/-- the same with the gravity kick -/
def face3 (p : Params R) (g : GravityParams) (dt : R) (gf : Grav3 R) (q : Fld3 R) (f : Face)
    (i j k : Int) : HS R :=
  kick3 g dt (gf i j k) (trace3 p dt q f i j k)

/-- `dt/dx` times the flux through the left x-face of cell `(i,j,k)` -/
def fluxX3 (p : Params R) (g : GravityParams) (dt : R) (gf : Grav3 R) (q : Fld3 R)
    (i j k : Int) : HS R :=
  (riemannHydro3 p.settings p.riemannSolverType (face3 p g dt gf q .xmax (i - 1) j k)
    (face3 p g dt gf q .xmin i j k) HS.zero).smul (dt / p.dx)

/-- `dt/dy` times the flux through the left y-face -/
def fluxY3 (p : Params R) (g : GravityParams) (dt : R) (gf : Grav3 R) (q : Fld3 R)
    (i j k : Int) : HS R :=
  ((riemannHydro3 p.settings p.riemannSolverType (face3 p g dt gf q .ymax i (j - 1) k).swapUV
    (face3 p g dt gf q .ymin i j k).swapUV HS.zero).smul (dt / p.dy)).swapUV

/-- `dt/dz` times the flux through the left z-face -/
def fluxZ3 (zk : Bool) (p : Params R) (g : GravityParams) (dt : R) (gf : Grav3 R) (q : Fld3 R)
    (i j k : Int) : HS R :=
  ((riemannHydro3 p.settings p.riemannSolverType (face3 p g dt gf q .zmax i j (k - 1)).swapUW
    (if zk then face3 p g dt gf q .zmin i j k else trace3 p dt q .zmin i j k).swapUW
    HS.zero).smul (dt / p.dz)).swapUW

/-- new value of a cell from the fluxes of its six faces -/
def fluxUpdate3 (fx fy fz : Fld3 R) (u : HS R) (i j k : Int) : HS R :=
  (((((u.add (fx i j k)).sub (fx (i + 1) j k)).add (fy i j k)).sub (fy i (j + 1) k)).add
    (fz i j k)).sub (fz i j (k + 1))

/-- gravity source term -/
def gravity3 (dt : R) (gv : R × R × R) (uOld u : HS R) : HS R :=
  let mx := u.u + lit (1/2) * dt * gv.1 * (uOld.d + u.d)
  let my := u.v + lit (1/2) * dt * gv.2.1 * (uOld.d + u.d)
  let mz := u.w + lit (1/2) * dt * gv.2.2 * (uOld.d + u.d)
  let e0 := lit (1/2) * (u.u * u.u + u.v * u.v + u.w * u.w) / u.d
  let e1 := lit (1/2) * (mx * mx + my * my + mz * mz) / u.d
  { u with u := mx, v := my, w := mz, p := u.p + (e1 - e0) }

/-- One step of the scheme: interior cells are updated, ghost cells are copied. -/
def step3 (zk : Bool) (p : Params R) (g : GravityParams) (dt : R) (gf : Grav3 R) (u : Fld3 R) :
    Fld3 R :=
  fun i j k =>
    if interior3 p i j k then
      let q := prim3 p u
      let v := fluxUpdate3 (fluxX3 p g dt gf q) (fluxY3 p g dt gf q) (fluxZ3 zk p g dt gf q)
        (u i j k) i j k
      if g.enabled then gravity3 dt (gf i j k) (u i j k) v else v
    else u i j k

/-- The field with its ghost cells filled (hydro). -/
def fill3 (p : Params R) (u : Fld3 R) : Fld3 R := fun i j k =>
  let s := u (srcCoord p.boundary_type_xmin p.boundary_type_xmax p.nx p.ghostWidth i)
    (srcCoord p.boundary_type_ymin p.boundary_type_ymax p.ny p.ghostWidth j)
    (srcCoord p.boundary_type_zmin p.boundary_type_zmax p.nz p.ghostWidth k)
  ⟨s.d, s.p,
   signed (flips p.boundary_type_xmin p.boundary_type_xmax p.nx p.ghostWidth i) s.u,
   signed (flips p.boundary_type_ymin p.boundary_type_ymax p.ny p.ghostWidth j) s.v,
   signed (flips p.boundary_type_zmin p.boundary_type_zmax p.nz p.ghostWidth k) s.w⟩

/-- One complete time step: fill the ghost cells, then apply the scheme. -/
def fullStep3 (zk : Bool) (p : Params R) (g : GravityParams) (dt : R) (gf : Grav3 R)
    (u : Fld3 R) : Fld3 R :=
  step3 zk p g dt gf (fill3 p u)

/-- Parameters for which the 3D slopes and flux are defined. -/
structure Valid3 (p : Params R) : Prop where
  slope : RealOps.beq p.settings.slope_type (lit 0 : R) = true ∨
    RealOps.beq p.settings.slope_type (lit 1 : R) = true ∨
    RealOps.beq p.settings.slope_type (lit 2 : R) = true
  riemann : p.riemannSolverType ≠ .hll ∧ p.riemannSolverType ≠ .hlld

end Spec
end EulerKokkos
