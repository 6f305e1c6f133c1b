import Verif.Model.Params
import Verif.Core.RealOps

/-!
# Specification of the ghost-cell fill

Along one axis with `n` interior cells at `gw, …, gw+n-1`, a ghost cell takes its value from a
*source* interior cell, with a sign.
-/

namespace EulerKokkos.Spec

variable {R : Type} [RealOps R]

/-- The interior coordinate a coordinate `c` takes its value from (interior cells: themselves). -/
def srcCoord (bcMin bcMax : BC) (n gw c : Int) : Int :=
  if c < gw then
    match bcMin with
    | .dirichlet => 2 * gw - 1 - c        -- mirror about the face between gw-1 and gw
    | .neumann => gw                      -- nearest interior cell
    | _ => c + n                          -- one period away
  else if gw + n ≤ c then
    match bcMax with
    | .dirichlet => 2 * (gw + n) - 1 - c  -- mirror about the face between gw+n-1 and gw+n
    | .neumann => gw + n - 1
    | _ => c - n
  else c

/-- Does the value of a *normal* component change sign at coordinate `c`? -/
def flips (bcMin bcMax : BC) (n gw c : Int) : Prop :=
  (c < gw ∧ bcMin = .dirichlet) ∨ (gw + n ≤ c ∧ bcMax = .dirichlet)

instance (a b : BC) (n gw c : Int) : Decidable (flips a b n gw c) := by
  unfold flips; infer_instance

/-- Variables normal to the x, y, z axis: momentum, and magnetic field in MHD runs. -/
def normalVar (mhd : Bool) (axis v : Nat) : Prop :=
  v = IU + axis ∨ (mhd = true ∧ v = IA + axis)

instance (mhd : Bool) (axis v : Nat) : Decidable (normalVar mhd axis v) := by
  unfold normalVar; infer_instance

/-- negate on demand -/
def signed (b : Prop) [Decidable b] (x : R) : R := if b then -x else x

/-- value of variable `v` in cell `(i,j)` after the 2D ghost fill of field `u` -/
def ghost2 (mhd : Bool) (p : Params R) (u : Int → Int → Nat → R) (i j : Int) (v : Nat) : R :=
  signed (normalVar mhd 1 v ∧ flips p.boundary_type_ymin p.boundary_type_ymax p.ny p.ghostWidth j)
   (signed (normalVar mhd 0 v ∧ flips p.boundary_type_xmin p.boundary_type_xmax p.nx p.ghostWidth i)
    (u (srcCoord p.boundary_type_xmin p.boundary_type_xmax p.nx p.ghostWidth i)
       (srcCoord p.boundary_type_ymin p.boundary_type_ymax p.ny p.ghostWidth j) v))

/-- value of variable `v` in cell `(i,j,k)` after the 3D ghost fill of field `u` -/
def ghost3 (mhd : Bool) (p : Params R) (u : Int → Int → Int → Nat → R) (i j k : Int) (v : Nat) :
    R :=
  signed (normalVar mhd 2 v ∧ flips p.boundary_type_zmin p.boundary_type_zmax p.nz p.ghostWidth k)
   (signed (normalVar mhd 1 v ∧ flips p.boundary_type_ymin p.boundary_type_ymax p.ny p.ghostWidth j)
    (signed (normalVar mhd 0 v ∧
      flips p.boundary_type_xmin p.boundary_type_xmax p.nx p.ghostWidth i)
    (u (srcCoord p.boundary_type_xmin p.boundary_type_xmax p.nx p.ghostWidth i)
       (srcCoord p.boundary_type_ymin p.boundary_type_ymax p.ny p.ghostWidth j)
       (srcCoord p.boundary_type_zmin p.boundary_type_zmax p.nz p.ghostWidth k) v)))

/-- The grid is thick enough for a boundary condition to find its source inside the domain:
`neumann` always; the others need `n ≥ gw`. -/
def BCok (bc : BC) (n gw : Int) : Prop := bc = .neumann ∨ gw ≤ n

/-- The two laws of `·*(±1.0)` used by the ghost fill; true of reals and of IEEE `double`
(up to NaN payloads). -/
structure SignLaws (R : Type) [RealOps R] : Prop where
  mul_one : ∀ x : R, x * lit 1 = x
  mul_neg_one : ∀ x : R, x * lit (-1) = -x

end EulerKokkos.Spec
