import Verif.Spec.Euler
import Verif.Spec.Scheme3D
import Verif.Model.MhdState

/-!
# Specification: a fluid without magnetic field

The same gas run by a hydro solver and, with zero magnetic field, by an MHD solver.
-/

namespace EulerKokkos

/-- the MHD state of a fluid without magnetic field -/
def fluid (q : HS ℝ) : MS ℝ := ⟨q.d, q.p, q.u, q.v, q.w, 0, 0, 0⟩

/-- density and pressure of a state are above the floors of the solvers -/
structure AboveFloors (s : Settings ℝ) (q : HS ℝ) : Prop where
  d : s.smallr ≤ q.d
  p : s.smallp * q.d ≤ q.p

/-- the hydro parameters `p` and MHD parameters `q` describe the same run of a fluid without magnetic field:
same cells, boundary conditions, physics and options; the MHD solver has one more ghost layer (2D) -/
structure Spec.NoField (p q : Params ℝ) : Prop where
  nx : q.nx = p.nx
  ny : q.ny = p.ny
  gw : q.ghostWidth = p.ghostWidth + 1
  dx : q.dx = p.dx
  dy : q.dy = p.dy
  xmin : q.boundary_type_xmin = p.boundary_type_xmin
  xmax : q.boundary_type_xmax = p.boundary_type_xmax
  ymin : q.boundary_type_ymin = p.boundary_type_ymin
  ymax : q.boundary_type_ymax = p.boundary_type_ymax
  settings : q.settings = p.settings
  tEnd : q.tEnd = p.tEnd
  nOutput : q.nOutput = p.nOutput
  nStepmax : q.nStepmax = p.nStepmax
  good : GoodSettings p.settings
  cIso : p.settings.cIso ≤ 0
  slope : p.settings.slope_type = 1 ∨ p.settings.slope_type = 2

/-- the same in 3D -/
structure Spec.NoField3 (p q : Params ℝ) : Prop extends NoField p q where
  nz : q.nz = p.nz
  dz : q.dz = p.dz
  zmin : q.boundary_type_zmin = p.boundary_type_zmin
  zmax : q.boundary_type_zmax = p.boundary_type_zmax

/-- the cells whose faces take part in the update of the interior -/
def Spec.near3 (p : Params ℝ) (i j k : Int) : Prop :=
  (p.ghostWidth - 1 ≤ i ∧ i ≤ p.ghostWidth + p.nx) ∧ (p.ghostWidth - 1 ≤ j ∧ j ≤ p.ghostWidth + p.ny) ∧
    (p.ghostWidth - 1 ≤ k ∧ k ≤ p.ghostWidth + p.nz)

end EulerKokkos
