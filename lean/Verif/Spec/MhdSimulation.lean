import Verif.Spec.MhdScheme3D
import Verif.Spec.MhdRiemann
import Verif.Spec.Simulation

/-!
# Specification: the MHD numerical methods

The CFL time step from the fast magnetosonic speeds of the primitive states, and the MHD schemes as
`Method`s of the sequential algorithm `Spec.Sim`.
-/

namespace EulerKokkos.Spec

/-- inverse time step a primitive state asks for (2D): fastest wave along each axis over the spacing -/
noncomputable def mhdRate2 (γ dx dy : ℝ) (q : MS ℝ) : ℝ :=
  (|q.u| + fastSpeed γ q.a q) / dx + (|q.v| + fastSpeed γ q.b q) / dy

/-- inverse time step a primitive state asks for (3D) -/
noncomputable def mhdRate3 (γ dx dy dz : ℝ) (q : MS ℝ) : ℝ :=
  (|q.u| + fastSpeed γ q.a q) / dx + (|q.v| + fastSpeed γ q.b q) / dy +
    (|q.w| + fastSpeed γ q.c q) / dz

/-- the MHD CFL time step of a field: `cfl` over the largest rate of the interior cells (2D); the
cell-centred field of the last cells needs one ghost value, hence the fill -/
noncomputable def cflDtM2 (p : Params ℝ) (u : FldM2 ℝ) : ℝ :=
  p.settings.cfl / sSup {r | ∃ i j, interior2 p i j ∧
    r = mhdRate2 p.settings.gamma0 p.dx p.dy (primM2 p (fillM2 p u) i j)}

/-- the MHD CFL time step of a field (3D) -/
noncomputable def cflDtM3 (p : Params ℝ) (u : FldM3 ℝ) : ℝ :=
  p.settings.cfl / sSup {r | ∃ i j k, interior3 p i j k ∧
    r = mhdRate3 p.settings.gamma0 p.dx p.dy p.dz (primM3 p (fillM3 p u) i j k)}

/-- the 2D MHD method -/
noncomputable def mhd2 (p : Params ℝ) : Method (FldM2 ℝ) where
  cflDt := cflDtM2 p
  advance dt u := fullStepM2 p dt u

/-- the 3D MHD method -/
noncomputable def mhd3 (p : Params ℝ) : Method (FldM3 ℝ) where
  cflDt := cflDtM3 p
  advance dt u := fullStepM3 p dt u

/-- the state a saved view shows in a cell -/
def shownM (data : Loc Unit → ℝ) (i j k : Int) : MS ℝ :=
  ⟨data ⟨(), i, j, k, ID⟩, data ⟨(), i, j, k, IP⟩, data ⟨(), i, j, k, IU⟩, data ⟨(), i, j, k, IV⟩,
   data ⟨(), i, j, k, IW⟩, data ⟨(), i, j, k, IA⟩, data ⟨(), i, j, k, IB⟩, data ⟨(), i, j, k, IC⟩⟩

/-- the saved view shows the field `u` in every interior cell (2D) -/
def ShowsM2 (p : Params ℝ) (data : Loc Unit → ℝ) (u : FldM2 ℝ) : Prop :=
  ∀ i j, interior2 p i j → shownM data i j 0 = u i j

/-- the saved view shows the field `u` in every interior cell (3D) -/
def ShowsM3 (p : Params ℝ) (data : Loc Unit → ℝ) (u : FldM3 ℝ) : Prop :=
  ∀ i j k, interior3 p i j k → shownM data i j k = u i j k

end EulerKokkos.Spec
