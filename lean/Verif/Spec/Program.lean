import Verif.Model.Program
import Verif.Spec.Simulation
import Verif.Spec.Scheme2D
import Verif.Spec.Scheme3D
import Verif.Spec.Boundary
import Verif.Spec.Problems
import Verif.Spec.MhdProblems
import Verif.Spec.MhdScheme2D
import Verif.Spec.MhdScheme3D

/-!
# Ordinary parameter files, and the field and gravity a run starts from
-/

namespace EulerKokkos.Spec

/-- the file sets the key, whatever default the reader of the key has -/
def Sets (c : Ini.Reader) (section_ key value : String) : Prop :=
  ∀ d, c.getString section_.toList key.toList d = value.toList

/-- a non-empty box, ordinary physical constants, log lines every so many iterations -/
structure OrdinaryBox (p : Params ℝ) : Prop where
  x : p.xmin < p.xmax
  y : p.ymin < p.ymax
  z : p.zmin < p.zmax
  gamma : 1 < p.settings.gamma0
  smallr : 0 < p.settings.smallr
  smallc : 0 < p.settings.smallc
  cfl : 0 < p.settings.cfl
  nlog : p.nlog ≠ 0

/-- values the 2D hydro solver is meant for -/
structure Ordinary2 (p : Params ℝ) : Prop extends OrdinaryBox p where
  nx : 2 ≤ p.nx
  ny : 2 ≤ p.ny
  nz : 1 ≤ p.nz
  slope : p.settings.slope_type = 0 ∨ p.settings.slope_type = 1 ∨ p.settings.slope_type = 2
  riemann : p.riemannSolverType ≠ .hlld

/-- values the 3D hydro solver is meant for -/
structure Ordinary3 (p : Params ℝ) : Prop extends OrdinaryBox p where
  nx : 2 ≤ p.nx
  ny : 2 ≤ p.ny
  nz : 2 ≤ p.nz
  slope : p.settings.slope_type = 0 ∨ p.settings.slope_type = 1 ∨ p.settings.slope_type = 2
  riemann : p.riemannSolverType ≠ .hll ∧ p.riemannSolverType ≠ .hlld

/-- values the 2D MHD solver is meant for -/
structure OrdinaryM2 (p : Params ℝ) : Prop extends OrdinaryBox p where
  nx : 3 ≤ p.nx
  ny : 3 ≤ p.ny
  nz : 1 ≤ p.nz
  slope : p.settings.slope_type = 1 ∨ p.settings.slope_type = 2
  riemann : p.riemannSolverType = .hll ∨ p.riemannSolverType = .llf ∨ p.riemannSolverType = .hlld

/-- values the 3D MHD solver is meant for -/
structure OrdinaryM3 (p : Params ℝ) : Prop extends OrdinaryBox p where
  nx : 3 ≤ p.nx
  ny : 3 ≤ p.ny
  nz : 3 ≤ p.nz
  slope : p.settings.slope_type = 1 ∨ p.settings.slope_type = 2
  riemann : p.riemannSolverType = .hll ∨ p.riemannSolverType = .llf ∨ p.riemannSolverType = .hlld

/-- the conservative variables of the prescribed state at the cell centres, plane -/
noncomputable def initialField2 (p : Params ℝ) (q : HydroProblem ℝ) : Fld2 ℝ := fun i j =>
  toCons p.settings.gamma0 (prescribed2 p (fun _ => 0) (centre p.xmin p.dx p.ghostWidth i)
    (centre p.ymin p.dy p.ghostWidth j) q)

/-- the conservative variables of the prescribed state at the cell centres, space -/
noncomputable def initialField3 (p : Params ℝ) (q : HydroProblem ℝ) : Fld3 ℝ := fun i j k =>
  toCons p.settings.gamma0 (prescribed3 p (fun _ => 0) (centre p.xmin p.dx p.ghostWidth i)
    (centre p.ymin p.dy p.ghostWidth j) (centre p.zmin p.dz p.ghostWidth k) q)

/-- the prescribed magnetised state, plane -/
noncomputable def initialFieldM2 (p : Params ℝ) (q : MhdProblem ℝ) : FldM2 ℝ := fun i j =>
  mhdCons p.settings.gamma0 (prescribedM2 p (fun _ => 0) (centre p.xmin p.dx p.ghostWidth i)
    (centre p.ymin p.dy p.ghostWidth j) q)

/-- the prescribed magnetised state, space -/
noncomputable def initialFieldM3 (p : Params ℝ) (q : MhdProblem ℝ) : FldM3 ℝ := fun i j k =>
  mhdCons p.settings.gamma0 (prescribedM3 p (centre p.xmin p.dx p.ghostWidth i)
    (centre p.ymin p.dy p.ghostWidth j) (centre p.zmin p.dz p.ghostWidth k) q)

/-- problems whose initial state in the plane is the prescribed one in every interior cell, and does not depend
on random numbers -/
def StartsPrescribed2 (p : Params ℝ) : MhdProblem ℝ → Prop
  | .orszagTang _ => True
  | .kelvinHelmholtz q => q.p_rand = false ∧ (q.p_sine_rob = true ∨ q.p_sine = true)
  | q => ∀ i j, interior2 p i j →
      FaithfulM2 p (centre p.xmin p.dx p.ghostWidth i) (centre p.ymin p.dy p.ghostWidth j) q

/-- the same in space -/
def StartsPrescribed3 (p : Params ℝ) : MhdProblem ℝ → Prop
  | .orszagTang q => q.vortex_dir = 0 ∨ q.vortex_dir = 1 ∨ q.vortex_dir = 2
  | q => ∀ i j k, interior3 p i j k →
      FaithfulM3 p (centre p.xmin p.dx p.ghostWidth i) (centre p.ymin p.dy p.ghostWidth j) q

open Classical in
/-- the gravity field: uniform on the grid for the Rayleigh-Taylor problem, zero for the others -/
noncomputable def gravityField2 (p : Params ℝ) : HydroProblem ℝ → Grav2 ℝ
  | .rayleighTaylor r => fun i j => if inGrid2 p i j then (r.gx, r.gy) else (0, 0)
  | _ => fun _ _ => (0, 0)

open Classical in
/-- the same in space -/
noncomputable def gravityField3 (p : Params ℝ) : HydroProblem ℝ → Grav3 ℝ
  | .rayleighTaylor r => fun i j k => if inGrid3 p i j k then (r.gx, r.gy, r.gz) else (0, 0, 0)
  | _ => fun _ _ _ => (0, 0, 0)

end EulerKokkos.Spec
