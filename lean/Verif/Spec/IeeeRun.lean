import Verif.Lemmas.IeeeBinary
import Verif.Model.ProgramMpi
import Verif.Props.C102

/-!
# Specification: settings of a run in IEEE 754 arithmetic
-/

namespace EulerKokkos.Spec
variable {Φ : Rounding}

/-- The lower end of a direction of the domain is below the upper end (neither is a NaN; infinities are allowed). -/
def Below (a b : Ieee Φ) : Prop := RealOps.lt a b = true

/-- Settings of a run in IEEE 754 arithmetic: a domain with lower ends below upper ends, a grid that is not smaller than
the ghost layers, a version of the scheme without atomic additions, a slope limiter and a Riemann solver the solver knows.
-/
def IeeeRun (p : Params (Ieee Φ)) : SolverKind → Prop
  | .hydro2 => Below p.xmin p.xmax ∧ Below p.ymin p.ymax ∧ 2 ≤ p.nx ∧ 2 ≤ p.ny ∧ 1 ≤ p.nz ∧
      (p.implementationVersion = 0 ∨ p.implementationVersion = 1) ∧
      SlopeKnown p.settings ∧ p.riemannSolverType ≠ .hlld
  | .hydro3 => Below p.xmin p.xmax ∧ Below p.ymin p.ymax ∧ Below p.zmin p.zmax ∧ 2 ≤ p.nx ∧ 2 ≤ p.ny ∧ 2 ≤ p.nz ∧
      (p.implementationVersion = 0 ∨ p.implementationVersion = 1) ∧
      SlopeKnown p.settings ∧ p.riemannSolverType ≠ .hll ∧ p.riemannSolverType ≠ .hlld
  | .mhd2 => Below p.xmin p.xmax ∧ Below p.ymin p.ymax ∧ 3 ≤ p.nx ∧ 3 ≤ p.ny ∧ 1 ≤ p.nz ∧
      p.implementationVersion = 0 ∧ SlopeKnownM p.settings ∧ RiemannKnownM p.riemannSolverType
  | .mhd3 => Below p.xmin p.xmax ∧ Below p.ymin p.ymax ∧ Below p.zmin p.zmax ∧ 3 ≤ p.nx ∧ 3 ≤ p.ny ∧ 3 ≤ p.nz ∧
      p.implementationVersion = 0 ∧ SlopeKnownM p.settings ∧ RiemannKnownM p.riemannSolverType

/-- finite and positive -/
def FinitePos (x : Ieee Φ) : Prop := ∃ m : Φ.Mag, 0 < m.1 ∧ x = .fin false m

/-- not a NaN and not below zero (a negative zero is allowed) -/
def NotBelow (x : Ieee Φ) : Prop := x.isNan = false ∧ 0 ≤ x.key

/-- A gas cell the time step can be computed from: the density is not `+inf` and no momentum is a NaN (the density may be a
NaN or negative, the energy may be anything: the floors take care of them). -/
def Alive (u : HS (Ieee Φ)) : Prop := u.d ≠ .inf false ∧ u.u.isNan = false ∧ u.v.isNan = false ∧ u.w.isNan = false

/-- positive finite floors and adiabatic index; cells of positive finite size -/
structure GasIeee (s : Settings (Ieee Φ)) : Prop where
  gamma0 : FinitePos s.gamma0
  smallr : FinitePos s.smallr
  smallp : NotBelow s.smallp

end EulerKokkos.Spec
