import Verif.Model.Riemann
import Mathlib.Analysis.Real.Sqrt
import Mathlib.Tactic.Positivity

/-!
# Specification: the ideal-gas Euler equations

Textbook definitions, independent of the code: conservative variables and flux of a primitive
state `(ρ, p, u, v, w)` for an ideal gas of ratio `γ` (2D states have `w = 0`).
-/

namespace EulerKokkos.Spec

/-- conservative variables `(ρ, E, ρu, ρv, ρw)` of the primitive state `(ρ, p, u, v, w)` -/
noncomputable def toCons (γ : ℝ) (q : HS ℝ) : HS ℝ :=
  ⟨q.d, q.p / (γ - 1) + q.d * (q.u ^ 2 + q.v ^ 2 + q.w ^ 2) / 2, q.d * q.u, q.d * q.v, q.d * q.w⟩

/-- flux in the `u` direction of the Euler equations -/
noncomputable def eulerFlux (γ : ℝ) (q : HS ℝ) : HS ℝ :=
  ⟨q.d * q.u, q.u * ((toCons γ q).p + q.p), q.d * q.u ^ 2 + q.p, q.d * q.u * q.v, q.d * q.u * q.w⟩

/-- settings of a run: `γ > 1`, positive floors, and the derived constants of
`HydroParams::init()` -/
structure GoodSettings (s : Settings ℝ) : Prop where
  gamma : 1 < s.gamma0
  smallr : 0 < s.smallr
  smallc : 0 < s.smallc
  smallp : s.smallp = s.smallc * s.smallc / s.gamma0
  smallpp : s.smallpp = s.smallr * s.smallp
  gamma6 : s.gamma6 = (s.gamma0 + 1) / (2 * s.gamma0)

theorem GoodSettings.smallp_pos {s : Settings ℝ} (h : GoodSettings s) : 0 < s.smallp := by
  rw [h.smallp]
  have := h.gamma
  have := h.smallc
  positivity

/-- a primitive state at or above the floors -/
def Physical (s : Settings ℝ) (q : HS ℝ) : Prop := s.smallr ≤ q.d ∧ q.d * s.smallp ≤ q.p

/-- a 2D state has no third velocity -/
def Is2D (q : HS ℝ) : Prop := q.w = 0

/-- mirror image about a plane normal to the `u` direction -/
def mirror (q : HS ℝ) : HS ℝ := { q with u := -q.u }

/-- mirror image of a flux through a face normal to the `u` direction: the normal momentum flux is
unchanged, all other components change sign -/
def mirrorFlux (f : HS ℝ) : HS ℝ := ⟨-f.d, -f.p, f.u, -f.v, -f.w⟩

end EulerKokkos.Spec
