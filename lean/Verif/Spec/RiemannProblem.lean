import Verif.Spec.Euler

/-!
# Specification: textbook approximate Riemann fluxes

Formulas of Toro, *Riemann Solvers and Numerical Methods for Fluid Dynamics*, chapter 10, written with the
exact Euler flux `eulerFlux` and the conservative variables `toCons`; independent of the code.
-/

namespace EulerKokkos.Spec

/-- component-wise operations on states and fluxes -/
noncomputable instance : Add (HS ℝ) := ⟨fun a b => ⟨a.d + b.d, a.p + b.p, a.u + b.u, a.v + b.v, a.w + b.w⟩⟩
noncomputable instance : Sub (HS ℝ) := ⟨fun a b => ⟨a.d - b.d, a.p - b.p, a.u - b.u, a.v - b.v, a.w - b.w⟩⟩
noncomputable instance : SMul ℝ (HS ℝ) := ⟨fun c a => ⟨c * a.d, c * a.p, c * a.u, c * a.v, c * a.w⟩⟩

theorem hs_add (a b : HS ℝ) : a + b = ⟨a.d + b.d, a.p + b.p, a.u + b.u, a.v + b.v, a.w + b.w⟩ := rfl
theorem hs_sub (a b : HS ℝ) : a - b = ⟨a.d - b.d, a.p - b.p, a.u - b.u, a.v - b.v, a.w - b.w⟩ := rfl
theorem hs_smul (c : ℝ) (a : HS ℝ) : c • a = ⟨c * a.d, c * a.p, c * a.u, c * a.v, c * a.w⟩ := rfl

/-- speed of sound -/
noncomputable def soundSpeed (γ : ℝ) (q : HS ℝ) : ℝ := Real.sqrt (γ * q.p / q.d)

/-- local Lax–Friedrichs (Rusanov) flux with wave speed `a` -/
noncomputable def rusanovFlux (γ a : ℝ) (l r : HS ℝ) : HS ℝ :=
  (1/2 : ℝ) • (eulerFlux γ l + eulerFlux γ r) - (a/2) • (toCons γ r - toCons γ l)

/-- HLL flux with wave speeds `SL < SR` around zero -/
noncomputable def hllFlux (γ SL SR : ℝ) (l r : HS ℝ) : HS ℝ :=
  (1 / (SR - SL)) • (SR • eulerFlux γ l - SL • eulerFlux γ r + (SR * SL) • (toCons γ r - toCons γ l))

/-- speed of the contact wave in the HLLC solver -/
noncomputable def contactSpeed (SL SR : ℝ) (l r : HS ℝ) : ℝ :=
  (r.p - l.p + l.d * l.u * (SL - l.u) - r.d * r.u * (SR - r.u)) /
    (l.d * (SL - l.u) - r.d * (SR - r.u))

/-- conservative variables between the wave of speed `S` bounding the state `q` and the contact `Sm` -/
noncomputable def starCons (γ S Sm : ℝ) (q : HS ℝ) : HS ℝ :=
  (q.d * (S - q.u) / (S - Sm)) •
    (⟨1, (toCons γ q).p / q.d + (Sm - q.u) * (Sm + q.p / (q.d * (S - q.u))), Sm, q.v, q.w⟩ : HS ℝ)

/-- HLLC flux -/
noncomputable def hllcFlux (γ SL SR : ℝ) (l r : HS ℝ) : HS ℝ :=
  let Sm := contactSpeed SL SR l r
  if 0 < SL then eulerFlux γ l
  else if 0 < Sm then eulerFlux γ l + SL • (starCons γ SL Sm l - toCons γ l)
  else if 0 < SR then eulerFlux γ r + SR • (starCons γ SR Sm r - toCons γ r)
  else eulerFlux γ r

end EulerKokkos.Spec
