import Verif.Model.MhdState
import Verif.Model.Params
import Mathlib.Analysis.Real.Sqrt

/-!
# Specification: ideal MHD Riemann problems

Textbook formulas of ideal magnetohydrodynamics (units with `μ₀ = 1`), interface normal along the first
axis: conservative variables, flux, fast magnetosonic speed, Rusanov, HLL and HLLD (Miyoshi & Kusano 2005)
fluxes.  Independent of the code: only the state types are shared with the model.  A state `q` holds
density `d`, pressure `p`, velocity `(u,v,w)` and magnetic field `(a,b,c)`; a vector of conservative
variables holds density, total energy, momentum and magnetic field in the same slots.
-/

namespace EulerKokkos.Spec

/-- component-wise operations -/
noncomputable instance : Add (MS ℝ) := ⟨fun x y =>
  ⟨x.d + y.d, x.p + y.p, x.u + y.u, x.v + y.v, x.w + y.w, x.a + y.a, x.b + y.b, x.c + y.c⟩⟩
noncomputable instance : Sub (MS ℝ) := ⟨fun x y =>
  ⟨x.d - y.d, x.p - y.p, x.u - y.u, x.v - y.v, x.w - y.w, x.a - y.a, x.b - y.b, x.c - y.c⟩⟩
noncomputable instance : SMul ℝ (MS ℝ) := ⟨fun k x =>
  ⟨k * x.d, k * x.p, k * x.u, k * x.v, k * x.w, k * x.a, k * x.b, k * x.c⟩⟩

theorem ms_add (x y : MS ℝ) : x + y =
  ⟨x.d + y.d, x.p + y.p, x.u + y.u, x.v + y.v, x.w + y.w, x.a + y.a, x.b + y.b, x.c + y.c⟩ := rfl
theorem ms_sub (x y : MS ℝ) : x - y =
  ⟨x.d - y.d, x.p - y.p, x.u - y.u, x.v - y.v, x.w - y.w, x.a - y.a, x.b - y.b, x.c - y.c⟩ := rfl
theorem ms_smul (k : ℝ) (x : MS ℝ) : k • x =
  ⟨k * x.d, k * x.p, k * x.u, k * x.v, k * x.w, k * x.a, k * x.b, k * x.c⟩ := rfl

/-- positive density and pressure -/
structure PhysM (q : MS ℝ) : Prop where
  d : 0 < q.d
  p : 0 < q.p

/-- magnetic pressure -/
noncomputable def magPressure (q : MS ℝ) : ℝ := (q.a ^ 2 + q.b ^ 2 + q.c ^ 2) / 2

/-- total (gas and magnetic) pressure -/
noncomputable def totalPressure (q : MS ℝ) : ℝ := q.p + magPressure q

/-- total energy density -/
noncomputable def mhdEnergy (γ : ℝ) (q : MS ℝ) : ℝ :=
  q.p / (γ - 1) + q.d * (q.u ^ 2 + q.v ^ 2 + q.w ^ 2) / 2 + magPressure q

/-- conservative variables of a primitive state -/
noncomputable def mhdCons (γ : ℝ) (q : MS ℝ) : MS ℝ :=
  ⟨q.d, mhdEnergy γ q, q.d * q.u, q.d * q.v, q.d * q.w, q.a, q.b, q.c⟩

/-- flux of ideal MHD along the first axis -/
noncomputable def mhdFlux (γ : ℝ) (q : MS ℝ) : MS ℝ :=
  ⟨q.d * q.u,
   (mhdEnergy γ q + totalPressure q) * q.u - q.a * (q.u * q.a + q.v * q.b + q.w * q.c),
   q.d * q.u ^ 2 + totalPressure q - q.a ^ 2,
   q.d * q.u * q.v - q.a * q.b,
   q.d * q.u * q.w - q.a * q.c,
   0,
   q.b * q.u - q.a * q.v,
   q.c * q.u - q.a * q.w⟩

/-- fast magnetosonic speed for propagation along an axis on which the field has the component `bn` -/
noncomputable def fastSpeed (γ bn : ℝ) (q : MS ℝ) : ℝ :=
  Real.sqrt ((γ * q.p + (q.a ^ 2 + q.b ^ 2 + q.c ^ 2)) / (2 * q.d) +
    Real.sqrt (((γ * q.p + (q.a ^ 2 + q.b ^ 2 + q.c ^ 2)) / (2 * q.d)) ^ 2 -
      γ * q.p * bn ^ 2 / q.d ^ 2))

/-- the normal field is continuous: both states get the mean of the two values -/
noncomputable def meanNormal (l r q : MS ℝ) : MS ℝ := { q with a := (l.a + r.a) / 2 }

/-- largest fast speed of the two states -/
noncomputable def maxFast (γ : ℝ) (l r : MS ℝ) : ℝ := max (fastSpeed γ l.a l) (fastSpeed γ r.a r)

/-- outer wave speeds -/
noncomputable def speedL (γ : ℝ) (l r : MS ℝ) : ℝ := min l.u r.u - maxFast γ l r
/-- outer wave speeds -/
noncomputable def speedR (γ : ℝ) (l r : MS ℝ) : ℝ := max l.u r.u + maxFast γ l r

/-- speed of the entropy wave (Miyoshi & Kusano, eq. 38) -/
noncomputable def speedM (SL SR : ℝ) (l r : MS ℝ) : ℝ :=
  ((SR - r.u) * r.d * r.u - (SL - l.u) * l.d * l.u - totalPressure r + totalPressure l) /
    ((SR - r.u) * r.d - (SL - l.u) * l.d)

/-- The intermediate states of the HLLD solver are defined: neither outer wave is degenerate,
`ρ_k (S_k - u_k)(S_k - S_M) ≠ B_n²` (denominators of Miyoshi & Kusano, eqs. 44-47).  `l`, `r` have the
same normal field. -/
def HlldRegular (γ : ℝ) (l r : MS ℝ) : Prop :=
  let SL := speedL γ l r
  let SR := speedR γ l r
  let SM := speedM SL SR l r
  l.d * (SL - l.u) * (SL - SM) ≠ l.a ^ 2 ∧ r.d * (SR - r.u) * (SR - SM) ≠ r.a ^ 2

/-- adiabatic, or isothermal with the pressure `ρ c²` (the parameter `cIso` is 0 in every run: it is not
read from the parameter file) -/
noncomputable def isoState (s : Settings ℝ) (q : MS ℝ) : MS ℝ :=
  { q with p := if 0 < s.cIso then q.d * s.cIso ^ 2 else q.p }

/-- The Riemann problem between the face states `l`, `r` is not degenerate for the selected solver: no
condition for LLF and HLL. -/
def RegularFace (p : Params ℝ) (l r : MS ℝ) : Prop :=
  p.riemannSolverType = .hlld →
    HlldRegular p.settings.gamma0 (isoState p.settings (meanNormal l r l))
      (isoState p.settings (meanNormal l r r))

end EulerKokkos.Spec
