import Verif.Spec.MhdRiemann

/-!
# Specification: discontinuities of ideal MHD without compression

Contact, tangential and rotational (Alfven) discontinuities between two states, interface normal along the first
axis, and the flux of the exact solution of the Riemann problem made of one of them.
-/

namespace EulerKokkos.Spec

/-- only the density jumps -/
structure Contact (l r : MS ℝ) : Prop where
  p : l.p = r.p
  u : l.u = r.u
  v : l.v = r.v
  w : l.w = r.w
  a : l.a = r.a
  b : l.b = r.b
  c : l.c = r.c

/-- no field through the interface; everything may jump except the normal velocity and the total pressure -/
structure Tangential (l r : MS ℝ) : Prop where
  u : l.u = r.u
  al : l.a = 0
  ar : r.a = 0
  ptot : totalPressure l = totalPressure r

/-- the transverse field turns, keeping its strength, and the transverse velocity jumps with it: by `∓ ΔB/√ρ` for
a wave running along (`σ = 1`) or against (`σ = -1`) the field -/
structure Rotational (σ : ℝ) (l r : MS ℝ) : Prop where
  d : l.d = r.d
  p : l.p = r.p
  u : l.u = r.u
  a : l.a = r.a
  strength : l.b ^ 2 + l.c ^ 2 = r.b ^ 2 + r.c ^ 2
  v : r.v - l.v = -σ * (r.b - l.b) / Real.sqrt l.d
  w : r.w - l.w = -σ * (r.c - l.c) / Real.sqrt l.d

/-- a discontinuity of speed `S` obeys the jump conditions of the conservation laws -/
def JumpConditions (γ S : ℝ) (l r : MS ℝ) : Prop :=
  mhdFlux γ r - mhdFlux γ l = S • (mhdCons γ r - mhdCons γ l)

/-- flux at `x = 0` of the solution that consists of one discontinuity of speed `S` -/
noncomputable def upwindFlux (γ S : ℝ) (l r : MS ℝ) : MS ℝ := if 0 < S then mhdFlux γ l else mhdFlux γ r

end EulerKokkos.Spec
