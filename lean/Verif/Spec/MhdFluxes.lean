import Verif.Spec.MhdRiemann

/-!
# Specification: Rusanov, HLL and HLLD fluxes of ideal MHD

Textbook formulas, interface normal along the first axis, both states with the same normal field.  HLLD is
Miyoshi & Kusano, *J. Comput. Phys.* 208 (2005) 315; equation numbers refer to that paper.  The flux is
written with the jumps across the waves (their eq. 66), whereas the code evaluates the physical flux of the
sampled state.
-/

namespace EulerKokkos.Spec

/-- local Lax–Friedrichs (Rusanov) flux with wave speed `a` -/
noncomputable def mhdRusanov (γ a : ℝ) (l r : MS ℝ) : MS ℝ :=
  (1/2 : ℝ) • (mhdFlux γ l + mhdFlux γ r) - (a/2) • (mhdCons γ r - mhdCons γ l)

/-- HLL flux with wave speeds `SL < SR` -/
noncomputable def mhdHllFlux (γ SL SR : ℝ) (l r : MS ℝ) : MS ℝ :=
  (1 / (SR - SL)) • (SR • mhdFlux γ l - SL • mhdFlux γ r + (SR * SL) • (mhdCons γ r - mhdCons γ l))

/-- total pressure between the outer waves, eq. 41 -/
noncomputable def starPressure (SL SR : ℝ) (l r : MS ℝ) : ℝ :=
  ((SR - r.u) * r.d * totalPressure l - (SL - l.u) * l.d * totalPressure r +
      l.d * r.d * (SR - r.u) * (SL - l.u) * (r.u - l.u)) /
    ((SR - r.u) * r.d - (SL - l.u) * l.d)

/-- A state inside the Riemann fan: density, total energy, velocity, field. -/
noncomputable def fanCons (m : MS ℝ) : MS ℝ :=
  ⟨m.d, m.p, m.d * m.u, m.d * m.v, m.d * m.w, m.a, m.b, m.c⟩

/-- state next to the outer wave of speed `S` that bounds the state `q`, eqs. 43-48; the energy is in the
slot of the pressure -/
noncomputable def starState (γ S SM pT : ℝ) (q : MS ℝ) : MS ℝ :=
  let D := q.d * (S - q.u) * (S - SM) - q.a ^ 2
  let v := q.v - q.a * q.b * (SM - q.u) / D
  let w := q.w - q.a * q.c * (SM - q.u) / D
  let b := q.b * ((q.d * (S - q.u) ^ 2 - q.a ^ 2) / D)
  let c := q.c * ((q.d * (S - q.u) ^ 2 - q.a ^ 2) / D)
  ⟨q.d * (S - q.u) / (S - SM),
   ((S - q.u) * mhdEnergy γ q - totalPressure q * q.u + pT * SM +
      q.a * (q.u * q.a + q.v * q.b + q.w * q.c - (SM * q.a + v * b + w * c))) / (S - SM),
   SM, v, w, q.a, b, c⟩

/-- sign of the normal field -/
noncomputable def signOf (a : ℝ) : ℝ := if 0 ≤ a then 1 else -1

/-- state between an Alfven wave and the contact, eqs. 59-63: `σ = -1` on the left of the contact and `1` on
the right; `l`, `r` are the two star states and `k` the one of the same side -/
noncomputable def doubleStar (σ : ℝ) (l r k : MS ℝ) : MS ℝ :=
  let n := Real.sqrt l.d + Real.sqrt r.d
  let v := (Real.sqrt l.d * l.v + Real.sqrt r.d * r.v + (r.b - l.b) * signOf k.a) / n
  let w := (Real.sqrt l.d * l.w + Real.sqrt r.d * r.w + (r.c - l.c) * signOf k.a) / n
  let b := (Real.sqrt l.d * r.b + Real.sqrt r.d * l.b +
    Real.sqrt l.d * Real.sqrt r.d * (r.v - l.v) * signOf k.a) / n
  let c := (Real.sqrt l.d * r.c + Real.sqrt r.d * l.c +
    Real.sqrt l.d * Real.sqrt r.d * (r.w - l.w) * signOf k.a) / n
  ⟨k.d, k.p + σ * (Real.sqrt k.d * ((k.u * k.a + k.v * k.b + k.w * k.c) -
      (k.u * k.a + v * b + w * c)) * signOf k.a),
   k.u, v, w, k.a, b, c⟩

/-- HLLD flux (eq. 66) with the outer speeds `SL`, `SR` -/
noncomputable def hlldFluxWith (γ SL SR : ℝ) (l r : MS ℝ) : MS ℝ :=
  let SM := speedM SL SR l r
  let pT := starPressure SL SR l r
  let ls := starState γ SL SM pT l
  let rs := starState γ SR SM pT r
  let SLs := SM - |l.a| / Real.sqrt ls.d
  let SRs := SM + |r.a| / Real.sqrt rs.d
  let lss := doubleStar (-1) ls rs ls
  let rss := doubleStar 1 ls rs rs
  if 0 < SL then mhdFlux γ l
  else if 0 < SLs then mhdFlux γ l + SL • (fanCons ls - mhdCons γ l)
  else if 0 < SM then
    mhdFlux γ l + SLs • fanCons lss - (SLs - SL) • fanCons ls - SL • mhdCons γ l
  else if 0 < SRs then
    mhdFlux γ r + SRs • fanCons rss - (SRs - SR) • fanCons rs - SR • mhdCons γ r
  else if 0 < SR then mhdFlux γ r + SR • (fanCons rs - mhdCons γ r)
  else mhdFlux γ r

/-- HLLD flux with the outer speeds of eq. 67 -/
noncomputable def hlldTextbook (γ : ℝ) (l r : MS ℝ) : MS ℝ :=
  hlldFluxWith γ (speedL γ l r) (speedR γ l r) l r

/-- The quantity the code tests for degeneracy, `ρ (S-u)(S-S_M) - B_n²` (it should be compared with 0), is
not within `10⁻⁸` (relative) of `B_n²`. -/
def GuardSilent (γ : ℝ) (l r : MS ℝ) : Prop :=
  let SL := speedL γ l r
  let SR := speedR γ l r
  let SM := speedM SL SR l r
  (l.a ≠ 0 → 1/100000000 < |(l.d * (SL - l.u) * (SL - SM) - l.a ^ 2) / l.a ^ 2 - 1|) ∧
  (r.a ≠ 0 → 1/100000000 < |(r.d * (SR - r.u) * (SR - SM) - r.a ^ 2) / r.a ^ 2 - 1|)

/-- mirror image of a state in the plane of the interface: velocity and normal field change sign -/
def mirrorM (q : MS ℝ) : MS ℝ := { q with u := -q.u, a := -q.a }

/-- the flux through the mirrored interface -/
def mirrorFluxM (f : MS ℝ) : MS ℝ :=
  ⟨-f.d, -f.p, f.u, -f.v, -f.w, f.a, -f.b, -f.c⟩

end EulerKokkos.Spec
