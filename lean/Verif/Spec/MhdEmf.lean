import Verif.Spec.MhdRiemann

/-!
# Specification: the electric field at an edge (two-dimensional HLLD solver)

Four states meet at an edge along the third axis: `LL`, `RL`, `LR`, `RR` (first letter: left/right along the
first axis, second letter: along the second axis).  `E = u b - v a` is the (negative) electric field along
the edge.  The nine wave patterns and the interpolation formulas are those of Londrillo & Del Zanna (2004)
and Fromang, Hennebelle & Teyssier (2006).
-/

namespace EulerKokkos.Spec

/-- electric field of a state -/
noncomputable def emfOf (q : MS ℝ) : ℝ := q.u * q.b - q.v * q.a

/-- the four states around an edge -/
structure Corners where
  LL : MS ℝ
  RL : MS ℝ
  LR : MS ℝ
  RR : MS ℝ

/-- positive densities and pressures -/
def Corners.Phys (q : Corners) : Prop := PhysM q.LL ∧ PhysM q.RL ∧ PhysM q.LR ∧ PhysM q.RR

/-- largest of four numbers -/
noncomputable def max4 (a b c d : ℝ) : ℝ := max (max (max a b) c) d
/-- smallest of four numbers -/
noncomputable def min4 (a b c d : ℝ) : ℝ := min (min (min a b) c) d

/-- the largest fast speed along the first (`x`) and second (`y`) axis -/
noncomputable def Corners.fastX (γ : ℝ) (q : Corners) : ℝ :=
  max4 (fastSpeed γ q.LL.a q.LL) (fastSpeed γ q.LR.a q.LR) (fastSpeed γ q.RL.a q.RL) (fastSpeed γ q.RR.a q.RR)
/-- see `fastX` -/
noncomputable def Corners.fastY (γ : ℝ) (q : Corners) : ℝ :=
  max4 (fastSpeed γ q.LL.b q.LL) (fastSpeed γ q.LR.b q.LR) (fastSpeed γ q.RL.b q.RL) (fastSpeed γ q.RR.b q.RR)

/-- outer speed to the left (`SL`), right (`SR`), bottom (`SB`), top (`ST`) -/
noncomputable def Corners.SL (γ : ℝ) (q : Corners) : ℝ := min4 q.LL.u q.LR.u q.RL.u q.RR.u - q.fastX γ
/-- see `SL` -/
noncomputable def Corners.SR (γ : ℝ) (q : Corners) : ℝ := max4 q.LL.u q.LR.u q.RL.u q.RR.u + q.fastX γ
/-- see `SL` -/
noncomputable def Corners.SB (γ : ℝ) (q : Corners) : ℝ := min4 q.LL.v q.LR.v q.RL.v q.RR.v - q.fastY γ
/-- see `SL` -/
noncomputable def Corners.ST (γ : ℝ) (q : Corners) : ℝ := max4 q.LL.v q.LR.v q.RL.v q.RR.v + q.fastY γ

/-- velocity of the contact along the first axis: momentum balance of the two left and the two right states -/
noncomputable def Corners.ustar (γ : ℝ) (q : Corners) : ℝ :=
  let mLL := q.LL.d * (q.LL.u - q.SL γ)
  let mLR := q.LR.d * (q.LR.u - q.SL γ)
  let mRL := q.RL.d * (q.SR γ - q.RL.u)
  let mRR := q.RR.d * (q.SR γ - q.RR.u)
  (mLL * q.LL.u + mLR * q.LR.u + mRL * q.RL.u + mRR * q.RR.u +
      (totalPressure q.LL + totalPressure q.LR - totalPressure q.RL - totalPressure q.RR)) /
    (mLL + mLR + mRL + mRR)

/-- velocity of the contact along the second axis -/
noncomputable def Corners.vstar (γ : ℝ) (q : Corners) : ℝ :=
  let mLL := q.LL.d * (q.LL.v - q.SB γ)
  let mRL := q.RL.d * (q.RL.v - q.SB γ)
  let mLR := q.LR.d * (q.ST γ - q.LR.v)
  let mRR := q.RR.d * (q.ST γ - q.RR.v)
  (mLL * q.LL.v + mLR * q.LR.v + mRL * q.RL.v + mRR * q.RR.v +
      (totalPressure q.LL + totalPressure q.RL - totalPressure q.LR - totalPressure q.RR)) /
    (mLL + mLR + mRL + mRR)

/-- compression of a state with velocity `u` by a wave of speed `S` moving into it, contact speed `us` -/
noncomputable def compression (S u us : ℝ) : ℝ := (S - u) / (S - us)

/-- the star values of a corner: compressions along the two axes -/
structure CornerStar where
  /-- compression along the first axis -/
  fx : ℝ
  /-- compression along the second axis -/
  fy : ℝ
  /-- `b` after the wave along the first axis -/
  B : ℝ
  /-- `a` after the wave along the second axis -/
  A : ℝ

/-- star values of the state `q` with outer speeds `SX`, `SY` -/
noncomputable def cornerStar (q : MS ℝ) (SX SY us vs : ℝ) : CornerStar :=
  ⟨compression SX q.u us, compression SY q.v vs, q.b * compression SX q.u us, q.a * compression SY q.v vs⟩

/-- Alfven speed along the first axis of a corner: after the wave along the first axis, and after both -/
noncomputable def alfvenX (q : MS ℝ) (k : CornerStar) : ℝ :=
  max (|q.a| / Real.sqrt (q.d * k.fx)) (|k.A| / Real.sqrt (q.d * k.fx * k.fy))
/-- Alfven speed along the second axis of a corner -/
noncomputable def alfvenY (q : MS ℝ) (k : CornerStar) : ℝ :=
  max (|q.b| / Real.sqrt (q.d * k.fy)) (|k.B| / Real.sqrt (q.d * k.fx * k.fy))

/-- HLL average of the electric fields `EL`, `ER` on both sides of a fan with speeds `S1 ≤ 0 ≤ S2`; `jump`
is the jump of the transverse field. -/
noncomputable def hllEmf (S1 S2 EL ER jump : ℝ) : ℝ := (S2 * EL - S1 * ER + S2 * S1 * jump) / (S2 - S1)

/-- The electric field at the edge: `floor` is the smallest Alfven speed. -/
noncomputable def edgeEmf (γ floor : ℝ) (q : Corners) : ℝ :=
  let us := q.ustar γ
  let vs := q.vstar γ
  let LL := cornerStar q.LL (q.SL γ) (q.SB γ) us vs
  let LR := cornerStar q.LR (q.SL γ) (q.ST γ) us vs
  let RL := cornerStar q.RL (q.SR γ) (q.SB γ) us vs
  let RR := cornerStar q.RR (q.SR γ) (q.ST γ) us vs
  -- inner fan
  let aL := max (max (alfvenX q.LL LL) (alfvenX q.LR LR)) floor
  let aR := max (max (alfvenX q.RL RL) (alfvenX q.RR RR)) floor
  let aB := max (max (alfvenY q.LL LL) (alfvenY q.RL RL)) floor
  let aT := max (max (alfvenY q.LR LR) (alfvenY q.RR RR)) floor
  let SAL := min (us - aL) 0
  let SAR := max (us + aR) 0
  let SAB := min (vs - aB) 0
  let SAT := max (vs + aT) 0
  if 0 ≤ q.SB γ then        -- everything comes from the bottom
    if 0 ≤ q.SL γ then emfOf q.LL
    else if q.SR γ < 0 then emfOf q.RL
    else hllEmf SAL SAR (us * LL.B - q.LL.v * q.LL.a) (us * RL.B - q.RL.v * q.RL.a) (q.RL.b - q.LL.b)
  else if q.ST γ < 0 then   -- everything comes from the top
    if 0 ≤ q.SL γ then emfOf q.LR
    else if q.SR γ < 0 then emfOf q.RR
    else hllEmf SAL SAR (us * LR.B - q.LR.v * q.LR.a) (us * RR.B - q.RR.v * q.RR.a) (q.RR.b - q.LR.b)
  else if 0 ≤ q.SL γ then   -- everything comes from the left
    hllEmf SAB SAT (q.LL.u * q.LL.b - vs * LL.A) (q.LR.u * q.LR.b - vs * LR.A) (-(q.LR.a - q.LL.a))
  else if q.SR γ < 0 then   -- everything comes from the right
    hllEmf SAB SAT (q.RL.u * q.RL.b - vs * RL.A) (q.RR.u * q.RR.b - vs * RR.A) (-(q.RR.a - q.RL.a))
  else                      -- the edge lies inside the fan
    (SAL * SAB * (us * RR.B - vs * RR.A) - SAL * SAT * (us * RL.B - vs * RL.A) -
        SAR * SAB * (us * LR.B - vs * LR.A) + SAR * SAT * (us * LL.B - vs * LL.A)) /
      ((SAR - SAL) * (SAT - SAB)) -
    SAT * SAB / (SAT - SAB) *
      ((SAR * RR.A - SAL * LR.A) / (SAR - SAL) - (SAR * RL.A - SAL * LL.A) / (SAR - SAL)) +
    SAR * SAL / (SAR - SAL) *
      ((SAT * RR.B - SAB * RL.B) / (SAT - SAB) - (SAT * LR.B - SAB * LL.B) / (SAT - SAB))

/-- The corner states made from the four traced states next to an edge.  `rt` is the state traced to the
right top corner of the lower left cell, and so on; the field component normal to the face between two
cells is the mean of the two traced values. -/
noncomputable def cornersOf (rt rb lt lb : MS ℝ) : Corners :=
  ⟨{ rt with a := (rt.a + lt.a) / 2, b := (rt.b + rb.b) / 2 },
   { lt with a := (rt.a + lt.a) / 2, b := (lt.b + lb.b) / 2 },
   { rb with a := (rb.a + lb.a) / 2, b := (rt.b + rb.b) / 2 },
   { lb with a := (rb.a + lb.a) / 2, b := (lt.b + lb.b) / 2 }⟩

/-- exchange of the two axes around the edge -/
def transposeM (q : MS ℝ) : MS ℝ := { q with u := q.v, v := q.u, a := q.b, b := q.a }

/-- the edge seen with the two axes exchanged -/
def Corners.transpose (q : Corners) : Corners :=
  ⟨transposeM q.LL, transposeM q.LR, transposeM q.RL, transposeM q.RR⟩

end EulerKokkos.Spec
