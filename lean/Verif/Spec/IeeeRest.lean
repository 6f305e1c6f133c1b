import Verif.Lemmas.IeeeZero
import Verif.Spec.Scheme2D
import Verif.Spec.Scheme3D

/-!
# Specification: gas at rest in double precision
-/

namespace EulerKokkos.Spec

/-- sound speed of the HLLC solver -/
noncomputable def restSound (s : Settings Double) (r p : Double) : Double :=
  RealOps.sqrt (fmax (s.gamma0 * p / r) (s.smallc * s.smallc))

/-- pressure between two cells at rest, as the HLLC solver computes it (not always `p` to the last bit) -/
noncomputable def restPressure (s : Settings Double) (r p : Double) : Double :=
  (r * restSound s r p * p + r * restSound s r p * p) / (r * restSound s r p + r * restSound s r p)

/-- internal energy per volume, as the HLLC solver computes it -/
noncomputable def restEnergy (s : Settings Double) (p : Double) : Double := p * (lit 1 / (s.gamma0 - lit 1))

/-- Density `r` and pressure `p` are above the floors. -/
structure CalmCell (s : Settings Double) (r p : Double) : Prop where
  pos_r : FinitePos r
  pos_p : FinitePos p
  floor_r : RealOps.lt s.smallr r = true
  floor_p : RealOps.lt (r * s.smallp) p = true
  half_r : IsFin (lit (1/2) * r)
  pos_e : FinitePos (restEnergy s p)

/-- Nothing overflows or underflows in the HLLC solution of the Riemann problem between two cells at rest. -/
structure CalmState (s : Settings Double) (r p : Double) : Prop extends CalmCell s r p where
  pos_c : FinitePos (restSound s r p)
  rc : FinitePos (r * restSound s r p)
  rc2 : IsFin (r * restSound s r p * (r * restSound s r p))
  rcc : FinitePos (r * restSound s r p + r * restSound s r p)
  rcp : FinitePos (r * restSound s r p * p + r * restSound s r p * p)
  pressure : FinitePos (restPressure s r p)
  density : IsFin (r * restSound s r p / restSound s r p)
  ce : FinitePos (restSound s r p * restEnergy s p)
  ep : IsFin (restSound s r p * restEnergy s p / restSound s r p + restPressure s r p)

/-- sound speed without the floor of the HLLC solver -/
noncomputable def cellSound (s : Settings Double) (r p : Double) : Double := RealOps.sqrt (s.gamma0 * p / r)

/-- The same for the LLF solver. -/
structure CalmLlf (s : Settings Double) (r p : Double) : Prop extends CalmCell s r p where
  pos_c : FinitePos (cellSound s r p)
  ep : IsFin (restEnergy s p + p)
  pp : FinitePos (p + p)

/-- The same for the HLL solver. -/
structure CalmHll (s : Settings Double) (r p : Double) : Prop extends CalmCell s r p where
  pos_c : FinitePos (cellSound s r p)
  ep : IsFin (restEnergy s p + p)
  cc : FinitePos (cellSound s r p + cellSound s r p)
  c2 : IsFin (cellSound s r p * -cellSound s r p)
  cp : FinitePos (cellSound s r p * p)
  cpp : FinitePos (cellSound s r p * p + cellSound s r p * p)

/-- squared mass flux of a sound wave, in the iterative (`approx`) solver -/
noncomputable def restMass (s : Settings Double) (r p : Double) : Double := s.gamma0 * p * r

/-- first guess of the pressure between two cells at rest, in the iterative solver -/
noncomputable def firstStar (s : Settings Double) (r p : Double) : Double :=
  (RealOps.sqrt (restMass s r p) * p + RealOps.sqrt (restMass s r p) * p) /
    (RealOps.sqrt (restMass s r p) + RealOps.sqrt (restMass s r p))

/-- the pressure the iteration ends with -/
noncomputable def restStar (s : Settings Double) (r p : Double) : Double :=
  approxNewton s (lit 0) p (restMass s r p) (lit 0) p (restMass s r p) 10 (firstStar s r p) (lit 1)

/-- mass flux of the wave for that pressure -/
noncomputable def starWave (s : Settings Double) (r p : Double) : Double :=
  RealOps.sqrt (restMass s r p * (lit 1 + s.gamma6 * (restStar s r p - p) / p))

/-- density behind the wave -/
noncomputable def starDensity (s : Settings Double) (r p : Double) : Double :=
  fmax (r / (lit 1 + r * (p - restStar s r p) / (starWave s r p * starWave s r p))) s.smallr

/-- sound speed behind the wave -/
noncomputable def starSound (s : Settings Double) (r p : Double) : Double :=
  fmax s.smallc (RealOps.sqrt (fabs (s.gamma0 * restStar s r p / starDensity s r p)))

/-- The same for the iterative solver. -/
structure CalmApprox (s : Settings Double) (r p : Double) : Prop extends CalmCell s r p where
  w2 : IsFin (RealOps.sqrt (restMass s r p) * RealOps.sqrt (restMass s r p))
  wpp : FinitePos (RealOps.sqrt (restMass s r p) * p + RealOps.sqrt (restMass s r p) * p)
  first : FinitePos (firstStar s r p)
  star : FinitePos (restStar s r p)
  jump : IsFin ((p - restStar s r p) / starWave s r p)
  shock : FinitePos (starWave s r p / r)
  sound : FinitePos (starSound s r p)
  density : IsFin (starDensity s r p)
  half_d : IsFin (lit (1/2) * starDensity s r p)
  energy : FinitePos (restEnergy s (restStar s r p))
  total : IsFin (restEnergy s (restStar s r p) + restStar s r p)

/-- pressure between two cells at rest, as a Riemann solver computes it (not always `p` to the last bit) -/
noncomputable def facePressure (rt : RiemannType) (s : Settings Double) (r p : Double) : Double :=
  match rt with
  | .hllc => restPressure s r p
  | .llf => lit (1/2) * (p + p)
  | .hll => (cellSound s r p * p + cellSound s r p * p) / (cellSound s r p + cellSound s r p)
  | .approx => restStar s r p
  | .hlld => p

/-- no overflow or underflow in the chosen Riemann solver (HLLC, LLF, HLL or the iterative one) -/
def CalmFace (rt : RiemannType) (s : Settings Double) (r p : Double) : Prop :=
  match rt with
  | .hllc => CalmState s r p
  | .llf => CalmLlf s r p
  | .hll => CalmHll s r p
  | .approx => CalmApprox s r p
  | .hlld => False

/-- the same density and pressure, velocities zero (of either sign) -/
def AtRest (r p : Double) (q : HS Double) : Prop := q.d = r ∧ q.p = p ∧ IsZero q.u ∧ IsZero q.v

/-- pressure of gas at rest of density `d` and energy `e` per volume, as the code computes it from the conservative variables -/
noncomputable def gasPressure (s : Settings Double) (d e : Double) : Double := (s.gamma0 - lit 1) * d * (e / d)

/-- Gas of density `d` and energy `e` per volume for which the solver, set up with `s` and the Riemann solver `rt`, meets no floor and no overflow. -/
structure CalmGas (rt : RiemannType) (s : Settings Double) (d e : Double) : Prop where
  gamma : IsFin s.gamma0
  slope : IsFin s.slope_type
  energy : FinitePos e
  specific : FinitePos (e / d)
  state : CalmCell s d (gasPressure s d e)
  face : CalmFace rt s d (gasPressure s d e)
  pressure : FinitePos (facePressure rt s d (gasPressure s d e))

/-- A time step whose ratio to the cell sizes, and whose momentum exchange through a face, are numbers. -/
structure CalmStep (p : Params Double) (d e dt : Double) : Prop where
  ratio_x : IsFin (dt / p.dx)
  ratio_y : IsFin (dt / p.dy)
  kick_x : IsFin (facePressure p.riemannSolverType p.settings d (gasPressure p.settings d e) * (dt / p.dx))
  kick_y : IsFin (facePressure p.riemannSolverType p.settings d (gasPressure p.settings d e) * (dt / p.dy))

/-- a cell of gas at rest: density exactly `d`, energy exactly `e`, momenta zero (of either sign) -/
def StillCell (d e : Double) (u : HS Double) : Prop := u.d = d ∧ u.p = e ∧ IsZero u.u ∧ IsZero u.v

/-- every interior cell holds the same gas at rest -/
def Still (p : Params Double) (d e : Double) (u : Fld2 Double) : Prop := ∀ i j, interior2 p i j → StillCell d e (u i j)

/-- sound speed of the gas in the computation of the time step -/
noncomputable def gasSound (s : Settings Double) (d e : Double) : Double :=
  RealOps.sqrt (s.gamma0 * gasPressure s d e / d)

/-- time step for gas at rest, as the code computes it -/
noncomputable def restStep (p : Params Double) (d e : Double) : Double :=
  p.settings.cfl / (gasSound p.settings d e / p.dx + gasSound p.settings d e / p.dy)

/-- A run in which the sizes of the cells, the end time, the sound speed and the time step are positive numbers, and the time
step is calm. -/
structure CalmRun (p : Params Double) (d e : Double) : Prop where
  gas : CalmGas p.riemannSolverType p.settings d e
  dx : FinitePos p.dx
  dy : FinitePos p.dy
  tEnd : FinitePos p.tEnd
  sound : FinitePos (gasSound p.settings d e)
  rate : FinitePos (gasSound p.settings d e / p.dx + gasSound p.settings d e / p.dy)
  pos : FinitePos (restStep p d e)
  step : CalmStep p d e (restStep p d e)

/-- the state of cell `(i,j)` in the data of an output file -/
noncomputable def fileState (data : Loc Unit → Double) (i j : Int) : HS Double :=
  ⟨data ⟨(), i, j, 0, ID⟩, data ⟨(), i, j, 0, IP⟩, data ⟨(), i, j, 0, IU⟩, data ⟨(), i, j, 0, IV⟩, lit 0⟩

/-! Three dimensions -/

/-- the same density and pressure, velocities zero (of either sign) -/
def AtRest3 (r p : Double) (q : HS Double) : Prop := AtRest r p q ∧ IsZero q.w

/-- The same for a 3D grid. -/
structure CalmStep3 (p : Params Double) (d e dt : Double) : Prop extends CalmStep p d e dt where
  ratio_z : IsFin (dt / p.dz)
  kick_z : IsFin (facePressure p.riemannSolverType p.settings d (gasPressure p.settings d e) * (dt / p.dz))

/-- a cell of gas at rest: density exactly `d`, energy exactly `e`, momenta zero (of either sign) -/
def StillCell3 (d e : Double) (u : HS Double) : Prop := StillCell d e u ∧ IsZero u.w

/-- every interior cell holds the same gas at rest -/
def Still3 (p : Params Double) (d e : Double) (u : Fld3 Double) : Prop :=
  ∀ i j k, interior3 p i j k → StillCell3 d e (u i j k)

/-- time step for gas at rest on a 3D grid -/
noncomputable def restStep3 (p : Params Double) (d e : Double) : Double :=
  p.settings.cfl / (gasSound p.settings d e / p.dx + gasSound p.settings d e / p.dy + gasSound p.settings d e / p.dz)

/-- `CalmRun` for a 3D grid -/
structure CalmRun3 (p : Params Double) (d e : Double) : Prop where
  gas : CalmGas p.riemannSolverType p.settings d e
  dx : FinitePos p.dx
  dy : FinitePos p.dy
  dz : FinitePos p.dz
  tEnd : FinitePos p.tEnd
  sound : FinitePos (gasSound p.settings d e)
  rate : FinitePos (gasSound p.settings d e / p.dx + gasSound p.settings d e / p.dy + gasSound p.settings d e / p.dz)
  pos : FinitePos (restStep3 p d e)
  step : CalmStep3 p d e (restStep3 p d e)

/-- the state of cell `(i,j,k)` in the data of an output file -/
noncomputable def fileState3 (data : Loc Unit → Double) (i j k : Int) : HS Double :=
  ⟨data ⟨(), i, j, k, ID⟩, data ⟨(), i, j, k, IP⟩, data ⟨(), i, j, k, IU⟩, data ⟨(), i, j, k, IV⟩, data ⟨(), i, j, k, IW⟩⟩

end EulerKokkos.Spec
