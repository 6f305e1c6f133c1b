import Verif.Spec.MhdScheme2D
import Verif.Spec.Scheme2D

/-!
# When the pressure floors of the MHD reconstructions do not act

The 2D solver and version 2 of the 3D solver replace a reconstructed pressure below `smallp * density` by that
value; versions 0 and 1 of the 3D solver use the value `smallp`.  A reconstruction is *clear* when neither
replacement happens.
-/

namespace EulerKokkos.Spec

/-- the pressure of a reconstructed state is above the two floors -/
def PressureClear (s : Settings ℝ) (e : MS ℝ) : Prop := s.smallp * e.d < e.p ∧ s.smallp ≤ e.p

/-- so is it in the four face states and the four edge states of a cell -/
structure TraceClear (s : Settings ℝ) (T : TraceM2 ℝ) : Prop where
  qmx : PressureClear s T.qmx
  qpx : PressureClear s T.qpx
  qmy : PressureClear s T.qmy
  qpy : PressureClear s T.qpy
  rt : PressureClear s T.rt
  rb : PressureClear s T.rb
  lt : PressureClear s T.lt
  lb : PressureClear s T.lb

/-- so is it in every cell next to an interior cell, in the 2D step from `u` (ghost cells filled by the step) -/
def StepClear (p : Params ℝ) (dt : ℝ) (u : FldM2 ℝ) : Prop :=
  ∀ i j, p.ghostWidth - 1 ≤ i → i ≤ p.ghostWidth + p.nx → p.ghostWidth - 1 ≤ j → j ≤ p.ghostWidth + p.ny →
    TraceClear p.settings (tracesM2 p dt (fillM2 p u) i j)

end EulerKokkos.Spec
