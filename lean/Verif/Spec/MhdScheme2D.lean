import Verif.Model.Mhd2D
import Verif.Spec.Scheme2D

/-!
# Specification of the 2D MHD scheme on fields

What one step of the 2D constrained-transport MUSCL-Hancock scheme computes, as a function from a
field `u : Int → Int → MS R` (ghost cells filled; components `a`, `b` live on the left x- and y-faces)
to the new field.  No memory, no kernels, no schedule.  The three implementation versions of the code
are compared with this one scheme.
-/

namespace EulerKokkos

variable {R : Type} [RealOps R]

/-- a 2D field of MHD states -/
abbrev FldM2 (R : Type) := Int → Int → MS R

namespace Spec

/-- primitive variables (magnetic field: mean of the two faces) -/
def primM2 (p : Params R) (u : FldM2 R) : FldM2 R := fun i j =>
  (constoprimMhd p.settings (u i j) ⟨(u (i + 1) j).a, (u i (j + 1)).b, lit 0⟩).1

/-- face and edge states of cell `(i,j)` half a time step later, from the primitive field `q` and the
conservative field `u` -/
def traceM2 (p : Params R) (dt : R) (q u : FldM2 R) (i j : Int) : TraceM2 R :=
  traceMhd2 p.settings (fun o => q (i + o.1) (j + o.2))
    (fun o => ⟨(u (i + o.1) (j + o.2)).a, (u (i + o.1) (j + o.2)).b, (u (i + o.1) (j + o.2)).c⟩)
    (dt / p.dx) (dt / p.dy) MS.zero MS.zero

/-- flux through the left x-face of cell `(i,j)` -/
def fluxXM2 (p : Params R) (T : Int → Int → TraceM2 R) (i j : Int) : MS R :=
  riemannMhd p.settings p.riemannSolverType (T (i - 1) j).qmx (T i j).qpx MS.zero

/-- flux through the lower y-face of cell `(i,j)` -/
def fluxYM2 (p : Params R) (T : Int → Int → TraceM2 R) (i j : Int) : MS R :=
  (riemannMhd p.settings p.riemannSolverType (T i (j - 1)).qmy.swapXY (T i j).qpy.swapXY
    MS.zero).swapXY

/-- electromotive force at the lower left edge of cell `(i,j)` -/
def emfM2 (p : Params R) (T : Int → Int → TraceM2 R) (i j : Int) : R :=
  computeEmf p.settings .z ⟨(T (i - 1) (j - 1)).rt, (T (i - 1) j).rb, (T i (j - 1)).lt, (T i j).lb⟩

/-- flux update of the six cell-centred variables -/
def fluxUpdateM2 (fx fy : FldM2 R) (dtdx dtdy : R) (u : MS R) (i j : Int) : MS R :=
  (((u.plus6 (fx i j) dtdx).minus6 (fx (i + 1) j) dtdx).plus6 (fy i j) dtdy).minus6
    (fy i (j + 1)) dtdy

/-- constrained-transport update of the two face-centred components -/
def ctUpdate2 (E : Int → Int → R) (dtdx dtdy : R) (u : MS R) (i j : Int) : MS R :=
  { u with a := u.a + (E i (j + 1) - E i j) * dtdy, b := u.b - (E (i + 1) j - E i j) * dtdx }

/-- face and edge states of the field `u` -/
def tracesM2 (p : Params R) (dt : R) (u : FldM2 R) : Int → Int → TraceM2 R :=
  traceM2 p dt (primM2 p u) u

/-- one step: interior cells are updated, ghost cells are copied -/
def stepM2 (p : Params R) (dt : R) (u : FldM2 R) : FldM2 R := fun i j =>
  if interior2 p i j then
    ctUpdate2 (emfM2 p (tracesM2 p dt u)) (dt / p.dx) (dt / p.dy)
      (fluxUpdateM2 (fluxXM2 p (tracesM2 p dt u)) (fluxYM2 p (tracesM2 p dt u))
        (dt / p.dx) (dt / p.dy) (u i j) i j) i j
  else u i j

/-- ghost cells filled -/
def fillM2 (p : Params R) (u : FldM2 R) : FldM2 R := fun i j =>
  let f := ghost2 true p (fun i j v => (u i j).get v) i j
  ⟨f ID, f IP, f IU, f IV, f IW, f IA, f IB, f IC⟩

/-- one complete time step -/
def fullStepM2 (p : Params R) (dt : R) (u : FldM2 R) : FldM2 R := stepM2 p dt (fillM2 p u)

/-- settings for which slopes and flux are defined -/
structure ValidM (p : Params R) : Prop where
  slope : RealOps.beq p.settings.slope_type (lit 1 : R) = true ∨
    RealOps.beq p.settings.slope_type (lit 2 : R) = true
  riemann : p.riemannSolverType = .hll ∨ p.riemannSolverType = .llf ∨ p.riemannSolverType = .hlld

end Spec
end EulerKokkos
