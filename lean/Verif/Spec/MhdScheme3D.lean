import Verif.Model.Mhd3D
import Verif.Spec.MhdScheme2D
import Verif.Lemmas.GhostFill

/-!
# Specification of the 3D MHD scheme on fields

One step of the 3D constrained-transport MUSCL-Hancock scheme as a function from a field
`u : Int → Int → Int → MS R` (ghost cells filled; `a`, `b`, `c` live on the left x-, y-, z-faces) to the new
field.  No memory, no kernels, no schedule.  Every version of the code computes a step of the form
`stepOfM3 p dt F u`, where `F` gives the fluxes through the left faces and the electromotive forces on the
lower left edges; versions 0 and 1 use `fluxesM3`, version 2 uses `fluxesV2M3`.
-/

namespace EulerKokkos

variable {R : Type} [RealOps R]

/-- a 3D field of MHD states -/
abbrev FldM3 (R : Type) := Int → Int → Int → MS R

/-- fluxes through the left faces of each cell, and electromotive forces on its three lower left edges -/
structure FluxM3 (R : Type) where
  x : FldM3 R
  y : FldM3 R
  z : FldM3 R
  e : EmfDir → Int → Int → Int → R

namespace Spec

/-! ## The common shape of a step -/

/-- flux update of the five cell-centred variables -/
def fluxUpdateM3 (F : FluxM3 R) (dtdx dtdy dtdz : R) (u : MS R) (i j k : Int) : MS R :=
  (((((u.plus5 (F.x i j k) dtdx).minus5 (F.x (i + 1) j k) dtdx).plus5 (F.y i j k) dtdy).minus5
    (F.y i (j + 1) k) dtdy).plus5 (F.z i j k) dtdz).minus5 (F.z i j (k + 1)) dtdz

/-- constrained-transport update of the three face-centred components: `∂B/∂t = - curl E` with
`E = - e` (sign convention of the code) -/
def ctUpdate3 (E : EmfDir → Int → Int → Int → R) (dtdx dtdy dtdz : R) (u : MS R) (i j k : Int) : MS R :=
  { u with
    a := u.a + (E .z i (j + 1) k - E .z i j k) * dtdy - (E .y i j (k + 1) - E .y i j k) * dtdz
    b := u.b - (E .z (i + 1) j k - E .z i j k) * dtdx + (E .x i j (k + 1) - E .x i j k) * dtdz
    c := u.c + (E .y (i + 1) j k - E .y i j k) * dtdx - (E .x i (j + 1) k - E .x i j k) * dtdy }

/-- one step with the given fluxes: interior cells are updated, ghost cells are copied -/
def stepOfM3 (p : Params R) (dt : R) (F : FluxM3 R) (u : FldM3 R) : FldM3 R := fun i j k =>
  if interior3 p i j k then
    ctUpdate3 F.e (dt / p.dx) (dt / p.dy) (dt / p.dz)
      (fluxUpdateM3 F (dt / p.dx) (dt / p.dy) (dt / p.dz) (u i j k) i j k) i j k
  else u i j k

/-! ## Versions 0 and 1 -/

/-- primitive variables (magnetic field: mean of the two faces) -/
def primM3 (p : Params R) (u : FldM3 R) : FldM3 R := fun i j k =>
  (constoprimMhd p.settings (u i j k)
    ⟨(u (i + 1) j k).a, (u i (j + 1) k).b, (u i j (k + 1)).c⟩).1

/-- mean of four values -/
def avg4 (a b c d : R) : R := lit (1/4) * (a + b + c + d)
/-- mean of two values -/
def avg2 (a b : R) : R := lit (1/2) * (a + b)

/-- electric field `v × B` on the three lower left edges of cell `(i,j,k)`, from averages -/
def elecM3 (q u : FldM3 R) (d : Dir) (i j k : Int) : R :=
  match d with
  | .x =>
    avg4 (q i (j - 1) (k - 1)).v (q i (j - 1) k).v (q i j (k - 1)).v (q i j k).v *
        avg2 (u i (j - 1) k).c (u i j k).c -
      avg4 (q i (j - 1) (k - 1)).w (q i (j - 1) k).w (q i j (k - 1)).w (q i j k).w *
        avg2 (u i j (k - 1)).b (u i j k).b
  | .y =>
    avg4 (q (i - 1) j (k - 1)).w (q (i - 1) j k).w (q i j (k - 1)).w (q i j k).w *
        avg2 (u i j (k - 1)).a (u i j k).a -
      avg4 (q (i - 1) j (k - 1)).u (q (i - 1) j k).u (q i j (k - 1)).u (q i j k).u *
        avg2 (u (i - 1) j k).c (u i j k).c
  | .z =>
    avg4 (q (i - 1) (j - 1) k).u (q (i - 1) j k).u (q i (j - 1) k).u (q i j k).u *
        avg2 (u (i - 1) j k).b (u i j k).b -
      avg4 (q (i - 1) (j - 1) k).v (q (i - 1) j k).v (q i (j - 1) k).v (q i j k).v *
        avg2 (u i (j - 1) k).a (u i j k).a

/-- limited transverse slope along `d` of a face-centred component -/
def faceSlopeM3 (p : Params R) (u : Int → Int → Int → R) (d : Dir) (i j k : Int) : R :=
  slopeScalarDir (fmin p.settings.slope_type (lit 2)) (u i j k)
    (u (i + d.delta.1) (j + d.delta.2.1) (k + d.delta.2.2))
    (u (i - d.delta.1) (j - d.delta.2.1) (k - d.delta.2.2))

/-- everything the reconstruction of cell `(i,j,k)` depends on -/
def traceInM3 (p : Params R) (q u : FldM3 R) (i j k : Int) : TraceIn3 R :=
  let A := faceSlopeM3 p (fun i j k => (u i j k).a)
  let B := faceSlopeM3 p (fun i j k => (u i j k).b)
  let C := faceSlopeM3 p (fun i j k => (u i j k).c)
  { q := q i j k, xp := q (i + 1) j k, xm := q (i - 1) j k, yp := q i (j + 1) k, ym := q i (j - 1) k,
    zp := q i j (k + 1), zm := q i j (k - 1), al := (u i j k).a, ar := (u (i + 1) j k).a,
    bl := (u i j k).b, br := (u i (j + 1) k).b, cl := (u i j k).c, cr := (u i j (k + 1)).c,
    dbf := { aly := A .y i j k, alz := A .z i j k, blx := B .x i j k, blz := B .z i j k,
             clx := C .x i j k, cly := C .y i j k,
             ary := A .y (i + 1) j k, arz := A .z (i + 1) j k,
             brx := B .x i (j + 1) k, brz := B .z i (j + 1) k,
             crx := C .x i j (k + 1), cry := C .y i j (k + 1) },
    ex := ⟨elecM3 q u .x i j k, elecM3 q u .x i j (k + 1), elecM3 q u .x i (j + 1) k,
      elecM3 q u .x i (j + 1) (k + 1)⟩,
    ey := ⟨elecM3 q u .y i j k, elecM3 q u .y i j (k + 1), elecM3 q u .y (i + 1) j k,
      elecM3 q u .y (i + 1) j (k + 1)⟩,
    ez := ⟨elecM3 q u .z i j k, elecM3 q u .z i (j + 1) k, elecM3 q u .z (i + 1) j k,
      elecM3 q u .z (i + 1) (j + 1) k⟩ }

/-- face and edge states of cell `(i,j,k)` half a time step later -/
def traceM3 (p : Params R) (dt : R) (q u : FldM3 R) (i j k : Int) : TraceM3 R :=
  traceMhd3 p.settings (traceInM3 p q u i j k) (dt / p.dx) (dt / p.dy) (dt / p.dz)

/-- fluxes and electromotive forces from the face and edge states `T` -/
def fluxOfTraces (p : Params R) (T : Int → Int → Int → TraceM3 R) : FluxM3 R where
  x i j k := riemannMhd p.settings p.riemannSolverType (T (i - 1) j k).qmx (T i j k).qpx MS.zero
  y i j k := (riemannMhd p.settings p.riemannSolverType (T i (j - 1) k).qmy.swapXY
    (T i j k).qpy.swapXY MS.zero).swapXY
  z i j k := (riemannMhd p.settings p.riemannSolverType (T i j (k - 1)).qmz.swapXZ
    (T i j k).qpz.swapXZ MS.zero).swapXZ
  e d i j k := computeEmf p.settings d (match d with
    | .z => ⟨(T (i - 1) (j - 1) k).ez.rt, (T (i - 1) j k).ez.rb, (T i (j - 1) k).ez.lt, (T i j k).ez.lb⟩
    | .y => ⟨(T (i - 1) j (k - 1)).ey.rt, (T i j (k - 1)).ey.lt, (T (i - 1) j k).ey.rb, (T i j k).ey.lb⟩
    | .x => ⟨(T i (j - 1) (k - 1)).ex.rt, (T i (j - 1) k).ex.rb, (T i j (k - 1)).ex.lt, (T i j k).ex.lb⟩)

/-- fluxes and electromotive forces of versions 0 and 1 -/
def fluxesM3 (p : Params R) (dt : R) (u : FldM3 R) : FluxM3 R :=
  fluxOfTraces p (traceM3 p dt (primM3 p u) u)

/-! ## Version 2 -/

/-- slopes of cell `(i,j,k)` along `d`; the slope of the normal field is the difference of the two faces -/
def slopeV2 (p : Params R) (q u : FldM3 R) (d : Dir) (i j k : Int) : MS R :=
  (slopeM p.settings (q i j k) (q (i + d.delta.1) (j + d.delta.2.1) (k + d.delta.2.2))
    (q (i - d.delta.1) (j - d.delta.2.1) (k - d.delta.2.2)) MS.zero).setMag d
    ((u (i + d.delta.1) (j + d.delta.2.1) (k + d.delta.2.2)).mag d - (u i j k).mag d)

/-- primitive variables half a time step later -/
def q2V2 (p : Params R) (dt : R) (q u : FldM3 R) : FldM3 R := fun i j k =>
  (q i j k).addHalf (sourceM3 p.settings (q i j k) (slopeV2 p q u .x i j k) (slopeV2 p q u .y i j k)
    (slopeV2 p q u .z i j k) ((u (i + 1) j k).a - (u i j k).a) ((u i (j + 1) k).b - (u i j k).b)
    ((u i j (k + 1)).c - (u i j k).c) (dt / p.dx) (dt / p.dy) (dt / p.dz))

/-- change of the face-centred field over half a time step -/
def sFaceV2 (p : Params R) (dt : R) (q u : FldM3 R) (d : Dir) (i j k : Int) : R :=
  let E := elecM3 q u
  let h : R := lit (1/2)
  match d with
  | .x => (E .z i (j + 1) k - E .z i j k) * h * (dt / p.dy) -
      (E .y i j (k + 1) - E .y i j k) * h * (dt / p.dz)
  | .y => -(E .z (i + 1) j k - E .z i j k) * h * (dt / p.dx) +
      (E .x i j (k + 1) - E .x i j k) * h * (dt / p.dz)
  | .z => (E .y (i + 1) j k - E .y i j k) * h * (dt / p.dx) -
      (E .x i (j + 1) k - E .x i j k) * h * (dt / p.dy)

/-- flux through the left face along `d` -/
def fluxV2 (p : Params R) (dt : R) (q u : FldM3 R) (d : Dir) : FldM3 R := fun i j k =>
  let q2 := q2V2 p dt q u
  let qR := MS.floored p.settings (((q2 i j k).subHalf (slopeV2 p q u d i j k)).setMag d
    ((u i j k).mag d + sFaceV2 p dt q u d i j k))
  let i' := i - d.delta.1
  let j' := j - d.delta.2.1
  let k' := k - d.delta.2.2
  let qL := MS.floored p.settings (((q2 i' j' k').addHalf (slopeV2 p q u d i' j' k')).setMag d
    (qR.mag d))
  (riemannMhd p.settings p.riemannSolverType (qL.swapDir d) (qR.swapDir d) MS.zero).swapDir d

/-- limited transverse slope of version 2: along z the two neighbours coincide (as coded) -/
def limSlopeV2 (p : Params R) (u : Int → Int → Int → R) (d : Dir) (i j k : Int) : R :=
  slopeScalarDir p.settings.slope_type (u i j k)
    (u (i + d.delta.1) (j + d.delta.2.1) (k + d.delta.2.2))
    (u (i - d.delta.1) (j - d.delta.2.1) (k + d.delta.2.2))

/-- edge state of cell `(i,j,k)` in the plane `(d0, d1)` -/
def edgeV2 (p : Params R) (dt : R) (q u : FldM3 R) (d0 d1 : Dir) (i j k : Int) (e : EdgeLoc) : MS R :=
  let h : R := lit (1/2)
  let s0 : R → R := sgnMul e.right
  let s1 : R → R := sgnMul e.top
  let r : Int := if e.right then 1 else 0
  let t : Int := if e.top then 1 else 0
  let i0 := i + r * d0.delta.1
  let j0 := j + r * d0.delta.2.1
  let k0 := k + r * d0.delta.2.2
  let i1 := i + t * d1.delta.1
  let j1 := j + t * d1.delta.2.1
  let k1 := k + t * d1.delta.2.2
  let B0 := (u i0 j0 k0).mag d0 + sFaceV2 p dt q u d0 i0 j0 k0
  let B1 := (u i1 j1 k1).mag d1 + sFaceV2 p dt q u d1 i1 j1 k1
  let n0 := B0 + h * s1 (limSlopeV2 p (fun i j k => (u i j k).mag d0) d1 i0 j0 k0)
  let n1 := B1 + h * s0 (limSlopeV2 p (fun i j k => (u i j k).mag d1) d0 i1 j1 k1)
  let dq0 := slopeV2 p q u d0 i j k
  let dq1 := slopeV2 p q u d1 i j k
  let f := fun x y => h * (s0 x + s1 y)
  let c := q2V2 p dt q u i j k
  let a := if d0 = .x then n0 else c.a + f dq0.a dq1.a
  let b := if d0 = .y then n0 else c.b + f dq0.b dq1.b
  let b := if d1 = .y then n1 else b + f dq0.b dq1.b
  let cc := if d1 = .z then n1 else c.c + f dq0.c dq1.c
  MS.floored p.settings ⟨c.d + f dq0.d dq1.d, c.p + f dq0.p dq1.p, c.u + f dq0.u dq1.u,
    c.v + f dq0.v dq1.v, c.w + f dq0.w dq1.w, a, b, cc⟩

/-- electromotive force along `d` -/
def emfV2 (p : Params R) (dt : R) (q u : FldM3 R) (d : EmfDir) (i j k : Int) : R :=
  computeEmf p.settings d (match d with
    | .z => ⟨edgeV2 p dt q u .x .y (i - 1) (j - 1) k .rt, edgeV2 p dt q u .x .y (i - 1) j k .rb,
        edgeV2 p dt q u .x .y i (j - 1) k .lt, edgeV2 p dt q u .x .y i j k .lb⟩
    | .y => ⟨edgeV2 p dt q u .x .z (i - 1) j (k - 1) .rt, edgeV2 p dt q u .x .z i j (k - 1) .lt,
        edgeV2 p dt q u .x .z (i - 1) j k .rb, edgeV2 p dt q u .x .z i j k .lb⟩
    | .x => ⟨edgeV2 p dt q u .y .z i (j - 1) (k - 1) .rt, edgeV2 p dt q u .y .z i (j - 1) k .rb,
        edgeV2 p dt q u .y .z i j (k - 1) .lt, edgeV2 p dt q u .y .z i j k .lb⟩)

/-- fluxes and electromotive forces of version 2 -/
def fluxesV2M3 (p : Params R) (dt : R) (u : FldM3 R) : FluxM3 R where
  x := fluxV2 p dt (primM3 p u) u .x
  y := fluxV2 p dt (primM3 p u) u .y
  z := fluxV2 p dt (primM3 p u) u .z
  e := emfV2 p dt (primM3 p u) u

/-! ## A time step -/

/-- fluxes of the selected version -/
def schemeM3 (p : Params R) (dt : R) (u : FldM3 R) : FluxM3 R :=
  if p.implementationVersion = 2 then fluxesV2M3 p dt u else fluxesM3 p dt u

/-- one step of the selected version -/
def stepM3 (p : Params R) (dt : R) (u : FldM3 R) : FldM3 R := stepOfM3 p dt (schemeM3 p dt u) u

/-- ghost cells filled -/
def fillM3 (p : Params R) (u : FldM3 R) : FldM3 R := fun i j k =>
  let f := ghost3 true p (fun i j k v => (u i j k).get v) i j k
  ⟨f ID, f IP, f IU, f IV, f IW, f IA, f IB, f IC⟩

/-- one complete time step -/
def fullStepM3 (p : Params R) (dt : R) (u : FldM3 R) : FldM3 R := stepM3 p dt (fillM3 p u)

end Spec
end EulerKokkos
