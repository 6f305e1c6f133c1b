import Verif.Model.Arrays

/-!
# MHD states and their storage

`MHDState` (`/repo/src/shared/HydroState.h`) has eight components
`ID, IP, IU, IV, IW, IA, IB, IC`; in the conservative arrays `IA, IB, IC` are the components of the
magnetic field at the centre of the left x-, y- and z-face of the cell.  2D views are used with
`k = 0`.
-/

set_option linter.constructorNameAsVariable false

namespace EulerKokkos

/-- `MHDState`, `/repo/src/shared/HydroState.h` (`Kokkos::Array<real_t, MHD_NBVAR>`). -/
@[ext] structure MS (R : Type) where
  d : R
  p : R
  u : R
  v : R
  w : R
  a : R
  b : R
  c : R

variable {R : Type} [RealOps R]

namespace MS
/-- component by variable index, `/repo/src/shared/enums.h` -/
def get (s : MS R) : Nat → R
  | 0 => s.d
  | 1 => s.p
  | 2 => s.u
  | 3 => s.v
  | 4 => s.w
  | 5 => s.a
  | 6 => s.b
  | _ => s.c

/-- a state with all components zero (used for entries that are never read) -/
def zero : MS R := ⟨lit 0, lit 0, lit 0, lit 0, lit 0, lit 0, lit 0, lit 0⟩

/-- `swapValues(&q[IU], &q[IV]); swapValues(&q[IA], &q[IB]);`,
`/repo/src/muscl/MHDRunFunctors2D.h:446-449` -/
def swapXY (s : MS R) : MS R := { s with u := s.v, v := s.u, a := s.b, b := s.a }

/-- `swapValues(&q[IU], &q[IW]); swapValues(&q[IA], &q[IC]);`,
`/repo/src/muscl/MHDRunFunctors3D.h` (z faces) -/
def swapXZ (s : MS R) : MS R := { s with u := s.w, w := s.u, a := s.c, c := s.a }
end MS

/-- the MHD state stored at `(i,j,k)` of view `a` -/
def ms (m : Mem Arr R) (a : Arr) (i j k : Int) : MS R :=
  ⟨m ⟨a, i, j, k, ID⟩, m ⟨a, i, j, k, IP⟩, m ⟨a, i, j, k, IU⟩, m ⟨a, i, j, k, IV⟩,
   m ⟨a, i, j, k, IW⟩, m ⟨a, i, j, k, IA⟩, m ⟨a, i, j, k, IB⟩, m ⟨a, i, j, k, IC⟩⟩

/-- memory with the MHD state at `(i,j,k)` of `a` replaced -/
def setMemM (m : Mem Arr R) (a : Arr) (i j k : Int) (s : MS R) : Mem Arr R :=
  fun l => if l.arr = a ∧ l.i = i ∧ l.j = j ∧ l.k = k ∧ l.v < 8 then s.get l.v else m l

open Prog (rd wr add)

/-- `get_state`, `/repo/src/muscl/MHDBaseFunctor2D.h:49-63`,
`/repo/src/muscl/MHDBaseFunctor3D.h` -/
def getMS (a : Arr) (i j k : Int) : Prog Arr R (MS R) := do
  let d ← rd ⟨a, i, j, k, ID⟩
  let p ← rd ⟨a, i, j, k, IP⟩
  let u ← rd ⟨a, i, j, k, IU⟩
  let v ← rd ⟨a, i, j, k, IV⟩
  let w ← rd ⟨a, i, j, k, IW⟩
  let a' ← rd ⟨a, i, j, k, IA⟩
  let b' ← rd ⟨a, i, j, k, IB⟩
  let c' ← rd ⟨a, i, j, k, IC⟩
  pure ⟨d, p, u, v, w, a', b', c'⟩

/-- `set_state`, `/repo/src/muscl/MHDBaseFunctor2D.h:68-82`,
`/repo/src/muscl/MHDBaseFunctor3D.h` -/
def putMS (a : Arr) (i j k : Int) (s : MS R) : Prog Arr R Unit := do
  wr ⟨a, i, j, k, ID⟩ s.d
  wr ⟨a, i, j, k, IP⟩ s.p
  wr ⟨a, i, j, k, IU⟩ s.u
  wr ⟨a, i, j, k, IV⟩ s.v
  wr ⟨a, i, j, k, IW⟩ s.w
  wr ⟨a, i, j, k, IA⟩ s.a
  wr ⟨a, i, j, k, IB⟩ s.b
  wr ⟨a, i, j, k, IC⟩ s.c

/-- `BField`: three components of a magnetic field, `/repo/src/shared/HydroState.h` -/
structure BF (R : Type) where
  x : R
  y : R
  z : R

/-- the face-centred field of cell `(i,j,k)` -/
def bf (m : Mem Arr R) (a : Arr) (i j k : Int) : BF R :=
  ⟨m ⟨a, i, j, k, IA⟩, m ⟨a, i, j, k, IB⟩, m ⟨a, i, j, k, IC⟩⟩

/-- `get_magField`, `/repo/src/muscl/MHDBaseFunctor2D.h:87-96` -/
def getBF (a : Arr) (i j k : Int) : Prog Arr R (BF R) := do
  let x ← rd ⟨a, i, j, k, IA⟩
  let y ← rd ⟨a, i, j, k, IB⟩
  let z ← rd ⟨a, i, j, k, IC⟩
  pure ⟨x, y, z⟩

/-- `Kokkos::atomic_add(&a(i,j,k,v), f[v]*c)` for `ID, IP, IU, IV, IW, IC`
(`/repo/src/muscl/MHDRunFunctors2D.h:549-556`): the six variables a 2D MHD flux updates. -/
def atomicAddM6 (a : Arr) (i j k : Int) (f : MS R) (c : R) : Prog Arr R Unit := do
  add ⟨a, i, j, k, ID⟩ (f.d * c)
  add ⟨a, i, j, k, IP⟩ (f.p * c)
  add ⟨a, i, j, k, IU⟩ (f.u * c)
  add ⟨a, i, j, k, IV⟩ (f.v * c)
  add ⟨a, i, j, k, IW⟩ (f.w * c)
  add ⟨a, i, j, k, IC⟩ (f.c * c)

/-- `Kokkos::atomic_sub(&a(i,j,k,v), f[v]*c)` for the same six variables
(`/repo/src/muscl/MHDRunFunctors2D.h:558-565`). -/
def atomicSubM6 (a : Arr) (i j k : Int) (f : MS R) (c : R) : Prog Arr R Unit := do
  add ⟨a, i, j, k, ID⟩ (-(f.d * c))
  add ⟨a, i, j, k, IP⟩ (-(f.p * c))
  add ⟨a, i, j, k, IU⟩ (-(f.u * c))
  add ⟨a, i, j, k, IV⟩ (-(f.v * c))
  add ⟨a, i, j, k, IW⟩ (-(f.w * c))
  add ⟨a, i, j, k, IC⟩ (-(f.c * c))

/-- Fill a local array: `for (x : xs) loc[x] = f(x)` -/
def gather {ι α : Type} [DecidableEq ι] (f : ι → Prog Arr R α) :
    List ι → (ι → α) → Prog Arr R (ι → α)
  | [], acc => pure acc
  | x :: xs, acc => do
    let y ← f x
    gather f xs (Function.update acc x y)

/-- Contents of uninitialised local `MHDState` variables, chosen by an adversary: slot number and
cell. -/
abbrev JunkM (R : Type) := Nat → Int → Int → Int → MS R

end EulerKokkos
