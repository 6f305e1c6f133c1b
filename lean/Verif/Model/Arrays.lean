import Verif.Core.Kernel
import Verif.Model.Riemann

/-!
# The views of the solvers and state access

`/repo/src/muscl/SolverHydroMuscl.h:196-274`: the views `U`, `U2`, `Q`, `Fluxes_*`, `Slopes_*`,
`gravity_field`.  A 2D view element `A(i,j,v)` is the location `⟨A, i, j, 0, v⟩`.
-/

namespace EulerKokkos

/-- View handles of the solvers (`/repo/src/muscl/SolverHydroMuscl.h:60-85`,
`/repo/src/muscl/SolverMHDMuscl.h`, border buffers of `/repo/src/shared/SolverBase.h`). -/
inductive Arr
  | U | U2 | Q
  | Fx | Fy | Fz
  | Sx | Sy | Sz
  | grav
  | Emf | Qm_x | Qm_y | Qm_z | Qp_x | Qp_y | Qp_z
  | QEdge (n : Nat)
  | ElecField | DeltaA | DeltaB | DeltaC
  | Q2 | sFaceMag
  /-- vector potential `Az` / `A` of the field loop initial condition,
  `/repo/src/muscl/MHDInitFunctors2D.h`, `/repo/src/muscl/MHDInitFunctors3D.h` -/
  | vecPot
  | send (f : Face) | recv (f : Face)
deriving DecidableEq, Repr

variable {R : Type} [RealOps R]

namespace HS
/-- componentwise `+` -/
def add (a b : HS R) : HS R := ⟨a.d + b.d, a.p + b.p, a.u + b.u, a.v + b.v, a.w + b.w⟩
/-- componentwise `-` -/
def sub (a b : HS R) : HS R := ⟨a.d - b.d, a.p - b.p, a.u - b.u, a.v - b.v, a.w - b.w⟩
/-- multiply every component by `c` (`flux[v] * c`) -/
def smul (a : HS R) (c : R) : HS R := ⟨a.d * c, a.p * c, a.u * c, a.v * c, a.w * c⟩
/-- forget the third velocity (2D states have none) -/
def trunc (a : HS R) : HS R := { a with w := lit 0 }
/-- `swapValues(&q[IU], &q[IV])`, `/repo/src/muscl/HydroBaseFunctor2D.h:34-44` -/
def swapUV (a : HS R) : HS R := { a with u := a.v, v := a.u }
/-- `swapValues(&q[IU], &q[IW])` -/
def swapUW (a : HS R) : HS R := { a with u := a.w, w := a.u }
/-- component by variable index -/
def get (a : HS R) : Nat → R
  | 0 => a.d
  | 1 => a.p
  | 2 => a.u
  | 3 => a.v
  | _ => a.w
/-- the zero state `HydroState{}` -/
def zero : HS R := ⟨lit 0, lit 0, lit 0, lit 0, lit 0⟩
end HS

/-- the 2D state stored at `(i,j)` of view `a` -/
def hs2 (m : Mem Arr R) (a : Arr) (i j : Int) : HS R :=
  ⟨m ⟨a, i, j, 0, ID⟩, m ⟨a, i, j, 0, IP⟩, m ⟨a, i, j, 0, IU⟩, m ⟨a, i, j, 0, IV⟩, lit 0⟩

/-- the 3D state stored at `(i,j,k)` of view `a` -/
def hs3 (m : Mem Arr R) (a : Arr) (i j k : Int) : HS R :=
  ⟨m ⟨a, i, j, k, ID⟩, m ⟨a, i, j, k, IP⟩, m ⟨a, i, j, k, IU⟩, m ⟨a, i, j, k, IV⟩,
   m ⟨a, i, j, k, IW⟩⟩

/-- memory with the 2D state at `(i,j)` of `a` replaced -/
def setMem2 (m : Mem Arr R) (a : Arr) (i j : Int) (s : HS R) : Mem Arr R :=
  fun l => if l.arr = a ∧ l.i = i ∧ l.j = j ∧ l.k = 0 ∧ l.v < 4 then s.get l.v else m l

/-- memory with the 3D state at `(i,j,k)` of `a` replaced -/
def setMem3 (m : Mem Arr R) (a : Arr) (i j k : Int) (s : HS R) : Mem Arr R :=
  fun l => if l.arr = a ∧ l.i = i ∧ l.j = j ∧ l.k = k ∧ l.v < 5 then s.get l.v else m l

open Prog (rd wr add)

/-- read the four variables of one cell (the C++ code reads them one by one:
e.g. `/repo/src/muscl/HydroRunFunctors2D.h:65-68`) -/
def getHS2 (a : Arr) (i j : Int) : Prog Arr R (HS R) := do
  let d ← rd ⟨a, i, j, 0, ID⟩
  let p ← rd ⟨a, i, j, 0, IP⟩
  let u ← rd ⟨a, i, j, 0, IU⟩
  let v ← rd ⟨a, i, j, 0, IV⟩
  pure ⟨d, p, u, v, lit 0⟩

/-- write the four variables of one cell (e.g. `/repo/src/muscl/HydroRunFunctors2D.h:236-239`) -/
def putHS2 (a : Arr) (i j : Int) (s : HS R) : Prog Arr R Unit := do
  wr ⟨a, i, j, 0, ID⟩ s.d
  wr ⟨a, i, j, 0, IP⟩ s.p
  wr ⟨a, i, j, 0, IU⟩ s.u
  wr ⟨a, i, j, 0, IV⟩ s.v

/-- `a(i,j,v) += f(i',j',v)` for the four variables
(e.g. `/repo/src/muscl/HydroRunFunctors2D.h:817-820`) -/
def plusEq2 (a : Arr) (i j : Int) (f : Arr) (i' j' : Int) : Prog Arr R Unit := do
  let x ← rd ⟨a, i, j, 0, ID⟩; let y ← rd ⟨f, i', j', 0, ID⟩; wr ⟨a, i, j, 0, ID⟩ (x + y)
  let x ← rd ⟨a, i, j, 0, IP⟩; let y ← rd ⟨f, i', j', 0, IP⟩; wr ⟨a, i, j, 0, IP⟩ (x + y)
  let x ← rd ⟨a, i, j, 0, IU⟩; let y ← rd ⟨f, i', j', 0, IU⟩; wr ⟨a, i, j, 0, IU⟩ (x + y)
  let x ← rd ⟨a, i, j, 0, IV⟩; let y ← rd ⟨f, i', j', 0, IV⟩; wr ⟨a, i, j, 0, IV⟩ (x + y)

/-- `a(i,j,v) -= f(i',j',v)` for the four variables
(e.g. `/repo/src/muscl/HydroRunFunctors2D.h:822-825`) -/
def minusEq2 (a : Arr) (i j : Int) (f : Arr) (i' j' : Int) : Prog Arr R Unit := do
  let x ← rd ⟨a, i, j, 0, ID⟩; let y ← rd ⟨f, i', j', 0, ID⟩; wr ⟨a, i, j, 0, ID⟩ (x - y)
  let x ← rd ⟨a, i, j, 0, IP⟩; let y ← rd ⟨f, i', j', 0, IP⟩; wr ⟨a, i, j, 0, IP⟩ (x - y)
  let x ← rd ⟨a, i, j, 0, IU⟩; let y ← rd ⟨f, i', j', 0, IU⟩; wr ⟨a, i, j, 0, IU⟩ (x - y)
  let x ← rd ⟨a, i, j, 0, IV⟩; let y ← rd ⟨f, i', j', 0, IV⟩; wr ⟨a, i, j, 0, IV⟩ (x - y)

/-- `Kokkos::atomic_add(&a(i,j,v), s[v])` for the four variables
(e.g. `/repo/src/muscl/HydroRunFunctors2D.h:1440-1443`) -/
def atomicAdd2 (a : Arr) (i j : Int) (s : HS R) : Prog Arr R Unit := do
  add ⟨a, i, j, 0, ID⟩ s.d
  add ⟨a, i, j, 0, IP⟩ s.p
  add ⟨a, i, j, 0, IU⟩ s.u
  add ⟨a, i, j, 0, IV⟩ s.v

/-- `Kokkos::atomic_sub(&a(i,j,v), s[v])` for the four variables
(e.g. `/repo/src/muscl/HydroRunFunctors2D.h:1448-1451`) -/
def atomicSub2 (a : Arr) (i j : Int) (s : HS R) : Prog Arr R Unit := do
  add ⟨a, i, j, 0, ID⟩ (-s.d)
  add ⟨a, i, j, 0, IP⟩ (-s.p)
  add ⟨a, i, j, 0, IU⟩ (-s.u)
  add ⟨a, i, j, 0, IV⟩ (-s.v)

/-- 3D version of `getHS2` (five variables) -/
def getHS3 (a : Arr) (i j k : Int) : Prog Arr R (HS R) := do
  let d ← rd ⟨a, i, j, k, ID⟩
  let p ← rd ⟨a, i, j, k, IP⟩
  let u ← rd ⟨a, i, j, k, IU⟩
  let v ← rd ⟨a, i, j, k, IV⟩
  let w ← rd ⟨a, i, j, k, IW⟩
  pure ⟨d, p, u, v, w⟩

/-- 3D version of `putHS2` (five variables) -/
def putHS3 (a : Arr) (i j k : Int) (s : HS R) : Prog Arr R Unit := do
  wr ⟨a, i, j, k, ID⟩ s.d
  wr ⟨a, i, j, k, IP⟩ s.p
  wr ⟨a, i, j, k, IU⟩ s.u
  wr ⟨a, i, j, k, IV⟩ s.v
  wr ⟨a, i, j, k, IW⟩ s.w

/-- 3D version of `plusEq2` -/
def plusEq3 (a : Arr) (i j k : Int) (f : Arr) (i' j' k' : Int) : Prog Arr R Unit := do
  let x ← rd ⟨a, i, j, k, ID⟩; let y ← rd ⟨f, i', j', k', ID⟩; wr ⟨a, i, j, k, ID⟩ (x + y)
  let x ← rd ⟨a, i, j, k, IP⟩; let y ← rd ⟨f, i', j', k', IP⟩; wr ⟨a, i, j, k, IP⟩ (x + y)
  let x ← rd ⟨a, i, j, k, IU⟩; let y ← rd ⟨f, i', j', k', IU⟩; wr ⟨a, i, j, k, IU⟩ (x + y)
  let x ← rd ⟨a, i, j, k, IV⟩; let y ← rd ⟨f, i', j', k', IV⟩; wr ⟨a, i, j, k, IV⟩ (x + y)
  let x ← rd ⟨a, i, j, k, IW⟩; let y ← rd ⟨f, i', j', k', IW⟩; wr ⟨a, i, j, k, IW⟩ (x + y)

/-- 3D version of `minusEq2` -/
def minusEq3 (a : Arr) (i j k : Int) (f : Arr) (i' j' k' : Int) : Prog Arr R Unit := do
  let x ← rd ⟨a, i, j, k, ID⟩; let y ← rd ⟨f, i', j', k', ID⟩; wr ⟨a, i, j, k, ID⟩ (x - y)
  let x ← rd ⟨a, i, j, k, IP⟩; let y ← rd ⟨f, i', j', k', IP⟩; wr ⟨a, i, j, k, IP⟩ (x - y)
  let x ← rd ⟨a, i, j, k, IU⟩; let y ← rd ⟨f, i', j', k', IU⟩; wr ⟨a, i, j, k, IU⟩ (x - y)
  let x ← rd ⟨a, i, j, k, IV⟩; let y ← rd ⟨f, i', j', k', IV⟩; wr ⟨a, i, j, k, IV⟩ (x - y)
  let x ← rd ⟨a, i, j, k, IW⟩; let y ← rd ⟨f, i', j', k', IW⟩; wr ⟨a, i, j, k, IW⟩ (x - y)

/-- 3D version of `atomicAdd2` -/
def atomicAdd3 (a : Arr) (i j k : Int) (s : HS R) : Prog Arr R Unit := do
  add ⟨a, i, j, k, ID⟩ s.d
  add ⟨a, i, j, k, IP⟩ s.p
  add ⟨a, i, j, k, IU⟩ s.u
  add ⟨a, i, j, k, IV⟩ s.v
  add ⟨a, i, j, k, IW⟩ s.w

/-- 3D version of `atomicSub2` -/
def atomicSub3 (a : Arr) (i j k : Int) (s : HS R) : Prog Arr R Unit := do
  add ⟨a, i, j, k, ID⟩ (-s.d)
  add ⟨a, i, j, k, IP⟩ (-s.p)
  add ⟨a, i, j, k, IU⟩ (-s.u)
  add ⟨a, i, j, k, IV⟩ (-s.v)
  add ⟨a, i, j, k, IW⟩ (-s.w)

/-- `Kokkos::deep_copy(dst, src)` -/
def deepCopy (dst src : Arr) : Kern Arr R :=
  Kern.ofFun (fun m l => if l.arr = dst then m { l with arr := src } else m l)

/-- `GravityParams`, `/repo/src/shared/GravityParams.h:21-39` (the well-balanced flag is not read
by any solver). -/
structure GravityParams where
  enabled : Bool
  hancock_predictor_enabled : Bool
deriving DecidableEq, Repr

/-- Contents of uninitialised local variables, chosen by an adversary: slot number and cell. -/
abbrev Junk (R : Type) := Nat → Int → Int → Int → HS R

end EulerKokkos
