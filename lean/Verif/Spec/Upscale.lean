import Verif.Model.Params
import Verif.Core.RealOps

/-!
# Refinement of a field by a factor two

Every coarse cell is cut in 2 × 2 (2 × 2 × 2) fine cells.  Cell-centred variables are copied.  A
face-centred component is copied to the fine faces that lie on a coarse face, and averaged from the two
coarse faces on the fine faces in between.
-/

namespace EulerKokkos.Spec
open EulerKokkos

variable {R : Type} [RealOps R]

/-- the coarse cell that contains a fine cell, along one axis (`g` ghost cells on either grid) -/
def parent (g i : Int) : Int := g + (i - g) / 2

/-- is the fine cell the second half of its parent -/
def second (g i : Int) : Prop := (i - g) % 2 = 1

instance (g i : Int) : Decidable (second g i) := by unfold second; infer_instance

/-- the refined field, 2D -/
def refined2 (g : Int) (u : Int → Int → Nat → R) (i j : Int) (v : Nat) : R :=
  let I := parent g i
  let J := parent g j
  if v = IA ∧ second g i then (u I J v + u (I + 1) J v) / lit 2
  else if v = IB ∧ second g j then (u I J v + u I (J + 1) v) / lit 2
  else u I J v

/-- the refined field, 3D -/
def refined3 (g : Int) (u : Int → Int → Int → Nat → R) (i j k : Int) (v : Nat) : R :=
  let I := parent g i
  let J := parent g j
  let K := parent g k
  if v = IA ∧ second g i then (u I J K v + u (I + 1) J K v) / lit 2
  else if v = IB ∧ second g j then (u I J K v + u I (J + 1) K v) / lit 2
  else if v = IC ∧ second g k then (u I J K v + u I J (K + 1) v) / lit 2
  else u I J K v

end EulerKokkos.Spec
