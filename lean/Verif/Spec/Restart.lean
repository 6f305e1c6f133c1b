import Verif.Model.Driver
import Verif.Spec.Scheme2D
import Verif.Spec.Scheme3D

/-!
# What continuing a run from one of its files means
-/

namespace EulerKokkos.Spec

/-- two saved views show the same values in the interior cells (2D) -/
def SameInterior2 (p : Params ℝ) (a b : Loc Unit → ℝ) : Prop :=
  ∀ i j v, interior2 p i j → v < p.nbvar → a ⟨(), i, j, 0, v⟩ = b ⟨(), i, j, 0, v⟩

/-- two saved views show the same values in the interior cells (3D) -/
def SameInterior3 (p : Params ℝ) (a b : Loc Unit → ℝ) : Prop :=
  ∀ i j k v, interior3 p i j k → v < p.nbvar → a ⟨(), i, j, k, v⟩ = b ⟨(), i, j, k, v⟩

/-- the same file up to its number, which is `d` larger in the second run -/
def SameFile (Same : (Loc Unit → ℝ) → (Loc Unit → ℝ) → Prop) (d : Int) (o o' : Output ℝ) : Prop :=
  o'.number = o.number + d ∧ o'.time = o.time ∧ Same o.data o'.data

/-- the time of the file is not past the time of the next file, nor is it the end of the run up to
1e-12: in an interrupted run no file would be written again at once -/
def NotDueAgain (p : Params ℝ) (o : Output ℝ) : Prop :=
  0 < p.nOutput ∧ o.time ≤ ((o.number : ℝ) + 1) * (p.tEnd / p.nOutput) ∧
    1 / 1000000000000 ≤ |o.time - p.tEnd|

/-- Run `B`, started from the file `o` of run `A` (which wrote `pre`, then `o`, then `post`),
continues run `A`. -/
structure Continues (Same : (Loc Unit → ℝ) → (Loc Unit → ℝ) → Prop) (p : Params ℝ)
    (pre : List (Output ℝ)) (o : Output ℝ) (post : List (Output ℝ)) (A B : RunState ℝ) : Prop where
  /-- it ends at the same time -/
  time : B.t = A.t
  /-- with the same solution -/
  final : Same (viewOf A.mem (pingIn A.iteration)) (viewOf B.mem (pingIn B.iteration))
  /-- it writes the same files, from the one it starts from on: same numbers, times, contents -/
  files : post ≠ [] → (pre = [] ∨ NotDueAgain p o) → List.Forall₂ (SameFile Same 0) (o :: post) B.outputs
  /-- from the last file, or if a file is written in every iteration: the file it starts from is
  written twice, so that the numbers are one larger -/
  shifted : pre ≠ [] → (post = [] ∨ p.nOutput < 0) → ∃ o' tail, B.outputs = o' :: tail ∧
    SameFile Same 0 o o' ∧ List.Forall₂ (SameFile Same 1) (o :: post) tail

end EulerKokkos.Spec
