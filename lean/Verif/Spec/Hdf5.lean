import Verif.Model.Hdf5

/-!
# What a file of a field is

A file stores a field `G` (a function of the cell, counted from 0, and of the variable) when for
every variable it has a dataset under the name of the variable, of the right extent (slowest
dimension first), whose entries are the values of `G`.
-/

namespace EulerKokkos.Spec

variable {R : Type} [RealOps R]

/-- the file stores the 2D field `G` of `nx × ny` cells and `nb` variables -/
def Stores2 (f : H5File R) (nb : Nat) (nx ny : Int) (G : Int → Int → Nat → R) : Prop :=
  ∀ v < nb, ∃ d, f.field (varName v) = some d ∧ d.dims = [ny, nx] ∧
    ∀ i j, (0 ≤ i ∧ i < nx) → (0 ≤ j ∧ j < ny) → d.val [j, i] = G i j v

/-- the file stores the 3D field `G` of `nx × ny × nz` cells and `nb` variables -/
def Stores3 (f : H5File R) (nb : Nat) (nx ny nz : Int) (G : Int → Int → Int → Nat → R) : Prop :=
  ∀ v < nb, ∃ d, f.field (varName v) = some d ∧ d.dims = [nz, ny, nx] ∧
    ∀ i j k, (0 ≤ i ∧ i < nx) → (0 ≤ j ∧ j < ny) → (0 ≤ k ∧ k < nz) → d.val [k, j, i] = G i j k v

/-- the number of variables is the one of the solver: 8 for MHD, else 4 in 2D and 5 in 3D -/
def UsualFields (p : Params R) : Prop :=
  p.nbvar = if p.mhdEnabled then 8 else if p.dimType = .two then 4 else 5

end EulerKokkos.Spec
