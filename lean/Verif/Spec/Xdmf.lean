import Verif.Model.Xdmf

/-!
# What a reader of the XDMF index expects
-/

namespace EulerKokkos.Spec

variable {R : Type} [RealOps R]

/-- Following the reference of an attribute in the directory `dir` leads to the dataset `d`, of the extent the
index announces. -/
def LeadsTo (disk : Disk (H5File R)) (dir : List Char) (a : XdmfAttribute) (d : H5.Dataset R) : Prop :=
  (∃ f, disk (dir ++ '/' :: a.file) = some f ∧ f.field a.dataset = some d) ∧ d.dims = a.dims

/-- The grid shows the 2D field `G` with `nb` variables: its attributes are the variables in order, and each
leads to the values. -/
def GridShows2 (disk : Disk (H5File R)) (dir : List Char) (g : XdmfGrid) (nb : Nat) (nx ny : Int)
    (G : Int → Int → Nat → R) : Prop :=
  g.attributes.map XdmfAttribute.name = (List.range nb).map varName ∧
  ∀ v < nb, ∃ a d, g.attributes[v]? = some a ∧ LeadsTo disk dir a d ∧ a.dims = [ny, nx] ∧
    ∀ i j, (0 ≤ i ∧ i < nx) → (0 ≤ j ∧ j < ny) → d.val [j, i] = G i j v

/-- the same for a 3D field -/
def GridShows3 (disk : Disk (H5File R)) (dir : List Char) (g : XdmfGrid) (nb : Nat) (nx ny nz : Int)
    (G : Int → Int → Int → Nat → R) : Prop :=
  g.attributes.map XdmfAttribute.name = (List.range nb).map varName ∧
  ∀ v < nb, ∃ a d, g.attributes[v]? = some a ∧ LeadsTo disk dir a d ∧ a.dims = [nz, ny, nx] ∧
    ∀ i j k, (0 ≤ i ∧ i < nx) → (0 ≤ j ∧ j < ny) → (0 ≤ k ∧ k < nz) → d.val [k, j, i] = G i j k v

/-- cells of a rectilinear mesh with the given numbers of nodes -/
def cellsOfMesh (nodes : List Int) : List Int := nodes.map (· - 1)

end EulerKokkos.Spec
