import Verif.Lemmas.Mpi
import Verif.Spec.Decomposition
import Verif.Lemmas.GhostFill
import Verif.Props.Sample

/-!
# C37: the Cartesian process grid
-/

set_option linter.constructorNameAsVariable false
set_option linter.unusedSimpArgs false
set_option linter.unusedSectionVars false

namespace EulerKokkos

open Spec

variable {R : Type} [RealOps R]

/-- Ranks and positions of the process grid correspond one to one. -/
theorem C37_rank_position_bijection (T : Topo) :
    (∀ r : T.Rank, (0 ≤ (T.coords r).1 ∧ (T.coords r).1 < T.mx) ∧
      (0 ≤ (T.coords r).2.1 ∧ (T.coords r).2.1 < T.my) ∧
      (0 ≤ (T.coords r).2.2 ∧ (T.coords r).2.2 < T.mz)) ∧
    (∀ x y z : Int, 0 ≤ x → x < T.mx → 0 ≤ y → y < T.my → 0 ≤ z → z < T.mz →
      ∃! r : T.Rank, T.coords r = (x, y, z)) := by
  refine ⟨T.coords_range, fun x y z hx hx' hy hy' hz hz' => ⟨T.cartRank x y z, ?_, ?_⟩⟩
  · show T.coords (T.cartRank x y z) = _
    rw [T.coords_cartRank, Int.emod_eq_of_lt hx hx', Int.emod_eq_of_lt hy hy',
      Int.emod_eq_of_lt hz hz']
  · intro r hr
    apply T.rank_ext
    rw [hr, T.coords_cartRank, Int.emod_eq_of_lt hx hx', Int.emod_eq_of_lt hy hy',
      Int.emod_eq_of_lt hz hz']

/-- The neighbour through a face is the process one position away, cyclically. -/
theorem C37_neighbour_position (T : Topo) (f : Face) (r : T.Rank) :
    T.coords (T.neighborRank f r) = neighbourPos (T.mx, T.my, T.mz) (T.coords r) f := by
  obtain ⟨⟨a1, a2⟩, ⟨b1, b2⟩, c1, c2⟩ := T.coords_range r
  cases f <;> simp only [Topo.neighborRank, neighbourPos, T.coords_cartRank] <;>
    simp only [Int.emod_eq_of_lt a1 a2, Int.emod_eq_of_lt b1 b2, Int.emod_eq_of_lt c1 c2]

/-- "My neighbour's neighbour on the opposite side is me", for all six faces. -/
theorem C37_neighbours_mutual (T : Topo) (f : Face) (r : T.Rank) :
    T.neighborRank (opposite f) (T.neighborRank f r) = r := by
  apply T.rank_ext
  rw [C37_neighbour_position, C37_neighbour_position]
  obtain ⟨⟨a1, a2⟩, ⟨b1, b2⟩, c1, c2⟩ := T.coords_range r
  generalize T.coords r = c at *
  obtain ⟨x, y, z⟩ := c
  simp only at *
  cases f <;> simp only [opposite, neighbourPos, Int.emod_add_emod, Int.emod_sub_emod,
    sub_add_cancel, add_sub_cancel_right] <;>
    first
      | rw [Int.emod_eq_of_lt a1 a2]
      | rw [Int.emod_eq_of_lt b1 b2]
      | rw [Int.emod_eq_of_lt c1 c2]

/-- A rank applies the boundary condition chosen by the user exactly on the faces where its block
reaches the boundary of the global domain; all other faces are taken from the neighbour. -/
theorem C37_physical_boundary {p : Params R} (hw : p.WF) (T : Topo) (f : Face) (r : T.Rank) :
    (touches p (T.mx, T.my, T.mz) (T.coords r) f → neighborsBC T p r f = userBC p f) ∧
    (¬ touches p (T.mx, T.my, T.mz) (T.coords r) f → neighborsBC T p r f = .copy) := by
  have hx := hw.nx_pos
  have hy := hw.ny_pos
  have hz := hw.nz_pos
  have key : ∀ n x : Int, 1 ≤ n → (x * n = 0 ↔ x = 0) := by
    intro n x hn
    rw [mul_eq_zero]
    constructor
    · rintro (h | h)
      · exact h
      · omega
    · exact Or.inl
  have key2 : ∀ n x m : Int, 1 ≤ n → (x * n + n = m * n ↔ x = m - 1) := by
    intro n x m hn
    constructor
    · intro h
      have : (x + 1 - m) * n = 0 := by linarith
      rw [key _ _ hn] at this
      omega
    · rintro rfl; ring
  cases f <;> simp only [touches, origin, neighborsBC, userBC] <;>
    first
      | (rw [key _ _ hx]; constructor <;> intro h <;> simp [h])
      | (rw [key _ _ hy]; constructor <;> intro h <;> simp [h])
      | (rw [key _ _ hz]; constructor <;> intro h <;> simp [h])
      | (rw [key2 _ _ _ hx]; constructor <;> intro h <;> simp [h])
      | (rw [key2 _ _ _ hy]; constructor <;> intro h <;> simp [h])
      | (rw [key2 _ _ _ hz]; constructor <;> intro h <;> simp [h])

/-- a 3 × 2 × 1 process grid -/
def topo321 : Topo := ⟨3, 2, 1, by omega, by omega, by omega⟩

-- the hypotheses are met by a concrete grid; here rank 5 sits in the top right corner
example : (sample .dirichlet .periodic).WF ∧ topo321.coords ⟨5, by decide⟩ = (2, 1, 0) ∧
    topo321.neighborRank .xmax ⟨5, by decide⟩ = ⟨1, by decide⟩ :=
  ⟨sample_wf _ _, by decide, by decide⟩

end EulerKokkos
