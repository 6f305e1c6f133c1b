import Verif.Model.Params

/-!
# How far a cell can see

Along one axis with `n` interior cells, cell `a` is within reach of cell `c` when, walking from `c` at most
`lo` cells down or `hi` cells up, one meets `a`.  The walk goes round when the axis is periodic, and not
otherwise: a reflecting or absorbing face sends it back into the domain.
-/

namespace EulerKokkos.Spec

/-- a face that hands over to the other end of the axis: neither reflecting nor absorbing -/
def Wraps (b : BC) : Prop := b ≠ .dirichlet ∧ b ≠ .neumann

/-- `a` is within `lo` cells below or `hi` cells above `c`, possibly after going round the axis `s` times -/
def Reach (bcMin bcMax : BC) (n lo hi c a : Int) : Prop :=
  ∃ s : Int, (s = 0 ∨ Wraps bcMin ∨ Wraps bcMax) ∧ c - lo ≤ a + s * n ∧ a + s * n ≤ c + hi

/-- without periodic faces: plain distance -/
theorem reach_plain {bcMin bcMax : BC} (h1 : bcMin = .dirichlet ∨ bcMin = .neumann)
    (h2 : bcMax = .dirichlet ∨ bcMax = .neumann) {n lo hi c a : Int} :
    Reach bcMin bcMax n lo hi c a ↔ c - lo ≤ a ∧ a ≤ c + hi := by
  constructor
  · rintro ⟨s, rfl | ⟨w1, w2⟩ | ⟨w1, w2⟩, b, d⟩
    · simp only [Int.zero_mul, Int.add_zero] at b d; exact ⟨b, d⟩
    · rcases h1 with h | h
      · exact (w1 h).elim
      · exact (w2 h).elim
    · rcases h2 with h | h
      · exact (w1 h).elim
      · exact (w2 h).elim
  · rintro ⟨b, d⟩
    exact ⟨0, Or.inl rfl, by omega, by omega⟩

/-- within reach in 2D -/
def Reach2 {R : Type} (p : Params R) (lo hi i j a b : Int) : Prop :=
  Reach p.boundary_type_xmin p.boundary_type_xmax p.nx lo hi i a ∧
  Reach p.boundary_type_ymin p.boundary_type_ymax p.ny lo hi j b

/-- within reach in 3D -/
def Reach3 {R : Type} (p : Params R) (lo hi i j k a b c : Int) : Prop :=
  Reach p.boundary_type_xmin p.boundary_type_xmax p.nx lo hi i a ∧
  Reach p.boundary_type_ymin p.boundary_type_ymax p.ny lo hi j b ∧
  Reach p.boundary_type_zmin p.boundary_type_zmax p.nz lo hi k c

end EulerKokkos.Spec
