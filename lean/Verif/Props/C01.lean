import Verif.Model.Index
import Mathlib.Tactic.Linarith
import Mathlib.Tactic.Ring
import Mathlib.Tactic.NormNum

/-!
# C01 — flat loop indices and cell coordinates are in bijection
-/

namespace EulerKokkos

/-- quotient of `a + n*b` -/
theorem tdiv_unique {x n q r : Int} (hn : 0 < n) (hx : x = r + n * q) (h0 : 0 ≤ r) (h1 : r < n)
    (hq : 0 ≤ q) : x.tdiv n = q := by
  have hx0 : 0 ≤ x := by subst hx; have := Int.mul_nonneg hn.le hq; linarith
  rw [Int.tdiv_eq_ediv_of_nonneg hx0]
  subst hx
  rw [Int.add_mul_ediv_left _ _ hn.ne', Int.ediv_eq_zero_of_lt h0 h1, zero_add]

theorem tdiv_decomp {x n : Int} (hx : 0 ≤ x) (hn : 0 < n) :
    0 ≤ x.tdiv n ∧ 0 ≤ x - x.tdiv n * n ∧ x - x.tdiv n * n < n := by
  rw [Int.tdiv_eq_ediv_of_nonneg hx]
  have h1 := Int.emod_nonneg x hn.ne'
  have h2 := Int.emod_lt_of_pos x hn
  have h3 := Int.emod_add_mul_ediv x n
  refine ⟨Int.ediv_nonneg hx hn.le, ?_, ?_⟩ <;> nlinarith

/-- Coordinate → index → coordinate is the identity (2D). -/
theorem C01_coord_index_coord_2d (lay : Layout) (i j Nx Ny : Int)
    (hi : 0 ≤ i ∧ i < Nx) (hj : 0 ≤ j ∧ j < Ny) :
    index2coord2 lay (coord2index2 lay i j Nx Ny) Nx Ny = (i, j) := by
  cases lay <;> simp only [index2coord2, coord2index2]
  · rw [tdiv_unique (q := j) (r := i) (by omega) rfl hi.1 hi.2 hj.1]
    ext <;> simp; ring
  · rw [tdiv_unique (q := i) (r := j) (by omega) rfl hj.1 hj.2 hi.1]
    ext <;> simp; ring

/-- The index of an in-range coordinate lies in `[0, Nx*Ny)` (2D). -/
theorem C01_index_range_2d (lay : Layout) (i j Nx Ny : Int)
    (hi : 0 ≤ i ∧ i < Nx) (hj : 0 ≤ j ∧ j < Ny) :
    0 ≤ coord2index2 lay i j Nx Ny ∧ coord2index2 lay i j Nx Ny < Nx * Ny := by
  obtain ⟨a, b⟩ := hi; obtain ⟨c, d⟩ := hj
  cases lay <;> simp only [coord2index2] <;> constructor <;> nlinarith

/-- Index → coordinate → index is the identity and the coordinate is in range (2D). -/
theorem C01_index_coord_index_2d (lay : Layout) (index Nx Ny : Int)
    (hx : 0 < Nx) (hy : 0 < Ny) (h : 0 ≤ index ∧ index < Nx * Ny) :
    let c := index2coord2 lay index Nx Ny
    (0 ≤ c.1 ∧ c.1 < Nx) ∧ (0 ≤ c.2 ∧ c.2 < Ny) ∧ coord2index2 lay c.1 c.2 Nx Ny = index := by
  cases lay <;> simp only [index2coord2, coord2index2]
  · obtain ⟨h1, h2, h3⟩ := tdiv_decomp h.1 hx
    refine ⟨⟨h2, h3⟩, ⟨h1, ?_⟩, by ring⟩
    by_contra hc; push Not at hc; nlinarith
  · obtain ⟨h1, h2, h3⟩ := tdiv_decomp h.1 hy
    refine ⟨⟨h1, ?_⟩, ⟨h2, h3⟩, by ring⟩
    by_contra hc; push Not at hc; nlinarith

/-- Coordinate → index → coordinate is the identity (3D). -/
theorem C01_coord_index_coord_3d (lay : Layout) (i j k Nx Ny Nz : Int)
    (hi : 0 ≤ i ∧ i < Nx) (hj : 0 ≤ j ∧ j < Ny) (hk : 0 ≤ k ∧ k < Nz) :
    index2coord3 lay (coord2index3 lay i j k Nx Ny Nz) Nx Ny Nz = (i, j, k) := by
  obtain ⟨a, b⟩ := hi; obtain ⟨c, d⟩ := hj; obtain ⟨e, f⟩ := hk
  cases lay <;> simp only [index2coord3, coord2index3]
  · have hN : 0 < Nx * Ny := by have : 0 < Nx := by omega
                                have : 0 < Ny := by omega
                                positivity
    rw [tdiv_unique (n := Nx * Ny) (q := k) (r := i + Nx * j) hN rfl (by nlinarith)
      (by nlinarith) e]
    rw [show i + Nx * j + Nx * Ny * k - k * (Nx * Ny) = i + Nx * j by ring]
    rw [tdiv_unique (n := Nx) (q := j) (r := i) (by omega) rfl a b c]
    ext <;> simp; ring
  · have hN : 0 < Ny * Nz := by have : 0 < Nz := by omega
                                have : 0 < Ny := by omega
                                positivity
    rw [tdiv_unique (n := Ny * Nz) (q := i) (r := k + Nz * j) hN (by ring) (by nlinarith)
      (by nlinarith) a]
    rw [show k + Nz * j + Nz * Ny * i - i * (Ny * Nz) = k + Nz * j by ring]
    rw [tdiv_unique (n := Nz) (q := j) (r := k) (by omega) rfl e f c]
    ext <;> simp; ring

/-- The index of an in-range coordinate lies in `[0, Nx*Ny*Nz)` (3D). -/
theorem C01_index_range_3d (lay : Layout) (i j k Nx Ny Nz : Int)
    (hi : 0 ≤ i ∧ i < Nx) (hj : 0 ≤ j ∧ j < Ny) (hk : 0 ≤ k ∧ k < Nz) :
    0 ≤ coord2index3 lay i j k Nx Ny Nz ∧ coord2index3 lay i j k Nx Ny Nz < Nx * Ny * Nz := by
  obtain ⟨a, b⟩ := hi; obtain ⟨c, d⟩ := hj; obtain ⟨e, f⟩ := hk
  have hx : 0 < Nx := by omega
  have hy : 0 < Ny := by omega
  have hz : 0 < Nz := by omega
  cases lay <;> simp only [coord2index3]
  · have h1 : 0 ≤ Nx * Ny * k := by positivity
    have h2 : 0 ≤ Nx * j := by positivity
    have h3 : Nx * (j + 1) ≤ Nx * Ny := Int.mul_le_mul_of_nonneg_left (by omega) hx.le
    have h4 : Nx * Ny * (k + 1) ≤ Nx * Ny * Nz :=
      Int.mul_le_mul_of_nonneg_left (by omega) (by positivity)
    constructor <;> nlinarith
  · have h1 : 0 ≤ Nz * Ny * i := by positivity
    have h2 : 0 ≤ Nz * j := by positivity
    have h3 : Nz * (j + 1) ≤ Nz * Ny := Int.mul_le_mul_of_nonneg_left (by omega) hz.le
    have h4 : Nz * Ny * (i + 1) ≤ Nz * Ny * Nx :=
      Int.mul_le_mul_of_nonneg_left (by omega) (by positivity)
    constructor <;> nlinarith

/-- Index → coordinate → index is the identity and the coordinate is in range (3D). -/
theorem C01_index_coord_index_3d (lay : Layout) (index Nx Ny Nz : Int)
    (hx : 0 < Nx) (hy : 0 < Ny) (hz : 0 < Nz) (h : 0 ≤ index ∧ index < Nx * Ny * Nz) :
    let c := index2coord3 lay index Nx Ny Nz
    (0 ≤ c.1 ∧ c.1 < Nx) ∧ (0 ≤ c.2.1 ∧ c.2.1 < Ny) ∧ (0 ≤ c.2.2 ∧ c.2.2 < Nz) ∧
      coord2index3 lay c.1 c.2.1 c.2.2 Nx Ny Nz = index := by
  cases lay <;> simp only [index2coord3, coord2index3]
  · have hN : 0 < Nx * Ny := by positivity
    obtain ⟨h1, h2, h3⟩ := tdiv_decomp h.1 hN
    obtain ⟨g1, g2, g3⟩ := tdiv_decomp h2 hx
    refine ⟨⟨by linarith, by linarith⟩, ⟨g1, ?_⟩, ⟨h1, ?_⟩, by ring⟩
    · by_contra hc; push Not at hc; nlinarith
    · by_contra hc; push Not at hc; nlinarith
  · have hN : 0 < Ny * Nz := by positivity
    obtain ⟨h1, h2, h3⟩ := tdiv_decomp h.1 hN
    obtain ⟨g1, g2, g3⟩ := tdiv_decomp h2 hz
    refine ⟨⟨h1, ?_⟩, ⟨g1, ?_⟩, ⟨by linarith, by linarith⟩, by ring⟩
    · by_contra hc; push Not at hc; nlinarith
    · by_contra hc; push Not at hc; nlinarith

/-- Non-vacuity: a concrete 3D cell. -/
example : index2coord3 .right (coord2index3 .right 3 1 2 5 4 7) 5 4 7 = (3, 1, 2) := by decide
example : (0 : Int) < 5 ∧ (0 : Int) < 4 ∧ (0 : Int) < 7 ∧ (0 : Int) ≤ 100 ∧ (100 : Int) < 5 * 4 * 7 := by
  decide

end EulerKokkos
