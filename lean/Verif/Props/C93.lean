import Verif.Lemmas.Int32Fill
import Verif.Props.C01
import Verif.Props.Sample

/-!
# C93 — on which grids the integer computations stay within 32 bits

The cell coordinates, loop bounds and buffer offsets are C `int`s.  For every well-formed parameter set this file says
exactly when the checked 32-bit computations of `Verif/Model/Int32.lean` are defined; when they are, the kernels are the
ones of the rest of the model, which uses unbounded integers.
-/

set_option linter.unusedSectionVars false
set_option linter.unusedSimpArgs false

namespace EulerKokkos

variable {R : Type} [RealOps R]

/-- the extents of the arrays of `p` are values of type `int` -/
structure SizesFit (p : Params R) : Prop where
  x : p.isize ≤ 2147483647
  y : p.jsize ≤ 2147483647
  z : p.ksize ≤ 2147483647

/-- `HydroParams::init` computes extents exactly when the number of cells plus both ghost layers of the direction is at
most 2147483647 -/
theorem C93_sizes (p : Params R) (hx : 1 ≤ p.nx) (hy : 1 ≤ p.ny) (hz : 1 ≤ p.nz) (hg : 0 ≤ p.ghostWidth) :
    initSize32 p.nx p.ghostWidth =
      (if p.nx + 2 * p.ghostWidth ≤ 2147483647 then some (p.init.imax, p.init.isize) else none) ∧
    initSize32 p.ny p.ghostWidth =
      (if p.ny + 2 * p.ghostWidth ≤ 2147483647 then some (p.init.jmax, p.init.jsize) else none) ∧
    initSize32 p.nz p.ghostWidth =
      (if p.nz + 2 * p.ghostWidth ≤ 2147483647 then some (p.init.kmax, p.init.ksize) else none) := by
  refine ⟨?_, ?_, ?_⟩
  all_goals
    split
    · rw [initSize32_some (by assumption) hg (by assumption)]; rfl
    · exact initSize32_none (by omega)

/-- the ghost fill of a face, 2D: defined exactly when `ghostWidth * max(isize, jsize)` fits, and then the kernel of the
model -/
theorem C93_ghosts_2d (mhd : Bool) (p : Params R) (w : p.WF) (U : Arr) (f : Face) :
    makeBoundaryK2I mhd p U f =
      if p.ghostWidth * max p.isize p.jsize ≤ 2147483647 then some (makeBoundaryK2 mhd p U f) else none := by
  unfold makeBoundaryK2I makeBoundaryK2
  rw [nbIter2I_eq p w]
  split
  · rename_i h
    exact launch_some rfl fun t h0 h1 => makeBoundary2I_some mhd p U f w h h0 h1
  · rfl

/-- the ghost fill of a face, 3D: defined exactly when `ghostWidth * max(isize, jsize, ksize)²` fits, and then the kernel
of the model -/
theorem C93_ghosts_3d (mhd : Bool) (p : Params R) (w : p.WF) (U : Arr) (f : Face) :
    makeBoundaryK3I mhd p U f =
      if p.ghostWidth * max (max p.isize p.jsize) p.ksize ^ 2 ≤ 2147483647 then
        some (makeBoundaryK3 mhd p U f) else none := by
  unfold makeBoundaryK3I makeBoundaryK3
  rw [nbIter3I_eq p w]
  split
  · rename_i h
    have e : nbIter3 p = p.ghostWidth * max (max p.isize p.jsize) p.ksize ^ 2 := by
      unfold nbIter3; ring
    exact launch_some rfl fun t h0 h1 => makeBoundary3I_some mhd p U f w (by omega) h0 h1
  · rfl

/-! ### Border buffers -/

theorem nbIterBuf2I_eq (p : Params R) (w : p.WF) (f : Face) : nbIterBuf2I p f =
    if nbIterBuf2 p f ≤ 2147483647 then some (nbIterBuf2 p f) else none := by
  have h1 := w.gw_pos
  have h2 := w.isize_eq
  have h3 := w.jsize_eq
  have h4 := w.nx_pos
  have h5 := w.ny_pos
  have a : 0 ≤ p.ghostWidth * p.jsize := mul_nonneg (by omega) (by omega)
  have b : 0 ≤ p.isize * p.ghostWidth := mul_nonneg (by omega) (by omega)
  have key : ∀ {x : Int}, 0 ≤ x → i32 x = if x ≤ 2147483647 then some x else none := by
    intro x hx
    by_cases h : x ≤ 2147483647
    · rw [if_pos h, i32_some (by omega) h]
    · rw [if_neg h, i32_none (by omega)]
  cases f <;> simp only [nbIterBuf2I, nbIterBuf2] <;> exact key (by assumption)

theorem mul3_I {a b c : Int} (ha : 1 ≤ a) (hb : 1 ≤ b) (hc : 1 ≤ c) :
    (do let x ← i32 (a * b); i32 (x * c)) =
      if a * b * c ≤ 2147483647 then some (a * b * c) else none := by
  have h1 : 0 < a * b := by positivity
  have h2 : a * b ≤ a * b * c := by nlinarith
  by_cases hm : a * b * c ≤ 2147483647
  · rw [if_pos hm, i32_some (by omega) (by omega), bind_some', i32_some (by omega) (by omega)]
  · rw [if_neg hm]
    by_cases h : a * b ≤ 2147483647
    · rw [i32_some (by omega) (by omega), bind_some', i32_none (by omega)]
    · rw [i32_none (by omega)]; rfl

theorem nbIterBuf3I_eq (p : Params R) (w : p.WF) (f : Face) : nbIterBuf3I p f =
    if nbIterBuf3 p f ≤ 2147483647 then some (nbIterBuf3 p f) else none := by
  have h1 := w.gw_pos
  have h2 := w.isize_eq
  have h3 := w.jsize_eq
  have h4 := w.ksize_eq
  have h5 := w.nx_pos
  have h6 := w.ny_pos
  have h7 := w.nz_pos
  cases f <;> simp only [nbIterBuf3I, nbIterBuf3]
  all_goals exact mul3_I (by omega) (by omega) (by omega)

theorem packBuf2I_some (lay : Layout) (p : Params R) (U : Arr) (f : Face) (w : p.WF) (s : SizesFit p)
    (hb : nbIterBuf2 p f ≤ 2147483647) {index : Int} (h0 : 0 ≤ index) (h1 : index < nbIterBuf2 p f) :
    packBuf2I lay p U f index = some (packBuf2 lay p U f index) ∧
    unpackBuf2I lay p U f index = some (unpackBuf2 lay p U f index) := by
  have g1 := w.gw_pos
  have g2 := w.isize_eq
  have g3 := w.jsize_eq
  have g5 := w.nx_pos
  have g6 := w.ny_pos
  have s1 := s.x
  have s2 := s.y
  cases f <;> simp only [nbIterBuf2] at hb h1 <;>
    simp only [packBuf2I, packBuf2, unpackBuf2I, unpackBuf2]
  · obtain ⟨⟨a, b⟩, ⟨c, d⟩, -⟩ := C01_index_coord_index_2d lay index p.ghostWidth p.jsize (by omega) (by omega) ⟨h0, h1⟩
    rw [index2coord2I_some (by omega) (by omega) h0 (by omega)]
    simp (disch := omega) only [bind_some', i32_some]
    exact ⟨rfl, rfl⟩
  · obtain ⟨⟨a, b⟩, ⟨c, d⟩, -⟩ := C01_index_coord_index_2d lay index p.ghostWidth p.jsize (by omega) (by omega) ⟨h0, h1⟩
    rw [index2coord2I_some (by omega) (by omega) h0 (by omega)]
    simp (disch := omega) only [bind_some', i32_some, sendOffsetI]
    exact ⟨rfl, rfl⟩
  · obtain ⟨⟨a, b⟩, ⟨c, d⟩, -⟩ := C01_index_coord_index_2d lay index p.isize p.ghostWidth (by omega) (by omega) ⟨h0, h1⟩
    rw [index2coord2I_some (by omega) (by omega) h0 (by omega)]
    simp (disch := omega) only [bind_some', i32_some]
    exact ⟨rfl, rfl⟩
  · obtain ⟨⟨a, b⟩, ⟨c, d⟩, -⟩ := C01_index_coord_index_2d lay index p.isize p.ghostWidth (by omega) (by omega) ⟨h0, h1⟩
    rw [index2coord2I_some (by omega) (by omega) h0 (by omega)]
    simp (disch := omega) only [bind_some', i32_some, sendOffsetI]
    exact ⟨rfl, rfl⟩
  · exact ⟨rfl, rfl⟩
  · exact ⟨rfl, rfl⟩

theorem packBuf3I_some (lay : Layout) (p : Params R) (U : Arr) (f : Face) (w : p.WF) (s : SizesFit p)
    (hb : nbIterBuf3 p f ≤ 2147483647) {index : Int} (h0 : 0 ≤ index) (h1 : index < nbIterBuf3 p f) :
    packBuf3I lay p U f index = some (packBuf3 lay p U f index) ∧
    unpackBuf3I lay p U f index = some (unpackBuf3 lay p U f index) := by
  have g1 := w.gw_pos
  have g2 := w.isize_eq
  have g3 := w.jsize_eq
  have g4 := w.ksize_eq
  have g5 := w.nx_pos
  have g6 := w.ny_pos
  have g7 := w.nz_pos
  have s1 := s.x
  have s2 := s.y
  have s3 := s.z
  have key : ∀ {Nx Ny Nz : Int}, 1 ≤ Nx → 1 ≤ Ny → 1 ≤ Nz → Nx * Ny * Nz ≤ 2147483647 →
      Nx * Ny ≤ 2147483647 ∧ Ny * Nz ≤ 2147483647 := by
    intro Nx Ny Nz a b c h
    have : 0 < Nx * Ny := by positivity
    have : 0 < Ny * Nz := by positivity
    constructor <;> nlinarith
  cases f <;> simp only [nbIterBuf3] at hb h1 <;>
    simp only [packBuf3I, packBuf3, unpackBuf3I, unpackBuf3]
  all_goals
    obtain ⟨k1, k2⟩ := key (by omega) (by omega) (by omega) hb
    obtain ⟨⟨a, b⟩, ⟨c, d⟩, ⟨e, f⟩, -⟩ := C01_index_coord_index_3d lay index _ _ _ (by omega) (by omega) (by omega)
      ⟨h0, h1⟩
    rw [index2coord3I_some (by omega) (by omega) (by omega) k1 k2 h0 (by omega)]
    generalize index2coord3 lay index _ _ _ = co at *
    obtain ⟨i, j, k⟩ := co
    dsimp only at *
    simp (disch := omega) only [bind_some', i32_some, sendOffsetI]
    exact ⟨rfl, rfl⟩

/-- packing and unpacking the border buffer of a face, 2D: defined exactly when the number of cells of the border fits -/
theorem C93_borders_2d (lay : Layout) (p : Params R) (w : p.WF) (s : SizesFit p) (U : Arr) (f : Face) :
    packK2I lay p U f = (if nbIterBuf2 p f ≤ 2147483647 then some (packK2 lay p U f) else none) ∧
    unpackK2I lay p U f = (if nbIterBuf2 p f ≤ 2147483647 then some (unpackK2 lay p U f) else none) := by
  unfold packK2I packK2 unpackK2I unpackK2
  rw [nbIterBuf2I_eq p w]
  split
  · rename_i h
    exact ⟨launch_some rfl fun t h0 h1 => (packBuf2I_some lay p U f w s h h0 h1).1,
      launch_some rfl fun t h0 h1 => (packBuf2I_some lay p U f w s h h0 h1).2⟩
  · exact ⟨rfl, rfl⟩

/-- packing and unpacking the border buffer of a face, 3D: defined exactly when the number of cells of the border fits -/
theorem C93_borders_3d (lay : Layout) (p : Params R) (w : p.WF) (s : SizesFit p) (U : Arr) (f : Face) :
    packK3I lay p U f = (if nbIterBuf3 p f ≤ 2147483647 then some (packK3 lay p U f) else none) ∧
    unpackK3I lay p U f = (if nbIterBuf3 p f ≤ 2147483647 then some (unpackK3 lay p U f) else none) := by
  unfold packK3I packK3 unpackK3I unpackK3
  rw [nbIterBuf3I_eq p w]
  split
  · rename_i h
    exact ⟨launch_some rfl fun t h0 h1 => (packBuf3I_some lay p U f w s h h0 h1).1,
      launch_some rfl fun t h0 h1 => (packBuf3I_some lay p U f w s h h0 h1).2⟩
  · exact ⟨rfl, rfl⟩

/-! ### Buffers of the files -/

/-- the position of every cell in the transfer buffer of an HDF5 file fits exactly when the array has at most `2^31`
cells, ghosts included -/
theorem C93_file_buffers (p : Params R) (w : p.WF) :
    ((∀ i j, 0 ≤ i ∧ i < p.isize → 0 ≤ j ∧ j < p.jsize → bufIndex2I p i j = some (i + p.isize * j)) ↔
      p.isize * p.jsize ≤ 2147483648) ∧
    ((∀ i j k, 0 ≤ i ∧ i < p.isize → 0 ≤ j ∧ j < p.jsize → 0 ≤ k ∧ k < p.ksize →
        bufIndex3I p i j k = some (i + p.isize * j + p.isize * p.jsize * k)) ↔
      p.isize * p.jsize * p.ksize ≤ 2147483648) := by
  have g1 := w.gw_pos
  have g2 := w.isize_eq
  have g3 := w.jsize_eq
  have g4 := w.ksize_eq
  have g5 := w.nx_pos
  have g6 := w.ny_pos
  have g7 := w.nz_pos
  have fits : ∀ {x y : Int}, i32 x = some y → x ≤ 2147483647 := by
    intro x y h
    by_contra hc
    rw [i32_none (by omega)] at h
    exact absurd h (by simp)
  have cell2 : ∀ {i j : Int}, 0 ≤ i ∧ i < p.isize → 0 ≤ j ∧ j < p.jsize →
      0 ≤ p.isize * j ∧ i + p.isize * j ≤ p.isize * p.jsize - 1 := by
    rintro i j ⟨a, b⟩ ⟨c, d⟩
    refine ⟨mul_nonneg (by omega) c, ?_⟩
    have : p.isize * j ≤ p.isize * (p.jsize - 1) := Int.mul_le_mul_of_nonneg_left (by omega) (by omega)
    have e : p.isize * (p.jsize - 1) = p.isize * p.jsize - p.isize := by ring
    omega
  refine ⟨⟨fun h => ?_, fun h i j hi hj => ?_⟩, ⟨fun h => ?_, fun h i j k hi hj hk => ?_⟩⟩
  · have h' := h (p.isize - 1) (p.jsize - 1) ⟨by omega, by omega⟩ ⟨by omega, by omega⟩
    unfold bufIndex2I at h'
    cases ha : i32 (p.isize * (p.jsize - 1)) with
    | none => rw [ha] at h'; exact absurd h' (by simp)
    | some a =>
      unfold i32 at ha
      split at ha <;> [skip; exact absurd ha (by simp)]
      cases ha
      rw [i32_some (by omega) (by omega), bind_some'] at h'
      have := fits h'
      have e : p.isize * (p.jsize - 1) = p.isize * p.jsize - p.isize := by ring
      omega
  · obtain ⟨a, b⟩ := cell2 hi hj
    simp (disch := omega) only [bufIndex2I, i32_some, bind_some']
  · have h' := h (p.isize - 1) (p.jsize - 1) (p.ksize - 1) ⟨by omega, by omega⟩ ⟨by omega, by omega⟩ ⟨by omega, by omega⟩
    unfold bufIndex3I at h'
    simp only [Option.bind_eq_bind, Option.bind_eq_some_iff] at h'
    obtain ⟨a, ha, b, hb, c, hc, d, hd, he⟩ := h'
    have va : ∀ {x y : Int}, i32 x = some y → y = x := by
      intro x y h
      unfold i32 at h
      split at h
      · exact (Option.some.inj h).symm
      · exact absurd h (by simp)
    have e1 := va ha
    have e2 := va hb
    have e3 := va hc
    have e4 := va hd
    have := fits he
    subst e1 e3
    subst e2 e4
    have e : p.isize - 1 + p.isize * (p.jsize - 1) + p.isize * p.jsize * (p.ksize - 1) =
      p.isize * p.jsize * p.ksize - 1 := by ring
    omega
  · obtain ⟨a, b⟩ := cell2 hi hj
    have n : 0 < p.isize * p.jsize := mul_pos (by omega) (by omega)
    obtain ⟨k0, k1⟩ := hk
    have d0 : 0 ≤ p.isize * p.jsize * k := mul_nonneg n.le k0
    have d1 : p.isize * p.jsize * k ≤ p.isize * p.jsize * (p.ksize - 1) :=
      Int.mul_le_mul_of_nonneg_left (by omega) n.le
    have e : p.isize * p.jsize * (p.ksize - 1) = p.isize * p.jsize * p.ksize - p.isize * p.jsize := by ring
    have f : p.isize * p.jsize * 2 ≤ p.isize * p.jsize * p.ksize := Int.mul_le_mul_of_nonneg_left (by omega) n.le
    have hi0 := hi.1
    simp (disch := omega) only [bufIndex3I, i32_some, bind_some']

/-! ### What this means for a user -/

/-- with the ghost widths of the program (2 and 3), every 3D grid of at most 26000 cells in each direction is safe: all
ghost fills and border copies are those of the model -/
theorem C93_safe_3d (mhd : Bool) (lay : Layout) (p : Params R) (w : p.WF) (hg : p.ghostWidth ≤ 3)
    (hx : p.nx ≤ 26000) (hy : p.ny ≤ 26000) (hz : p.nz ≤ 26000) (U : Arr) (f : Face) :
    makeBoundaryK3I mhd p U f = some (makeBoundaryK3 mhd p U f) ∧
    packK3I lay p U f = some (packK3 lay p U f) ∧ unpackK3I lay p U f = some (unpackK3 lay p U f) := by
  have g1 := w.gw_pos
  have g2 := w.isize_eq
  have g3 := w.jsize_eq
  have g4 := w.ksize_eq
  have g5 := w.nx_pos
  have g6 := w.ny_pos
  have g7 := w.nz_pos
  have s : SizesFit p := ⟨by omega, by omega, by omega⟩
  obtain ⟨b1, b2⟩ := C93_borders_3d lay p w s U f
  rw [C93_ghosts_3d mhd p w, b1, b2]
  have two : ∀ {a b : Int}, 0 ≤ a → a ≤ 26006 → 0 ≤ b → b ≤ 26006 → a * b ≤ 676312036 := by
    intro a b h1 h2 h3 h4; nlinarith
  have m : p.ghostWidth * max (max p.isize p.jsize) p.ksize ^ 2 ≤ 2147483647 := by
    have h1 : max (max p.isize p.jsize) p.ksize ≤ 26006 := by omega
    have h0 : 0 ≤ max (max p.isize p.jsize) p.ksize := by omega
    generalize max (max p.isize p.jsize) p.ksize = s at *
    have := two h0 h1 h0 h1
    nlinarith
  have n : nbIterBuf3 p f ≤ 2147483647 := by
    have a := two (a := p.jsize) (b := p.ksize) (by omega) (by omega) (by omega) (by omega)
    have b := two (a := p.isize) (b := p.ksize) (by omega) (by omega) (by omega) (by omega)
    have c := two (a := p.isize) (b := p.jsize) (by omega) (by omega) (by omega) (by omega)
    have a0 : 0 ≤ p.jsize * p.ksize := mul_nonneg (by omega) (by omega)
    have b0 : 0 ≤ p.isize * p.ksize := mul_nonneg (by omega) (by omega)
    have c0 : 0 ≤ p.isize * p.jsize := mul_nonneg (by omega) (by omega)
    cases f <;> simp only [nbIterBuf3] <;> nlinarith
  exact ⟨if_pos m, if_pos n, if_pos n⟩

/-- the bound is about the longest direction, not about the number of cells: on the grid of `1 × 1 × 40000` cells, about
a million cells with ghosts, the ghost fill of every face overflows, although every border buffer fits -/
theorem C93_thin_grid_overflows (mhd : Bool) (lay : Layout) (p : Params R) (w : p.WF) (hg : p.ghostWidth = 2)
    (hx : p.nx = 1) (hy : p.ny = 1) (hz : p.nz = 40000) (U : Arr) (f : Face) :
    makeBoundaryK3I mhd p U f = none ∧ packK3I lay p U f = some (packK3 lay p U f) ∧
    p.isize * p.jsize * p.ksize = 1000100 := by
  have g2 := w.isize_eq
  have g3 := w.jsize_eq
  have g4 := w.ksize_eq
  rw [hg, hx] at g2
  rw [hg, hy] at g3
  rw [hg, hz] at g4
  have s : SizesFit p := ⟨by omega, by omega, by omega⟩
  rw [C93_ghosts_3d mhd p w, (C93_borders_3d lay p w s U f).1]
  refine ⟨?_, ?_, ?_⟩
  · rw [if_neg]; rw [hg, g2, g3, g4]; decide
  · rw [if_pos]; cases f <;> simp only [nbIterBuf3, hg, g2, g3, g4] <;> decide
  · rw [g2, g3, g4]; rfl

/-! ### Non-vacuity -/

example : (sample .dirichlet .periodic).WF ∧ SizesFit (sample .dirichlet .periodic) ∧
    (sample .dirichlet .periodic).ghostWidth ≤ 3 ∧ (sample .dirichlet .periodic).nx ≤ 26000 :=
  ⟨sample_wf _ _, ⟨by simp [sample, rawSample, Params.init], by simp [sample, rawSample, Params.init],
    by simp [sample, rawSample, Params.init]⟩, by simp [sample, rawSample, Params.init],
    by simp [sample, rawSample, Params.init]⟩

/-- the thin grid exists -/
example : ∃ p : Params ℝ, p.WF ∧ p.ghostWidth = 2 ∧ p.nx = 1 ∧ p.ny = 1 ∧ p.nz = 40000 :=
  ⟨{ rawSample .periodic .periodic 2 5 with nx := 1, ny := 1, nz := 40000 }.init,
    Params.init_wf _ (by simp) (by simp) (by simp) (by simp [rawSample]), rfl, rfl, rfl, rfl⟩

end EulerKokkos
