import Verif.Lemmas.Int32

/-!
# Lemmas: the ghost-fill kernels in 32-bit integers
-/

set_option linter.unusedSectionVars false
set_option linter.unusedSimpArgs false

namespace EulerKokkos

variable {R : Type} [RealOps R]

private theorem min_body {c : Prop} [Decidable c] {A : Type} {o : Option Int} {s : Int} {f : Int → A} {z : A}
    (h : c → o = some s) :
    (if c then o >>= fun i0 => pure (f i0) else pure z) = (some (if c then f s else z) : Option A) := by
  split
  · rename_i hc; rw [h hc]; rfl
  · rfl

theorem makeBoundary2I_some (mhd : Bool) (p : Params R) (U : Arr) (f : Face) (w : p.WF)
    (hb : nbIter2 p ≤ 2147483647) {index : Int} (h0 : 0 ≤ index) (h1 : index < nbIter2 p) :
    makeBoundary2I mhd p U f index = some (makeBoundary2 mhd p U f index) := by
  have hg := w.gw_pos
  have hx := w.nx_pos
  have hy := w.ny_pos
  have hix := w.isize_eq
  have hjy := w.jsize_eq
  have hX : 2 * p.isize ≤ 2147483647 := by
    unfold nbIter2 at hb
    have := le_max_left p.isize p.jsize
    nlinarith
  have hY : 2 * p.jsize ≤ 2147483647 := by
    unfold nbIter2 at hb
    have := le_max_right p.isize p.jsize
    nlinarith
  have hg0 : 0 < p.ghostWidth := by omega
  obtain ⟨a, b, c, d⟩ := tdiv_facts h0 hg0
  have hi : index ≤ 2147483647 := by omega
  cases f <;> simp only [makeBoundary2I, makeBoundary2]
  · rw [decode2I_some h0 hi hg0, bind_some']
    dsimp only
    apply min_body
    rintro ⟨-, -, h3, h4⟩
    exact bcSrcMinI_some _ (by omega) h3 h4 (by omega)
  · rw [decode2I_some h0 hi hg0, bind_some']
    dsimp only
    rw [maxFaceI_some (by omega) (by omega) (by omega) (by omega) (by omega), bind_some']
    dsimp only
    simp only [decide_eq_true_eq]
    apply min_body
    rintro ⟨-, -, h3, h4⟩
    exact bcSrcMaxI_some _ (by omega) (by omega) h3 h4 (by omega) (by omega)
  · rw [decode2I_some h0 hi hg0, bind_some']
    dsimp only
    apply min_body
    rintro ⟨-, -, h3, h4⟩
    exact bcSrcMinI_some _ (by omega) h3 h4 (by omega)
  · rw [decode2I_some h0 hi hg0, bind_some']
    dsimp only
    rw [maxFaceI_some (by omega) (by omega) (by omega) (by omega) (by omega), bind_some']
    dsimp only
    simp only [decide_eq_true_eq]
    apply min_body
    rintro ⟨-, -, h3, h4⟩
    exact bcSrcMaxI_some _ (by omega) (by omega) h3 h4 (by omega) (by omega)
  · rfl
  · rfl

private theorem five_five {a b : Int} (ha : 5 ≤ a) (hb : 5 ≤ b) : 25 ≤ a * b := by nlinarith

private theorem tdiv_small {a n : Int} (ha : 0 ≤ a) (ha' : a ≤ 2147483647) (hn : 25 ≤ n) :
    a.tdiv n ≤ 1000000000 := by
  obtain ⟨x, y, z, d⟩ := tdiv_facts ha (show 0 < n by omega)
  have : a.tdiv n * 25 ≤ a.tdiv n * n := by nlinarith
  omega

set_option maxHeartbeats 800000 in
theorem makeBoundary3I_some (mhd : Bool) (p : Params R) (U : Arr) (f : Face) (w : p.WF)
    (hb : nbIter3 p ≤ 2147483647) {index : Int} (h0 : 0 ≤ index) (h1 : index < nbIter3 p) :
    makeBoundary3I mhd p U f index = some (makeBoundary3 mhd p U f index) := by
  have hg := w.gw_pos
  have hx := w.nx_pos
  have hy := w.ny_pos
  have hz := w.nz_pos
  have hix := w.isize_eq
  have hjy := w.jsize_eq
  have hkz := w.ksize_eq
  have hg0 : 0 < p.ghostWidth := by omega
  have hi : index ≤ 2147483647 := by omega
  have hsx : p.isize ≤ max (max p.isize p.jsize) p.ksize := by omega
  have hsy : p.jsize ≤ max (max p.isize p.jsize) p.ksize := by omega
  have hsz : p.ksize ≤ max (max p.isize p.jsize) p.ksize := by omega
  unfold nbIter3 at hb h1
  dsimp only at hb h1
  generalize max (max p.isize p.jsize) p.ksize = s at *
  have hs : 2 * s * s ≤ 2147483647 := by nlinarith
  have hs' : s ≤ 32767 := by nlinarith
  have hgs : p.ghostWidth ≤ s := by omega
  have m1 : p.ghostWidth * p.jsize ≤ 2147483647 := by nlinarith
  have m2 : p.isize * p.ghostWidth ≤ 2147483647 := by nlinarith
  have m3 : p.isize * p.jsize ≤ 2147483647 := by nlinarith
  have i0 : 0 < p.isize := by omega
  have j0 : 0 < p.jsize := by omega
  have dx := decode3_range h0 hg0 j0
  have dy := decode3_range h0 i0 hg0
  have dz := decode3_range h0 i0 j0
  have kz : index.tdiv (p.isize * p.jsize) ≤ 1000000000 :=
    tdiv_small h0 hi (five_five (by omega) (by omega))
  clear hs hb h1
  cases f <;> simp only [makeBoundary3I, makeBoundary3]
  · rw [decode3I_some h0 hi hg0 j0 m1, bind_some']
    dsimp only
    apply min_body
    rintro ⟨-, -, -, -, h3, h4⟩
    exact bcSrcMinI_some _ (by omega) h3 h4 (by omega)
  · rw [decode3I_some h0 hi hg0 j0 m1, bind_some']
    dsimp only
    rw [maxFaceI_some (by omega) (by omega) (by omega) (by omega) (by omega), bind_some']
    dsimp only
    simp only [decide_eq_true_eq]
    apply min_body
    rintro ⟨-, -, -, -, h3, h4⟩
    exact bcSrcMaxI_some _ (by omega) (by omega) h3 h4 (by omega) (by omega)
  · rw [decode3I_some h0 hi i0 hg0 m2, bind_some']
    dsimp only
    apply min_body
    rintro ⟨-, -, h3, h4, -, -⟩
    exact bcSrcMinI_some _ (by omega) h3 h4 (by omega)
  · rw [decode3I_some h0 hi i0 hg0 m2, bind_some']
    dsimp only
    rw [maxFaceI_some (by omega) (by omega) (by omega) (by omega) (by omega), bind_some']
    dsimp only
    simp only [decide_eq_true_eq, and_assoc]
    apply min_body
    rintro ⟨-, -, h3, h4, -, -⟩
    exact bcSrcMaxI_some _ (by omega) (by omega) h3 h4 (by omega) (by omega)
  · rw [decode3I_some h0 hi i0 j0 m3, bind_some']
    dsimp only
    apply min_body
    rintro ⟨h3, h4, -⟩
    exact bcSrcMinI_some _ (by omega) h3 h4 (by omega)
  · rw [decode3I_some h0 hi i0 j0 m3, bind_some']
    dsimp only
    rw [maxFaceI_some (by omega) (by omega) (by omega) (by omega) (by omega), bind_some']
    dsimp only
    simp only [decide_eq_true_eq, and_assoc]
    apply min_body
    rintro ⟨h3, h4, -⟩
    exact bcSrcMaxI_some _ (by omega) (by omega) h3 h4 (by omega) (by omega)

/-! ### Border buffers -/

theorem index2coord2I_some {lay : Layout} {index Nx Ny : Int} (hx : 0 < Nx) (hy : 0 < Ny) (h0 : 0 ≤ index)
    (h1 : index ≤ 2147483647) : index2coord2I lay index Nx Ny = some (index2coord2 lay index Nx Ny) := by
  cases lay
  · obtain ⟨a, b, c, d⟩ := tdiv_facts h0 hx
    have e : index.tdiv Nx ≤ index.tdiv Nx * Nx := by nlinarith
    simp (disch := omega) only [index2coord2I, index2coord2, div64_some, i32_some, i64_some, bind_some']
    rfl
  · obtain ⟨a, b, c, d⟩ := tdiv_facts h0 hy
    have e : index.tdiv Ny ≤ index.tdiv Ny * Ny := by nlinarith
    simp (disch := omega) only [index2coord2I, index2coord2, div64_some, i32_some, i64_some, bind_some']
    rfl

theorem index2coord3I_some {lay : Layout} {index Nx Ny Nz : Int} (hx : 0 < Nx) (hy : 0 < Ny) (hz : 0 < Nz)
    (hxy : Nx * Ny ≤ 2147483647) (hyz : Ny * Nz ≤ 2147483647) (h0 : 0 ≤ index) (h1 : index ≤ 2147483647) :
    index2coord3I lay index Nx Ny Nz = some (index2coord3 lay index Nx Ny Nz) := by
  have xy : 0 < Nx * Ny := by positivity
  have yz : 0 < Ny * Nz := by positivity
  cases lay
  · obtain ⟨a, b, c, d⟩ := tdiv_facts h0 xy
    have e : index.tdiv (Nx * Ny) ≤ index.tdiv (Nx * Ny) * (Nx * Ny) := by nlinarith
    have hb0 : 0 ≤ index - index.tdiv (Nx * Ny) * (Nx * Ny) := by omega
    obtain ⟨a', b', c', d'⟩ := tdiv_facts hb0 hx
    have e' : (index - index.tdiv (Nx * Ny) * (Nx * Ny)).tdiv Nx ≤
      (index - index.tdiv (Nx * Ny) * (Nx * Ny)).tdiv Nx * Nx := by nlinarith
    simp (disch := omega) only [index2coord3I, index2coord3, div64_some, i32_some, i64_some, bind_some']
    rfl
  · obtain ⟨a, b, c, d⟩ := tdiv_facts h0 yz
    have e : index.tdiv (Ny * Nz) ≤ index.tdiv (Ny * Nz) * (Ny * Nz) := by nlinarith
    have hb0 : 0 ≤ index - index.tdiv (Ny * Nz) * (Ny * Nz) := by omega
    obtain ⟨a', b', c', d'⟩ := tdiv_facts hb0 hz
    have e' : (index - index.tdiv (Ny * Nz) * (Ny * Nz)).tdiv Nz ≤
      (index - index.tdiv (Ny * Nz) * (Ny * Nz)).tdiv Nz * Nz := by nlinarith
    simp (disch := omega) only [index2coord3I, index2coord3, div64_some, i32_some, i64_some, bind_some']
    rfl

end EulerKokkos
