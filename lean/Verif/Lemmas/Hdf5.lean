import Verif.Model.Hdf5
import Verif.Lemmas.Vtk
import Verif.Lemmas.Mpi

/-!
# Lemmas on hyperslab transfers and transfer buffers
-/

set_option linter.constructorNameAsVariable false
set_option linter.unusedSectionVars false
set_option linter.unusedSimpArgs false

namespace EulerKokkos

variable {R : Type} [RealOps R]

theorem mem_countUp {lo hi x : Int} : x ∈ countUp lo hi ↔ lo ≤ x ∧ x ≤ hi := by
  unfold countUp
  simp only [List.mem_map, List.mem_range]
  constructor
  · rintro ⟨t, ht, rfl⟩; omega
  · rintro ⟨h1, h2⟩; exact ⟨(x - lo).toNat, by omega, by omega⟩

/-- the value written last to an element, when all writes to it agree -/
theorem foldl_update_mem {α κ β : Type} [DecidableEq κ] (key : α → κ) (val : α → β) :
    ∀ (L : List α) (d : κ → β) (x : α), x ∈ L → (∀ y ∈ L, key y = key x → val y = val x) →
      L.foldl (fun d y => Function.update d (key y) (val y)) d (key x) = val x := by
  have gen : ∀ (L : List α) (d : κ → β) (k : κ) (b : β), (∀ y ∈ L, key y = k → val y = b) →
      (d k = b ∨ ∃ y ∈ L, key y = k) →
      L.foldl (fun d y => Function.update d (key y) (val y)) d k = b := by
    intro L
    induction L with
    | nil =>
      intro d k b _ h
      rcases h with h | ⟨y, hy, _⟩
      · exact h
      · simp at hy
    | cons a L ih =>
      intro d k b hall h
      rw [List.foldl_cons]
      refine ih _ k b (fun y hy => hall y (List.mem_cons_of_mem _ hy)) ?_
      by_cases hk : key a = k
      · left
        rw [← hk, Function.update_self]
        exact hall a (List.mem_cons_self ..) hk
      · rcases h with h | ⟨y, hy, hyk⟩
        · left; rw [Function.update_of_ne (fun e => hk e.symm), h]
        · rcases List.mem_cons.1 hy with rfl | hy
          · exact absurd hyk hk
          · right; exact ⟨y, hy, hyk⟩
  intro L d x hx hall
  exact gen L d _ _ hall (Or.inr ⟨x, hx, rfl⟩)

namespace H5

theorem mem_box2 {m n : Int} {b : List Int} :
    b ∈ box [m, n] ↔ ∃ j i, b = [j, i] ∧ (0 ≤ j ∧ j < m) ∧ (0 ≤ i ∧ i < n) := by
  simp only [box, List.mem_flatMap, List.mem_map, mem_countUp, List.mem_singleton]
  constructor
  · rintro ⟨j, hj, b', ⟨i, hi, ⟨_, rfl, rfl⟩⟩, rfl⟩
    exact ⟨j, i, rfl, by omega, by omega⟩
  · rintro ⟨j, i, rfl, hj, hi⟩
    exact ⟨j, by omega, [i], ⟨i, by omega, [], rfl, rfl⟩, rfl⟩

theorem mem_box3 {l m n : Int} {b : List Int} :
    b ∈ box [l, m, n] ↔
      ∃ k j i, b = [k, j, i] ∧ (0 ≤ k ∧ k < l) ∧ (0 ≤ j ∧ j < m) ∧ (0 ≤ i ∧ i < n) := by
  rw [box]
  simp only [List.mem_flatMap, List.mem_map, mem_countUp, mem_box2]
  constructor
  · rintro ⟨k, hk, b', ⟨j, i, rfl, hj, hi⟩, rfl⟩
    exact ⟨k, j, i, rfl, by omega, hj, hi⟩
  · rintro ⟨k, j, i, rfl, hk, hj, hi⟩
    exact ⟨k, by omega, [j, i], ⟨j, i, rfl, hj, hi⟩, rfl⟩

theorem mem_transfer {mdims fdims sm sf n : List Int} {x c : List Int}
    (hm : fits mdims sm n = true) (hf : fits fdims sf n = true) :
    (x, c) ∈ transfer mdims ⟨sm, n⟩ fdims ⟨sf, n⟩ ↔
      ∃ b ∈ box n, x = List.zipWith (· + ·) sm b ∧ c = List.zipWith (· + ·) sf b := by
  unfold transfer
  have e : (Slab.inside ⟨sm, n⟩ mdims && Slab.inside ⟨sf, n⟩ fdims &&
      (Slab.points ⟨sm, n⟩).length == (Slab.points ⟨sf, n⟩).length) = true := by
    simp [Slab.inside, hm, hf, Slab.points]
  rw [if_pos e]
  simp only [Slab.points, List.zip_map', List.mem_map, Prod.mk.injEq]
  constructor
  · rintro ⟨b, hb, h1, h2⟩; exact ⟨b, hb, h1.symm, h2.symm⟩
  · rintro ⟨b, hb, h1, h2⟩; exact ⟨b, hb, h1.symm, h2.symm⟩

theorem mem_transfer2 {M N F G a b e f m n : Int} {xs cs : List Int}
    (ha : 0 ≤ a) (hb : 0 ≤ b) (he : 0 ≤ e) (hf : 0 ≤ f) (hm : 0 ≤ m) (hn : 0 ≤ n)
    (h1 : a + m ≤ M) (h2 : b + n ≤ N) (h3 : e + m ≤ F) (h4 : f + n ≤ G) :
    (xs, cs) ∈ transfer [M, N] ⟨[a, b], [m, n]⟩ [F, G] ⟨[e, f], [m, n]⟩ ↔
      ∃ j i, (0 ≤ j ∧ j < m) ∧ (0 ≤ i ∧ i < n) ∧ xs = [a + j, b + i] ∧ cs = [e + j, f + i] := by
  rw [mem_transfer (by simp [fits]; omega) (by simp [fits]; omega)]
  simp only [mem_box2]
  constructor
  · rintro ⟨_, ⟨j, i, rfl, hj, hi⟩, rfl, rfl⟩
    exact ⟨j, i, hj, hi, rfl, rfl⟩
  · rintro ⟨j, i, hj, hi, rfl, rfl⟩
    exact ⟨_, ⟨j, i, rfl, hj, hi⟩, rfl, rfl⟩

theorem mem_transfer3 {L M N E F G a b c e f g l m n : Int} {xs cs : List Int}
    (ha : 0 ≤ a) (hb : 0 ≤ b) (hc : 0 ≤ c) (he : 0 ≤ e) (hf : 0 ≤ f) (hg : 0 ≤ g)
    (hl : 0 ≤ l) (hm : 0 ≤ m) (hn : 0 ≤ n)
    (h1 : a + l ≤ L) (h2 : b + m ≤ M) (h3 : c + n ≤ N) (h4 : e + l ≤ E) (h5 : f + m ≤ F)
    (h6 : g + n ≤ G) :
    (xs, cs) ∈ transfer [L, M, N] ⟨[a, b, c], [l, m, n]⟩ [E, F, G] ⟨[e, f, g], [l, m, n]⟩ ↔
      ∃ k j i, (0 ≤ k ∧ k < l) ∧ (0 ≤ j ∧ j < m) ∧ (0 ≤ i ∧ i < n) ∧
        xs = [a + k, b + j, c + i] ∧ cs = [e + k, f + j, g + i] := by
  rw [mem_transfer (by simp [fits]; omega) (by simp [fits]; omega)]
  simp only [mem_box3]
  constructor
  · rintro ⟨_, ⟨k, j, i, rfl, hk, hj, hi⟩, rfl, rfl⟩
    exact ⟨k, j, i, hk, hj, hi, rfl, rfl⟩
  · rintro ⟨k, j, i, hk, hj, hi, rfl, rfl⟩
    exact ⟨_, ⟨k, j, i, rfl, hk, hj, hi⟩, rfl, rfl⟩

theorem rowMajor2 {M N j i : Int} : offset [M, N] [j, i] = i + N * j := by
  simp [offset]; rw [Int.mul_comm, Int.add_comm]

theorem rowMajor3 {L M N k j i : Int} : offset [L, M, N] [k, j, i] = i + N * j + N * M * k := by
  simp [offset]; ring

/-- row-major positions are injective, 2D -/
theorem pos2_inj {N i j i' j' : Int} (hi : 0 ≤ i ∧ i < N) (hi' : 0 ≤ i' ∧ i' < N)
    (h : i + N * j = i' + N * j') : i = i' ∧ j = j' := by
  have dm : ∀ x q : Int, 0 ≤ x → x < N → (x + N * q) % N = x ∧ (x + N * q) / N = q := by
    intro x q h0 h1
    constructor
    · rw [Int.add_mul_emod_self_left, Int.emod_eq_of_lt h0 h1]
    · rw [Int.add_mul_ediv_left _ _ (by omega), Int.ediv_eq_zero_of_lt h0 h1, Int.zero_add]
  have a := dm i j hi.1 hi.2
  have b := dm i' j' hi'.1 hi'.2
  rw [h] at a
  exact ⟨a.1.symm.trans b.1, a.2.symm.trans b.2⟩

/-- row-major positions are injective, 3D -/
theorem pos3_inj {N M i j k i' j' k' : Int} (hi : 0 ≤ i ∧ i < N) (hi' : 0 ≤ i' ∧ i' < N)
    (hj : 0 ≤ j ∧ j < M) (hj' : 0 ≤ j' ∧ j' < M)
    (h : i + N * j + N * M * k = i' + N * j' + N * M * k') : i = i' ∧ j = j' ∧ k = k' := by
  have e : ∀ a b c : Int, a + N * b + N * M * c = a + N * (b + M * c) := by intro a b c; ring
  rw [e, e] at h
  obtain ⟨h1, h2⟩ := pos2_inj hi hi' h
  obtain ⟨h3, h4⟩ := pos2_inj hj hj' h2
  exact ⟨h1, h3, h4⟩

end H5

open H5

/-- the transfer buffer holds the field in row-major order, both layouts, 2D -/
theorem saveBuffer2_get (lay : Layout) {p : Params R} (U : Loc Unit → R) {v : Nat}
    (hv : v < p.nbvar) (junk : Int → R) {i j : Int} (hi : 0 ≤ i ∧ i < p.isize)
    (hj : 0 ≤ j ∧ j < p.jsize) :
    saveBuffer2 lay p U v junk (i + p.isize * j) = U ⟨(), i, j, 0, v⟩ := by
  cases lay with
  | right =>
    have := foldl_update_mem (fun ij : Int × Int => ij.1 + p.isize * ij.2)
      (fun ij => U ⟨(), ij.1, ij.2, 0, v⟩)
      ((countUp 0 (p.jsize - 1)).flatMap fun j => (countUp 0 (p.isize - 1)).map fun i => (i, j))
      junk (i, j) ?_ ?_
    · exact this
    · simp only [List.mem_flatMap, List.mem_map, mem_countUp]
      exact ⟨j, by omega, i, by omega, rfl⟩
    · rintro ⟨i', j'⟩ hm h
      simp only [List.mem_flatMap, List.mem_map, mem_countUp, Prod.mk.injEq] at hm
      obtain ⟨_, h2, _, h1, rfl, rfl⟩ := hm
      obtain ⟨rfl, rfl⟩ := pos2_inj (by omega) hi h
      rfl
  | left =>
    have h := (view_roundtrip .left (e := (p.isize, p.jsize, 1)) (nb := p.nbvar) (k := 0) (v := v)
      hi hj ⟨le_refl _, by norm_num⟩ ⟨by omega, by exact_mod_cast hv⟩).1
    have e : viewOffset .left (p.isize, p.jsize, 1) p.nbvar i j 0 v =
        p.isize * p.jsize * v + (i + p.isize * j) := by
      simp only [viewOffset]; ring
    rw [e] at h
    simp only [saveBuffer2, h, Int.toNat_natCast]

/-- the transfer buffer holds the field in row-major order, both layouts, 3D -/
theorem saveBuffer3_get (lay : Layout) {p : Params R} (U : Loc Unit → R) {v : Nat}
    (hv : v < p.nbvar) (junk : Int → R) {i j k : Int} (hi : 0 ≤ i ∧ i < p.isize)
    (hj : 0 ≤ j ∧ j < p.jsize) (hk : 0 ≤ k ∧ k < p.ksize) :
    saveBuffer3 lay p U v junk (i + p.isize * j + p.isize * p.jsize * k) = U ⟨(), i, j, k, v⟩ := by
  cases lay with
  | right =>
    have := foldl_update_mem
      (fun x : Int × Int × Int => x.1 + p.isize * x.2.1 + p.isize * p.jsize * x.2.2)
      (fun x => U ⟨(), x.1, x.2.1, x.2.2, v⟩)
      ((countUp 0 (p.ksize - 1)).flatMap fun k => (countUp 0 (p.jsize - 1)).flatMap fun j =>
        (countUp 0 (p.isize - 1)).map fun i => (i, j, k))
      junk (i, j, k) ?_ ?_
    · exact this
    · simp only [List.mem_flatMap, List.mem_map, mem_countUp]
      exact ⟨k, by omega, j, by omega, i, by omega, rfl⟩
    · rintro ⟨i', j', k'⟩ hm h
      simp only [List.mem_flatMap, List.mem_map, mem_countUp, Prod.mk.injEq] at hm
      obtain ⟨k1, h3, j1, h2, i1, h1, e1, e2, e3⟩ := hm
      obtain ⟨rfl, rfl, rfl⟩ := pos3_inj (i := i') (j := j') (by omega) hi (by omega) hj h
      rfl
  | left =>
    have h := (view_roundtrip .left (e := (p.isize, p.jsize, p.ksize)) (nb := p.nbvar) (v := v)
      hi hj hk ⟨by omega, by exact_mod_cast hv⟩).1
    have e : viewOffset .left (p.isize, p.jsize, p.ksize) p.nbvar i j k v =
        p.isize * p.jsize * p.ksize * v + (i + p.isize * j + p.isize * p.jsize * k) := by
      simp only [viewOffset]; ring
    rw [e] at h
    simp only [saveBuffer3, h, Int.toNat_natCast]

/-- the reader stores the buffer in the field and leaves the other fields alone, 2D -/
theorem loadBuffer2_get (lay : Layout) {p : Params R} (data : Int → R) {v w : Nat}
    (hv : v < p.nbvar) (hw : w < p.nbvar) (host : Loc Unit → R) {i j : Int}
    (hi : 0 ≤ i ∧ i < p.isize) (hj : 0 ≤ j ∧ j < p.jsize) :
    loadBuffer2 lay p data v host ⟨(), i, j, 0, w⟩ =
      if w = v then data (i + p.isize * j) else host ⟨(), i, j, 0, w⟩ := by
  cases lay with
  | right =>
    by_cases h : w = v <;> simp [loadBuffer2, hi, hj, h]
  | left =>
    have e : viewOffset .left (p.isize, p.jsize, 1) p.nbvar i j 0 w - p.isize * p.jsize * v =
        i + p.isize * j + p.isize * p.jsize * ((w : Int) - v) := by
      simp only [viewOffset]; ring
    have s0 : 0 ≤ p.isize * j := Int.mul_nonneg (by omega) hj.1
    have s1 : p.isize * (j + 1) ≤ p.isize * p.jsize := Int.mul_le_mul_of_nonneg_left (by omega) (by omega)
    rw [Int.mul_add] at s1
    unfold loadBuffer2
    simp only [e]
    by_cases h : w = v
    · subst h
      rw [if_pos ⟨hi, hj, trivial, hw, by simp; omega, by simp; omega⟩, if_pos rfl]
      simp
    · rw [if_neg h, if_neg]
      rintro ⟨-, -, -, -, h1, h2⟩
      have hp : 0 < p.isize * p.jsize := Int.mul_pos (by omega) (by omega)
      rcases lt_or_gt_of_ne (show (w : Int) - v ≠ 0 by omega) with g | g
      · have : p.isize * p.jsize * ((w : Int) - v) ≤ p.isize * p.jsize * (-1) :=
          Int.mul_le_mul_of_nonneg_left (by omega) (by omega)
        omega
      · have : p.isize * p.jsize * 1 ≤ p.isize * p.jsize * ((w : Int) - v) :=
          Int.mul_le_mul_of_nonneg_left (by omega) (by omega)
        omega

/-- the reader stores the buffer in the field and leaves the other fields alone, 3D -/
theorem loadBuffer3_get (lay : Layout) {p : Params R} (data : Int → R) {v w : Nat}
    (hv : v < p.nbvar) (hw : w < p.nbvar) (host : Loc Unit → R) {i j k : Int}
    (hi : 0 ≤ i ∧ i < p.isize) (hj : 0 ≤ j ∧ j < p.jsize) (hk : 0 ≤ k ∧ k < p.ksize) :
    loadBuffer3 lay p data v host ⟨(), i, j, k, w⟩ =
      if w = v then data (i + p.isize * j + p.isize * p.jsize * k) else host ⟨(), i, j, k, w⟩ := by
  cases lay with
  | right =>
    by_cases h : w = v <;> simp [loadBuffer3, hi, hj, hk, h]
  | left =>
    have e : viewOffset .left (p.isize, p.jsize, p.ksize) p.nbvar i j k w -
        p.isize * p.jsize * p.ksize * v = i + p.isize * j + p.isize * p.jsize * k +
          p.isize * p.jsize * p.ksize * ((w : Int) - v) := by
      simp only [viewOffset]; ring
    have s0 : 0 ≤ p.isize * j := Int.mul_nonneg (by omega) hj.1
    have s1 : p.isize * (j + 1) ≤ p.isize * p.jsize := Int.mul_le_mul_of_nonneg_left (by omega) (by omega)
    rw [Int.mul_add] at s1
    have t0 : 0 ≤ p.isize * p.jsize * k := Int.mul_nonneg (by omega) hk.1
    have t1 : p.isize * p.jsize * (k + 1) ≤ p.isize * p.jsize * p.ksize :=
      Int.mul_le_mul_of_nonneg_left (by omega) (by omega)
    rw [Int.mul_add] at t1
    unfold loadBuffer3
    simp only [e]
    by_cases h : w = v
    · subst h
      rw [if_pos ⟨hi, hj, hk, hw, by simp; omega, by simp; omega⟩, if_pos rfl]
      simp
    · rw [if_neg h, if_neg]
      rintro ⟨-, -, -, -, h1, h2⟩
      have hp : 0 < p.isize * p.jsize * p.ksize :=
        Int.mul_pos (Int.mul_pos (by omega) (by omega)) (by omega)
      rcases lt_or_gt_of_ne (show (w : Int) - v ≠ 0 by omega) with g | g
      · have : p.isize * p.jsize * p.ksize * ((w : Int) - v) ≤ p.isize * p.jsize * p.ksize * (-1) :=
          Int.mul_le_mul_of_nonneg_left (by omega) (by omega)
        omega
      · have : p.isize * p.jsize * p.ksize * 1 ≤ p.isize * p.jsize * p.ksize * ((w : Int) - v) :=
          Int.mul_le_mul_of_nonneg_left (by omega) (by omega)
        omega

end EulerKokkos

namespace EulerKokkos

variable {R : Type} [RealOps R]

open H5

theorem h5written2 {ρ : Type} {M N F G a b m n : Int} {e f : ρ → Int} {buf : ρ → Int → R}
    {d : Dataset R} (ha : 0 ≤ a) (hb : 0 ≤ b) (he : ∀ r, 0 ≤ e r) (hf : ∀ r, 0 ≤ f r) (hm : 0 ≤ m)
    (hn : 0 ≤ n) (h1 : a + m ≤ M) (h2 : b + n ≤ N) (h3 : ∀ r, e r + m ≤ F) (h4 : ∀ r, f r + n ≤ G)
    (h : written [M, N] ⟨[a, b], [m, n]⟩ [F, G] (fun r => ⟨[e r, f r], [m, n]⟩) buf d)
    {J I : Int} {x : R} (hex : ∃ r, (e r ≤ J ∧ J < e r + m) ∧ (f r ≤ I ∧ I < f r + n))
    (hall : ∀ r, (e r ≤ J ∧ J < e r + m) → (f r ≤ I ∧ I < f r + n) →
      buf r ((b + (I - f r)) + N * (a + (J - e r))) = x) :
    d.val [J, I] = x := by
  have ht := fun r xs cs => mem_transfer2 (M := M) (N := N) (F := F) (G := G) (xs := xs) (cs := cs)
    ha hb (he r) (hf r) hm hn h1 h2 (h3 r) (h4 r)
  rcases h.2 [J, I] with ⟨r, xs, hx, hval⟩ | hno
  · rw [ht] at hx
    obtain ⟨j, i, hj, hi, rfl, hc⟩ := hx
    simp only [List.cons.injEq, and_true] at hc
    rw [hval, rowMajor2, ← hall r (by omega) (by omega)]
    congr 2
    · omega
    · congr 1; omega
  · obtain ⟨r, hr1, hr2⟩ := hex
    exact absurd ((ht r _ _).2 ⟨J - e r, I - f r, by omega, by omega, rfl, by
      simp only [List.cons.injEq, and_true]; omega⟩) (hno r _)

theorem h5written3 {ρ : Type} {L M N E F G a b c l m n : Int} {e f g : ρ → Int} {buf : ρ → Int → R}
    {d : Dataset R} (ha : 0 ≤ a) (hb : 0 ≤ b) (hc : 0 ≤ c) (he : ∀ r, 0 ≤ e r) (hf : ∀ r, 0 ≤ f r)
    (hg : ∀ r, 0 ≤ g r) (hl : 0 ≤ l) (hm : 0 ≤ m) (hn : 0 ≤ n) (h1 : a + l ≤ L) (h2 : b + m ≤ M)
    (h3 : c + n ≤ N) (h4 : ∀ r, e r + l ≤ E) (h5 : ∀ r, f r + m ≤ F) (h6 : ∀ r, g r + n ≤ G)
    (h : written [L, M, N] ⟨[a, b, c], [l, m, n]⟩ [E, F, G] (fun r => ⟨[e r, f r, g r], [l, m, n]⟩) buf d)
    {K J I : Int} {x : R} (hex : ∃ r, (e r ≤ K ∧ K < e r + l) ∧ (f r ≤ J ∧ J < f r + m) ∧
      (g r ≤ I ∧ I < g r + n))
    (hall : ∀ r, (e r ≤ K ∧ K < e r + l) → (f r ≤ J ∧ J < f r + m) → (g r ≤ I ∧ I < g r + n) →
      buf r ((c + (I - g r)) + N * (b + (J - f r)) + N * M * (a + (K - e r))) = x) :
    d.val [K, J, I] = x := by
  have ht := fun r xs cs => mem_transfer3 (L := L) (M := M) (N := N) (E := E) (F := F) (G := G)
    (xs := xs) (cs := cs) ha hb hc (he r) (hf r) (hg r) hl hm hn h1 h2 h3 (h4 r) (h5 r) (h6 r)
  rcases h.2 [K, J, I] with ⟨r, xs, hx, hval⟩ | hno
  · rw [ht] at hx
    obtain ⟨k, j, i, hk, hj, hi, rfl, hc⟩ := hx
    simp only [List.cons.injEq, and_true] at hc
    rw [hval, rowMajor3, ← hall r (by omega) (by omega) (by omega)]
    obtain ⟨e1, e2, e3⟩ := hc
    rw [e1, e2, e3]
    simp
  · obtain ⟨r, hr1, hr2, hr3⟩ := hex
    exact absurd ((ht r _ _).2 ⟨K - e r, J - f r, I - g r, by omega, by omega, by omega, rfl, by
      simp only [List.cons.injEq, and_true]; omega⟩) (hno r _)

theorem h5read2 {M N F G a b m n e f : Int} {d : Dataset R} {buf buf' : Int → R}
    (ha : 0 ≤ a) (hb : 0 ≤ b) (he : 0 ≤ e) (hf : 0 ≤ f) (hm : 0 ≤ m)
    (hn : 0 ≤ n) (h1 : a + m ≤ M) (h2 : b + n ≤ N) (h3 : e + m ≤ F) (h4 : f + n ≤ G)
    (hd : d.dims = [F, G])
    (h : H5.read [M, N] ⟨[a, b], [m, n]⟩ [F, G] ⟨[e, f], [m, n]⟩ d buf buf')
    {i j : Int} (hi : b ≤ i ∧ i < b + n) (hj : a ≤ j ∧ j < a + m) :
    buf' (i + N * j) = d.val [e + (j - a), f + (i - b)] := by
  have ht := fun xs cs => mem_transfer2 (M := M) (N := N) (F := F) (G := G) (xs := xs) (cs := cs)
    ha hb he hf hm hn h1 h2 h3 h4
  have h' := h (i + N * j)
  simp only [if_pos hd, ht] at h'
  rcases h' with ⟨_, _, ⟨j', i', hj', hi', rfl, rfl⟩, ho, hv⟩ | ⟨hno, -⟩
  · rw [rowMajor2] at ho
    obtain ⟨rfl, rfl⟩ := pos2_inj (by omega) (by omega) ho
    rw [hv]
    simp
  · exact absurd (by rw [rowMajor2]; ring) (hno _ _ ⟨j - a, i - b, by omega, by omega, rfl, rfl⟩)

theorem h5read3 {L M N E F G a b c l m n e f g : Int} {d : Dataset R} {buf buf' : Int → R}
    (ha : 0 ≤ a) (hb : 0 ≤ b) (hc : 0 ≤ c) (he : 0 ≤ e) (hf : 0 ≤ f) (hg : 0 ≤ g) (hl : 0 ≤ l)
    (hm : 0 ≤ m) (hn : 0 ≤ n) (h1 : a + l ≤ L) (h2 : b + m ≤ M) (h3 : c + n ≤ N) (h4 : e + l ≤ E)
    (h5 : f + m ≤ F) (h6 : g + n ≤ G) (hd : d.dims = [E, F, G])
    (h : H5.read [L, M, N] ⟨[a, b, c], [l, m, n]⟩ [E, F, G] ⟨[e, f, g], [l, m, n]⟩ d buf buf')
    {i j k : Int} (hi : c ≤ i ∧ i < c + n) (hj : b ≤ j ∧ j < b + m) (hk : a ≤ k ∧ k < a + l) :
    buf' (i + N * j + N * M * k) = d.val [e + (k - a), f + (j - b), g + (i - c)] := by
  have ht := fun xs cs => mem_transfer3 (L := L) (M := M) (N := N) (E := E) (F := F) (G := G)
    (xs := xs) (cs := cs) ha hb hc he hf hg hl hm hn h1 h2 h3 h4 h5 h6
  have h' := h (i + N * j + N * M * k)
  simp only [if_pos hd, ht] at h'
  rcases h' with ⟨_, _, ⟨k', j', i', hk', hj', hi', rfl, rfl⟩, ho, hv⟩ | ⟨hno, -⟩
  · rw [rowMajor3] at ho
    obtain ⟨rfl, rfl, rfl⟩ := pos3_inj (by omega) (by omega) (by omega) (by omega) ho
    rw [hv]
    simp
  · exact absurd (by rw [rowMajor3]; ring)
      (hno _ _ ⟨k - a, j - b, i - c, by omega, by omega, by omega, rfl, rfl⟩)

/-- reading the fields one after the other, seen at one cell -/
theorem readFields_get {lay : Layout} {o : H5Options} {p : Params R} {mdims fdims : List Int}
    {mem file : Slab} {f : H5File R} {i j k : Int} {nb : Nat} {g : Nat → R} :
    ∀ (vs : List Nat) {h h' : Loc Unit → R},
      (∀ v ∈ vs, ∀ h h', readField lay o p mdims mem fdims file f v h h' → ∀ w < nb,
        h' ⟨(), i, j, k, w⟩ = if w = v then g w else h ⟨(), i, j, k, w⟩) →
      readFields lay o p mdims mem fdims file f vs h h' → ∀ w < nb,
        h' ⟨(), i, j, k, w⟩ = if w ∈ vs then g w else h ⟨(), i, j, k, w⟩ := by
  intro vs
  induction vs with
  | nil =>
    intro h h' _ hr w _
    simp only [readFields] at hr
    simp [hr]
  | cons v vs ih =>
    intro h h' hs hr w hw
    obtain ⟨h1, hr1, hr2⟩ := hr
    rw [ih (fun v hv => hs v (List.mem_cons_of_mem _ hv)) hr2 w hw,
      hs v (List.mem_cons_self ..) _ _ hr1 w hw]
    by_cases e1 : w ∈ vs
    · simp [e1]
    · by_cases e2 : w = v <;> simp [e1, e2]

end EulerKokkos
