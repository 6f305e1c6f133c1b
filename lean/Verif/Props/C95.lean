import Verif.Model.Memory
import Verif.Props.Sample
import Verif.Props.C93
import Mathlib.Data.Set.Card
import Mathlib.Data.Int.Interval

/-!
# C95 — The memory a solver reports is the memory of its arrays

The constructor of every solver adds up the bytes of the arrays it allocates and prints the sum.  The specification is the
number of elements of all allocated arrays, `Set.ncard` of the set of locations that the memory-safety claims (C06, C31,
C41, C46) allow a step to touch.  The sum is computed in `int`, so it is defined exactly when the number of elements
of one solution array fits in 31 bits.
-/

set_option linter.unusedSimpArgs false
set_option linter.unusedSectionVars false

namespace EulerKokkos

variable {R : Type} [RealOps R]

/-- a family of arrays of `I × J × K` cells, `w a` numbers per cell in array `a`, nonzero only for the arrays of `L` -/
theorem ncard_arrays (L : List Arr) (hL : L.Nodup) (w : Arr → Nat) (hw : ∀ a, a ∉ L → w a = 0) {I J K : Int}
    (hI : 0 ≤ I) (hJ : 0 ≤ J) (hK : 0 ≤ K) (P : Loc Arr → Prop)
    (hP : ∀ l, P l ↔ (0 ≤ l.i ∧ l.i < I) ∧ (0 ≤ l.j ∧ l.j < J) ∧ (0 ≤ l.k ∧ l.k < K) ∧ l.v < w l.arr) :
    (({l | P l}.ncard : Nat) : Int) = I * J * K * (((L.map w).sum : Nat) : Int) := by
  classical
  let box : Arr → Finset (Loc Arr) := fun a =>
    (Finset.Ico 0 I ×ˢ Finset.Ico 0 J ×ˢ Finset.Ico 0 K ×ˢ Finset.range (w a)).map
      ⟨fun t => (⟨a, t.1, t.2.1, t.2.2.1, t.2.2.2⟩ : Loc Arr), by
        rintro ⟨i, j, k, v⟩ ⟨i', j', k', v'⟩ h
        simp only [Loc.mk.injEq, true_and] at h
        obtain ⟨rfl, rfl, rfl, rfl⟩ := h
        rfl⟩
  have hbox : ∀ a l, l ∈ box a ↔ l.arr = a ∧ (0 ≤ l.i ∧ l.i < I) ∧ (0 ≤ l.j ∧ l.j < J) ∧ (0 ≤ l.k ∧ l.k < K) ∧
      l.v < w a := by
    rintro a ⟨a', i, j, k, v⟩
    constructor
    · intro h
      obtain ⟨⟨i', j', k', v'⟩, h0, e⟩ := Finset.mem_map.1 h
      simp only [Finset.mem_product, Finset.mem_Ico, Finset.mem_range] at h0
      cases e
      exact ⟨rfl, h0⟩
    · rintro ⟨rfl, h⟩
      refine Finset.mem_map.2 ⟨(i, j, k, v), ?_, rfl⟩
      simp only [Finset.mem_product, Finset.mem_Ico, Finset.mem_range]
      exact h
  have hset : {l | P l} = ((L.toFinset.biUnion box : Finset (Loc Arr)) : Set (Loc Arr)) := by
    ext l
    simp only [Set.mem_setOf_eq, hP, Finset.coe_biUnion, Set.mem_iUnion, Finset.mem_coe, hbox, List.mem_toFinset]
    constructor
    · rintro ⟨h1, h2, h3, h4⟩
      refine ⟨l.arr, ?_, rfl, h1, h2, h3, h4⟩
      by_contra h
      rw [hw _ h] at h4
      omega
    · rintro ⟨a, _, rfl, h⟩
      exact h
  rw [hset, Set.ncard_coe_finset, Finset.card_biUnion (fun a _ b _ hab => Finset.disjoint_left.2 fun l h1 h2 =>
    hab (((hbox a l).1 h1).1.symm.trans ((hbox b l).1 h2).1))]
  have hcard : ∀ a, (box a).card = I.toNat * (J.toNat * (K.toNat * w a)) := by
    intro a
    simp only [box, Finset.card_map, Finset.card_product, Int.card_Ico, Finset.card_range, sub_zero]
  simp only [hcard]
  rw [← List.sum_toFinset _ hL, Nat.cast_sum, Nat.cast_sum, Finset.mul_sum]
  refine Finset.sum_congr rfl fun a _ => ?_
  push_cast
  rw [Int.toNat_of_nonneg hI, Int.toNat_of_nonneg hJ, Int.toNat_of_nonneg hK]
  ring


/-! ### The products of sizes -/

theorem sizes2I_eq (p : Params R) (w : p.WF) {c : Int} (hc : 1 ≤ c) : sizes2I p c =
    if p.isize * p.jsize * c ≤ 2147483647 then some (p.isize * p.jsize * c) else none := by
  have h1 := w.gw_pos
  have h2 := w.isize_eq
  have h3 := w.jsize_eq
  have h5 := w.nx_pos
  have h6 := w.ny_pos
  exact mul3_I (by omega) (by omega) hc

theorem sizes3I_eq (p : Params R) (w : p.WF) {c : Int} (hc : 1 ≤ c) : sizes3I p c =
    if p.isize * p.jsize * p.ksize * c ≤ 2147483647 then some (p.isize * p.jsize * p.ksize * c) else none := by
  have h1 := w.gw_pos
  have h2 := w.isize_eq
  have h3 := w.jsize_eq
  have h4 := w.ksize_eq
  have h5 := w.nx_pos
  have h6 := w.ny_pos
  have h7 := w.nz_pos
  have a : 0 < p.isize * p.jsize := mul_pos (by omega) (by omega)
  have b : 1 ≤ p.isize * p.jsize := a
  have m := mul3_I (a := p.isize * p.jsize) (b := p.ksize) (c := c) b (by omega) hc
  have b2 : p.isize * p.jsize ≤ p.isize * p.jsize * p.ksize := by nlinarith
  have b3 : p.isize * p.jsize * p.ksize ≤ p.isize * p.jsize * p.ksize * c := by nlinarith
  rw [← m]
  unfold sizes3I
  by_cases h : p.isize * p.jsize ≤ 2147483647
  · rw [i32_some (by omega) h]; rfl
  · rw [i32_none (by omega), i32_none (by omega)]; rfl

/-- how a 2D array with `c` numbers per cell fits when one with more does -/
theorem sizes2I_some (p : Params R) (w : p.WF) {c n : Int} (hc : 1 ≤ c) (hn : c ≤ n)
    (h : p.isize * p.jsize * n ≤ 2147483647) : sizes2I p c = some (p.isize * p.jsize * c) := by
  have h2 := w.isize_eq
  have h3 := w.jsize_eq
  have h1 := w.gw_pos
  have h5 := w.nx_pos
  have h6 := w.ny_pos
  have a : 0 < p.isize * p.jsize := mul_pos (by omega) (by omega)
  rw [sizes2I_eq p w hc, if_pos (by nlinarith)]

theorem sizes3I_some (p : Params R) (w : p.WF) {c n : Int} (hc : 1 ≤ c) (hn : c ≤ n)
    (h : p.isize * p.jsize * p.ksize * n ≤ 2147483647) :
    sizes3I p c = some (p.isize * p.jsize * p.ksize * c) := by
  have h1 := w.gw_pos
  have h2 := w.isize_eq
  have h3 := w.jsize_eq
  have h4 := w.ksize_eq
  have h5 := w.nx_pos
  have h6 := w.ny_pos
  have h7 := w.nz_pos
  have a : 0 < p.isize * p.jsize := mul_pos (by omega) (by omega)
  have b : 0 < p.isize * p.jsize * p.ksize := mul_pos a (by omega)
  rw [sizes3I_eq p w hc, if_pos (by nlinarith)]

/-! ### The claims -/

/-- one of the three implementation versions of the program -/
def KnownVersion (p : Params R) : Prop :=
  p.implementationVersion = 0 ∨ p.implementationVersion = 1 ∨ p.implementationVersion = 2

/-- **C95, 2D hydro**: the reported memory is defined exactly when one solution array has at most `2^31 - 1` numbers, and
then it is the size in bytes of all arrays of the solver — except that a gravity field counts one byte per number -/
theorem C95_hydro_2d (p : Params R) (w : p.WF) (hn : p.nbvar = 4) (hv : KnownVersion p) (g : GravityParams) (sz : Int) :
    memHydro2I p g sz =
      if p.isize * p.jsize * 4 ≤ 2147483647 then
        some (sz * ({l | Alloc2 p g l}.ncard : Int) -
          (if g.enabled = true then (sz - 1) * (p.isize * p.jsize * 2) else 0))
      else none := by
  have h1 := w.gw_pos
  have h2 := w.isize_eq
  have h3 := w.jsize_eq
  have h5 := w.nx_pos
  have h6 := w.ny_pos
  by_cases h : p.isize * p.jsize * 4 ≤ 2147483647
  · rw [if_pos h]
    have e4 := sizes2I_some p w (c := 4) (by norm_num) le_rfl h
    have e2 := sizes2I_some p w (c := 2) (by norm_num) (by norm_num) h
    have card := ncard_arrays [.U, .U2, .Q, .Fx, .Fy, .Sx, .Sy, .grav] (by decide)
      (fun a => match a with
        | .U | .U2 | .Q => 4
        | .Fx => if p.implementationVersion = 0 ∨ p.implementationVersion = 1 then 4 else 0
        | .Fy => if p.implementationVersion = 0 then 4 else 0
        | .Sx | .Sy => if p.implementationVersion = 1 then 4 else 0
        | .grav => if g.enabled = true then 2 else 0
        | _ => 0) (by intro a ha; cases a <;> simp at ha ⊢) (I := p.isize) (J := p.jsize) (K := 1) (by omega) (by omega)
      (by omega) (Alloc2 p g) (by
        rintro ⟨a, i, j, k, v⟩
        have hk : (0 ≤ k ∧ k < 1) ↔ k = 0 := by omega
        simp only [Alloc2, hk, hn]
        cases a <;> simp only [Nat.not_lt_zero, and_false]
        all_goals split_ifs <;> simp_all)
    rw [card]
    simp only [memHydro2I, hn, Nat.cast_ofNat, e4, e2]
    rcases hv with v | v | v <;> by_cases hg : g.enabled = true <;> simp [v, hg] <;> ring
  · rw [if_neg h]
    have e4 : sizes2I p 4 = none := by rw [sizes2I_eq p w (by norm_num), if_neg h]
    simp only [memHydro2I, hn, Nat.cast_ofNat, e4]
    rfl

/-- **C95, 3D hydro**: as in 2D -/
theorem C95_hydro_3d (p : Params R) (w : p.WF) (hn : p.nbvar = 5) (hv : KnownVersion p) (g : GravityParams) (sz : Int) :
    memHydro3I p g sz =
      if p.isize * p.jsize * p.ksize * 5 ≤ 2147483647 then
        some (sz * ({l | Alloc3 p g l}.ncard : Int) -
          (if g.enabled = true then (sz - 1) * (p.isize * p.jsize * p.ksize * 3) else 0))
      else none := by
  have h1 := w.gw_pos
  have h2 := w.isize_eq
  have h3 := w.jsize_eq
  have h4 := w.ksize_eq
  have h5 := w.nx_pos
  have h6 := w.ny_pos
  have h7 := w.nz_pos
  by_cases h : p.isize * p.jsize * p.ksize * 5 ≤ 2147483647
  · rw [if_pos h]
    have e5 := sizes3I_some p w (c := 5) (by norm_num) le_rfl h
    have e3 := sizes3I_some p w (c := 3) (by norm_num) (by norm_num) h
    have card := ncard_arrays [.U, .U2, .Q, .Fx, .Fy, .Fz, .Sx, .Sy, .Sz, .grav] (by decide)
      (fun a => match a with
        | .U | .U2 | .Q => 5
        | .Fx => if p.implementationVersion = 0 ∨ p.implementationVersion = 1 then 5 else 0
        | .Fy | .Fz => if p.implementationVersion = 0 then 5 else 0
        | .Sx | .Sy | .Sz => if p.implementationVersion = 1 then 5 else 0
        | .grav => if g.enabled = true then 3 else 0
        | _ => 0) (by intro a ha; cases a <;> simp at ha ⊢) (I := p.isize) (J := p.jsize) (K := p.ksize) (by omega) (by omega)
      (by omega) (Alloc3 p g) (by
        rintro ⟨a, i, j, k, v⟩
        skip
        simp only [Alloc3, hn]
        cases a <;> simp only [Nat.not_lt_zero, and_false]
        all_goals split_ifs <;> simp_all)
    rw [card]
    simp only [memHydro3I, hn, Nat.cast_ofNat, e5, e3]
    rcases hv with v | v | v <;> by_cases hg : g.enabled = true <;> simp [v, hg] <;> ring
  · rw [if_neg h]
    have e5 : sizes3I p 5 = none := by rw [sizes3I_eq p w (by norm_num), if_neg h]
    simp only [memHydro3I, hn, Nat.cast_ofNat, e5]
    rfl

/-- **C95, 2D MHD**: the reported memory is defined exactly when one solution array has at most `2^31 - 1` numbers, and
then it is the size in bytes of all arrays of the solver -/
theorem C95_mhd_2d (p : Params R) (w : p.WF) (hn : p.nbvar = 8) (hv : KnownVersion p) (sz : Int) :
    memMhd2I p sz =
      if p.isize * p.jsize * 8 ≤ 2147483647 then some (sz * ({l | AllocM2 p l}.ncard : Int)) else none := by
  have h1 := w.gw_pos
  have h2 := w.isize_eq
  have h3 := w.jsize_eq
  have h4 := w.ksize_eq
  have h5 := w.nx_pos
  have h6 := w.ny_pos
  have h7 := w.nz_pos
  by_cases h : p.isize * p.jsize * 8 ≤ 2147483647
  · rw [if_pos h]
    have e8 := sizes2I_some p w (c := 8) (by norm_num) le_rfl h
    have e2 := sizes2I_some p w (c := 2) (by norm_num) (by norm_num) h
    have e1 := sizes2I_some p w (c := 1) (by norm_num) (by norm_num) h
    have card := ncard_arrays [.U, .U2, .Q, .Qm_x, .Qm_y, .Qp_x, .Qp_y, .QEdge 0, .QEdge 1, .QEdge 2, .QEdge 3, .Fx, .Fy,
      .Emf, .Q2, .Sx, .Sy, .sFaceMag, .ElecField] (by decide)
      (fun a => match a with
        | .U | .U2 | .Q => 8
        | .Qm_x | .Qm_y | .Qp_x | .Qp_y =>
          if p.implementationVersion = 0 ∨ p.implementationVersion = 1 then 8 else 0
        | .QEdge n => if n < 4 ∧ (p.implementationVersion = 0 ∨ p.implementationVersion = 1) then 8 else 0
        | .Fx | .Fy => if p.implementationVersion = 0 then 8 else 0
        | .Emf => if p.implementationVersion = 0 then 1 else 0
        | .Q2 | .Sx | .Sy => if p.implementationVersion = 2 then 8 else 0
        | .sFaceMag => if p.implementationVersion = 2 then 2 else 0
        | .ElecField => if p.implementationVersion = 2 then 1 else 0
        | _ => 0) (by intro a ha; cases a <;> simp at ha ⊢; omega) (I := p.isize) (J := p.jsize) (K := 1) (by omega) (by omega)
      (by omega) (AllocM2 p) (by
        rintro ⟨a, i, j, k, v⟩
        have hk : (0 ≤ k ∧ k < 1) ↔ k = 0 := by omega
        simp only [AllocM2, hk, hn]
        cases a <;> simp only [Nat.not_lt_zero, and_false]
        all_goals split_ifs <;> simp_all)
    rw [card]
    simp only [memMhd2I, hn, Nat.cast_ofNat, e8, e2, e1]
    rcases hv with v | v | v <;> simp [v] <;> ring
  · rw [if_neg h]
    have e8 : sizes2I p 8 = none := by rw [sizes2I_eq p w (by norm_num), if_neg h]
    simp only [memMhd2I, hn, Nat.cast_ofNat, e8]
    rfl

/-- **C95, 3D MHD**: as in 2D -/
theorem C95_mhd_3d (p : Params R) (w : p.WF) (hn : p.nbvar = 8) (hv : KnownVersion p) (sz : Int) :
    memMhd3I p sz =
      if p.isize * p.jsize * p.ksize * 8 ≤ 2147483647 then some (sz * ({l | AllocM3 p l}.ncard : Int)) else none := by
  have h1 := w.gw_pos
  have h2 := w.isize_eq
  have h3 := w.jsize_eq
  have h4 := w.ksize_eq
  have h5 := w.nx_pos
  have h6 := w.ny_pos
  have h7 := w.nz_pos
  by_cases h : p.isize * p.jsize * p.ksize * 8 ≤ 2147483647
  · rw [if_pos h]
    have e8 := sizes3I_some p w (c := 8) (by norm_num) le_rfl h
    have e3 := sizes3I_some p w (c := 3) (by norm_num) (by norm_num) h
    have card := ncard_arrays [.U, .U2, .Q, .Qm_x, .Qm_y, .Qm_z, .Qp_x, .Qp_y, .Qp_z, .QEdge 0, .QEdge 1, .QEdge 2, .QEdge 3,
      .QEdge 4, .QEdge 5, .QEdge 6, .QEdge 7, .QEdge 8, .QEdge 9, .QEdge 10, .QEdge 11, .DeltaA, .DeltaB, .DeltaC,
      .ElecField, .Fx, .Fy, .Fz, .Emf, .Q2, .Sx, .Sy, .Sz, .sFaceMag] (by decide)
      (fun a => match a with
        | .U | .U2 | .Q => 8
        | .Qm_x | .Qm_y | .Qm_z | .Qp_x | .Qp_y | .Qp_z =>
          if p.implementationVersion = 0 ∨ p.implementationVersion = 1 then 8 else 0
        | .QEdge n => if n < 12 ∧ (p.implementationVersion = 0 ∨ p.implementationVersion = 1) then 8 else 0
        | .DeltaA | .DeltaB | .DeltaC => if p.implementationVersion = 0 ∨ p.implementationVersion = 1 then 3 else 0
        | .ElecField =>
          if p.implementationVersion = 0 ∨ p.implementationVersion = 1 ∨ p.implementationVersion = 2 then 3 else 0
        | .Fx | .Fy | .Fz => if p.implementationVersion = 0 then 8 else 0
        | .Emf => if p.implementationVersion = 0 then 3 else 0
        | .Q2 | .Sx | .Sy | .Sz => if p.implementationVersion = 2 then 8 else 0
        | .sFaceMag => if p.implementationVersion = 2 then 3 else 0
        | _ => 0) (by intro a ha; cases a <;> simp at ha ⊢; omega) (I := p.isize) (J := p.jsize) (K := p.ksize) (by omega) (by omega)
      (by omega) (AllocM3 p) (by
        rintro ⟨a, i, j, k, v⟩
        skip
        simp only [AllocM3, hn]
        cases a <;> simp only [Nat.not_lt_zero, and_false]
        all_goals split_ifs <;> simp_all)
    rw [card]
    simp only [memMhd3I, hn, Nat.cast_ofNat, e8, e3]
    rcases hv with v | v | v <;> simp [v] <;> ring
  · rw [if_neg h]
    have e8 : sizes3I p 8 = none := by rw [sizes3I_eq p w (by norm_num), if_neg h]
    simp only [memMhd3I, hn, Nat.cast_ofNat, e8]
    rfl

/-! ### The cell count -/

/-- **C95, cell count**: `m_nCells`, from which the program prints its speed, is the number of cells of a solution array,
ghosts included, exactly when that number fits in an `int` -/
theorem C95_cell_count (p : Params R) (w : p.WF) :
    nCells2I p = (if p.isize * p.jsize ≤ 2147483647 then some (p.isize * p.jsize) else none) ∧
    nCells3I p = (if p.isize * p.jsize * p.ksize ≤ 2147483647 then some (p.isize * p.jsize * p.ksize) else none) ∧
    p.isize * p.jsize * p.ksize = (p.nx + 2 * p.ghostWidth) * (p.ny + 2 * p.ghostWidth) * (p.nz + 2 * p.ghostWidth) := by
  have h1 := w.gw_pos
  have h2 := w.isize_eq
  have h3 := w.jsize_eq
  have h4 := w.ksize_eq
  have h5 := w.nx_pos
  have h6 := w.ny_pos
  have h7 := w.nz_pos
  refine ⟨?_, mul3_I (by omega) (by omega) (by omega), ?_⟩
  · have a : 0 < p.isize * p.jsize := mul_pos (by omega) (by omega)
    unfold nCells2I
    split_ifs with h
    · exact i32_some (by omega) h
    · exact i32_none (by omega)
  · rw [h2, h3, h4]

/-- the constructors overflow on every 3D grid of at least 800 cells a side, far below the limits of C93 on the loops,
whatever the version; the cell count itself overflows from 1300 cells a side on -/
theorem C95_large_grids_overflow (p : Params R) (w : p.WF) (g : GravityParams) (sz : Int)
    (hx : 800 ≤ p.nx) (hy : 800 ≤ p.ny) (hz : 800 ≤ p.nz) :
    (p.nbvar = 5 → memHydro3I p g sz = none) ∧ (p.nbvar = 8 → memMhd3I p sz = none) ∧
    (1300 ≤ p.nx → 1300 ≤ p.ny → 1300 ≤ p.nz → nCells3I p = none) := by
  have h1 := w.gw_pos
  have h2 := w.isize_eq
  have h3 := w.jsize_eq
  have h4 := w.ksize_eq
  have h5 := w.nx_pos
  have h6 := w.ny_pos
  have h7 := w.nz_pos
  have b : ∀ n : Int, 0 ≤ n → n ≤ p.nx → n ≤ p.ny → n ≤ p.nz → n * n * n ≤ p.isize * p.jsize * p.ksize := by
    intro n h0 ha hb hc
    have q1 : n * n ≤ p.isize * p.jsize := mul_le_mul (by omega) (by omega) h0 (by omega)
    exact mul_le_mul q1 (by omega) h0 (mul_nonneg (by omega) (by omega))
  have b8 := b 800 (by norm_num) hx hy hz
  refine ⟨fun hn => ?_, fun hn => ?_, fun a1 a2 a3 => ?_⟩
  · have e5 : sizes3I p 5 = none := by rw [sizes3I_eq p w (by norm_num), if_neg (by omega)]
    simp only [memHydro3I, hn, Nat.cast_ofNat, e5]
    rfl
  · have e8 : sizes3I p 8 = none := by rw [sizes3I_eq p w (by norm_num), if_neg (by omega)]
    simp only [memMhd3I, hn, Nat.cast_ofNat, e8]
    rfl
  · have b13 := b 1300 (by norm_num) a1 a2 a3
    rw [(C95_cell_count p w).2.1, if_neg (by omega)]

/-! ### The files -/

/-- **C95, files 2D**: once the constructor reports its memory without overflow, the cell count, the offset of every
variable and the number of bytes written to a file are computed without overflow, too -/
theorem C95_files_2d (p : Params R) (w : p.WF) (hn : 1 ≤ p.nbvar) (h : p.isize * p.jsize * p.nbvar ≤ 2147483647) :
    nCells2I p = some (p.isize * p.jsize) ∧
    (∀ v : Int, 0 ≤ v → v < p.nbvar → fileOffset2I p v = some (p.isize * p.jsize * v)) ∧
    writeSize2I p = some (p.isize * p.jsize * p.nbvar) := by
  have h1 := w.gw_pos
  have h2 := w.isize_eq
  have h3 := w.jsize_eq
  have h4 := w.ksize_eq
  have h5 := w.nx_pos
  have h6 := w.ny_pos
  have h7 := w.nz_pos
  have hn' : (1 : Int) ≤ p.nbvar := by exact_mod_cast hn
  have a : 0 < p.isize * p.jsize := mul_pos (by omega) (by omega)
  have a1 : p.isize * p.jsize ≤ p.isize * p.jsize * p.nbvar := by nlinarith
  refine ⟨i32_some (by omega) (by omega), fun v v0 v1 => ?_, ?_⟩
  · rcases v0.eq_or_lt with rfl | v0
    · unfold fileOffset2I sizes2I
      rw [i32_some (by omega) (by omega)]
      simp [i32]
    · exact sizes2I_some p w v0 v1.le h
  · have e : (p.nbvar : Int) * p.isize * p.jsize = p.isize * p.jsize * p.nbvar := by ring
    refine (mul3_I hn' (by omega) (by omega)).trans ?_
    rw [e, if_pos h]

/-- **C95, files 3D**: as in 2D -/
theorem C95_files_3d (p : Params R) (w : p.WF) (hn : 1 ≤ p.nbvar)
    (h : p.isize * p.jsize * p.ksize * p.nbvar ≤ 2147483647) :
    nCells3I p = some (p.isize * p.jsize * p.ksize) ∧
    (∀ v : Int, 0 ≤ v → v < p.nbvar → fileOffset3I p v = some (p.isize * p.jsize * p.ksize * v)) ∧
    writeSize3I p = some (p.isize * p.jsize * p.ksize * p.nbvar) := by
  have h1 := w.gw_pos
  have h2 := w.isize_eq
  have h3 := w.jsize_eq
  have h4 := w.ksize_eq
  have h5 := w.nx_pos
  have h6 := w.ny_pos
  have h7 := w.nz_pos
  have hn' : (1 : Int) ≤ p.nbvar := by exact_mod_cast hn
  have a : 0 < p.isize * p.jsize := mul_pos (by omega) (by omega)
  have b : p.isize * p.jsize ≤ p.isize * p.jsize * p.ksize := by nlinarith
  have a1 : p.isize * p.jsize * p.ksize ≤ p.isize * p.jsize * p.ksize * p.nbvar := by nlinarith
  refine ⟨?_, fun v v0 v1 => ?_, ?_⟩
  · rw [(C95_cell_count p w).2.1, if_pos (by omega)]
  · rcases v0.eq_or_lt with rfl | v0
    · unfold fileOffset3I sizes3I
      rw [i32_some (by omega) (by omega), bind_some', i32_some (by omega) (by omega)]
      simp [i32]
    · exact sizes3I_some p w v0 v1.le h
  · have e : (p.nbvar : Int) * p.isize * p.jsize * p.ksize = p.isize * p.jsize * p.ksize * p.nbvar := by ring
    have n0 : 0 < (p.nbvar : Int) * p.isize := mul_pos (by omega) (by omega)
    have n1 : (p.nbvar : Int) * p.isize ≤ (p.nbvar : Int) * p.isize * p.jsize := by nlinarith
    have n2 : (p.nbvar : Int) * p.isize * p.jsize ≤ (p.nbvar : Int) * p.isize * p.jsize * p.ksize := by nlinarith
    unfold writeSize3I
    rw [i32_some (by omega) (by omega), bind_some', i32_some (by omega) (by omega), bind_some',
      i32_some (by omega) (by omega), e]

/-! ### Non-vacuity -/

/-- a small grid of every kind meets the hypotheses, and its report is a number -/
example : (sample .dirichlet .periodic).WF ∧ (sample .dirichlet .periodic).nbvar = 4 ∧
    KnownVersion (sample .dirichlet .periodic) ∧
    (sample .dirichlet .periodic).isize * (sample .dirichlet .periodic).jsize * 4 ≤ 2147483647 :=
  ⟨sample_wf _ _, rfl, by unfold KnownVersion; decide, by decide⟩

example (v : Int) (hv : v = 0 ∨ v = 1 ∨ v = 2) : (sampleM .dirichlet .periodic v).WF ∧
    (sampleM .dirichlet .periodic v).nbvar = 8 ∧ KnownVersion (sampleM .dirichlet .periodic v) :=
  ⟨sampleM_wf _ _ _, rfl, hv⟩

/-- there are grids of 1300 cells a side -/
example : ∃ p : Params ℝ, p.WF ∧ p.nbvar = 5 ∧ 1300 ≤ p.nx ∧ 1300 ≤ p.ny ∧ 1300 ≤ p.nz :=
  ⟨{ rawSample .periodic .periodic 2 5 with nx := 1300, ny := 1300, nz := 1300 }.init,
    Params.init_wf _ (by simp) (by simp) (by simp) (by simp [rawSample]), rfl, le_rfl, le_rfl, le_rfl⟩

end EulerKokkos
