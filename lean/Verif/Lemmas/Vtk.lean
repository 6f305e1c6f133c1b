import Verif.Spec.Vtk
import Mathlib.Tactic.Ring
import Mathlib.Tactic.IntervalCases
import Mathlib.Tactic.SplitIfs

/-!
# Lemmas on the VTK writers
-/

set_option linter.constructorNameAsVariable false
set_option linter.unusedSectionVars false
set_option linter.unusedSimpArgs false

namespace EulerKokkos

open Spec

variable {R : Type} {α β : Type}

/-! ### Lists -/

theorem drop_flatMap_uniform {f : α → List β} {L : Nat} (l : List α) (h : ∀ x ∈ l, (f x).length = L)
    (q : Nat) : (l.flatMap f).drop (q * L) = (l.drop q).flatMap f := by
  induction q generalizing l with
  | zero => simp
  | succ q ih =>
    cases l with
    | nil => simp
    | cons x l =>
      have hx : (f x).length = L := h x (by simp)
      rw [List.drop_succ_cons, ← ih l fun y hy => h y (by simp [hy]), List.flatMap_cons, Nat.succ_mul,
        Nat.add_comm, ← List.drop_drop, ← hx, List.drop_left]

theorem getElem?_flatMap_uniform {f : α → List β} {L : Nat} (l : List α)
    (h : ∀ x ∈ l, (f x).length = L) (q : Nat) {r : Nat} (hr : r < L) :
    (l.flatMap f)[q * L + r]? = l[q]?.bind fun x => (f x)[r]? := by
  rw [← List.getElem?_drop, drop_flatMap_uniform l h q]
  rcases lt_or_ge q l.length with hq | hq
  · rw [List.drop_eq_getElem_cons hq, List.flatMap_cons, List.getElem?_eq_getElem hq]
    have : (f l[q]).length = L := h _ (List.getElem_mem hq)
    rw [List.getElem?_append_left (by omega)]; rfl
  · rw [List.drop_eq_nil_of_le hq, List.getElem?_eq_none hq]; rfl

theorem length_flatMap_uniform {f : α → List β} {L : Nat} (l : List α)
    (h : ∀ x ∈ l, (f x).length = L) : (l.flatMap f).length = l.length * L := by
  induction l with
  | nil => simp
  | cons x l ih =>
    rw [List.flatMap_cons, List.length_append, ih fun y hy => h y (by simp [hy]), h x (by simp),
      List.length_cons]; ring

theorem range_mul (a b : Nat) :
    List.range (b * a) = (List.range b).flatMap fun q => (List.range a).map fun r => q * a + r := by
  induction b with
  | zero => simp
  | succ b ih =>
    rw [Nat.succ_mul, List.range_add, ih, List.range_succ, List.flatMap_append]; simp

theorem flatMap_range_if (a : Nat) {lo hi : Int} (h0 : 0 ≤ lo) (h1 : hi < a) (G : Int → List β) :
    ((List.range a).flatMap fun (q : Nat) => if lo ≤ (q : Int) ∧ (q : Int) ≤ hi then G q else [])
      = (countUp lo hi).flatMap G := by
  unfold countUp
  rcases lt_or_ge hi lo with h | h
  · rw [show (hi - lo + 1).toNat = 0 by omega]
    simp only [List.range_zero, List.map_nil, List.flatMap_nil, List.flatMap_eq_nil_iff]
    intro q _; rw [if_neg (by omega)]
  · obtain ⟨l, rfl⟩ := Int.eq_ofNat_of_zero_le h0
    obtain ⟨n, hn⟩ := Int.eq_ofNat_of_zero_le (show 0 ≤ hi - l + 1 by omega)
    obtain ⟨m, rfl⟩ : ∃ m, a = l + n + m := ⟨a - (l + n), by omega⟩
    rw [hn, List.range_add, List.range_add, List.flatMap_append, List.flatMap_append]
    have e1 : ((List.range l).flatMap fun (q : Nat) =>
        if (l : Int) ≤ (q : Int) ∧ (q : Int) ≤ hi then G q else []) = [] := by
      rw [List.flatMap_eq_nil_iff]; intro q hq; rw [List.mem_range] at hq; rw [if_neg (by omega)]
    have e3 : (((List.range m).map (l + n + ·)).flatMap fun (q : Nat) =>
        if (l : Int) ≤ (q : Int) ∧ (q : Int) ≤ hi then G q else []) = [] := by
      rw [List.flatMap_eq_nil_iff]; intro q hq
      simp only [List.mem_map, List.mem_range] at hq
      obtain ⟨_, _, rfl⟩ := hq
      rw [if_neg (by omega)]
    rw [e1, e3, List.nil_append, List.append_nil, List.flatMap_map, List.flatMap_map, Int.toNat_natCast]
    rw [List.flatMap_def, List.flatMap_def]; congr 1
    apply List.map_congr_left
    intro q hq; rw [List.mem_range] at hq
    rw [if_pos (by omega)]; norm_cast

theorem filterMap_if (l : List α) (P : α → Prop) [DecidablePred P] (g : α → β) :
    (l.filterMap fun x => if P x then some (g x) else none) =
      l.flatMap fun x => if P x then [g x] else [] := by
  rw [List.filterMap_eq_flatMap_toList, List.flatMap_def, List.flatMap_def]; congr 1
  apply List.map_congr_left; intro x _; split_ifs <;> rfl

theorem flatMap_congr {l : List α} {f g : α → List β} (h : ∀ x ∈ l, f x = g x) :
    l.flatMap f = l.flatMap g := by
  rw [List.flatMap_def, List.flatMap_def, List.map_congr_left h]

theorem getElem?_countUp {lo hi t : Int} (h0 : 0 ≤ t) (h1 : t ≤ hi - lo) :
    (countUp lo hi)[t.toNat]? = some (lo + t) := by
  unfold countUp
  rw [List.getElem?_map, List.getElem?_range (by omega)]
  simp only [Option.map_some, Option.some.injEq]; omega

theorem length_countUp (lo hi : Int) : (countUp lo hi).length = (hi - lo + 1).toNat := by
  simp [countUp]

/-! ### Numbers -/

theorem toInt32_id {n : Int} (h0 : -2147483648 ≤ n) (h1 : n < 2147483648) : toInt32 n = n := by
  unfold toInt32; omega

theorem u64_roundtrip (big : Bool) {n : Nat} (h : n < 18446744073709551616) :
    u64Value big (u64Bytes big n) = n := by
  have hl : ∀ k, (UInt8.ofNat (k % 256)).toNat = k % 256 := by
    intro k; rw [UInt8.toNat_ofNat']; omega
  have : ((List.range 8).map fun b => UInt8.ofNat (n / 256 ^ b % 256)).reverse.foldl
      (fun a (x : UInt8) => 256 * a + x.toNat) 0 = n := by
    simp only [List.range_succ, List.range_zero, List.nil_append, List.cons_append, List.map_cons,
      List.map_nil, List.reverse_cons, List.reverse_nil, List.foldl_cons, List.foldl_nil, hl]
    norm_num only
    omega
  cases big <;> simpa [u64Value, u64Bytes] using this

theorem length_u64Bytes (big : Bool) (n : Nat) : (u64Bytes big n).length = 8 := by
  cases big <;> simp [u64Bytes]

theorem varName_inj {a b : Nat} (ha : a < 8) (hb : b < 8) (h : varName a = varName b) : a = b := by
  interval_cases a <;> interval_cases b <;> first | rfl | (exfalso; revert h; decide)

/-! ### Order of the cells -/

/-- interior cells in the order of the loops, 2D -/
def cells2 (p : Params R) : List (Int × Int) :=
  (countUp (p.jmin + p.ghostWidth) (p.jmax - p.ghostWidth)).flatMap fun j =>
    (countUp (p.imin + p.ghostWidth) (p.imax - p.ghostWidth)).map fun i => (i, j)

/-- interior cells in the order of the loops, 3D -/
def cells3 (p : Params R) : List (Int × Int × Int) :=
  (countUp (p.kmin + p.ghostWidth) (p.kmax - p.ghostWidth)).flatMap fun k =>
    (cells2 p).map fun c => (c.1, c.2, k)

variable {p : Params R}

theorem wf_x (hw : p.WF) : p.imax - p.ghostWidth - (p.imin + p.ghostWidth) + 1 = p.nx := by
  rw [hw.imax_eq, hw.imin_eq]; ring
theorem wf_y (hw : p.WF) : p.jmax - p.ghostWidth - (p.jmin + p.ghostWidth) + 1 = p.ny := by
  rw [hw.jmax_eq, hw.jmin_eq]; ring
theorem wf_z (hw : p.WF) : p.kmax - p.ghostWidth - (p.kmin + p.ghostWidth) + 1 = p.nz := by
  rw [hw.kmax_eq, hw.kmin_eq]; ring

theorem length_cells2 (hw : p.WF) : (cells2 p).length = (p.nx * p.ny).toNat := by
  have hx := hw.nx_pos
  have hy := hw.ny_pos
  unfold cells2
  rw [length_flatMap_uniform (L := p.nx.toNat) _ fun j _ => by
    rw [List.length_map, length_countUp, wf_x hw], length_countUp, wf_y hw, mul_comm p.nx,
    Int.toNat_mul (by omega) (by omega)]

theorem length_cells3 (hw : p.WF) : (cells3 p).length = (p.nx * p.ny * p.nz).toNat := by
  have hx := hw.nx_pos
  have hy := hw.ny_pos
  have hz := hw.nz_pos
  unfold cells3
  rw [length_flatMap_uniform (L := (p.nx * p.ny).toNat) _ fun j _ => by
    rw [List.length_map, length_cells2 hw], length_countUp, wf_z hw, mul_comm _ p.nz,
    Int.toNat_mul (by omega) (Int.mul_nonneg (by omega) (by omega))]

theorem cells2_get (hw : p.WF) {i j : Int} (hi : 0 ≤ i ∧ i < p.nx) (hj : 0 ≤ j ∧ j < p.ny) :
    (cells2 p)[(i + p.nx * j).toNat]? = some (i + p.ghostWidth, j + p.ghostWidth) := by
  have hx := wf_x hw
  have hy := wf_y hw
  have hp := hw.nx_pos
  have e : (i + p.nx * j).toNat = j.toNat * p.nx.toNat + i.toNat := by
    have : 0 ≤ p.nx * j := Int.mul_nonneg (by omega) hj.1
    rw [← Int.toNat_mul (by omega) (by omega), mul_comm j]; omega
  unfold cells2
  rw [e, getElem?_flatMap_uniform (L := p.nx.toNat) _ (fun j _ => by
    rw [List.length_map, length_countUp, wf_x hw]) _ (by omega),
    getElem?_countUp hj.1 (by omega), Option.bind_some, List.getElem?_map,
    getElem?_countUp hi.1 (by omega), Option.map_some, hw.imin_eq, hw.jmin_eq]
  simp only [Option.some.injEq, Prod.mk.injEq]; omega

theorem cells3_get (hw : p.WF) {i j k : Int} (hi : 0 ≤ i ∧ i < p.nx) (hj : 0 ≤ j ∧ j < p.ny)
    (hk : 0 ≤ k ∧ k < p.nz) :
    (cells3 p)[(i + p.nx * (j + p.ny * k)).toNat]? =
      some (i + p.ghostWidth, j + p.ghostWidth, k + p.ghostWidth) := by
  have hz := wf_z hw
  have hp := hw.nx_pos
  have hq := hw.ny_pos
  have hxy : 0 ≤ p.nx * p.ny := Int.mul_nonneg (by omega) (by omega)
  have h1 : i + p.nx * j < p.nx * p.ny := by
    have : p.nx * j ≤ p.nx * (p.ny - 1) := Int.mul_le_mul_of_nonneg_left (by omega) (by omega)
    have e : p.nx * (p.ny - 1) = p.nx * p.ny - p.nx := by ring
    omega
  have h2 : 0 ≤ p.nx * j := Int.mul_nonneg (by omega) hj.1
  have hr : (i + p.nx * j).toNat < (p.nx * p.ny).toNat := by omega
  have e : (i + p.nx * (j + p.ny * k)).toNat =
      k.toNat * (p.nx * p.ny).toNat + (i + p.nx * j).toNat := by
    have : 0 ≤ k * (p.nx * p.ny) := Int.mul_nonneg hk.1 hxy
    rw [← Int.toNat_mul hk.1 hxy,
      show i + p.nx * (j + p.ny * k) = k * (p.nx * p.ny) + (i + p.nx * j) by ring]
    omega
  unfold cells3
  rw [e, getElem?_flatMap_uniform (L := (p.nx * p.ny).toNat) _ (fun j _ => by
    rw [List.length_map, length_cells2 hw]) k.toNat (r := (i + p.nx * j).toNat) hr,
    getElem?_countUp hk.1 (by omega), Option.bind_some, List.getElem?_map,
    cells2_get hw hi hj, Option.map_some, hw.kmin_eq, zero_add, add_comm p.ghostWidth]

theorem rawBlock2_eq [RealOps R] (M : Machine R) (U : Loc Unit → R) (v : Nat) :
    rawBlock2 M p U v = u64Bytes M.bigEndian (toUInt64 (toInt32 (p.nx * p.ny)) * M.size) ++
      (cells2 p).flatMap fun c => M.obj (U ⟨(), c.1, c.2, 0, v⟩) := by
  unfold rawBlock2 cells2
  simp only [List.flatMap_assoc, List.flatMap_map]

theorem rawBlock3_eq [RealOps R] (M : Machine R) (U : Loc Unit → R) (v : Nat) :
    rawBlock3 M p U v = u64Bytes M.bigEndian (toUInt64 (toInt32 (p.nx * p.ny * p.nz)) * M.size) ++
      (cells3 p).flatMap fun c => M.obj (U ⟨(), c.1, c.2.1, c.2.2, v⟩) := by
  unfold rawBlock3 cells3 cells2
  simp only [List.flatMap_assoc, List.flatMap_map, List.map_flatMap, List.map_map]
  rfl

/-! ### Ascii arrays -/

theorem div_row {q r a : Nat} (h : r < a) : ((q * a + r : Nat) : Int) / (a : Int) = q := by
  rw [← Int.natCast_div]; congr 1
  rw [Nat.mul_comm, Nat.mul_add_div (by omega), Nat.div_eq_of_lt h, Nat.add_zero]

theorem asciiCells2_eq [RealOps R] (hw : p.WF) (M : Machine R) (U : Loc Unit → R) (v : Nat) :
    asciiCells2 M p (p.isize * p.jsize) U v =
      (cells2 p).map fun c => M.shown (U ⟨(), c.1, c.2, 0, v⟩) := by
  have hx := hw.nx_pos
  have hy := hw.ny_pos
  have hg := hw.gw_pos
  have h1 := hw.isize_eq
  have h2 := hw.jsize_eq
  have h3 := hw.imax_eq
  have h4 := hw.jmax_eq
  have h5 := hw.imin_eq
  have h6 := hw.jmin_eq
  obtain ⟨a, ha⟩ := Int.eq_ofNat_of_zero_le (show 0 ≤ p.isize by omega)
  obtain ⟨b, hb⟩ := Int.eq_ofNat_of_zero_le (show 0 ≤ p.jsize by omega)
  unfold asciiCells2
  rw [ha, hb, show ((a : Int) * (b : Int)).toNat = b * a by
    rw [mul_comm]; norm_cast]
  simp only
  rw [filterMap_if, range_mul, List.flatMap_assoc]
  unfold cells2
  rw [List.map_flatMap, ← flatMap_range_if b (by omega) (by omega)]
  refine flatMap_congr fun q _ => ?_
  rw [List.flatMap_map]
  by_cases hq : p.jmin + p.ghostWidth ≤ (q : Int) ∧ (q : Int) ≤ p.jmax - p.ghostWidth
  · rw [if_pos hq, List.map_map, List.map_eq_flatMap,
      ← flatMap_range_if a (by omega) (by omega)]
    refine flatMap_congr fun r hr => ?_
    rw [List.mem_range] at hr
    rw [div_row hr, show ((q * a + r : Nat) : Int) - (q : Int) * (a : Int) = r by push_cast; ring]
    simp only [hq, true_and, and_true, Function.comp]
  · rw [if_neg hq, List.flatMap_eq_nil_iff]
    intro r hr
    rw [List.mem_range] at hr
    rw [div_row hr, if_neg (fun h => hq ⟨h.1, h.2.1⟩)]

theorem asciiCells3_eq [RealOps R] (hw : p.WF) (M : Machine R) (U : Loc Unit → R) (v : Nat)
    (hs : p.isize * p.jsize * p.ksize < 2147483648) :
    asciiCells3 M p U v = (cells3 p).map fun c => M.shown (U ⟨(), c.1, c.2.1, c.2.2, v⟩) := by
  have hx := hw.nx_pos
  have hy := hw.ny_pos
  have hz := hw.nz_pos
  have hg := hw.gw_pos
  have h1 := hw.isize_eq
  have h2 := hw.jsize_eq
  have h3 := hw.ksize_eq
  have h4 := hw.kmax_eq
  have h5 := hw.kmin_eq
  obtain ⟨a, ha⟩ := Int.eq_ofNat_of_zero_le (show 0 ≤ p.isize by omega)
  obtain ⟨b, hb⟩ := Int.eq_ofNat_of_zero_le (show 0 ≤ p.jsize by omega)
  obtain ⟨c, hc⟩ := Int.eq_ofNat_of_zero_le (show 0 ≤ p.ksize by omega)
  have hab : 0 ≤ p.isize * p.jsize := Int.mul_nonneg (by omega) (by omega)
  have hle : p.isize * p.jsize ≤ p.isize * p.jsize * p.ksize := by
    conv_lhs => rw [← mul_one (p.isize * p.jsize)]
    exact Int.mul_le_mul_of_nonneg_left (by omega) hab
  have e1 : toInt32 (p.isize * p.jsize) = ((b * a : Nat) : Int) := by
    rw [toInt32_id (by omega) (by omega), ha, hb, mul_comm]; norm_cast
  have e2 : toInt32 (p.isize * p.jsize * p.ksize) = ((c * (b * a) : Nat) : Int) := by
    rw [toInt32_id (by omega) (by omega), ha, hb, hc]; push_cast; ring
  unfold asciiCells3
  rw [e1, e2]
  simp only [Int.toNat_natCast]
  rw [filterMap_if, range_mul, List.flatMap_assoc]
  unfold cells3
  rw [List.map_flatMap, ← flatMap_range_if c (by omega) (by omega)]
  refine flatMap_congr fun q _ => ?_
  rw [List.flatMap_map]
  by_cases hq : p.kmin + p.ghostWidth ≤ (q : Int) ∧ (q : Int) ≤ p.kmax - p.ghostWidth
  · rw [if_pos hq, List.map_map]
    have := asciiCells2_eq hw { M with shown := fun x => M.shown x }
      (fun l => U ⟨(), l.i, l.j, q, l.v⟩) v
    unfold asciiCells2 at this
    rw [ha, hb, show ((a : Int) * (b : Int)).toNat = b * a by
      rw [mul_comm]; norm_cast] at this
    simp only at this
    rw [filterMap_if] at this
    simp only [Function.comp_def]
    rw [← this]
    refine flatMap_congr fun r hr => ?_
    rw [List.mem_range] at hr
    rw [div_row hr, show ((q * (b * a) + r : Nat) : Int) - (q : Int) * ((b * a : Nat) : Int) = r by
        push_cast; ring,
      show ((q * (b * a) + r : Nat) : Int) - (r : Int) / (p.isize : Int) * p.isize -
        (q : Int) * ((b * a : Nat) : Int) = r - (r : Int) / (a : Int) * (a : Int) by
        rw [ha]; push_cast; ring, ha]
    simp only [hq, true_and, and_true]
  · rw [if_neg hq, List.flatMap_eq_nil_iff]
    intro r hr
    rw [List.mem_range] at hr
    rw [div_row hr, if_neg (fun h => hq ⟨h.1, h.2.1⟩)]

/-! ### Reading -/

theorem find_array [RealOps R] (M : Machine R) (asc : Bool) (f : Nat → List R) (g : Nat → Nat)
    (hn : p.nbvar ≤ 8) {v : Nat} (hv : v < p.nbvar) :
    (vtkArrays M p asc f g).find? (fun a => a.name = varName v) =
      some ⟨varName v, M.double, if asc then .ascii (f v) else .appended (g v)⟩ := by
  unfold vtkArrays
  rw [List.find?_map]
  have : (List.range p.nbvar).find? ((fun a : VtkArray R => decide (a.name = varName v)) ∘
      fun iVar => ⟨varName iVar, M.double, if asc then .ascii (f iVar) else .appended (g iVar)⟩) =
      some v := by
    rw [List.find?_range_eq_some]
    refine ⟨by simp, List.mem_range.2 hv, ?_⟩
    intro k hk
    simp only [Function.comp, Bool.not_eq_true, decide_eq_false_iff_not]
    rw [Bool.not_eq_true', decide_eq_false_iff_not]
    intro h
    have := varName_inj (by omega) (by omega) h
    omega
  rw [this]; rfl

/-- reading entry `n` of variable `v` of a binary file -/
theorem readEntry_raw [RealOps R] {γ : Type} {M : Machine R} {D : Numbers R} {stored : R → R}
    (hU : Understands M D stored) {f : VtiFile R} {cells : List γ} {g : Nat → γ → R} {nb N : Nat}
    (hb : f.bigEndian = M.bigEndian)
    (hraw : f.raw = (List.range nb).flatMap fun v => u64Bytes M.bigEndian (N * M.size) ++
      cells.flatMap fun c => M.obj (g v c))
    (hN : cells.length = N) (hbig : N * M.size < 18446744073709551616) {v : Nat} (hv : v < nb)
    {n : Nat} {c : γ} (hc : cells[n]? = some c) (name : String) :
    readEntry D f ⟨name, M.double, .appended (v * N * M.size + v * 8)⟩ n = some (stored (g v c)) := by
  have hs : 0 < M.size := by unfold Machine.size; split_ifs <;> omega
  have hn : n < N := by
    rw [← hN]; exact (List.getElem?_eq_some_iff.1 hc).1
  have hlen : ∀ w, (cells.flatMap fun c => M.obj (g w c)).length = N * M.size := fun w => by
    rw [length_flatMap_uniform (L := M.size) _ fun c _ => hU.size _, hN]
  have hchunk : ∀ w ∈ List.range nb, (u64Bytes M.bigEndian (N * M.size) ++
      cells.flatMap fun c => M.obj (g w c)).length = N * M.size + 8 := fun w _ => by
    rw [List.length_append, length_u64Bytes, hlen]; ring
  have e : v * N * M.size + v * 8 = v * (N * M.size + 8) := by ring
  have hdrop : f.raw.drop (v * N * M.size + v * 8) =
      u64Bytes M.bigEndian (N * M.size) ++ ((cells.flatMap fun c => M.obj (g v c)) ++
        ((List.range nb).drop (v + 1)).flatMap fun v => u64Bytes M.bigEndian (N * M.size) ++
          cells.flatMap fun c => M.obj (g v c)) := by
    rw [hraw, e, drop_flatMap_uniform _ hchunk, List.drop_eq_getElem_cons (by simpa using hv),
      List.flatMap_cons, List.append_assoc]
    simp
  have hdrop8 : f.raw.drop (v * N * M.size + v * 8 + 8) =
      (cells.flatMap fun c => M.obj (g v c)) ++
        ((List.range nb).drop (v + 1)).flatMap fun v => u64Bytes M.bigEndian (N * M.size) ++
          cells.flatMap fun c => M.obj (g v c) := by
    rw [← List.drop_drop, hdrop, ← length_u64Bytes M.bigEndian (N * M.size), List.drop_left]
  have hle : (n + 1) * M.size ≤ N * M.size := Nat.mul_le_mul_right _ hn
  have hpos : v * N * M.size + v * 8 + 8 ≤ f.raw.length := by
    have h := congrArg List.length hdrop
    rw [List.length_drop, List.length_append, length_u64Bytes] at h
    omega
  unfold readEntry
  simp only
  rw [hdrop8, hb]
  have hsz : (if M.double = true then 8 else 4) = M.size := rfl
  rw [hsz, if_pos]
  · congr 1
    rw [← hU.number (g v c)]
    congr 1
    rw [List.drop_append_of_le_length (by rw [hlen]; exact Nat.mul_le_mul_right _ (by omega)),
      drop_flatMap_uniform (L := M.size) cells (fun c _ => hU.size _)]
    obtain ⟨h1, h2⟩ := List.getElem?_eq_some_iff.1 hc
    rw [List.drop_eq_getElem_cons h1, h2, List.flatMap_cons, List.append_assoc,
      ← hU.size (g v c), List.take_left]
  · refine ⟨hpos, ?_, ?_⟩
    · rw [hdrop, ← length_u64Bytes M.bigEndian (N * M.size), List.take_left, u64_roundtrip _ hbig]
      exact hle
    · rw [List.length_append, hlen]; omega

/-! ### Names -/

theorem ofDigits_pad (n k : Nat) :
    Nat.ofDigits 10 (Nat.digits 10 n ++ List.replicate k 0) = n := by
  rw [Nat.ofDigits_append_replicate_zero, Nat.ofDigits_digits]

/-- the characters of a padded number are digits -/
theorem zeroPad_digit {w n : Nat} {c : Char} (h : c ∈ zeroPad w n) :
    ∃ d < 10, c = Char.ofNat (48 + d) := by
  unfold zeroPad at h
  simp only [List.mem_map, List.mem_reverse, List.mem_append, List.mem_replicate] at h
  obtain ⟨d, h | h, rfl⟩ := h
  · exact ⟨d, Nat.digits_lt_base (by omega) h, rfl⟩
  · exact ⟨0, by omega, by rw [h.2]⟩

theorem digitChar_inj {a b : Nat} (ha : a < 10) (hb : b < 10)
    (h : Char.ofNat (48 + a) = Char.ofNat (48 + b)) : a = b := by
  interval_cases a <;> interval_cases b <;> first | rfl | (exfalso; revert h; decide)

theorem zeroPad_inj {w n m : Nat} (h : zeroPad w n = zeroPad w m) : n = m := by
  have key : ∀ l l' : List Nat, (∀ d ∈ l, d < 10) → (∀ d ∈ l', d < 10) →
      l.map (fun d => Char.ofNat (48 + d)) = l'.map (fun d => Char.ofNat (48 + d)) → l = l' := by
    intro l
    induction l with
    | nil => intro l' _ _ h; cases l' <;> simp_all
    | cons a l ih =>
      intro l' h1 h2 h
      cases l' with
      | nil => simp at h
      | cons b l' =>
        simp only [List.map_cons, List.cons.injEq] at h
        rw [digitChar_inj (h1 a (by simp)) (h2 b (by simp)) h.1,
          ih l' (fun d hd => h1 d (by simp [hd])) (fun d hd => h2 d (by simp [hd])) h.2]
  have hd : ∀ n : Nat, ∀ d ∈ (Nat.digits 10 n ++
      List.replicate (w - (Nat.digits 10 n).length) 0).reverse, d < 10 := by
    intro n d hd
    simp only [List.mem_reverse, List.mem_append, List.mem_replicate] at hd
    rcases hd with h | h
    · exact Nat.digits_lt_base (by omega) h
    · omega
  unfold zeroPad at h
  have e := List.reverse_injective (key _ _ (hd n) (hd m) h)
  rw [← ofDigits_pad n (w - (Nat.digits 10 n).length), e, ofDigits_pad]

/-- a list of digits followed by another character determines the digits -/
theorem digits_split {a b x y : List Char} {s : Char} (ha : s ∉ a) (hb : s ∉ b)
    (h : a ++ s :: x = b ++ s :: y) : a = b ∧ x = y := by
  induction a generalizing b with
  | nil =>
    cases b with
    | nil => simpa using h
    | cons c b => simp only [List.nil_append, List.cons_append, List.cons.injEq] at h; simp [h.1] at hb
  | cons c a ih =>
    cases b with
    | nil => simp only [List.nil_append, List.cons_append, List.cons.injEq] at h; simp [h.1] at ha
    | cons c' b =>
      simp only [List.cons_append, List.cons.injEq] at h
      simp only [List.mem_cons, not_or] at ha hb
      obtain ⟨e1, e2⟩ := ih ha.2 hb.2 h.2
      exact ⟨by rw [h.1, e1], e2⟩

theorem not_underscore {w n : Nat} : '_' ∉ zeroPad w n := fun h => by
  obtain ⟨d, hd, e⟩ := zeroPad_digit h
  interval_cases d <;> revert e <;> decide

theorem not_dot {w n : Nat} : '.' ∉ zeroPad w n := fun h => by
  obtain ⟨d, hd, e⟩ := zeroPad_digit h
  interval_cases d <;> revert e <;> decide

end EulerKokkos
