import Verif.Lemmas.Vtk
import Verif.Props.C11
import Verif.Props.C60
import Verif.Props.C13
import Verif.Props.C58
import Verif.Props.Sample

/-!
# C65 — the VTK files give back the computed state

Reading the files as the VTK format prescribes (`Spec/Vtk.lean`) returns, for every cell of the
domain and every variable, the value the solver holds there; nothing is overwritten; the pieces of a
distributed run, read through their header, give what the serial run would have written.
-/

set_option linter.constructorNameAsVariable false
set_option linter.unusedSectionVars false
set_option linter.unusedSimpArgs false

namespace EulerKokkos
open Spec

variable {R : Type} [RealOps R] {p : Params R} {M : Machine R} {D : Numbers R} {stored : R → R}

theorem size_le (M : Machine R) : M.size ≤ 8 := by unfold Machine.size; split_ifs <;> omega

theorem toUInt64_toInt32 {n : Int} (h0 : 0 ≤ n) (h1 : n < 2147483648) :
    toUInt64 (toInt32 n) = n.toNat := by
  rw [toInt32_id (by omega) h1]; unfold toUInt64; omega

theorem cellsAlong_of {a n : Int} (h : 1 ≤ n) : cellsAlong a (a + n) = n.toNat := by
  unfold cellsAlong; rw [if_neg (by omega)]; congr 1; ring

theorem cellsAlong_flat (a : Int) : cellsAlong a a = 1 := by simp [cellsAlong]

/-- offsets are below the wrap-around of `size_t` -/
theorem offset_ok (M : Machine R) {v nb : Nat} {n : Int} (h0 : 1 ≤ n) (hv : v < nb)
    (h : (nb : Int) * n < 2147483648) :
    (toUInt64 (toInt32 (v * n)) * M.size + v * 8) % 18446744073709551616 =
      v * n.toNat * M.size + v * 8 := by
  obtain ⟨m, rfl⟩ := Int.eq_ofNat_of_zero_le (show 0 ≤ n by omega)
  have h1 : v * m ≤ nb * m := Nat.mul_le_mul_right _ (by omega)
  have h2 : nb * m < 2147483648 := by exact_mod_cast h
  have h3 : nb * 1 ≤ nb * m := Nat.mul_le_mul_left _ (by omega)
  have h4 : v * m * M.size ≤ v * m * 8 := Nat.mul_le_mul_left _ (size_le M)
  rw [show ((v : Int) * (m : Int)) = ((v * m : Nat) : Int) by push_cast; ring,
    toUInt64_toInt32 (by omega) (by omega), Int.toNat_natCast, Int.toNat_natCast]
  exact Nat.mod_eq_of_lt (by omega)

/-- reading a 2D file, whatever its position -/
theorem read2 (hw : p.WF) (hU : Understands M D stored) (hn : p.nbvar ≤ 8) {asc : Bool}
    (hfit : Fits2 asc p) {f : VtiFile R} {X Y N : Int} {U : Loc Unit → R}
    (hN : asc = true → N = p.isize * p.jsize)
    (hpiece : f.piece = ⟨X, X + p.nx, Y, Y + p.ny, 0, 0⟩) (hb : f.bigEndian = M.bigEndian)
    (harr : f.arrays = vtkArrays M p asc (asciiCells2 M p N U) (offset2 M p))
    (hraw : f.raw = if asc then [] else (List.range p.nbvar).flatMap (rawBlock2 M p U))
    {v : Nat} (hv : v < p.nbvar) {i j : Int} (hi : 0 ≤ i ∧ i < p.nx) (hj : 0 ≤ j ∧ j < p.ny) :
    readCell D f (varName v) (X + i) (Y + j) 0 =
      some (written M stored asc (U ⟨(), i + p.ghostWidth, j + p.ghostWidth, 0, v⟩)) := by
  have hx := hw.nx_pos
  have hy := hw.ny_pos
  have hxy : 1 ≤ p.nx * p.ny := Int.mul_pos (by omega) (by omega)
  have hcell := cells2_get hw hi hj
  have hentry : cellEntry f.piece (X + i) (Y + j) 0 = (i + p.nx * j).toNat := by
    unfold cellEntry
    rw [hpiece]
    simp only [cellsAlong_of hx, cellsAlong_of hy]
    rw [Int.toNat_of_nonneg (by omega)]
    congr 1; ring
  unfold readCell
  rw [if_pos, harr, find_array M asc _ _ hn hv, Option.bind_some, hentry]
  · cases asc with
    | true =>
      simp only [Fits2, if_true] at hfit
      simp only [if_true, readEntry, written]
      rw [hN rfl, asciiCells2_eq hw, List.getElem?_map, hcell]; rfl
    | false =>
      simp only [Fits2, Bool.false_eq_true, if_false] at hfit
      simp only [Bool.false_eq_true, if_false, written]
      have hnxy : p.nx * p.ny < 2147483648 := by
        have : (1 : Int) * (p.nx * p.ny) ≤ p.nbvar * (p.nx * p.ny) :=
          Int.mul_le_mul_of_nonneg_right (by omega) (by omega)
        omega
      have e : offset2 M p v = v * (p.nx * p.ny).toNat * M.size + v * 8 := by
        unfold offset2; rw [mul_assoc]; exact offset_ok M hxy hv hfit
      have hs8 : (p.nx * p.ny).toNat * M.size ≤ (p.nx * p.ny).toNat * 8 :=
        Nat.mul_le_mul_left _ (size_le M)
      rw [e]
      refine readEntry_raw hU hb ?_ (length_cells2 hw) (by omega) hv hcell _
        (g := fun v c => U ⟨(), c.1, c.2, 0, v⟩)
      rw [hraw, if_neg (by simp)]
      refine flatMap_congr fun w _ => ?_
      rw [rawBlock2_eq, toUInt64_toInt32 (by omega) hnxy]
  · rw [hpiece]
    simp only [hasCell, cellsAlong_of hx, cellsAlong_of hy, cellsAlong_flat]
    omega

/-- reading a 3D file, whatever its position -/
theorem read3 (hw : p.WF) (hU : Understands M D stored) (hn : p.nbvar ≤ 8) {asc : Bool}
    (hfit : Fits3 asc p) {f : VtiFile R} {X Y Z : Int} {U : Loc Unit → R}
    (hpiece : f.piece = ⟨X, X + p.nx, Y, Y + p.ny, Z, Z + p.nz⟩) (hb : f.bigEndian = M.bigEndian)
    (harr : f.arrays = vtkArrays M p asc (asciiCells3 M p U) (offset3 M p))
    (hraw : f.raw = if asc then [] else (List.range p.nbvar).flatMap (rawBlock3 M p U))
    {v : Nat} (hv : v < p.nbvar) {i j k : Int} (hi : 0 ≤ i ∧ i < p.nx) (hj : 0 ≤ j ∧ j < p.ny)
    (hk : 0 ≤ k ∧ k < p.nz) :
    readCell D f (varName v) (X + i) (Y + j) (Z + k) =
      some (written M stored asc
        (U ⟨(), i + p.ghostWidth, j + p.ghostWidth, k + p.ghostWidth, v⟩)) := by
  have hx := hw.nx_pos
  have hy := hw.ny_pos
  have hz := hw.nz_pos
  have hxy : 1 ≤ p.nx * p.ny := Int.mul_pos (by omega) (by omega)
  have hxyz : 1 ≤ p.nx * p.ny * p.nz := Int.mul_pos (by omega) (by omega)
  have hcell := cells3_get hw hi hj hk
  have hentry : cellEntry f.piece (X + i) (Y + j) (Z + k) =
      (i + p.nx * (j + p.ny * k)).toNat := by
    unfold cellEntry
    rw [hpiece]
    simp only [cellsAlong_of hx, cellsAlong_of hy, cellsAlong_of hz]
    rw [Int.toNat_of_nonneg (by omega), Int.toNat_of_nonneg (by omega)]
    congr 1; ring
  unfold readCell
  rw [if_pos, harr, find_array M asc _ _ hn hv, Option.bind_some, hentry]
  · cases asc with
    | true =>
      simp only [Fits3, if_true] at hfit
      simp only [if_true, readEntry, written]
      rw [asciiCells3_eq hw _ _ _ hfit, List.getElem?_map, hcell]; rfl
    | false =>
      simp only [Fits3, Bool.false_eq_true, if_false] at hfit
      simp only [Bool.false_eq_true, if_false, written]
      have hnxy : p.nx * p.ny * p.nz < 2147483648 := by
        have : (1 : Int) * (p.nx * p.ny * p.nz) ≤ p.nbvar * (p.nx * p.ny * p.nz) :=
          Int.mul_le_mul_of_nonneg_right (by omega) (by omega)
        omega
      have e : offset3 M p v = v * (p.nx * p.ny * p.nz).toNat * M.size + v * 8 := by
        unfold offset3; rw [mul_assoc, mul_assoc, ← mul_assoc p.nx]; exact offset_ok M hxyz hv hfit
      have hs8 : (p.nx * p.ny * p.nz).toNat * M.size ≤ (p.nx * p.ny * p.nz).toNat * 8 :=
        Nat.mul_le_mul_left _ (size_le M)
      rw [e]
      refine readEntry_raw hU hb ?_ (length_cells3 hw) (by omega) hv hcell _
        (g := fun v c => U ⟨(), c.1, c.2.1, c.2.2, v⟩)
      rw [hraw, if_neg (by simp)]
      refine flatMap_congr fun w _ => ?_
      rw [rawBlock3_eq, toUInt64_toInt32 (by omega) hnxy]
  · rw [hpiece]
    simp only [hasCell, cellsAlong_of hx, cellsAlong_of hy, cellsAlong_of hz]
    omega

/-! ### Serial files -/

theorem nbCells_eq {asc : Bool} (hw : p.WF) (hfit : Fits2 asc p) (h : asc = true) :
    toInt32 (p.isize * p.jsize) = p.isize * p.jsize := by
  subst h
  simp only [Fits2, if_true] at hfit
  have h1 := hw.isize_eq
  have h2 := hw.jsize_eq
  have hx := hw.nx_pos
  have hy := hw.ny_pos
  have hg := hw.gw_pos
  have : 0 ≤ p.isize * p.jsize := Int.mul_nonneg (by omega) (by omega)
  exact toInt32_id (by omega) (by omega)

/-- **C65 (2D).** The file written for a state `U` gives back, for every variable and every cell
`(i,j)` of the domain, the value of the interior cell `(i+gw, j+gw)` of the solver: exactly in binary
format, with the printed digits in ascii format. -/
theorem C65_file_2d (hw : p.WF) (hU : Understands M D stored) (hn : p.nbvar ≤ 8) {asc : Bool}
    (hfit : Fits2 asc p) (U : Loc Unit → R) {v : Nat} (hv : v < p.nbvar) {i j : Int}
    (hi : 0 ≤ i ∧ i < p.nx) (hj : 0 ≤ j ∧ j < p.ny) :
    readCell D (saveVtk2 M p asc U) (varName v) i j 0 =
      some (written M stored asc (U ⟨(), i + p.ghostWidth, j + p.ghostWidth, 0, v⟩)) := by
  have := read2 hw hU hn hfit (f := saveVtk2 M p asc U) (X := 0) (Y := 0) (nbCells_eq hw hfit)
    (by simp [saveVtk2]) rfl rfl rfl hv hi hj
  simpa using this

/-- **C65 (3D).** -/
theorem C65_file_3d (hw : p.WF) (hU : Understands M D stored) (hn : p.nbvar ≤ 8) {asc : Bool}
    (hfit : Fits3 asc p) (U : Loc Unit → R) {v : Nat} (hv : v < p.nbvar) {i j k : Int}
    (hi : 0 ≤ i ∧ i < p.nx) (hj : 0 ≤ j ∧ j < p.ny) (hk : 0 ≤ k ∧ k < p.nz) :
    readCell D (saveVtk3 M p asc U) (varName v) i j k =
      some (written M stored asc
        (U ⟨(), i + p.ghostWidth, j + p.ghostWidth, k + p.ghostWidth, v⟩)) := by
  have := read3 hw hU hn hfit (f := saveVtk3 M p asc U) (X := 0) (Y := 0) (Z := 0)
    (by simp [saveVtk3]) rfl rfl rfl hv hi hj hk
  simpa using this

/-- **C65, extent.** The cells of the file are exactly the cells of the domain: ghost cells are not
visible. -/
theorem C65_extent (hw : p.WF) (M : Machine R) (asc : Bool) (U : Loc Unit → R) (i j k : Int) :
    (hasCell (saveVtk2 M p asc U).piece i j k ↔ (0 ≤ i ∧ i < p.nx) ∧ (0 ≤ j ∧ j < p.ny) ∧ k = 0) ∧
    (hasCell (saveVtk3 M p asc U).piece i j k ↔
      (0 ≤ i ∧ i < p.nx) ∧ (0 ≤ j ∧ j < p.ny) ∧ (0 ≤ k ∧ k < p.nz)) := by
  have hx := hw.nx_pos
  have hy := hw.ny_pos
  have hz := hw.nz_pos
  have ex := cellsAlong_of (a := 0) hx
  have ey := cellsAlong_of (a := 0) hy
  have ez := cellsAlong_of (a := 0) hz
  rw [zero_add] at ex ey ez
  constructor
  · simp only [hasCell, saveVtk2, ex, ey, cellsAlong_flat]; omega
  · simp only [hasCell, saveVtk3, ex, ey, ez]; omega

/-- **C65, position.** When the domain corner and the cell size have an exact short decimal form, the
centre of cell `(i,j,k)` according to the file is the point at which the solver evaluates the initial
condition of that cell. -/
theorem C65_centre (M : Machine ℝ) (p : Params ℝ) (asc : Bool) (U : Loc Unit → ℝ) (i : Int) :
    (M.shown p.xmin = p.xmin → M.shown p.dx = p.dx →
      (saveVtk2 M p asc U).origin.1 + (i + 1 / 2) * (saveVtk2 M p asc U).spacing.1 =
        cellX p (0, 0, 0) (i + p.ghostWidth) ∧
      (saveVtk3 M p asc U).origin.1 + (i + 1 / 2) * (saveVtk3 M p asc U).spacing.1 =
        cellX p (0, 0, 0) (i + p.ghostWidth)) ∧
    (M.shown p.ymin = p.ymin → M.shown p.dy = p.dy →
      (saveVtk2 M p asc U).origin.2.1 + (i + 1 / 2) * (saveVtk2 M p asc U).spacing.2.1 =
        cellY p (0, 0, 0) (i + p.ghostWidth) ∧
      (saveVtk3 M p asc U).origin.2.1 + (i + 1 / 2) * (saveVtk3 M p asc U).spacing.2.1 =
        cellY p (0, 0, 0) (i + p.ghostWidth)) ∧
    (M.shown p.zmin = p.zmin → M.shown p.dz = p.dz →
      (saveVtk3 M p asc U).origin.2.2 + (i + 1 / 2) * (saveVtk3 M p asc U).spacing.2.2 =
        cellZ p (0, 0, 0) (i + p.ghostWidth)) := by
  refine ⟨fun h1 h2 => ?_, fun h1 h2 => ?_, fun h1 h2 => ?_⟩ <;>
    simp only [saveVtk2, saveVtk3, h1, h2, cellX, cellY, cellZ, intLit] <;> norm_num <;> ring_nf

/-! ### Names -/

/-- **C65, names.** Different output numbers give different files. -/
theorem C65_names {dir pre : List Char} {n m : Nat} (h : vtiName dir pre n = vtiName dir pre m) :
    n = m := by
  unfold vtiName at h
  have h1 := List.append_cancel_left h
  simp only [List.cons.injEq, true_and] at h1
  have h2 := List.append_cancel_left h1
  simp only [List.cons.injEq, true_and] at h2
  exact zeroPad_inj (List.append_cancel_right h2)

/-- **C65, names, MPI build.** Different output numbers or ranks give different files, and no piece has
the name of a header. -/
theorem C65_names_mpi {dir pre : List Char} {n m r s : Nat} :
    (vtiNameMpi dir pre n r = vtiNameMpi dir pre m s → n = m ∧ r = s) ∧
    (pvtiName dir pre n = pvtiName dir pre m → n = m) ∧
    vtiNameMpi dir pre n r ≠ pvtiName dir pre m := by
  refine ⟨fun h => ?_, fun h => ?_, fun h => ?_⟩
  · unfold vtiNameMpi pieceName at h
    have h1 := List.append_cancel_left h
    simp only [List.cons.injEq, true_and] at h1
    have h2 := List.append_cancel_left h1
    simp only [List.cons.injEq, true_and] at h2
    obtain ⟨h3, h4⟩ := digits_split not_underscore not_underscore h2
    simp only [List.cons.injEq, true_and] at h4
    exact ⟨zeroPad_inj h3, zeroPad_inj (List.append_cancel_right h4)⟩
  · unfold pvtiName at h
    have h1 := List.append_cancel_left h
    simp only [List.cons.injEq, true_and] at h1
    have h2 := List.append_cancel_left h1
    simp only [List.cons.injEq, true_and] at h2
    exact zeroPad_inj (List.append_cancel_right h2)
  · unfold vtiNameMpi pieceName pvtiName at h
    have h1 := List.append_cancel_left h
    simp only [List.cons.injEq, true_and] at h1
    have h2 := List.append_cancel_left h1
    simp only [List.cons.injEq, true_and] at h2
    have h3 : '_' ∈ zeroPad 7 m ++ ".pvti".toList := by rw [← h2]; simp
    rcases List.mem_append.1 h3 with h4 | h4
    · exact not_underscore h4
    · revert h4; decide

/-! ### The files of a run -/

theorem disk_fold {F : Type} (name : Output R → List Char) (cont : Output R → F) :
    ∀ (os : List (Output R)) (d : Disk F), (os.map name).Nodup → ∀ o ∈ os,
      os.foldl (fun d o => d.write (name o) (cont o)) d (name o) = some (cont o) := by
  intro os
  induction os with
  | nil => intro d _ o h; cases h
  | cons a os ih =>
    intro d hd o ho
    rw [List.map_cons, List.nodup_cons] at hd
    rw [List.foldl_cons]
    rcases List.mem_cons.1 ho with rfl | ho
    · have keep : ∀ (os : List (Output R)) (d : Disk F) (n : List Char), n ∉ os.map name →
          os.foldl (fun d o => d.write (name o) (cont o)) d n = d n := by
        intro os
        induction os with
        | nil => intros; rfl
        | cons b os ih =>
          intro d n hn
          simp only [List.map_cons, List.mem_cons, not_or] at hn
          rw [List.foldl_cons, ih _ _ hn.2]
          simp [Disk.write, hn.1]
      rw [keep _ _ _ hd.1]; simp [Disk.write]
    · exact ih _ hd.2 o ho

theorem numbers_nodup {S : SolverOps R} {m : Mem Arr R} {t : R} {sv : Int} {s' : RunState R}
    (h : runMain p S m t sv s') (hsv : 0 ≤ sv) :
    (s'.outputs.map fun o => o.number.toNat).Nodup := by
  obtain ⟨h1, _, _⟩ := C16_gapless h
  have e : (s'.outputs.map fun o => o.number.toNat) =
      (List.range s'.outputs.length).map fun i => sv.toNat + i := by
    rw [show (fun o : Output R => o.number.toNat) = Int.toNat ∘ Output.number from rfl,
      ← List.map_map, h1, List.map_map]
    apply List.map_congr_left
    intro i _
    simp only [Function.comp]; omega
  rw [e]
  exact List.nodup_range.map fun a b h => by omega

/-- **C65, whole runs.** After a serial run, each state the solver saved is still on disk, in the file
carrying its number. -/
theorem C65_every_output_on_disk {S : SolverOps R} {m : Mem Arr R} {t : R} {sv : Int}
    {s' : RunState R} (h : runMain p S m t sv s') (hsv : 0 ≤ sv)
    (save : (Loc Unit → R) → VtiFile R) (dir pre : List Char) {o : Output R} (ho : o ∈ s'.outputs) :
    vtkDisk save dir pre s'.outputs (vtiName dir pre o.number.toNat) = some (save o.data) := by
  refine disk_fold (fun o => vtiName dir pre o.number.toNat) (fun o => save o.data) _ _ ?_ o ho
  have := numbers_nodup h hsv
  rw [show (fun o : Output R => vtiName dir pre o.number.toNat) =
    vtiName dir pre ∘ fun o => o.number.toNat from rfl, ← List.map_map]
  exact this.map fun a b h => C65_names h

/-! ### Distributed runs -/

theorem pieceRange_eq (c n : Int) : pieceRange c n = (c * n, c * n + n) := by
  unfold pieceRange; split_ifs with h
  · simp [h]
  · rfl

theorem forall₂_mem' {α β : Type} {P : α → β → Prop} {l : List α} {l' : List β}
    (h : List.Forall₂ P l l') {b : β} (hb : b ∈ l') : ∃ a ∈ l, P a b := by
  induction h with
  | nil => cases hb
  | cons h _ ih =>
    rcases List.mem_cons.1 hb with rfl | hb
    · exact ⟨_, by simp, h⟩
    · obtain ⟨a, h1, h2⟩ := ih hb
      exact ⟨a, by simp [h1], h2⟩

theorem forall₂_numbers {P : Output R → Output R → Prop} {l l' : List (Output R)}
    (h : List.Forall₂ P l l') (hP : ∀ a b, P a b → a.number = b.number) :
    l.map (fun o => o.number.toNat) = l'.map fun o => o.number.toNat := by
  induction h with
  | nil => rfl
  | cons a _ ih => rw [List.map_cons, List.map_cons, ih, hP _ _ a]

/-- the pieces in the header -/
theorem header_pieces2 (hd : p.dimType = .two) (M : Machine R) (T : Topo) (pre : List Char) (n : Nat) :
    (writePvtiHeader M T p pre n).pieces = (List.finRange T.size).map fun r =>
      ⟨⟨(T.coords r).1 * p.nx, (T.coords r).1 * p.nx + p.nx, (T.coords r).2.1 * p.ny,
        (T.coords r).2.1 * p.ny + p.ny, 0, 1⟩, pieceName pre n r.val⟩ := by
  simp [writePvtiHeader, pieceRange_eq, hd]

theorem header_pieces3 (hd : p.dimType = .three) (M : Machine R) (T : Topo) (pre : List Char)
    (n : Nat) :
    (writePvtiHeader M T p pre n).pieces = (List.finRange T.size).map fun r =>
      ⟨⟨(T.coords r).1 * p.nx, (T.coords r).1 * p.nx + p.nx, (T.coords r).2.1 * p.ny,
        (T.coords r).2.1 * p.ny + p.ny, (T.coords r).2.2 * p.nz, (T.coords r).2.2 * p.nz + p.nz⟩,
        pieceName pre n r.val⟩ := by
  simp [writePvtiHeader, pieceRange_eq, hd]

theorem name_mem (hv : v < p.nbvar) (M : Machine R) (T : Topo) (pre : List Char) (n : Nat) :
    varName v ∈ (writePvtiHeader M T p pre n).arrays.map Prod.fst := by
  simp only [writePvtiHeader, List.map_map, List.mem_map, List.mem_range, Function.comp]
  exact ⟨v, hv, rfl⟩

/-- **C65, distributed run (2D).** Let every rank hold the block of a global state `g` that belongs to
it (this is what the files of a distributed run are, C11, C56, C60), and let the pieces be in the
directory.  Then reading the dataset through the header written by rank 0 gives, for each cell of the
global grid and each variable, the value of the global state. -/
theorem C65_pvti_2d {T : Topo} (hw : (localParams T p).WF) (hd : p.dimType = .two)
    (hU : Understands M D stored) (hn : p.nbvar ≤ 8) {asc : Bool} (hfit : Fits2 asc (localParams T p))
    {o : T.Rank → Output R} {g : Output R}
    (hblock : ∀ r, BlockFile2 T p r (o r) g) {disk : Disk (VtiFile R)} {dir pre : List Char}
    {n : Nat} (hdisk : ∀ r : T.Rank, disk (vtiNameMpi dir pre n r.val) =
      some (saveVtk2Mpi M T (localParams T p) r asc (o r).data))
    {v : Nat} (hv : v < p.nbvar) {i j : Int} (hi : 0 ≤ i ∧ i < p.nx * T.mx)
    (hj : 0 ≤ j ∧ j < p.ny * T.my) :
    readDataset D disk dir (writePvtiHeader M T (localParams T p) pre n) (varName v) i j 0 =
      some (written M stored asc (g.data ⟨(), i + p.ghostWidth, j + p.ghostWidth, 0, v⟩)) := by
  have hx : 1 ≤ p.nx := hw.nx_pos
  have hy : 1 ≤ p.ny := hw.ny_pos
  obtain ⟨x, a, x1, x2, a1, a2, hxa⟩ := block_exists (g := 0) (m := T.mx) (a := i) hx hi.1 (by omega)
  obtain ⟨y, b, y1, y2, b1, b2, hyb⟩ := block_exists (g := 0) (m := T.my) (a := j) hy hj.1 (by omega)
  have hc := T.coords_cartRank x y 0
  rw [Int.emod_eq_of_lt x1 x2, Int.emod_eq_of_lt y1 y2] at hc
  have hpieces := header_pieces2 (p := localParams T p) hd M T pre n
  have hwhole : hasCell (writePvtiHeader M T (localParams T p) pre n).whole i j 0 := by
    have e1 := cellsAlong_of (a := 0) (n := T.mx * p.nx) (by
      have := T.hx; exact Int.mul_pos (by omega) (by omega))
    have e2 := cellsAlong_of (a := 0) (n := T.my * p.ny) (by
      have := T.hy; exact Int.mul_pos (by omega) (by omega))
    rw [zero_add] at e1 e2
    have d' : (localParams T p).dimType ≠ .three := by
      show p.dimType ≠ .three; rw [hd]; decide
    simp only [hasCell, writePvtiHeader, if_neg d', zero_mul, cellsAlong_flat,
      show (localParams T p).nx = p.nx from rfl, show (localParams T p).ny = p.ny from rfl, e1, e2]
    rw [mul_comm p.nx] at hi
    rw [mul_comm p.ny] at hj
    omega
  unfold readDataset
  rw [if_pos ⟨hwhole, name_mem (p := localParams T p) hv M T pre n⟩]
  have hsome : ((writePvtiHeader M T (localParams T p) pre n).pieces.find?
      fun pc => hasCell pc.extent i j 0).isSome := by
    rw [List.find?_isSome, hpieces]
    refine ⟨_, List.mem_map.2 ⟨T.cartRank x y 0, List.mem_finRange _, rfl⟩, ?_⟩
    rw [hc, decide_eq_true_iff]
    unfold hasCell
    simp only
    rw [cellsAlong_of (show 1 ≤ (localParams T p).nx from hx),
      cellsAlong_of (show 1 ≤ (localParams T p).ny from hy)]
    simp only [show (localParams T p).nx = p.nx from rfl, show (localParams T p).ny = p.ny from rfl]
    refine ⟨⟨by omega, by omega⟩, ⟨by omega, by omega⟩, by omega, by decide⟩
  obtain ⟨pc, hpc⟩ := Option.isSome_iff_exists.1 hsome
  rw [hpc, Option.bind_some]
  have hm := List.mem_of_find?_eq_some hpc
  have hin := List.find?_some hpc
  rw [hpieces] at hm
  obtain ⟨r, _, rfl⟩ := List.mem_map.1 hm
  rw [decide_eq_true_iff] at hin
  unfold hasCell at hin
  simp only at hin
  rw [cellsAlong_of (show 1 ≤ (localParams T p).nx from hx),
    cellsAlong_of (show 1 ≤ (localParams T p).ny from hy)] at hin
  simp only [show (localParams T p).nx = p.nx from rfl, show (localParams T p).ny = p.ny from rfl]
    at hin
  obtain ⟨⟨i1, i2⟩, ⟨j1, j2⟩, _⟩ := hin
  have hd' : disk (dir ++ '/' :: pieceName pre n r.val) =
    some (saveVtk2Mpi M T (localParams T p) r asc (o r).data) := hdisk r
  simp only
  rw [hd', Option.bind_some]
  have key := read2 hw hU hn hfit (f := saveVtk2Mpi M T (localParams T p) r asc (o r).data)
    (X := (T.coords r).1 * p.nx) (Y := (T.coords r).2.1 * p.ny) (U := (o r).data)
    (fun _ => rfl) rfl rfl rfl rfl hv (i := i - (T.coords r).1 * p.nx)
    (j := j - (T.coords r).2.1 * p.ny)
    (show _ ∧ _ < p.nx from ⟨by omega, by omega⟩) (show _ ∧ _ < p.ny from ⟨by omega, by omega⟩)
  rw [show (T.coords r).1 * p.nx + (i - (T.coords r).1 * p.nx) = i by ring,
    show (T.coords r).2.1 * p.ny + (j - (T.coords r).2.1 * p.ny) = j by ring] at key
  rw [key, (hblock r).2.2 _ _ _ ?_ hv]
  · simp only [globalCell, show (localParams T p).ghostWidth = p.ghostWidth from rfl]
    rw [show (T.coords r).1 * p.nx + (i - (T.coords r).1 * p.nx + p.ghostWidth) =
        i + p.ghostWidth by ring,
      show (T.coords r).2.1 * p.ny + (j - (T.coords r).2.1 * p.ny + p.ghostWidth) =
        j + p.ghostWidth by ring]
  · simp only [interior2, show (localParams T p).ghostWidth = p.ghostWidth from rfl,
      show (localParams T p).nx = p.nx from rfl, show (localParams T p).ny = p.ny from rfl]
    omega

/-- **C65, distributed run (3D).** -/
theorem C65_pvti_3d {T : Topo} (hw : (localParams T p).WF) (hd : p.dimType = .three)
    (hU : Understands M D stored) (hn : p.nbvar ≤ 8) {asc : Bool} (hfit : Fits3 asc (localParams T p))
    {o : T.Rank → Output R} {g : Output R}
    (hblock : ∀ r, BlockFile3 T p r (o r) g) {disk : Disk (VtiFile R)} {dir pre : List Char}
    {n : Nat} (hdisk : ∀ r : T.Rank, disk (vtiNameMpi dir pre n r.val) =
      some (saveVtk3Mpi M T (localParams T p) r asc (o r).data))
    {v : Nat} (hv : v < p.nbvar) {i j k : Int} (hi : 0 ≤ i ∧ i < p.nx * T.mx)
    (hj : 0 ≤ j ∧ j < p.ny * T.my) (hk : 0 ≤ k ∧ k < p.nz * T.mz) :
    readDataset D disk dir (writePvtiHeader M T (localParams T p) pre n) (varName v) i j k =
      some (written M stored asc
        (g.data ⟨(), i + p.ghostWidth, j + p.ghostWidth, k + p.ghostWidth, v⟩)) := by
  have hx : 1 ≤ p.nx := hw.nx_pos
  have hy : 1 ≤ p.ny := hw.ny_pos
  have hz : 1 ≤ p.nz := hw.nz_pos
  obtain ⟨x, a, x1, x2, a1, a2, hxa⟩ := block_exists (g := 0) (m := T.mx) (a := i) hx hi.1 (by omega)
  obtain ⟨y, b, y1, y2, b1, b2, hyb⟩ := block_exists (g := 0) (m := T.my) (a := j) hy hj.1 (by omega)
  obtain ⟨z, c, z1, z2, c1, c2, hzc⟩ := block_exists (g := 0) (m := T.mz) (a := k) hz hk.1 (by omega)
  have hc := T.coords_cartRank x y z
  rw [Int.emod_eq_of_lt x1 x2, Int.emod_eq_of_lt y1 y2, Int.emod_eq_of_lt z1 z2] at hc
  have hpieces := header_pieces3 (p := localParams T p) hd M T pre n
  have hwhole : hasCell (writePvtiHeader M T (localParams T p) pre n).whole i j k := by
    have e1 := cellsAlong_of (a := 0) (n := T.mx * p.nx) (by
      have := T.hx; exact Int.mul_pos (by omega) (by omega))
    have e2 := cellsAlong_of (a := 0) (n := T.my * p.ny) (by
      have := T.hy; exact Int.mul_pos (by omega) (by omega))
    have e3 := cellsAlong_of (a := 0) (n := T.mz * p.nz) (by
      have := T.hz; exact Int.mul_pos (by omega) (by omega))
    rw [zero_add] at e1 e2 e3
    have d' : (localParams T p).dimType = .three := hd
    simp only [hasCell, writePvtiHeader, if_pos d',
      show (localParams T p).nx = p.nx from rfl, show (localParams T p).ny = p.ny from rfl,
      show (localParams T p).nz = p.nz from rfl, e1, e2, e3]
    rw [mul_comm p.nx] at hi
    rw [mul_comm p.ny] at hj
    rw [mul_comm p.nz] at hk
    omega
  unfold readDataset
  rw [if_pos ⟨hwhole, name_mem (p := localParams T p) hv M T pre n⟩]
  have hsome : ((writePvtiHeader M T (localParams T p) pre n).pieces.find?
      fun pc => hasCell pc.extent i j k).isSome := by
    rw [List.find?_isSome, hpieces]
    refine ⟨_, List.mem_map.2 ⟨T.cartRank x y z, List.mem_finRange _, rfl⟩, ?_⟩
    rw [hc, decide_eq_true_iff]
    unfold hasCell
    simp only
    rw [cellsAlong_of (show 1 ≤ (localParams T p).nx from hx),
      cellsAlong_of (show 1 ≤ (localParams T p).ny from hy),
      cellsAlong_of (show 1 ≤ (localParams T p).nz from hz)]
    simp only [show (localParams T p).nx = p.nx from rfl, show (localParams T p).ny = p.ny from rfl,
      show (localParams T p).nz = p.nz from rfl]
    refine ⟨⟨by omega, by omega⟩, ⟨by omega, by omega⟩, by omega, by omega⟩
  obtain ⟨pc, hpc⟩ := Option.isSome_iff_exists.1 hsome
  rw [hpc, Option.bind_some]
  have hm := List.mem_of_find?_eq_some hpc
  have hin := List.find?_some hpc
  rw [hpieces] at hm
  obtain ⟨r, _, rfl⟩ := List.mem_map.1 hm
  rw [decide_eq_true_iff] at hin
  unfold hasCell at hin
  simp only at hin
  rw [cellsAlong_of (show 1 ≤ (localParams T p).nx from hx),
    cellsAlong_of (show 1 ≤ (localParams T p).ny from hy),
    cellsAlong_of (show 1 ≤ (localParams T p).nz from hz)] at hin
  simp only [show (localParams T p).nx = p.nx from rfl, show (localParams T p).ny = p.ny from rfl,
    show (localParams T p).nz = p.nz from rfl] at hin
  obtain ⟨⟨i1, i2⟩, ⟨j1, j2⟩, k1, k2⟩ := hin
  have hd' : disk (dir ++ '/' :: pieceName pre n r.val) =
    some (saveVtk3Mpi M T (localParams T p) r asc (o r).data) := hdisk r
  simp only
  rw [hd', Option.bind_some]
  have key := read3 hw hU hn hfit (f := saveVtk3Mpi M T (localParams T p) r asc (o r).data)
    (X := (T.coords r).1 * p.nx) (Y := (T.coords r).2.1 * p.ny) (Z := (T.coords r).2.2 * p.nz)
    (U := (o r).data) rfl rfl rfl rfl hv (i := i - (T.coords r).1 * p.nx)
    (j := j - (T.coords r).2.1 * p.ny) (k := k - (T.coords r).2.2 * p.nz)
    (show _ ∧ _ < p.nx from ⟨by omega, by omega⟩) (show _ ∧ _ < p.ny from ⟨by omega, by omega⟩)
    (show _ ∧ _ < p.nz from ⟨by omega, by omega⟩)
  rw [show (T.coords r).1 * p.nx + (i - (T.coords r).1 * p.nx) = i by ring,
    show (T.coords r).2.1 * p.ny + (j - (T.coords r).2.1 * p.ny) = j by ring,
    show (T.coords r).2.2 * p.nz + (k - (T.coords r).2.2 * p.nz) = k by ring] at key
  rw [key, (hblock r).2.2 _ _ _ _ ?_ hv]
  · simp only [globalCell, show (localParams T p).ghostWidth = p.ghostWidth from rfl]
    rw [show (T.coords r).1 * p.nx + (i - (T.coords r).1 * p.nx + p.ghostWidth) =
        i + p.ghostWidth by ring,
      show (T.coords r).2.1 * p.ny + (j - (T.coords r).2.1 * p.ny + p.ghostWidth) =
        j + p.ghostWidth by ring,
      show (T.coords r).2.2 * p.nz + (k - (T.coords r).2.2 * p.nz + p.ghostWidth) =
        k + p.ghostWidth by ring]
  · simp only [interior3, show (localParams T p).ghostWidth = p.ghostWidth from rfl,
      show (localParams T p).nx = p.nx from rfl, show (localParams T p).ny = p.ny from rfl,
      show (localParams T p).nz = p.nz from rfl]
    omega

/-- **C65, distributed = serial (2D).** Same reading as the file of the serial run on the global
grid. -/
theorem C65_pvti_serial_2d {T : Topo} (hw : (localParams T p).WF) (hd : p.dimType = .two)
    (hU : Understands M D stored) (hn : p.nbvar ≤ 8) {asc : Bool} (hfit : Fits2 asc (localParams T p))
    (hfit' : Fits2 asc (globalParams T p)) {o : T.Rank → Output R} {g : Output R}
    (hblock : ∀ r, BlockFile2 T p r (o r) g) {disk : Disk (VtiFile R)} {dir pre : List Char}
    {n : Nat} (hdisk : ∀ r : T.Rank, disk (vtiNameMpi dir pre n r.val) =
      some (saveVtk2Mpi M T (localParams T p) r asc (o r).data))
    {v : Nat} (hv : v < p.nbvar) {i j : Int} (hi : 0 ≤ i ∧ i < p.nx * T.mx)
    (hj : 0 ≤ j ∧ j < p.ny * T.my) :
    readDataset D disk dir (writePvtiHeader M T (localParams T p) pre n) (varName v) i j 0 =
      readCell D (saveVtk2 M (globalParams T p) asc g.data) (varName v) i j 0 := by
  rw [C65_pvti_2d hw hd hU hn hfit hblock hdisk hv hi hj]
  exact (C65_file_2d (globalParams_wf hw T) hU hn hfit' g.data hv (i := i) (j := j) hi hj).symm

/-- **C65, distributed = serial (3D).** -/
theorem C65_pvti_serial_3d {T : Topo} (hw : (localParams T p).WF) (hd : p.dimType = .three)
    (hU : Understands M D stored) (hn : p.nbvar ≤ 8) {asc : Bool} (hfit : Fits3 asc (localParams T p))
    (hfit' : Fits3 asc (globalParams T p)) {o : T.Rank → Output R} {g : Output R}
    (hblock : ∀ r, BlockFile3 T p r (o r) g) {disk : Disk (VtiFile R)} {dir pre : List Char}
    {n : Nat} (hdisk : ∀ r : T.Rank, disk (vtiNameMpi dir pre n r.val) =
      some (saveVtk3Mpi M T (localParams T p) r asc (o r).data))
    {v : Nat} (hv : v < p.nbvar) {i j k : Int} (hi : 0 ≤ i ∧ i < p.nx * T.mx)
    (hj : 0 ≤ j ∧ j < p.ny * T.my) (hk : 0 ≤ k ∧ k < p.nz * T.mz) :
    readDataset D disk dir (writePvtiHeader M T (localParams T p) pre n) (varName v) i j k =
      readCell D (saveVtk3 M (globalParams T p) asc g.data) (varName v) i j k := by
  rw [C65_pvti_3d hw hd hU hn hfit hblock hdisk hv hi hj hk]
  exact (C65_file_3d (globalParams_wf hw T) hU hn hfit' g.data hv (i := i) (j := j) (k := k)
    hi hj hk).symm

/-- **C65, whole distributed runs (2D).** The files of the ranks match the files of the serial run
(conclusion of C11, C56, C60).  Whatever the order in which the ranks write into their common
directory, for each file of the serial run the dataset with the same number reads as that file. -/
theorem C65_run_2d {T : Topo} (hw : (localParams T p).WF) (hd : p.dimType = .two)
    (hU : Understands M D stored) (hn : p.nbvar ≤ 8) {asc : Bool} (hfit : Fits2 asc (localParams T p))
    (hfit' : Fits2 asc (globalParams T p)) {S : SolverOps R} {m : Mem Arr R} {t : R} {sv : Int}
    {s' : RunState R} (h : runMain (globalParams T p) S m t sv s') (hsv : 0 ≤ sv)
    {os : T.Rank → List (Output R)} (hos : ∀ r, List.Forall₂ (BlockFile2 T p r) (os r) s'.outputs)
    {disk : Disk (VtiFile R)} {dir pre : List Char}
    (hdisk : Shared disk fun r : T.Rank =>
      vtkDiskMpi (saveVtk2Mpi M T (localParams T p) r asc) dir pre r.val (os r))
    {o : Output R} (ho : o ∈ s'.outputs) {v : Nat} (hv : v < p.nbvar) {i j : Int}
    (hi : 0 ≤ i ∧ i < p.nx * T.mx) (hj : 0 ≤ j ∧ j < p.ny * T.my) :
    readDataset D disk dir (writePvtiHeader M T (localParams T p) pre o.number.toNat) (varName v) i j 0
      = readCell D (saveVtk2 M (globalParams T p) asc o.data) (varName v) i j 0 := by
  have hnd := numbers_nodup h hsv
  have hr : ∀ r, ∃ q ∈ os r, BlockFile2 T p r q o := fun r => by
    exact forall₂_mem' (hos r) ho
  choose q hq1 hq2 using hr
  refine C65_pvti_serial_2d hw hd hU hn hfit hfit' hq2 (fun r => ?_) hv hi hj
  refine hdisk r _ _ ?_
  rw [← (hq2 r).1]
  refine disk_fold (fun o => vtiNameMpi dir pre o.number.toNat r.val)
    (fun o => saveVtk2Mpi M T (localParams T p) r asc o.data) _ _ ?_ _ (hq1 r)
  have e : (os r).map (fun o => o.number.toNat) = s'.outputs.map fun o => o.number.toNat :=
    forall₂_numbers (hos r) fun _ _ h => h.1
  rw [← e] at hnd
  rw [show (fun o : Output R => vtiNameMpi dir pre o.number.toNat r.val) =
    (fun n => vtiNameMpi dir pre n r.val) ∘ fun o => o.number.toNat from rfl, ← List.map_map]
  exact hnd.map fun a b h => (C65_names_mpi.1 h).1

/-- **C65, whole distributed runs (3D).** -/
theorem C65_run_3d {T : Topo} (hw : (localParams T p).WF) (hd : p.dimType = .three)
    (hU : Understands M D stored) (hn : p.nbvar ≤ 8) {asc : Bool} (hfit : Fits3 asc (localParams T p))
    (hfit' : Fits3 asc (globalParams T p)) {S : SolverOps R} {m : Mem Arr R} {t : R} {sv : Int}
    {s' : RunState R} (h : runMain (globalParams T p) S m t sv s') (hsv : 0 ≤ sv)
    {os : T.Rank → List (Output R)} (hos : ∀ r, List.Forall₂ (BlockFile3 T p r) (os r) s'.outputs)
    {disk : Disk (VtiFile R)} {dir pre : List Char}
    (hdisk : Shared disk fun r : T.Rank =>
      vtkDiskMpi (saveVtk3Mpi M T (localParams T p) r asc) dir pre r.val (os r))
    {o : Output R} (ho : o ∈ s'.outputs) {v : Nat} (hv : v < p.nbvar) {i j k : Int}
    (hi : 0 ≤ i ∧ i < p.nx * T.mx) (hj : 0 ≤ j ∧ j < p.ny * T.my) (hk : 0 ≤ k ∧ k < p.nz * T.mz) :
    readDataset D disk dir (writePvtiHeader M T (localParams T p) pre o.number.toNat) (varName v) i j k
      = readCell D (saveVtk3 M (globalParams T p) asc o.data) (varName v) i j k := by
  have hnd := numbers_nodup h hsv
  have hr : ∀ r, ∃ q ∈ os r, BlockFile3 T p r q o := fun r => by
    exact forall₂_mem' (hos r) ho
  choose q hq1 hq2 using hr
  refine C65_pvti_serial_3d hw hd hU hn hfit hfit' hq2 (fun r => ?_) hv hi hj hk
  refine hdisk r _ _ ?_
  rw [← (hq2 r).1]
  refine disk_fold (fun o => vtiNameMpi dir pre o.number.toNat r.val)
    (fun o => saveVtk3Mpi M T (localParams T p) r asc o.data) _ _ ?_ _ (hq1 r)
  have e : (os r).map (fun o => o.number.toNat) = s'.outputs.map fun o => o.number.toNat :=
    forall₂_numbers (hos r) fun _ _ h => h.1
  rw [← e] at hnd
  rw [show (fun o : Output R => vtiNameMpi dir pre o.number.toNat r.val) =
    (fun n => vtiNameMpi dir pre n r.val) ∘ fun o => o.number.toNat from rfl, ← List.map_map]
  exact hnd.map fun a b h => (C65_names_mpi.1 h).1

/-! ### The ranks share a directory -/

theorem disk_fold_name {F : Type} (name : Output R → List Char) (cont : Output R → F) {n : List Char}
    {f : F} : ∀ (os : List (Output R)) (d : Disk F),
      os.foldl (fun d o => d.write (name o) (cont o)) d n = some f → d n = some f ∨ ∃ o ∈ os, n = name o := by
  intro os
  induction os with
  | nil => intro d h; exact Or.inl h
  | cons a os ih =>
    intro d h
    rcases ih _ h with h | ⟨o, h1, h2⟩
    · unfold Disk.write at h
      beta_reduce at h
      split_ifs at h with h3
      · exact Or.inr ⟨a, by simp, h3⟩
      · exact Or.inl h
    · exact Or.inr ⟨o, by simp [h1], h2⟩

/-- **C65, no collision.** Two different ranks never write a file of the same name, however many
outputs each of them writes. -/
theorem C65_no_collision {dir pre : List Char} {r s : Nat} {os os' : List (Output R)}
    {save save' : (Loc Unit → R) → VtiFile R} {name : List Char} {f f' : VtiFile R}
    (h : vtkDiskMpi save dir pre r os name = some f)
    (h' : vtkDiskMpi save' dir pre s os' name = some f') : r = s := by
  rcases disk_fold_name (fun o => vtiNameMpi dir pre o.number.toNat r) (fun o => save o.data) os _ h
    with h | ⟨o, _, h⟩
  · cases h
  rcases disk_fold_name (fun o => vtiNameMpi dir pre o.number.toNat s) (fun o => save' o.data) os' _ h'
    with h' | ⟨o', _, h'⟩
  · cases h'
  exact (C65_names_mpi.1 (h.symm.trans h')).2

/-- so a common directory holding the files of all the ranks exists -/
theorem shared_exists {N : Nat} (dir pre : List Char) (save : Fin N → (Loc Unit → R) → VtiFile R)
    (os : Fin N → List (Output R)) :
    ∃ disk, Shared disk fun r => vtkDiskMpi (save r) dir pre r.val (os r) := by
  classical
  refine ⟨fun name => if h : ∃ r f, vtkDiskMpi (save r) dir pre r.val (os r) name = some f then
    some h.choose_spec.choose else none, fun r name f h => ?_⟩
  have hex : ∃ r f, vtkDiskMpi (save r) dir pre r.val (os r) name = some f := ⟨r, f, h⟩
  beta_reduce
  rw [dif_pos hex]
  have h2 := hex.choose_spec.choose_spec
  have : hex.choose = r := Fin.ext (C65_no_collision h2 h)
  rw [← h2, this]; exact h

/-! ### Where it goes wrong -/

theorem vtkArrays_mem_none {M : Machine R} {D : Numbers R} {f : VtiFile R} {v : Nat} {n : Nat}
    {off : Nat} (h : f.raw.length < off + 8) :
    readEntry D f ⟨varName v, M.double, .appended off⟩ n = none := by
  unfold readEntry
  simp only
  rw [if_neg (by omega)]

/-- **C65, large 3D grids.** The offset of variable `v` is computed from the `int` product
`v*nx*ny*nz`.  When this product reaches `2^31` (here: it is at most `2^32 - 16`, and one block is
below `2^31` values), the announced offset lies far beyond the end of the file, and the variable cannot be
read at any cell — for example `rho_vx`, `rho_vy` and `rho_vz` of a hydro run on `1024^3` cells. -/
theorem C65_large_grid_3d (hw : p.WF) (hU : Understands M D stored) (hn : p.nbvar ≤ 8)
    (hN : p.nx * p.ny * p.nz < 2147483648) {v : Nat} (hv : v < p.nbvar)
    (h1 : 2147483648 ≤ (v : Int) * (p.nx * p.ny * p.nz))
    (h2 : (v : Int) * (p.nx * p.ny * p.nz) ≤ 4294967280) (U : Loc Unit → R) (i j k : Int) :
    readCell D (saveVtk3 M p false U) (varName v) i j k = none := by
  have hx := hw.nx_pos
  have hy := hw.ny_pos
  have hz := hw.nz_pos
  have hxyz : 1 ≤ p.nx * p.ny * p.nz := Int.mul_pos (Int.mul_pos (by omega) (by omega)) (by omega)
  have hs := size_le M
  have hs4 : 4 ≤ M.size := by unfold Machine.size; split_ifs <;> omega
  unfold readCell
  split_ifs
  swap
  · rfl
  rw [show (saveVtk3 M p false U).arrays = vtkArrays M p false (asciiCells3 M p U) (offset3 M p)
    from rfl, find_array M false _ _ hn hv, Option.bind_some]
  apply vtkArrays_mem_none (M := M)
  have hlen : (saveVtk3 M p false U).raw.length = p.nbvar * ((p.nx * p.ny * p.nz).toNat * M.size + 8) := by
    show ((List.range p.nbvar).flatMap (rawBlock3 M p U)).length = _
    rw [length_flatMap_uniform (L := (p.nx * p.ny * p.nz).toNat * M.size + 8), List.length_range]
    intro w _
    rw [rawBlock3_eq, List.length_append, length_u64Bytes,
      length_flatMap_uniform (L := M.size) _ fun c _ => hU.size _, length_cells3 hw]
    ring
  rw [hlen]
  have hm1 : (p.nx * p.ny * p.nz).toNat * M.size ≤ 2147483648 * 8 :=
    Nat.mul_le_mul (by omega) hs
  have hm2 : p.nbvar * ((p.nx * p.ny * p.nz).toNat * M.size + 8) ≤ 8 * (2147483648 * 8 + 8) :=
    Nat.mul_le_mul hn (by omega)
  have e : offset3 M p v = 18446744073709551616 -
      (4294967296 - (v * (p.nx * p.ny * p.nz)).toNat) * M.size + v * 8 := by
    unfold offset3
    rw [show (v : Int) * p.nx * p.ny * p.nz = v * (p.nx * p.ny * p.nz) by ring]
    generalize (v : Int) * (p.nx * p.ny * p.nz) = q at h1 h2
    have e1 : toUInt64 (toInt32 q) = 18446744073709551616 - (4294967296 - q.toNat) := by
      unfold toUInt64 toInt32; omega
    rw [e1]
    have : 4294967296 - q.toNat ≤ 2147483648 := by omega
    have : 16 ≤ 4294967296 - q.toNat := by omega
    generalize 4294967296 - q.toNat = d at *
    have : d * M.size ≤ 2147483648 * 8 := Nat.mul_le_mul (by omega) hs
    have : d * 4 ≤ d * M.size := Nat.mul_le_mul_left _ hs4
    have hv8 : v < 8 := by omega
    unfold Machine.size at *
    split_ifs at * <;> omega
  have hd : (4294967296 - (v * (p.nx * p.ny * p.nz)).toNat) * M.size ≤ 2147483648 * 8 :=
    Nat.mul_le_mul (by omega) hs
  rw [e]
  omega

/-- **C65, 2D headers.** The z range the 2D header announces for its pieces differs from the range in
the pieces themselves and from its own whole extent: `0 1` against `0 0`. -/
theorem C65_header_mismatch_2d (T : Topo) (hd : p.dimType = .two) (M : Machine R) (asc : Bool)
    (U : Loc Unit → R) (pre : List Char) (n : Nat) (r : T.Rank) :
    (writePvtiHeader M T p pre n).whole.z1 = 0 ∧ (saveVtk2Mpi M T p r asc U).piece.z1 = 0 ∧
    ∀ pc ∈ (writePvtiHeader M T p pre n).pieces, pc.extent.z1 = 1 := by
  refine ⟨by simp [writePvtiHeader, hd], rfl, fun pc h => ?_⟩
  rw [header_pieces2 hd] at h
  obtain ⟨r, _, rfl⟩ := List.mem_map.1 h
  rfl

/-! ### The hypotheses can be met -/

/-- a number format that keeps the integer part of a real number, on a little-endian machine -/
noncomputable def toyMachine : Machine ℝ where
  bigEndian := false
  double := true
  obj := fun x => u64Bytes false (⌊x⌋₊ % 18446744073709551616)
  shown := id

theorem toy_understands : Understands toyMachine (fun _ big b => (u64Value big b : ℝ))
    (fun x => ((⌊x⌋₊ % 18446744073709551616 : Nat) : ℝ)) where
  size := fun x => by simp [toyMachine, Machine.size, length_u64Bytes]
  number := fun x => by
    show ((u64Value false (u64Bytes false _) : Nat) : ℝ) = _
    rw [u64_roundtrip _ (Nat.mod_lt _ (by norm_num))]

theorem sample_fits (a b : BC) (asc : Bool) : Fits2 asc (sample a b) ∧ Fits3 asc (sample a b) := by
  cases asc <;> simp [Fits2, Fits3, sample, rawSample, Params.init]

/-- the state `U(i,j,k,v) = 1000 i + 10 j + v`, read from its 2D file at cell `(1,2)` -/
example (a b : BC) : readCell (fun _ big b => (u64Value big b : ℝ))
    (saveVtk2 toyMachine (sample a b) false fun l => 1000 * l.i + 10 * l.j + l.v) "rho_vx" 1 2 0 =
      some 3042 := by
  have := C65_file_2d (sample_wf a b) toy_understands (by simp [sample, rawSample, Params.init])
    (sample_fits a b false).1 (fun l => 1000 * l.i + 10 * l.j + l.v) (v := 2)
    (by simp [sample, rawSample, Params.init]) (i := 1) (j := 2)
    (by simp [sample, rawSample, Params.init]) (by simp [sample, rawSample, Params.init])
  refine this.trans ?_
  simp only [written, Bool.false_eq_true, if_false, sample, rawSample, Params.init]
  norm_num

/-- six ranks (3 × 2) and the serial MHD run on the 12 × 6 grid: the files of the ranks, whatever else
is in their directory, read as the serial files -/
example (G : Mem Arr ℝ) (jk : JunkM ℝ) (dir pre : List Char) :
    let p := sampleM .dirichlet .periodic 1
    ∃ s', runMain (globalParams topo321 p) (mhdOps2 (globalParams topo321 p) (-1) jk) G 0 0 s' ∧
      2 ≤ s'.outputs.length ∧
      ∃ disk : Disk (VtiFile ℝ), ∀ o ∈ s'.outputs, ∀ v < 8, ∀ i j : Int, 0 ≤ i ∧ i < 12 →
        0 ≤ j ∧ j < 6 →
        readDataset (fun _ big b => (u64Value big b : ℝ)) disk dir
            (writePvtiHeader toyMachine topo321 (localParams topo321 p) pre o.number.toNat)
            (varName v) i j 0 =
          readCell (fun _ big b => (u64Value big b : ℝ))
            (saveVtk2 toyMachine (globalParams topo321 p) false o.data) (varName v) i j 0 := by
  intro p
  have hp : Mhd2 (localParams topo321 p) := sampleM_local2 .dirichlet
  have hwide : Wide2 (localParams topo321 p) := by
    unfold Wide2
    simp [p, localParams, setupMpi, sampleM, sampleMHD, rawSample, Params.init]
  have hgw := mhd2_global hp hwide
  have hlog : p.nlog ≠ 0 := by simp [p, sampleM, sampleMHD, rawSample, Params.init]
  obtain ⟨s', hs'⟩ : ∃ s', runMain (globalParams topo321 p)
      (mhdOps2 (globalParams topo321 p) (-1) jk) G 0 0 s' := by
    have hT := total_mhd2 hgw.wf hgw.faces (-1) jk
    obtain ⟨s, hs⟩ := C14_starts (p := globalParams topo321 p) hT G 0 0
    obtain ⟨_, s', _, _, h⟩ := C14_completes hT (show (globalParams topo321 p).nlog ≠ 0 from hlog) hs
    exact ⟨_, h⟩
  let os : topo321.Rank → List (Output ℝ) := fun r => s'.outputs.map fun g =>
    { g with data := fun l => g.data ⟨(), (globalCell topo321 p r l.i l.j 0).1,
        (globalCell topo321 p r l.i l.j 0).2.1, 0, l.v⟩ }
  have hos : ∀ r, List.Forall₂ (BlockFile2 topo321 p r) (os r) s'.outputs := by
    intro r
    show List.Forall₂ _ (s'.outputs.map _) s'.outputs
    generalize s'.outputs = l
    induction l with
    | nil => exact .nil
    | cons g l ih => exact .cons ⟨rfl, rfl, fun i j v _ _ => rfl⟩ ih
  obtain ⟨disk, hdisk⟩ := shared_exists dir pre
    (fun r => saveVtk2Mpi toyMachine topo321 (localParams topo321 p) r false) os
  refine ⟨s', hs', (C16_first_last hs' ?_).1, disk, fun o ho v hv i j hi hj => ?_⟩
  · simp [p, globalParams, sampleM, sampleMHD, rawSample, Params.init]
  · refine C65_run_2d hp.wf (by simp [p, sampleM, sampleMHD, rawSample, Params.init]) toy_understands
      (by simp [p, sampleM, sampleMHD, rawSample, Params.init]) ?_ ?_ hs' le_rfl hos hdisk ho
      (by simpa [p, sampleM, sampleMHD, rawSample, Params.init] using hv) ?_ ?_
    · simp [Fits2, p, localParams, setupMpi, sampleM, sampleMHD, rawSample, Params.init]
    · simp [Fits2, p, globalParams, topo321, sampleM, sampleMHD, rawSample, Params.init]
    · simpa [p, topo321, sampleM, sampleMHD, rawSample, Params.init] using hi
    · simpa [p, topo321, sampleM, sampleMHD, rawSample, Params.init] using hj

/-- a hydro run on `1024^3` cells: the momentum cannot be read -/
example (U : Loc Unit → ℝ) (i j k : Int) :
    readCell (fun _ big b => (u64Value big b : ℝ)) (saveVtk3 toyMachine
      ({ rawSample .periodic .periodic 2 5 with nx := 1024, ny := 1024, nz := 1024 } : Params ℝ).init
      false U) "rho_vx" i j k = none := by
  refine C65_large_grid_3d (v := 2) (Params.init_wf _ (by simp) (by simp) (by simp)
    (by simp [rawSample])) toy_understands ?_ ?_ ?_ ?_ ?_ U i j k <;>
  simp [rawSample, Params.init]

end EulerKokkos
