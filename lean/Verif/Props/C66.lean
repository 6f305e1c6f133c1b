import Verif.Lemmas.Hdf5
import Verif.Spec.Hdf5
import Verif.Props.C11

/-!
# C66: HDF5 files — dump, reload, repartition
-/

set_option linter.constructorNameAsVariable false
set_option linter.unusedSectionVars false
set_option linter.unusedSimpArgs false

namespace EulerKokkos
open Spec H5

variable {R : Type} [RealOps R] {p : Params R}

theorem mem_h5Fields (hn : UsualFields p) {v : Nat} : v ∈ h5Fields p ↔ v < p.nbvar := by
  unfold UsualFields at hn
  rw [hn]
  unfold h5Fields
  cases hm : p.mhdEnabled <;> cases hd : p.dimType <;>
    simp [hm, hd, ID, IP, IU, IV, IW, IA, IB, IC] <;> omega

/-- `HydroParams::setup` gives the usual fields whatever the solver name -/
theorem C66_config_fields (zero : R) (F : FloatLib R) (c : Ini.Reader) :
    UsualFields (rawParams zero F c) := by
  have e1 : (rawParams zero F c).nbvar =
    (solverShape (cfgString c "run" "solver_name" "unknown")).1 := rfl
  have e2 : (rawParams zero F c).mhdEnabled =
    (solverShape (cfgString c "run" "solver_name" "unknown")).2.2 := rfl
  have e3 : (rawParams zero F c).dimType = getDim c := rfl
  unfold UsualFields
  rw [e1, e2, e3]
  unfold getDim
  dsimp only
  generalize cfgString c "run" "solver_name" "unknown" = s
  unfold solverShape
  split_ifs <;> simp_all

/-! ### Serial files -/

/-- **The file of a 2D run stores the interior of the saved view**, with the number and the time,
for both memory layouts. -/
theorem C66_file_2d (lay : Layout) (hw : p.WF) (hd : p.dimType = .two) (hn : UsualFields p)
    {U : Loc Unit → R} {n : Int} {t : R} {f : H5File R} (h : saveH5 lay {} p U n t f) :
    f.step = n ∧ f.time = t ∧ Stores2 f p.nbvar p.nx p.ny fun i j v =>
      U ⟨(), i + p.ghostWidth, j + p.ghostWidth, 0, v⟩ := by
  obtain ⟨h1, h2, h3⟩ := h
  refine ⟨h1, h2, fun v hv => ?_⟩
  obtain ⟨d, junk, hf, hwr⟩ := h3 v ((mem_h5Fields hn).2 hv)
  have a1 := hw.nx_pos; have a2 := hw.ny_pos; have a3 := hw.gw_pos
  have a4 := hw.isize_eq; have a5 := hw.jsize_eq
  simp only [memDims, memSlab, logical, hd, wholeSpace, List.map, saveBuffer, Bool.false_eq_true,
    if_false] at hwr
  refine ⟨d, hf, hwr.1, fun i j hi hj => ?_⟩
  refine h5written2 (by omega) (by omega) (fun _ => le_refl _) (fun _ => le_refl _) (by omega)
    (by omega) (by omega) (by omega) (fun _ => by omega) (fun _ => by omega) hwr
    ⟨(), by omega, by omega⟩ (fun _ _ _ => ?_)
  rw [saveBuffer2_get lay U hv junk (by omega) (by omega)]
  congr 2 <;> omega

/-- the same in 3D -/
theorem C66_file_3d (lay : Layout) (hw : p.WF) (hd : p.dimType = .three) (hn : UsualFields p)
    {U : Loc Unit → R} {n : Int} {t : R} {f : H5File R} (h : saveH5 lay {} p U n t f) :
    f.step = n ∧ f.time = t ∧ Stores3 f p.nbvar p.nx p.ny p.nz fun i j k v =>
      U ⟨(), i + p.ghostWidth, j + p.ghostWidth, k + p.ghostWidth, v⟩ := by
  obtain ⟨h1, h2, h3⟩ := h
  refine ⟨h1, h2, fun v hv => ?_⟩
  obtain ⟨d, junk, hf, hwr⟩ := h3 v ((mem_h5Fields hn).2 hv)
  have a1 := hw.nx_pos; have a2 := hw.ny_pos; have a3 := hw.gw_pos; have a6 := hw.nz_pos
  have a4 := hw.isize_eq; have a5 := hw.jsize_eq; have a7 := hw.ksize_eq
  simp only [memDims, memSlab, logical, hd, wholeSpace, List.map, saveBuffer, Bool.false_eq_true,
    if_false] at hwr
  refine ⟨d, hf, hwr.1, fun i j k hi hj hk => ?_⟩
  refine h5written3 (by omega) (by omega) (by omega) (fun _ => le_refl _) (fun _ => le_refl _)
    (fun _ => le_refl _) (by omega) (by omega) (by omega) (by omega) (by omega) (by omega)
    (fun _ => by omega) (fun _ => by omega) (fun _ => by omega) hwr
    ⟨(), by omega, by omega, by omega⟩ (fun _ _ _ _ => ?_)
  rw [saveBuffer3_get lay U hv junk (by omega) (by omega) (by omega)]
  congr 2 <;> omega

/-- with `ghostIncluded` the file stores the whole view, ghost cells included (2D) -/
theorem C66_file_ghosts_2d (lay : Layout) (hw : p.WF) (hd : p.dimType = .two) (hn : UsualFields p)
    {o : H5Options} (ho : o.ghostIncluded = true) {U : Loc Unit → R} {n : Int} {t : R}
    {f : H5File R} (h : saveH5 lay o p U n t f) :
    f.step = n ∧ f.time = t ∧
      Stores2 f p.nbvar (p.nx + 2 * p.ghostWidth) (p.ny + 2 * p.ghostWidth) fun i j v =>
        U ⟨(), i, j, 0, v⟩ := by
  obtain ⟨h1, h2, h3⟩ := h
  refine ⟨h1, h2, fun v hv => ?_⟩
  obtain ⟨d, junk, hf, hwr⟩ := h3 v ((mem_h5Fields hn).2 hv)
  have a1 := hw.nx_pos; have a2 := hw.ny_pos; have a3 := hw.gw_pos
  have a4 := hw.isize_eq; have a5 := hw.jsize_eq
  simp only [memDims, memSlab, logical, hd, wholeSpace, List.map, saveBuffer, ho, if_true] at hwr
  refine ⟨d, hf, hwr.1, fun i j hi hj => ?_⟩
  refine h5written2 (by omega) (by omega) (fun _ => le_refl _) (fun _ => le_refl _) (by omega)
    (by omega) (by omega) (by omega) (fun _ => by omega) (fun _ => by omega) hwr
    ⟨(), by omega, by omega⟩ (fun _ _ _ => ?_)
  rw [saveBuffer2_get lay U hv junk (by omega) (by omega)]
  congr 2 <;> omega

/-- with `ghostIncluded` the file stores the whole view, ghost cells included (3D) -/
theorem C66_file_ghosts_3d (lay : Layout) (hw : p.WF) (hd : p.dimType = .three) (hn : UsualFields p)
    {o : H5Options} (ho : o.ghostIncluded = true) {U : Loc Unit → R} {n : Int} {t : R}
    {f : H5File R} (h : saveH5 lay o p U n t f) :
    f.step = n ∧ f.time = t ∧ Stores3 f p.nbvar (p.nx + 2 * p.ghostWidth)
      (p.ny + 2 * p.ghostWidth) (p.nz + 2 * p.ghostWidth) fun i j k v => U ⟨(), i, j, k, v⟩ := by
  obtain ⟨h1, h2, h3⟩ := h
  refine ⟨h1, h2, fun v hv => ?_⟩
  obtain ⟨d, junk, hf, hwr⟩ := h3 v ((mem_h5Fields hn).2 hv)
  have a1 := hw.nx_pos; have a2 := hw.ny_pos; have a3 := hw.gw_pos; have a6 := hw.nz_pos
  have a4 := hw.isize_eq; have a5 := hw.jsize_eq; have a7 := hw.ksize_eq
  simp only [memDims, memSlab, logical, hd, wholeSpace, List.map, saveBuffer, ho, if_true] at hwr
  refine ⟨d, hf, hwr.1, fun i j k hi hj hk => ?_⟩
  refine h5written3 (by omega) (by omega) (by omega) (fun _ => le_refl _) (fun _ => le_refl _)
    (fun _ => le_refl _) (by omega) (by omega) (by omega) (by omega) (by omega) (by omega)
    (fun _ => by omega) (fun _ => by omega) (fun _ => by omega) hwr
    ⟨(), by omega, by omega, by omega⟩ (fun _ _ _ _ => ?_)
  rw [saveBuffer3_get lay U hv junk (by omega) (by omega) (by omega)]
  congr 2 <;> omega

/-! ### Reading -/

/-- the fields read through one window, 2D: cells of the window take the values of the file -/
theorem readFields_window2 {lay : Layout} {o : H5Options} (hw : p.WF) (hd : p.dimType = .two)
    (hn : UsualFields p) (hup : o.restartUpscale = false) {a b m n e g F H : Int}
    (ha : 0 ≤ a) (hb : 0 ≤ b) (he : 0 ≤ e) (hg : 0 ≤ g) (hm : 0 ≤ m) (hnn : 0 ≤ n)
    (h1 : a + m ≤ p.ny + 2 * p.ghostWidth) (h2 : b + n ≤ p.nx + 2 * p.ghostWidth)
    (h3 : e + m ≤ F) (h4 : g + n ≤ H)
    {f : H5File R} {G : Int → Int → Nat → R} (hf : Stores2 f p.nbvar H F G)
    {host U : Loc Unit → R}
    (h : readFields lay o p [p.ny + 2 * p.ghostWidth, p.nx + 2 * p.ghostWidth] ⟨[a, b], [m, n]⟩ [F, H]
      ⟨[e, g], [m, n]⟩ f (h5Fields p) host U) {i j : Int} (hi : b ≤ i ∧ i < b + n)
    (hj : a ≤ j ∧ j < a + m) {v : Nat} (hv : v < p.nbvar) :
    U ⟨(), i, j, 0, v⟩ = G (g + (i - b)) (e + (j - a)) v := by
  have a4 := hw.isize_eq; have a5 := hw.jsize_eq
  have key := readFields_get (i := i) (j := j) (k := 0) (nb := p.nbvar)
    (g := fun v => G (g + (i - b)) (e + (j - a)) v) (h5Fields p) ?_ h v hv
  · rw [key, if_pos ((mem_h5Fields hn).2 hv)]
  · rintro w hw' h0 h0' ⟨before, data, rfl, hr⟩ u hu
    have hw1 := (mem_h5Fields hn).1 hw'
    obtain ⟨d, hd1, hd2, hd3⟩ := hf w hw1
    rw [hd1] at hr
    simp only [loadBuffer, hd, hup, Bool.false_eq_true, if_false]
    rw [loadBuffer2_get lay data hw1 hu h0 (by omega) (by omega)]
    have hb' := h5read2 ha hb he hg hm hnn h1 h2 h3 h4 hd2 hr hi hj
    rw [← a4] at hb'
    by_cases huw : u = w
    · rw [if_pos huw, if_pos huw, hb', huw, hd3 _ _ (by omega) (by omega)]
    · rw [if_neg huw, if_neg huw]

/-- the fields read through one window, 3D -/
theorem readFields_window3 {lay : Layout} {o : H5Options} (hw : p.WF) (hd : p.dimType = .three)
    (hn : UsualFields p) (hup : o.restartUpscale = false) {a b c l m n e g q E F H : Int}
    (ha : 0 ≤ a) (hb : 0 ≤ b) (hc : 0 ≤ c) (he : 0 ≤ e) (hg : 0 ≤ g) (hq : 0 ≤ q) (hl : 0 ≤ l)
    (hm : 0 ≤ m) (hnn : 0 ≤ n) (h0 : a + l ≤ p.nz + 2 * p.ghostWidth)
    (h1 : b + m ≤ p.ny + 2 * p.ghostWidth) (h2 : c + n ≤ p.nx + 2 * p.ghostWidth)
    (h3 : e + l ≤ E) (h4 : g + m ≤ F) (h5 : q + n ≤ H)
    {f : H5File R} {G : Int → Int → Int → Nat → R} (hf : Stores3 f p.nbvar H F E G)
    {host U : Loc Unit → R}
    (h : readFields lay o p
      [p.nz + 2 * p.ghostWidth, p.ny + 2 * p.ghostWidth, p.nx + 2 * p.ghostWidth]
      ⟨[a, b, c], [l, m, n]⟩ [E, F, H] ⟨[e, g, q], [l, m, n]⟩ f (h5Fields p) host U)
    {i j k : Int} (hi : c ≤ i ∧ i < c + n) (hj : b ≤ j ∧ j < b + m) (hk : a ≤ k ∧ k < a + l)
    {v : Nat} (hv : v < p.nbvar) :
    U ⟨(), i, j, k, v⟩ = G (q + (i - c)) (g + (j - b)) (e + (k - a)) v := by
  have a4 := hw.isize_eq; have a5 := hw.jsize_eq; have a7 := hw.ksize_eq
  have key := readFields_get (i := i) (j := j) (k := k) (nb := p.nbvar)
    (g := fun v => G (q + (i - c)) (g + (j - b)) (e + (k - a)) v) (h5Fields p) ?_ h v hv
  · rw [key, if_pos ((mem_h5Fields hn).2 hv)]
  · rintro w hw' h0 h0' ⟨before, data, rfl, hr⟩ u hu
    have hw1 := (mem_h5Fields hn).1 hw'
    obtain ⟨d, hd1, hd2, hd3⟩ := hf w hw1
    rw [hd1] at hr
    simp only [loadBuffer, hd, hup, Bool.false_eq_true, if_false]
    rw [loadBuffer3_get lay data hw1 hu h0 (by omega) (by omega) (by omega)]
    have hb' := h5read3 ha hb hc he hg hq hl hm hnn (by omega) h1 h2 h3 h4 h5 hd2 hr hi hj hk
    rw [← a4, ← a5] at hb'
    by_cases huw : u = w
    · rw [if_pos huw, if_pos huw, hb', huw, hd3 _ _ _ (by omega) (by omega) (by omega)]
    · rw [if_neg huw, if_neg huw]

/-- **A serial 2D run that loads a file of a field has the field in its interior cells.** -/
theorem C66_load_2d {lay : Layout} (hw : p.WF) (hd : p.dimType = .two) (hn : UsualFields p)
    {f : H5File R} {G : Int → Int → Nat → R} (hf : Stores2 f p.nbvar p.nx p.ny G)
    {host U : Loc Unit → R} (h : loadH5 lay {} p f host U) {i j : Int} (hij : interior2 p i j)
    {v : Nat} (hv : v < p.nbvar) :
    U ⟨(), i, j, 0, v⟩ = G (i - p.ghostWidth) (j - p.ghostWidth) v := by
  have a1 := hw.nx_pos; have a2 := hw.ny_pos; have a3 := hw.gw_pos
  obtain ⟨b1, b2, b3, b4⟩ := hij
  simp only [loadH5, readSizes, logical, hd, memSlab, wholeSpace, List.map, Bool.false_eq_true,
    if_false] at h
  rw [readFields_window2 hw hd hn rfl (by omega) (by omega) (by omega) (by omega) (by omega)
    (by omega) (by omega) (by omega) (by omega) (by omega) hf h (by omega) (by omega) hv,
    Int.zero_add, Int.zero_add]

/-- the same in 3D -/
theorem C66_load_3d {lay : Layout} (hw : p.WF) (hd : p.dimType = .three) (hn : UsualFields p)
    {f : H5File R} {G : Int → Int → Int → Nat → R} (hf : Stores3 f p.nbvar p.nx p.ny p.nz G)
    {host U : Loc Unit → R} (h : loadH5 lay {} p f host U) {i j k : Int} (hij : interior3 p i j k)
    {v : Nat} (hv : v < p.nbvar) :
    U ⟨(), i, j, k, v⟩ = G (i - p.ghostWidth) (j - p.ghostWidth) (k - p.ghostWidth) v := by
  have a1 := hw.nx_pos; have a2 := hw.ny_pos; have a3 := hw.gw_pos; have a6 := hw.nz_pos
  obtain ⟨⟨b1, b2⟩, ⟨b3, b4⟩, b5, b6⟩ := hij
  simp only [loadH5, readSizes, logical, hd, memSlab, wholeSpace, List.map, Bool.false_eq_true,
    if_false] at h
  rw [readFields_window3 hw hd hn rfl (by omega) (by omega) (by omega) (by omega) (by omega)
    (by omega) (by omega) (by omega) (by omega) (by omega) (by omega) (by omega) (by omega)
    (by omega) (by omega) hf h (by omega) (by omega) (by omega) hv,
    Int.zero_add, Int.zero_add, Int.zero_add]

/-- with `ghostIncluded` every cell is loaded (2D) -/
theorem C66_load_ghosts_2d {lay : Layout} (hw : p.WF) (hd : p.dimType = .two) (hn : UsualFields p)
    {o : H5Options} (ho : o.ghostIncluded = true) (hup : o.restartUpscale = false)
    {f : H5File R} {G : Int → Int → Nat → R}
    (hf : Stores2 f p.nbvar (p.nx + 2 * p.ghostWidth) (p.ny + 2 * p.ghostWidth) G)
    {host U : Loc Unit → R} (h : loadH5 lay o p f host U) {i j : Int} (hij : inGrid2 p i j)
    {v : Nat} (hv : v < p.nbvar) : U ⟨(), i, j, 0, v⟩ = G i j v := by
  have a1 := hw.nx_pos; have a2 := hw.ny_pos; have a3 := hw.gw_pos
  obtain ⟨b1, b2, b3, b4⟩ := hij
  simp only [loadH5, readSizes, logical, hd, memSlab, wholeSpace, List.map, hup, ho, if_true,
    Bool.false_eq_true, if_false] at h
  rw [readFields_window2 hw hd hn hup (by omega) (by omega) (by omega) (by omega) (by omega)
    (by omega) (by omega) (by omega) (by omega) (by omega) hf h (by omega) (by omega) hv]
  simp

/-- with `ghostIncluded` every cell is loaded (3D) -/
theorem C66_load_ghosts_3d {lay : Layout} (hw : p.WF) (hd : p.dimType = .three) (hn : UsualFields p)
    {o : H5Options} (ho : o.ghostIncluded = true) (hup : o.restartUpscale = false)
    {f : H5File R} {G : Int → Int → Int → Nat → R}
    (hf : Stores3 f p.nbvar (p.nx + 2 * p.ghostWidth) (p.ny + 2 * p.ghostWidth)
      (p.nz + 2 * p.ghostWidth) G)
    {host U : Loc Unit → R} (h : loadH5 lay o p f host U) {i j k : Int} (hij : inGrid3 p i j k)
    {v : Nat} (hv : v < p.nbvar) : U ⟨(), i, j, k, v⟩ = G i j k v := by
  have a1 := hw.nx_pos; have a2 := hw.ny_pos; have a3 := hw.gw_pos; have a6 := hw.nz_pos
  obtain ⟨⟨b1, b2⟩, ⟨b3, b4⟩, b5, b6⟩ := hij
  simp only [loadH5, readSizes, logical, hd, memSlab, wholeSpace, List.map, hup, ho, if_true,
    Bool.false_eq_true, if_false] at h
  rw [readFields_window3 hw hd hn hup (by omega) (by omega) (by omega) (by omega) (by omega)
    (by omega) (by omega) (by omega) (by omega) (by omega) (by omega) (by omega) (by omega)
    (by omega) (by omega) hf h (by omega) (by omega) (by omega) hv]
  simp

/-- **Saving and loading restores every interior cell**, whatever the host array and the buffers
held (2D, serial) -/
theorem C66_roundtrip_2d {lay lay' : Layout} (hw : p.WF) (hd : p.dimType = .two) (hn : UsualFields p)
    {U U' host : Loc Unit → R} {n : Int} {t : R} {f : H5File R} (hs : saveH5 lay {} p U n t f)
    (hl : loadH5 lay' {} p f host U') {i j : Int} (hij : interior2 p i j) {v : Nat}
    (hv : v < p.nbvar) : U' ⟨(), i, j, 0, v⟩ = U ⟨(), i, j, 0, v⟩ := by
  rw [C66_load_2d hw hd hn (C66_file_2d lay hw hd hn hs).2.2 hl hij hv]
  simp

/-- the same in 3D -/
theorem C66_roundtrip_3d {lay lay' : Layout} (hw : p.WF) (hd : p.dimType = .three)
    (hn : UsualFields p) {U U' host : Loc Unit → R} {n : Int} {t : R} {f : H5File R}
    (hs : saveH5 lay {} p U n t f) (hl : loadH5 lay' {} p f host U') {i j k : Int}
    (hij : interior3 p i j k) {v : Nat} (hv : v < p.nbvar) :
    U' ⟨(), i, j, k, v⟩ = U ⟨(), i, j, k, v⟩ := by
  rw [C66_load_3d hw hd hn (C66_file_3d lay hw hd hn hs).2.2 hl hij hv]
  simp

/-! ### Files written and read by several processes -/

theorem piece_le {c m n : Int} (hc : c < m) (hn : 0 ≤ n) : c * n + n ≤ n * m := by
  have : n * (c + 1) ≤ n * m := Int.mul_le_mul_of_nonneg_left (by omega) hn
  rw [Int.mul_add, Int.mul_comm n c] at this
  omega

theorem piece_nonneg {c n : Int} (hc : 0 ≤ c) (hn : 0 ≤ n) : 0 ≤ c * n := Int.mul_nonneg hc hn

/-- **The file written together by all processes stores the global field**, for any shape of the
process grid, memory layout and timing of the writes, if every process holds its block (2D). -/
theorem C66_file_mpi_2d (lay : Layout) (T : Topo) (hw : p.WF) (hd : p.dimType = .two)
    (hn : UsualFields p) {U : T.Rank → Loc Unit → R} {G : Int → Int → Nat → R}
    (hU : ∀ r i j v, (0 ≤ i ∧ i < p.nx) → (0 ≤ j ∧ j < p.ny) → v < p.nbvar →
      U r ⟨(), i + p.ghostWidth, j + p.ghostWidth, 0, v⟩ =
        G ((T.coords r).1 * p.nx + i) ((T.coords r).2.1 * p.ny + j) v)
    {n : Int} {t : R} {f : H5File R} (h : saveH5Mpi lay {} T p U n t f) :
    f.step = n ∧ f.time = t ∧ Stores2 f p.nbvar (p.nx * T.mx) (p.ny * T.my) G := by
  obtain ⟨h1, h2, h3⟩ := h
  refine ⟨h1, h2, fun v hv => ?_⟩
  obtain ⟨d, junk, hf, hwr⟩ := h3 v ((mem_h5Fields hn).2 hv)
  have a1 := hw.nx_pos; have a2 := hw.ny_pos; have a3 := hw.gw_pos
  have a4 := hw.isize_eq; have a5 := hw.jsize_eq
  simp only [memDims, memSlab, logical, hd, saveBuffer, fileDims, fileSlab, chunk, pieces, coordsOf,
    Bool.false_eq_true, if_false, if_true, Bool.or_self, List.map, List.zipWith] at hwr
  refine ⟨d, hf, hwr.1, fun i j hi hj => ?_⟩
  have cr := fun r => T.coords_range r
  refine h5written2 (by omega) (by omega) (fun r => piece_nonneg (cr r).2.1.1 (by omega))
    (fun r => piece_nonneg (cr r).1.1 (by omega)) (by omega) (by omega) (by omega) (by omega)
    (fun r => piece_le (cr r).2.1.2 (by omega)) (fun r => piece_le (cr r).1.2 (by omega)) hwr ?_ ?_
  · obtain ⟨x, a, x1, x2, a1, a2, hxa⟩ := block_exists (g := 0) (m := T.mx) (a := i)
      (by omega : 1 ≤ p.nx) hi.1 (by omega)
    obtain ⟨y, b, y1, y2, b1, b2, hyb⟩ := block_exists (g := 0) (m := T.my) (a := j)
      (by omega : 1 ≤ p.ny) hj.1 (by omega)
    have hc := T.coords_cartRank x y 0
    rw [Int.emod_eq_of_lt x1 x2, Int.emod_eq_of_lt y1 y2] at hc
    exact ⟨T.cartRank x y 0, by rw [hc]; dsimp only; omega, by rw [hc]; dsimp only; omega⟩
  · intro r hr1 hr2
    rw [saveBuffer2_get lay (U r) hv (junk r) (by omega) (by omega)]
    have e := hU r (i - (T.coords r).1 * p.nx) (j - (T.coords r).2.1 * p.ny) v (by omega) (by omega) hv
    rw [Int.add_comm p.ghostWidth, Int.add_comm p.ghostWidth, e]
    congr 1 <;> omega

/-- the same in 3D -/
theorem C66_file_mpi_3d (lay : Layout) (T : Topo) (hw : p.WF) (hd : p.dimType = .three)
    (hn : UsualFields p) {U : T.Rank → Loc Unit → R} {G : Int → Int → Int → Nat → R}
    (hU : ∀ r i j k v, (0 ≤ i ∧ i < p.nx) → (0 ≤ j ∧ j < p.ny) → (0 ≤ k ∧ k < p.nz) → v < p.nbvar →
      U r ⟨(), i + p.ghostWidth, j + p.ghostWidth, k + p.ghostWidth, v⟩ =
        G ((T.coords r).1 * p.nx + i) ((T.coords r).2.1 * p.ny + j) ((T.coords r).2.2 * p.nz + k) v)
    {n : Int} {t : R} {f : H5File R} (h : saveH5Mpi lay {} T p U n t f) :
    f.step = n ∧ f.time = t ∧
      Stores3 f p.nbvar (p.nx * T.mx) (p.ny * T.my) (p.nz * T.mz) G := by
  obtain ⟨h1, h2, h3⟩ := h
  refine ⟨h1, h2, fun v hv => ?_⟩
  obtain ⟨d, junk, hf, hwr⟩ := h3 v ((mem_h5Fields hn).2 hv)
  have a1 := hw.nx_pos; have a2 := hw.ny_pos; have a3 := hw.gw_pos; have a6 := hw.nz_pos
  have a4 := hw.isize_eq; have a5 := hw.jsize_eq; have a7 := hw.ksize_eq
  simp only [memDims, memSlab, logical, hd, saveBuffer, fileDims, fileSlab, chunk, pieces, coordsOf,
    Bool.false_eq_true, if_false, if_true, Bool.or_self, List.map, List.zipWith] at hwr
  refine ⟨d, hf, hwr.1, fun i j k hi hj hk => ?_⟩
  have cr := fun r => T.coords_range r
  refine h5written3 (by omega) (by omega) (by omega) (fun r => piece_nonneg (cr r).2.2.1 (by omega))
    (fun r => piece_nonneg (cr r).2.1.1 (by omega)) (fun r => piece_nonneg (cr r).1.1 (by omega))
    (by omega) (by omega) (by omega) (by omega) (by omega) (by omega)
    (fun r => piece_le (cr r).2.2.2 (by omega))
    (fun r => piece_le (cr r).2.1.2 (by omega)) (fun r => piece_le (cr r).1.2 (by omega)) hwr ?_ ?_
  · obtain ⟨x, a, x1, x2, a1, a2, hxa⟩ := block_exists (g := 0) (m := T.mx) (a := i)
      (by omega : 1 ≤ p.nx) hi.1 (by omega)
    obtain ⟨y, b, y1, y2, b1, b2, hyb⟩ := block_exists (g := 0) (m := T.my) (a := j)
      (by omega : 1 ≤ p.ny) hj.1 (by omega)
    obtain ⟨z, c, z1, z2, c1, c2, hzc⟩ := block_exists (g := 0) (m := T.mz) (a := k)
      (by omega : 1 ≤ p.nz) hk.1 (by omega)
    have hc := T.coords_cartRank x y z
    rw [Int.emod_eq_of_lt x1 x2, Int.emod_eq_of_lt y1 y2, Int.emod_eq_of_lt z1 z2] at hc
    exact ⟨T.cartRank x y z, by rw [hc]; dsimp only; omega, by rw [hc]; dsimp only; omega, by rw [hc]; dsimp only; omega⟩
  · intro r hr1 hr2 hr3
    rw [saveBuffer3_get lay (U r) hv (junk r) (by omega) (by omega) (by omega)]
    have e := hU r (i - (T.coords r).1 * p.nx) (j - (T.coords r).2.1 * p.ny)
      (k - (T.coords r).2.2 * p.nz) v (by omega) (by omega) (by omega) hv
    rw [Int.add_comm p.ghostWidth, Int.add_comm p.ghostWidth, Int.add_comm p.ghostWidth, e]
    congr 1 <;> omega

/-- **Every process that loads a file of the global field has its block of it** (2D) -/
theorem C66_load_mpi_2d {lay : Layout} (T : Topo) (hw : p.WF) (hd : p.dimType = .two)
    (hn : UsualFields p) {f : H5File R} {G : Int → Int → Nat → R}
    (hf : Stores2 f p.nbvar (p.nx * T.mx) (p.ny * T.my) G) (r : T.Rank) {host U : Loc Unit → R}
    (h : loadH5Mpi lay {} T p r f host U) {i j : Int} (hij : interior2 p i j) {v : Nat}
    (hv : v < p.nbvar) :
    U ⟨(), i, j, 0, v⟩ = G ((T.coords r).1 * p.nx + (i - p.ghostWidth))
      ((T.coords r).2.1 * p.ny + (j - p.ghostWidth)) v := by
  have a1 := hw.nx_pos; have a2 := hw.ny_pos; have a3 := hw.gw_pos
  obtain ⟨b1, b2, b3, b4⟩ := hij
  obtain ⟨c1, c2, -⟩ := T.coords_range r
  simp only [loadH5Mpi, readSizes, logical, hd, memSlab, fileDims, fileSlab, chunk, pieces, coordsOf,
    List.map, List.zipWith, Bool.false_eq_true, if_false, Bool.or_self] at h
  exact readFields_window2 hw hd hn rfl (by omega) (by omega) (piece_nonneg c2.1 (by omega))
    (piece_nonneg c1.1 (by omega)) (by omega) (by omega) (by omega) (by omega)
    (piece_le c2.2 (by omega)) (piece_le c1.2 (by omega)) hf h (by omega) (by omega) hv

/-- the same in 3D -/
theorem C66_load_mpi_3d {lay : Layout} (T : Topo) (hw : p.WF) (hd : p.dimType = .three)
    (hn : UsualFields p) {f : H5File R} {G : Int → Int → Int → Nat → R}
    (hf : Stores3 f p.nbvar (p.nx * T.mx) (p.ny * T.my) (p.nz * T.mz) G) (r : T.Rank)
    {host U : Loc Unit → R} (h : loadH5Mpi lay {} T p r f host U) {i j k : Int}
    (hij : interior3 p i j k) {v : Nat} (hv : v < p.nbvar) :
    U ⟨(), i, j, k, v⟩ = G ((T.coords r).1 * p.nx + (i - p.ghostWidth))
      ((T.coords r).2.1 * p.ny + (j - p.ghostWidth)) ((T.coords r).2.2 * p.nz + (k - p.ghostWidth)) v := by
  have a1 := hw.nx_pos; have a2 := hw.ny_pos; have a3 := hw.gw_pos; have a6 := hw.nz_pos
  obtain ⟨⟨b1, b2⟩, ⟨b3, b4⟩, b5, b6⟩ := hij
  obtain ⟨c1, c2, c3⟩ := T.coords_range r
  simp only [loadH5Mpi, readSizes, logical, hd, memSlab, fileDims, fileSlab, chunk, pieces, coordsOf,
    List.map, List.zipWith, Bool.false_eq_true, if_false, Bool.or_self] at h
  exact readFields_window3 hw hd hn rfl (by omega) (by omega) (by omega)
    (piece_nonneg c3.1 (by omega)) (piece_nonneg c2.1 (by omega))
    (piece_nonneg c1.1 (by omega)) (by omega) (by omega) (by omega) (by omega) (by omega) (by omega)
    (piece_le c3.2 (by omega)) (piece_le c2.2 (by omega)) (piece_le c1.2 (by omega)) hf h
    (by omega) (by omega) (by omega) hv

/-- **The file of a distributed run can be continued on another number of processes.**  A file
written by the process grid `T` (each process holding its block of the serial output `g`) and loaded
by the process grid `T'`, of the same global size, gives every process its block of `g` (2D). -/
theorem C66_repartition_2d {lay lay' : Layout} {T T' : Topo} {p p' : Params R}
    (hw : (localParams T p).WF) (hw' : (localParams T' p').WF) (hd : p.dimType = .two)
    (hd' : p'.dimType = .two) (hn : UsualFields p) (hn' : UsualFields p')
    (hsame : p'.nbvar = p.nbvar ∧ p'.ghostWidth = p.ghostWidth ∧ p'.nx * T'.mx = p.nx * T.mx ∧
      p'.ny * T'.my = p.ny * T.my)
    {o : T.Rank → Output R} {g : Output R} (hblock : ∀ r, BlockFile2 T p r (o r) g)
    {f : H5File R} (hs : saveH5Mpi lay {} T (localParams T p) (fun r => (o r).data) g.number g.time f)
    (r : T'.Rank) {host U : Loc Unit → R} (hl : loadH5Mpi lay' {} T' (localParams T' p') r f host U) :
    BlockFile2 T' p' r ⟨f.step, f.time, g.iteration, U⟩ g := by
  obtain ⟨s1, s2, s3, s4⟩ := hsame
  have hsave := C66_file_mpi_2d lay T hw hd hn
    (G := fun i j v => g.data ⟨(), i + p.ghostWidth, j + p.ghostWidth, 0, v⟩) ?_ hs
  · refine ⟨hsave.1, hsave.2.1, fun i j v hij hv => ?_⟩
    have hst := hsave.2.2
    rw [show (localParams T p).nx = p.nx from rfl, show (localParams T p).ny = p.ny from rfl,
      show (localParams T p).nbvar = p.nbvar from rfl, ← s3, ← s4, ← s1] at hst
    have hld := C66_load_mpi_2d T' hw' hd' hn' hst r hl hij hv
    simp only [show (localParams T' p').nx = p'.nx from rfl,
      show (localParams T' p').ny = p'.ny from rfl,
      show (localParams T' p').ghostWidth = p'.ghostWidth from rfl] at hld
    refine hld.trans ?_
    rw [s2]
    simp only [globalCell]
    congr 2 <;> omega
  · intro r i j v hi hj hv
    have e := (hblock r).2.2 (i + p.ghostWidth) (j + p.ghostWidth) v
      ⟨by show p.ghostWidth ≤ _; omega, by show _ < p.ghostWidth + p.nx; simp only [show (localParams T p).nx = p.nx from rfl] at hi; omega,
        by show p.ghostWidth ≤ _; omega, by show _ < p.ghostWidth + p.ny; simp only [show (localParams T p).ny = p.ny from rfl] at hj; omega⟩ hv
    refine e.trans ?_
    simp only [globalCell, show (localParams T p).nx = p.nx from rfl,
      show (localParams T p).ny = p.ny from rfl]
    congr 2 <;> ring

/-- the same in 3D -/
theorem C66_repartition_3d {lay lay' : Layout} {T T' : Topo} {p p' : Params R}
    (hw : (localParams T p).WF) (hw' : (localParams T' p').WF) (hd : p.dimType = .three)
    (hd' : p'.dimType = .three) (hn : UsualFields p) (hn' : UsualFields p')
    (hsame : p'.nbvar = p.nbvar ∧ p'.ghostWidth = p.ghostWidth ∧ p'.nx * T'.mx = p.nx * T.mx ∧
      p'.ny * T'.my = p.ny * T.my ∧ p'.nz * T'.mz = p.nz * T.mz)
    {o : T.Rank → Output R} {g : Output R} (hblock : ∀ r, BlockFile3 T p r (o r) g)
    {f : H5File R} (hs : saveH5Mpi lay {} T (localParams T p) (fun r => (o r).data) g.number g.time f)
    (r : T'.Rank) {host U : Loc Unit → R} (hl : loadH5Mpi lay' {} T' (localParams T' p') r f host U) :
    BlockFile3 T' p' r ⟨f.step, f.time, g.iteration, U⟩ g := by
  obtain ⟨s1, s2, s3, s4, s5⟩ := hsame
  have l1 : (localParams T p).nx = p.nx := rfl
  have l2 : (localParams T p).ny = p.ny := rfl
  have l3 : (localParams T p).nz = p.nz := rfl
  have l4 : (localParams T p).ghostWidth = p.ghostWidth := rfl
  have hsave := C66_file_mpi_3d lay T hw hd hn
    (G := fun i j k v => g.data ⟨(), i + p.ghostWidth, j + p.ghostWidth, k + p.ghostWidth, v⟩) ?_ hs
  · refine ⟨hsave.1, hsave.2.1, fun i j k v hij hv => ?_⟩
    have hst := hsave.2.2
    rw [l1, l2, l3, show (localParams T p).nbvar = p.nbvar from rfl, ← s3, ← s4, ← s5, ← s1] at hst
    have hld := C66_load_mpi_3d T' hw' hd' hn' hst r hl hij hv
    simp only [show (localParams T' p').nx = p'.nx from rfl,
      show (localParams T' p').ny = p'.ny from rfl, show (localParams T' p').nz = p'.nz from rfl,
      show (localParams T' p').ghostWidth = p'.ghostWidth from rfl] at hld
    refine hld.trans ?_
    rw [s2]
    simp only [globalCell]
    congr 2 <;> omega
  · intro r i j k v hi hj hk hv
    rw [l1] at hi
    rw [l2] at hj
    rw [l3] at hk
    have e := (hblock r).2.2 (i + p.ghostWidth) (j + p.ghostWidth) (k + p.ghostWidth) v
      ⟨⟨by rw [l4]; omega, by rw [l4, l1]; omega⟩, ⟨by rw [l4]; omega, by rw [l4, l2]; omega⟩,
        by rw [l4]; omega, by rw [l4, l3]; omega⟩ hv
    refine e.trans ?_
    simp only [globalCell, l1, l2, l3]
    congr 2 <;> ring

/-! ### Ghost cells in the file of a distributed run -/

theorem cover_exists {n m g I : Int} (hn : 1 ≤ n) (hm : 1 ≤ m) (hg : 0 ≤ g)
    (hI : 0 ≤ I ∧ I < n * m + 2 * g) : ∃ x, (0 ≤ x ∧ x < m) ∧ x * n ≤ I ∧ I < x * n + (n + 2 * g) := by
  by_cases h1 : I < g
  · exact ⟨0, by omega, by omega, by omega⟩
  · by_cases h2 : I < g + n * m
    · obtain ⟨x, i, x1, x2, i1, i2, e⟩ := block_exists (g := g) (m := m) (a := I) hn (by omega) h2
      exact ⟨x, ⟨x1, x2⟩, by omega, by omega⟩
    · refine ⟨m - 1, by omega, ?_, ?_⟩ <;>
      · have : (m - 1) * n = n * m - n := by ring
        omega

/-- With `ghostIncluded` the file stores the global field with its ghost cells **if the ghost cells
of the saved views are those of the field** (2D). -/
theorem C66_file_mpi_ghosts_2d (lay : Layout) (T : Topo) (hw : p.WF) (hd : p.dimType = .two)
    (hn : UsualFields p) {o : H5Options} (hg : o.ghostIncluded = true)
    (hag : o.allghostIncluded = false) (hre : o.reassembleInFile = true)
    {U : T.Rank → Loc Unit → R} {G : Int → Int → Nat → R}
    (hU : ∀ r i j v, inGrid2 p i j → v < p.nbvar → U r ⟨(), i, j, 0, v⟩ =
        G ((T.coords r).1 * p.nx + i) ((T.coords r).2.1 * p.ny + j) v)
    {n : Int} {t : R} {f : H5File R} (h : saveH5Mpi lay o T p U n t f) :
    f.step = n ∧ f.time = t ∧
      Stores2 f p.nbvar (p.nx * T.mx + 2 * p.ghostWidth) (p.ny * T.my + 2 * p.ghostWidth) G := by
  obtain ⟨h1, h2, h3⟩ := h
  refine ⟨h1, h2, fun v hv => ?_⟩
  obtain ⟨d, junk, hf, hwr⟩ := h3 v ((mem_h5Fields hn).2 hv)
  have a1 := hw.nx_pos; have a2 := hw.ny_pos; have a3 := hw.gw_pos
  have a4 := hw.isize_eq; have a5 := hw.jsize_eq
  simp only [memDims, memSlab, logical, hd, saveBuffer, fileDims, fileSlab, chunk, pieces, coordsOf,
    Bool.false_eq_true, if_false, if_true, Bool.or_false, List.map, List.zipWith, hg, hag, hre] at hwr
  refine ⟨d, hf, hwr.1, fun i j hi hj => ?_⟩
  have cr := fun r => T.coords_range r
  have q1 := fun r => piece_le (n := p.ny) (cr r).2.1.2 (by omega)
  have q2 := fun r => piece_le (n := p.nx) (cr r).1.2 (by omega)
  refine h5written2 (by omega) (by omega) (fun r => piece_nonneg (cr r).2.1.1 (by omega))
    (fun r => piece_nonneg (cr r).1.1 (by omega)) (by omega) (by omega) (by omega) (by omega)
    (fun r => by have := q1 r; omega) (fun r => by have := q2 r; omega) hwr ?_ ?_
  · obtain ⟨x, x1, x2⟩ := cover_exists (by omega : 1 ≤ p.nx) (by have := T.hx; omega : 1 ≤ (T.mx : Int))
      (by omega : 0 ≤ p.ghostWidth) hi
    obtain ⟨y, y1, y2⟩ := cover_exists (by omega : 1 ≤ p.ny) (by have := T.hy; omega : 1 ≤ (T.my : Int))
      (by omega : 0 ≤ p.ghostWidth) hj
    have hc := T.coords_cartRank x y 0
    rw [Int.emod_eq_of_lt x1.1 x1.2, Int.emod_eq_of_lt y1.1 y1.2] at hc
    exact ⟨T.cartRank x y 0, by rw [hc]; exact y2, by rw [hc]; exact x2⟩
  · intro r hr1 hr2
    rw [saveBuffer2_get lay (U r) hv (junk r) (by omega) (by omega)]
    rw [hU r _ _ v ⟨by omega, by omega, by omega, by omega⟩ hv]
    congr 1 <;> omega

/-- the same in 3D -/
theorem C66_file_mpi_ghosts_3d (lay : Layout) (T : Topo) (hw : p.WF) (hd : p.dimType = .three)
    (hn : UsualFields p) {o : H5Options} (hg : o.ghostIncluded = true)
    (hag : o.allghostIncluded = false) (hre : o.reassembleInFile = true)
    {U : T.Rank → Loc Unit → R} {G : Int → Int → Int → Nat → R}
    (hU : ∀ r i j k v, inGrid3 p i j k → v < p.nbvar → U r ⟨(), i, j, k, v⟩ =
        G ((T.coords r).1 * p.nx + i) ((T.coords r).2.1 * p.ny + j) ((T.coords r).2.2 * p.nz + k) v)
    {n : Int} {t : R} {f : H5File R} (h : saveH5Mpi lay o T p U n t f) :
    f.step = n ∧ f.time = t ∧ Stores3 f p.nbvar (p.nx * T.mx + 2 * p.ghostWidth)
      (p.ny * T.my + 2 * p.ghostWidth) (p.nz * T.mz + 2 * p.ghostWidth) G := by
  obtain ⟨h1, h2, h3⟩ := h
  refine ⟨h1, h2, fun v hv => ?_⟩
  obtain ⟨d, junk, hf, hwr⟩ := h3 v ((mem_h5Fields hn).2 hv)
  have a1 := hw.nx_pos; have a2 := hw.ny_pos; have a3 := hw.gw_pos; have a6 := hw.nz_pos
  have a4 := hw.isize_eq; have a5 := hw.jsize_eq; have a7 := hw.ksize_eq
  simp only [memDims, memSlab, logical, hd, saveBuffer, fileDims, fileSlab, chunk, pieces, coordsOf,
    Bool.false_eq_true, if_false, if_true, Bool.or_false, List.map, List.zipWith, hg, hag, hre] at hwr
  refine ⟨d, hf, hwr.1, fun i j k hi hj hk => ?_⟩
  have cr := fun r => T.coords_range r
  have q0 := fun r => piece_le (n := p.nz) (cr r).2.2.2 (by omega)
  have q1 := fun r => piece_le (n := p.ny) (cr r).2.1.2 (by omega)
  have q2 := fun r => piece_le (n := p.nx) (cr r).1.2 (by omega)
  refine h5written3 (by omega) (by omega) (by omega) (fun r => piece_nonneg (cr r).2.2.1 (by omega))
    (fun r => piece_nonneg (cr r).2.1.1 (by omega)) (fun r => piece_nonneg (cr r).1.1 (by omega))
    (by omega) (by omega) (by omega) (by omega) (by omega) (by omega)
    (fun r => by have := q0 r; omega) (fun r => by have := q1 r; omega)
    (fun r => by have := q2 r; omega) hwr ?_ ?_
  · obtain ⟨x, x1, x2⟩ := cover_exists (by omega : 1 ≤ p.nx) (by have := T.hx; omega : 1 ≤ (T.mx : Int))
      (by omega : 0 ≤ p.ghostWidth) hi
    obtain ⟨y, y1, y2⟩ := cover_exists (by omega : 1 ≤ p.ny) (by have := T.hy; omega : 1 ≤ (T.my : Int))
      (by omega : 0 ≤ p.ghostWidth) hj
    obtain ⟨z, z1, z2⟩ := cover_exists (by omega : 1 ≤ p.nz) (by have := T.hz; omega : 1 ≤ (T.mz : Int))
      (by omega : 0 ≤ p.ghostWidth) hk
    have hc := T.coords_cartRank x y z
    rw [Int.emod_eq_of_lt x1.1 x1.2, Int.emod_eq_of_lt y1.1 y1.2, Int.emod_eq_of_lt z1.1 z1.2] at hc
    exact ⟨T.cartRank x y z, by rw [hc]; exact z2, by rw [hc]; exact y2, by rw [hc]; exact x2⟩
  · intro r hr1 hr2 hr3
    rw [saveBuffer3_get lay (U r) hv (junk r) (by omega) (by omega) (by omega)]
    rw [hU r _ _ _ v ⟨⟨by omega, by omega⟩, ⟨by omega, by omega⟩, by omega, by omega⟩ hv]
    congr 1 <;> omega

/-- some dataset results from the write, whatever the selections, and process `r₀` may be the last
to write where it writes -/
theorem written_exists {ρ : Type} [Nonempty R] (mdims : List Int) (mem : Slab) (fdims : List Int)
    (file : ρ → Slab) (buf : ρ → Int → R) (r₀ : ρ) :
    ∃ d, written mdims mem fdims file buf d ∧ ∀ c, (∃ x, (x, c) ∈ transfer mdims mem fdims (file r₀)) →
      ∃ x, (x, c) ∈ transfer mdims mem fdims (file r₀) ∧ d.val c = buf r₀ (offset mdims x) := by
  classical
  refine ⟨⟨fdims, fun c =>
    if h : ∃ x, (x, c) ∈ transfer mdims mem fdims (file r₀) then buf r₀ (offset mdims h.choose)
    else if h : ∃ r x, (x, c) ∈ transfer mdims mem fdims (file r) then
      buf h.choose (offset mdims h.choose_spec.choose) else Classical.arbitrary R⟩, ⟨rfl, fun c => ?_⟩,
      fun c hc => ?_⟩
  · by_cases h : ∃ x, (x, c) ∈ transfer mdims mem fdims (file r₀)
    · left; exact ⟨r₀, h.choose, h.choose_spec, by simp only [dif_pos h]⟩
    · by_cases h' : ∃ r x, (x, c) ∈ transfer mdims mem fdims (file r)
      · left
        exact ⟨h'.choose, h'.choose_spec.choose, h'.choose_spec.choose_spec, by
          simp only [dif_neg h, dif_pos h']⟩
      · right; push Not at h'; exact h'
  · exact ⟨hc.choose, hc.choose_spec, by simp only [dif_pos hc]⟩

/-- a file can be written, and process `r₀` may be the last to write, in every dataset -/
theorem saveH5Mpi_exists [Nonempty R] (lay : Layout) (o : H5Options) (T : Topo) (p : Params R)
    (U : T.Rank → Loc Unit → R) (n : Int) (t : R) (r₀ : T.Rank) :
    ∃ f, saveH5Mpi lay o T p U n t f ∧ ∀ nvar ∈ h5Fields p, ∃ d, ∃ junk : Int → R,
      f.field (varName nvar) = some d ∧
      let ghosts := o.ghostIncluded || o.allghostIncluded
      let ch := chunk ghosts p.ghostWidth (logical p)
      let dims := if o.reassembleInFile then fileDims o p.ghostWidth (logical p) (pieces T p)
        else stackedDims T ch
      let tr := transfer (memDims p) (memSlab ghosts p.ghostWidth (logical p)) dims
        (if o.reassembleInFile then fileSlab o p.ghostWidth (logical p) (coordsOf T p r₀)
          else stackedSlab T r₀ ch)
      ∀ c, (∃ x, (x, c) ∈ tr) → ∃ x, (x, c) ∈ tr ∧
        d.val c = saveBuffer lay p (U r₀) nvar junk (offset (memDims p) x) := by
  classical
  obtain ⟨j⟩ := (inferInstance : Nonempty (Int → R))
  have hd := fun nvar : Nat => written_exists (memDims p)
    (memSlab (o.ghostIncluded || o.allghostIncluded) p.ghostWidth (logical p))
    (if o.reassembleInFile then fileDims o p.ghostWidth (logical p) (pieces T p)
      else stackedDims T (chunk (o.ghostIncluded || o.allghostIncluded) p.ghostWidth (logical p)))
    (fun r => if o.reassembleInFile then fileSlab o p.ghostWidth (logical p) (coordsOf T p r)
      else stackedSlab T r (chunk (o.ghostIncluded || o.allghostIncluded) p.ghostWidth (logical p)))
    (fun r => saveBuffer lay p (U r) nvar j) r₀
  choose d hd using hd
  have hlt : ∀ v ∈ h5Fields p, v < 8 := by
    intro v hv
    simp only [h5Fields, ID, IP, IU, IV, IW, IA, IB, IC] at hv
    split_ifs at hv <;> simp at hv <;> omega
  have hname : ∀ v ∈ h5Fields p, (fun s : String => ((List.range 8).find? fun w => varName w = s).map d)
      (varName v) = some (d v) := by
    intro v hv
    have h8 := hlt v hv
    have : ((List.range 8).find? fun w => varName w = varName v) = some v := by
      interval_cases v <;> decide
    simp only [this, Option.map_some]
  refine ⟨⟨fun s => ((List.range 8).find? fun w => varName w = s).map d, n, t⟩,
    ⟨rfl, rfl, fun v hv => ⟨d v, fun _ => j, hname v hv, (hd v).1⟩⟩,
    fun v hv => ⟨d v, j, hname v hv, (hd v).2⟩⟩

/-- **With `ghostIncluded` and several processes an interior cell of the file may hold a ghost
value of the neighbour.**  The pieces overlap; if process `r` (not the last along x) writes last, the
cell that belongs to its right neighbour holds what `r` has in its ghost cell — which, for a view
that was just updated, is not the neighbour's value (the ghost cells are refilled at the start of the
next step only). -/
theorem C66_ghosts_overlap_2d [Nonempty R] (lay : Layout) (T : Topo) (hw : p.WF)
    (hd : p.dimType = .two) (hn : UsualFields p) {o : H5Options} (hg : o.ghostIncluded = true)
    (hag : o.allghostIncluded = false) (hre : o.reassembleInFile = true)
    (U : T.Rank → Loc Unit → R) (n : Int) (t : R) (r : T.Rank) (hr : (T.coords r).1 + 1 < T.mx) :
    ∃ r', T.coords r' = ((T.coords r).1 + 1, (T.coords r).2.1, (T.coords r).2.2) ∧
      ∃ f, saveH5Mpi lay o T p U n t f ∧ ∀ v < p.nbvar, ∃ d, f.field (varName v) = some d ∧
      ∀ i j, interior2 p i j → i < 2 * p.ghostWidth →
        d.val [(T.coords r').2.1 * p.ny + j, (T.coords r').1 * p.nx + i] =
          U r ⟨(), p.nx + i, j, 0, v⟩ := by
  obtain ⟨c1, c2, c3⟩ := T.coords_range r
  have hr' := T.coords_cartRank ((T.coords r).1 + 1) (T.coords r).2.1 (T.coords r).2.2
  rw [Int.emod_eq_of_lt (by omega) hr, Int.emod_eq_of_lt c2.1 c2.2,
    Int.emod_eq_of_lt c3.1 c3.2] at hr'
  refine ⟨_, hr', ?_⟩
  rw [hr']
  dsimp only
  have a1 := hw.nx_pos; have a2 := hw.ny_pos; have a3 := hw.gw_pos
  have a4 := hw.isize_eq; have a5 := hw.jsize_eq
  obtain ⟨f, hf, hlast⟩ := saveH5Mpi_exists lay o T p U n t r
  refine ⟨f, hf, fun v hv => ?_⟩
  obtain ⟨d, junk, hfd, hval⟩ := hlast v ((mem_h5Fields hn).2 hv)
  refine ⟨d, hfd, fun i j hij hi => ?_⟩
  obtain ⟨b1, b2, b3, b4⟩ := hij
  have q1 := piece_le (n := p.ny) c2.2 (by omega)
  have q2 := piece_le (n := p.nx) c1.2 (by omega)
  simp only [memDims, memSlab, logical, hd, saveBuffer, fileDims, fileSlab, chunk, pieces, coordsOf,
    Bool.false_eq_true, if_false, if_true, Bool.or_false, List.map, List.zipWith, hg, hag, hre] at hval
  have hm := fun xs cs => mem_transfer2 (xs := xs) (cs := cs) (M := p.jsize) (N := p.isize)
    (F := p.ny * T.my + 2 * p.ghostWidth) (G := p.nx * T.mx + 2 * p.ghostWidth) (le_refl 0) (le_refl 0)
    (piece_nonneg (n := p.ny) c2.1 (by omega)) (piece_nonneg (n := p.nx) c1.1 (by omega))
    (by omega : 0 ≤ p.ny + 2 * p.ghostWidth) (by omega : 0 ≤ p.nx + 2 * p.ghostWidth)
    (by omega) (by omega) (by omega) (by omega)
  have e0 : ((T.coords r).1 + 1) * p.nx = (T.coords r).1 * p.nx + p.nx := by ring
  rw [e0]
  obtain ⟨x, hx, hv'⟩ := hval [(T.coords r).2.1 * p.ny + j,
      (T.coords r).1 * p.nx + p.nx + i]
    ⟨[0 + j, 0 + (p.nx + i)], (hm _ _).2
      ⟨j, p.nx + i, by omega, by omega, rfl, by rw [Int.add_assoc (_ * _)]⟩⟩
  rw [hm] at hx
  obtain ⟨j', i', hj', hi', rfl, hc⟩ := hx
  simp only [List.cons.injEq, and_true] at hc
  rw [hv', rowMajor2, saveBuffer2_get lay (U r) hv junk (by omega) (by omega)]
  congr 2 <;> omega

/-! ### Separate blocks -/

theorem piece_unique {a b n J : Int} (h1 : a * n ≤ J) (h2 : J < a * n + n)
    (h3 : b * n ≤ J) (h4 : J < b * n + n) : a = b := by
  have hn : 0 < n := by omega
  have e1 : a * n < (b + 1) * n := by have : (b + 1) * n = b * n + n := by ring
                                      omega
  have e2 : b * n < (a + 1) * n := by have : (a + 1) * n = a * n + n := by ring
                                      omega
  have := lt_of_mul_lt_mul_right e1 hn.le
  have := lt_of_mul_lt_mul_right e2 hn.le
  omega

/-- `reassembleInFile = false`: the interiors are stacked in the order of the ranks (2D) -/
theorem C66_file_stacked_2d (lay : Layout) (T : Topo) (hw : p.WF) (hd : p.dimType = .two)
    (hn : UsualFields p) {U : T.Rank → Loc Unit → R} {n : Int} {t : R} {f : H5File R}
    (h : saveH5Mpi lay { reassembleInFile := false } T p U n t f) (r : T.Rank) {v : Nat}
    (hv : v < p.nbvar) : ∃ d, f.field (varName v) = some d ∧ d.dims = [p.ny * T.size, p.nx] ∧
      ∀ i j, (0 ≤ i ∧ i < p.nx) → (0 ≤ j ∧ j < p.ny) →
        d.val [r.val * p.ny + j, i] = U r ⟨(), i + p.ghostWidth, j + p.ghostWidth, 0, v⟩ := by
  obtain ⟨-, -, h3⟩ := h
  obtain ⟨d, junk, hf, hwr⟩ := h3 v ((mem_h5Fields hn).2 hv)
  have a1 := hw.nx_pos; have a2 := hw.ny_pos; have a3 := hw.gw_pos
  have a4 := hw.isize_eq; have a5 := hw.jsize_eq
  simp only [memDims, memSlab, logical, hd, saveBuffer, stackedDims, stackedSlab, chunk,
    Bool.false_eq_true, if_false, Bool.or_self, List.map] at hwr
  refine ⟨d, hf, hwr.1, fun i j hi hj => ?_⟩
  refine h5written2 (by omega) (by omega) (fun r => piece_nonneg (by omega) (by omega))
    (fun _ => le_refl _) (by omega) (by omega) (by omega) (by omega)
    (fun r => piece_le (by exact_mod_cast r.isLt) (by omega)) (fun _ => by omega) hwr
    ⟨r, by omega, by omega⟩ (fun r' hr1 hr2 => ?_)
  have e : r' = r := by
    have := piece_unique hr1.1 hr1.2 (by omega : (r.val : Int) * p.ny ≤ _) (by omega)
    exact Fin.ext (by exact_mod_cast this)
  subst e
  rw [saveBuffer2_get lay (U r') hv (junk r') (by omega) (by omega)]
  congr 2 <;> omega

/-- `allghostIncluded`: every process finds its whole array again, ghost cells included, when the
file is loaded by the same process grid (2D) -/
theorem C66_allghosts_roundtrip_2d {lay lay' : Layout} (T : Topo) (hmz : T.mz = 1) (hw : p.WF)
    (hd : p.dimType = .two) (hn : UsualFields p) {o : H5Options} (ho : o.allghostIncluded = true)
    (hre : o.reassembleInFile = true) (hup : o.restartUpscale = false)
    {U : T.Rank → Loc Unit → R} {n : Int} {t : R} {f : H5File R} (hs : saveH5Mpi lay o T p U n t f)
    (r : T.Rank) {host U' : Loc Unit → R} (hl : loadH5Mpi lay' o T p r f host U') {i j : Int}
    (hij : inGrid2 p i j) {v : Nat} (hv : v < p.nbvar) :
    U' ⟨(), i, j, 0, v⟩ = U r ⟨(), i, j, 0, v⟩ := by
  have a1 := hw.nx_pos; have a2 := hw.ny_pos; have a3 := hw.gw_pos
  have a4 := hw.isize_eq; have a5 := hw.jsize_eq
  obtain ⟨b1, b2, b3, b4⟩ := hij
  have cr := fun r => T.coords_range r
  have hst : Stores2 f p.nbvar ((p.nx + 2 * p.ghostWidth) * T.mx) ((p.ny + 2 * p.ghostWidth) * T.my)
      fun I J v => U (T.cartRank (I / (p.nx + 2 * p.ghostWidth)) (J / (p.ny + 2 * p.ghostWidth)) 0)
        ⟨(), I % (p.nx + 2 * p.ghostWidth), J % (p.ny + 2 * p.ghostWidth), 0, v⟩ := by
    intro v hv
    obtain ⟨-, -, h3⟩ := hs
    obtain ⟨d, junk, hf, hwr⟩ := h3 v ((mem_h5Fields hn).2 hv)
    simp only [memDims, memSlab, logical, hd, saveBuffer, fileDims, fileSlab, chunk, pieces, coordsOf,
      Bool.false_eq_true, if_false, if_true, Bool.or_true, List.map, List.zipWith, ho, hre,
      mul_comm (T.mx : Int), mul_comm (T.my : Int)] at hwr
    refine ⟨d, hf, hwr.1, fun I J hI hJ => ?_⟩
    refine h5written2 (by omega) (by omega) (fun r => piece_nonneg (cr r).2.1.1 (by omega))
      (fun r => piece_nonneg (cr r).1.1 (by omega)) (by omega) (by omega) (by omega) (by omega)
      (fun r => piece_le (cr r).2.1.2 (by omega)) (fun r => piece_le (cr r).1.2 (by omega)) hwr ?_ ?_
    · obtain ⟨x, a, x1, x2, a1, a2, hxa⟩ := block_exists (g := 0) (m := T.mx) (a := I)
        (by omega : 1 ≤ p.nx + 2 * p.ghostWidth) hI.1 (by omega)
      obtain ⟨y, b, y1, y2, b1, b2, hyb⟩ := block_exists (g := 0) (m := T.my) (a := J)
        (by omega : 1 ≤ p.ny + 2 * p.ghostWidth) hJ.1 (by omega)
      have hc := T.coords_cartRank x y 0
      rw [Int.emod_eq_of_lt x1 x2, Int.emod_eq_of_lt y1 y2] at hc
      exact ⟨T.cartRank x y 0, by rw [hc]; dsimp only; omega, by rw [hc]; dsimp only; omega⟩
    · intro r hr1 hr2
      have dm : ∀ c n J : Int, c * n ≤ J → J < c * n + n → J / n = c ∧ J % n = J - c * n := by
        intro c n J h1 h2
        have e : J = (J - c * n) + n * c := by ring
        constructor
        · rw [e, Int.add_mul_ediv_left _ _ (by omega), Int.ediv_eq_zero_of_lt (by omega) (by omega)]
          omega
        · rw [e, Int.add_mul_emod_self_left, Int.emod_eq_of_lt (by omega) (by omega)]
          ring
      have ex := dm _ _ _ hr2.1 hr2.2
      have ey := dm _ _ _ hr1.1 hr1.2
      beta_reduce
      rw [ex.1, ex.2, ey.1, ey.2]
      have hz : (T.coords r).2.2 = 0 := by have := (cr r).2.2; rw [hmz] at this; omega
      have hrr := T.cartRank_coords r
      rw [hz] at hrr
      rw [hrr, saveBuffer2_get lay (U r) hv (junk r) (by omega) (by omega)]
      congr 2 <;> omega
  simp only [loadH5Mpi, readSizes, logical, hd, memSlab, fileDims, fileSlab, chunk, pieces, coordsOf,
    List.map, List.zipWith, hup, ho, if_true, Bool.false_eq_true, if_false, Bool.or_true,
    mul_comm (T.mx : Int), mul_comm (T.my : Int)] at hl
  rw [readFields_window2 hw hd hn hup (by omega) (by omega)
    (piece_nonneg (cr r).2.1.1 (by omega)) (piece_nonneg (cr r).1.1 (by omega)) (by omega) (by omega)
    (by omega) (by omega) (piece_le (cr r).2.1.2 (by omega)) (piece_le (cr r).1.2 (by omega)) hst hl
    (by omega) (by omega) hv]
  have hz : (T.coords r).2.2 = 0 := by have := (cr r).2.2; rw [hmz] at this; omega
  have hrr := T.cartRank_coords r
  rw [hz] at hrr
  have dm : ∀ c n x : Int, 0 ≤ x → x < n → (c * n + x) / n = c ∧ (c * n + x) % n = x := by
    intro c n x h1 h2
    rw [Int.add_comm, Int.mul_comm]
    exact ⟨by rw [Int.add_mul_ediv_left _ _ (by omega), Int.ediv_eq_zero_of_lt h1 h2]; omega,
      by rw [Int.add_mul_emod_self_left, Int.emod_eq_of_lt h1 h2]⟩
  rw [(dm _ _ _ (by omega) (by omega)).1, (dm _ _ _ (by omega) (by omega)).1,
    (dm _ _ _ (by omega) (by omega)).2, (dm _ _ _ (by omega) (by omega)).2, hrr]
  simp

/-! ### Non-vacuity -/

/-- a serial file is the file of a process grid with one process: it can be written -/
theorem saveH5_exists [Nonempty R] (lay : Layout) (o : H5Options) (p : Params R) (U : Loc Unit → R)
    (n : Int) (t : R) : ∃ f, saveH5 lay o p U n t f := by
  classical
  obtain ⟨j⟩ := (inferInstance : Nonempty (Int → R))
  have hd := fun nvar : Nat => written_exists (ρ := Unit) (memDims p)
    (memSlab o.ghostIncluded p.ghostWidth (logical p))
    (if o.ghostIncluded then (logical p).map (· + 2 * p.ghostWidth) else logical p)
    (fun _ => wholeSpace (if o.ghostIncluded then (logical p).map (· + 2 * p.ghostWidth)
      else logical p))
    (fun _ => saveBuffer lay p U nvar j) ()
  choose d hd using hd
  have hlt : ∀ v ∈ h5Fields p, v < 8 := by
    intro v hv
    simp only [h5Fields, ID, IP, IU, IV, IW, IA, IB, IC] at hv
    split_ifs at hv <;> simp at hv <;> omega
  refine ⟨⟨fun s => ((List.range 8).find? fun w => varName w = s).map d, n, t⟩, rfl, rfl,
    fun v hv => ⟨d v, j, ?_, (hd v).1⟩⟩
  have h8 := hlt v hv
  have : ((List.range 8).find? fun w => varName w = varName v) = some v := by
    interval_cases v <;> decide
  simp only [this, Option.map_some]

theorem read_exists (mdims : List Int) (mem : Slab) (fdims : List Int) (file : Slab) (d : Dataset R)
    (buf : Int → R) : ∃ buf', H5.read mdims mem fdims file d buf buf' := by
  classical
  refine ⟨fun q => if h : ∃ x c, (x, c) ∈ (if d.dims = fdims then transfer mdims mem fdims file
    else []) ∧ offset mdims x = q then d.val h.choose_spec.choose else buf q, fun q => ?_⟩
  by_cases h : ∃ x c, (x, c) ∈ (if d.dims = fdims then transfer mdims mem fdims file
    else []) ∧ offset mdims x = q
  · left
    exact ⟨h.choose, h.choose_spec.choose, h.choose_spec.choose_spec.1, h.choose_spec.choose_spec.2,
      by simp only [dif_pos h]⟩
  · right
    refine ⟨fun x c hxc e => h ⟨x, c, hxc, e⟩, by simp only [dif_neg h]⟩

theorem readFields_exists (lay : Layout) (o : H5Options) (p : Params R) (mdims : List Int) (mem : Slab)
    (fdims : List Int) (file : Slab) (f : H5File R) :
    ∀ (vs : List Nat) (h : Loc Unit → R), ∃ h', readFields lay o p mdims mem fdims file f vs h h' := by
  intro vs
  induction vs with
  | nil => intro h; exact ⟨h, rfl⟩
  | cons v vs ih =>
    intro h
    have : ∃ h₁, readField lay o p mdims mem fdims file f v h h₁ := by
      cases hf : f.field (varName v) with
      | none =>
        exact ⟨_, fun _ => h ⟨(), 0, 0, 0, 0⟩, _, rfl, by rw [hf]⟩
      | some d =>
        obtain ⟨b, hb⟩ := read_exists mdims mem fdims file d fun _ => h ⟨(), 0, 0, 0, 0⟩
        exact ⟨_, _, b, rfl, by rw [hf]; exact hb⟩
    obtain ⟨h1, hh1⟩ := this
    obtain ⟨h', hh'⟩ := ih h1
    exact ⟨h', h1, hh1, hh'⟩

/-- **Every file that was written can be loaded**: writing never fails, reading never fails -/
theorem C66_possible [Nonempty R] (lay : Layout) (o : H5Options) (p : Params R)
    (U host : Loc Unit → R) (n : Int) (t : R) :
    ∃ f, saveH5 lay o p U n t f ∧ ∃ U', loadH5 lay o p f host U' := by
  obtain ⟨f, hf⟩ := saveH5_exists lay o p U n t
  exact ⟨f, hf, readFields_exists ..⟩

/-- a 4 × 3 hydro run: every view is saved into a file, every load of that file (column-major host
arrays at first, row-major afterwards) exists and gives the interior cells back -/
example (U host : Loc Unit → ℝ) : ∃ f, saveH5 .left {} (sample .periodic .dirichlet) U 7 (1 / 3) f ∧
    f.step = 7 ∧ (∃ U', loadH5 .right {} (sample .periodic .dirichlet) f host U') ∧
    ∀ U', loadH5 .right {} (sample .periodic .dirichlet) f host U' →
      U' ⟨(), 5, 4, 0, 2⟩ = U ⟨(), 5, 4, 0, 2⟩ := by
  have hu : UsualFields (sample .periodic .dirichlet) := by
    simp [UsualFields, sample, rawSample, Params.init]
  obtain ⟨f, hf⟩ := saveH5_exists .left {} (sample .periodic .dirichlet) U 7 (1 / 3)
  refine ⟨f, hf, (C66_file_2d .left (sample_wf _ _) rfl hu hf).1, readFields_exists .., ?_⟩
  intro U' hl
  refine C66_roundtrip_2d (sample_wf _ _) rfl hu hf hl ?_ ?_ <;>
    simp [interior2, sample, rawSample, Params.init]

/-- the sample grid of one process, with the 12 × 6 cells of the 3 × 2 processes -/
noncomputable def sampleWhole : Params ℝ :=
  ({ rawSample .periodic .periodic 2 4 with nx := 12, ny := 6 } : Params ℝ).init

theorem local_wf (T : Topo) (h : p.init.WF) : (localParams T p).WF :=
  ⟨h.nx_pos, h.ny_pos, h.nz_pos, h.gw_pos, h.imin_eq, h.jmin_eq, h.kmin_eq, h.imax_eq, h.jmax_eq,
    h.kmax_eq, h.isize_eq, h.jsize_eq, h.ksize_eq⟩

/-- a file written by 3 × 2 processes and continued by a single one -/
example (g : Output ℝ) (host : Loc Unit → ℝ) : ∃ f, ∃ T' : Topo, ∃ r : T'.Rank, T'.size = 1 ∧
    saveH5Mpi .left {} topo321 (localParams topo321 (sample .periodic .periodic))
      (fun r l => g.data ⟨(), (globalCell topo321 (sample .periodic .periodic) r l.i l.j 0).1,
        (globalCell topo321 (sample .periodic .periodic) r l.i l.j 0).2.1, 0, l.v⟩) g.number g.time f ∧
    (∃ U, loadH5Mpi .left {} T' (localParams T' sampleWhole) r f host U) ∧
    ∀ U, loadH5Mpi .left {} T' (localParams T' sampleWhole) r f host U →
      BlockFile2 T' sampleWhole r ⟨f.step, f.time, g.iteration, U⟩ g := by
  have r₀ : topo321.Rank := ⟨0, by simp [topo321, Topo.size]⟩
  obtain ⟨f, hf, -⟩ := saveH5Mpi_exists .left {} topo321 (localParams topo321 (sample .periodic .periodic))
    (fun r l => g.data ⟨(), (globalCell topo321 (sample .periodic .periodic) r l.i l.j 0).1,
        (globalCell topo321 (sample .periodic .periodic) r l.i l.j 0).2.1, 0, l.v⟩) g.number g.time r₀
  refine ⟨f, ⟨1, 1, 1, by norm_num, by norm_num, by norm_num⟩, ⟨0, by simp [Topo.size]⟩, by simp [Topo.size],
    hf, readFields_exists .., ?_⟩
  intro U hl
  refine C66_repartition_2d (p := sample .periodic .periodic)
    (o := fun r => ⟨g.number, g.time, g.iteration, fun l =>
      g.data ⟨(), (globalCell topo321 (sample .periodic .periodic) r l.i l.j 0).1,
        (globalCell topo321 (sample .periodic .periodic) r l.i l.j 0).2.1, 0, l.v⟩⟩)
    ?_ ?_ rfl rfl ?_ ?_ ?_ ?_ hf _ hl
  · exact local_wf _ (Params.init_wf (sample .periodic .periodic) (by show 1 ≤ (4 : Int); omega)
      (by show 1 ≤ (3 : Int); omega) (by show 1 ≤ (5 : Int); omega) (by show 2 ≤ (2 : Int); omega))
  · exact local_wf _ (Params.init_wf sampleWhole (by show 1 ≤ (12 : Int); omega)
      (by show 1 ≤ (6 : Int); omega) (by show 1 ≤ (5 : Int); omega) (by show 2 ≤ (2 : Int); omega))
  · simp [UsualFields, sample, rawSample, Params.init]
  · simp [UsualFields, sampleWhole, rawSample, Params.init]
  · simp [sampleWhole, sample, rawSample, Params.init, topo321]
  · exact fun r => ⟨rfl, rfl, fun i j v _ _ => rfl⟩

end EulerKokkos
