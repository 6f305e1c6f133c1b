import Verif.Spec.Upscale
import Verif.Props.C66
import Verif.Props.C27
import Verif.Props.C28
import Verif.Props.C30
import Verif.Props.C53
import Verif.Props.Sample

/-!
# C68: restarting at twice the resolution
-/

set_option linter.constructorNameAsVariable false
set_option linter.unusedSectionVars false
set_option linter.unusedSimpArgs false

namespace EulerKokkos
open Spec H5

variable {R : Type} [RealOps R] {p pc : Params R}

/-- `pc` has half the cells of `p` in every direction of the run -/
structure Spec.HalfGrid (pc p : Params R) : Prop where
  nx : p.nx = 2 * pc.nx
  ny : p.ny = 2 * pc.ny
  nz : p.dimType = .three → p.nz = 2 * pc.nz
  gw : pc.ghostWidth = p.ghostWidth
  nbvar : pc.nbvar = p.nbvar

/-- reading the fields one after the other, seen at one element -/
theorem readFields_get1 {lay : Layout} {o : H5Options} {mdims fdims : List Int}
    {mem file : Slab} {f : H5File R} {l : Loc Unit} {x : R} :
    ∀ (vs : List Nat) {h h' : Loc Unit → R},
      (∀ v ∈ vs, ∀ h h', readField lay o p mdims mem fdims file f v h h' →
        h' l = if l.v = v then x else h l) →
      readFields lay o p mdims mem fdims file f vs h h' →
        h' l = if l.v ∈ vs then x else h l := by
  intro vs
  induction vs with
  | nil =>
    intro h h' _ hr
    simp only [readFields] at hr
    simp [hr]
  | cons v vs ih =>
    intro h h' hs hr
    obtain ⟨h1, hr1, hr2⟩ := hr
    rw [ih (fun v hv => hs v (List.mem_cons_of_mem _ hv)) hr2, hs v (List.mem_cons_self ..) _ _ hr1]
    by_cases e1 : l.v ∈ vs
    · simp [e1]
    · by_cases e2 : l.v = v <;> simp [e1, e2]

theorem parent_eq {g i : Int} : (i + g) / 2 = parent g i := by unfold parent; omega

theorem second_eq {g i : Int} : (¬ i + g - 2 * parent g i = 0) ↔ second g i := by
  unfold parent second; omega

theorem second_eq' {g i : Int} : (i + g - 2 * parent g i = 0) ↔ ¬ second g i := by
  unfold parent second; omega

/-- the buffer is refined into the field, 2D -/
theorem upscaleBuffer2_get (hw : p.WF) (data : Int → R) (v : Nat) (host : Loc Unit → R) {i j : Int}
    (hij : inGrid2 p i j) (w : Nat) :
    upscaleBuffer2 p data v host ⟨(), i, j, 0, w⟩ = if w = v then
      refined2 p.ghostWidth (fun I J _ => data (I + (p.nx / 2 + 2 * p.ghostWidth) * J)) i j v
      else host ⟨(), i, j, 0, w⟩ := by
  obtain ⟨a, b, c, d⟩ := hij
  have a4 := hw.isize_eq; have a5 := hw.jsize_eq
  unfold upscaleBuffer2 refined2
  dsimp only
  by_cases h : w = v
  · rw [if_pos ⟨⟨a, by omega⟩, ⟨c, by omega⟩, rfl, h⟩, if_pos h]
    simp only [parent_eq, second_eq']
    by_cases hA : v = IA
    · subst hA
      by_cases hs : second p.ghostWidth i <;> simp [hs]
    · by_cases hB : v = IB
      · subst hB
        by_cases hs : second p.ghostWidth j <;> simp [hs]
      · simp only [hA, hB, false_and, if_false]
  · rw [if_neg (fun h' => h h'.2.2.2), if_neg h]

/-- the buffer is refined into the field, 3D -/
theorem upscaleBuffer3_get (hw : p.WF) (data : Int → R) (v : Nat) (host : Loc Unit → R) {i j k : Int}
    (hij : inGrid3 p i j k) (w : Nat) :
    upscaleBuffer3 p data v host ⟨(), i, j, k, w⟩ = if w = v then
      refined3 p.ghostWidth (fun I J K _ => data (I + (p.nx / 2 + 2 * p.ghostWidth) * J +
        (p.nx / 2 + 2 * p.ghostWidth) * (p.ny / 2 + 2 * p.ghostWidth) * K)) i j k v
      else host ⟨(), i, j, k, w⟩ := by
  obtain ⟨⟨a, b⟩, ⟨c, d⟩, e, f⟩ := hij
  have a4 := hw.isize_eq; have a5 := hw.jsize_eq; have a6 := hw.ksize_eq
  unfold upscaleBuffer3 refined3
  dsimp only
  by_cases h : w = v
  · rw [if_pos ⟨⟨a, by omega⟩, ⟨c, by omega⟩, ⟨e, by omega⟩, h⟩, if_pos h]
    simp only [parent_eq, second_eq']
    by_cases hA : v = IA
    · subst hA
      by_cases hs : second p.ghostWidth i <;> simp [hs]
    · by_cases hB : v = IB
      · subst hB
        by_cases hs : second p.ghostWidth j <;> simp [hs]
      · by_cases hC : v = IC
        · subst hC
          by_cases hs : second p.ghostWidth k <;> simp [hs]
        · simp only [hA, hB, hC, false_and, if_false]
  · rw [if_neg (fun h' => h h'.2.2.2), if_neg h]

/-- the coarse values a refined value depends on -/
theorem refined2_congr {g : Int} {u u' : Int → Int → Nat → R} {i j : Int} {v : Nat}
    (h0 : u (parent g i) (parent g j) v = u' (parent g i) (parent g j) v)
    (h1 : v = IA → second g i → u (parent g i + 1) (parent g j) v = u' (parent g i + 1) (parent g j) v)
    (h2 : v = IB → second g j → u (parent g i) (parent g j + 1) v = u' (parent g i) (parent g j + 1) v) :
    refined2 g u i j v = refined2 g u' i j v := by
  unfold refined2
  dsimp only
  split_ifs with a b
  · rw [h0, h1 a.1 a.2]
  · rw [h0, h2 b.1 b.2]
  · rw [h0]

theorem refined3_congr {g : Int} {u u' : Int → Int → Int → Nat → R} {i j k : Int} {v : Nat}
    (h0 : u (parent g i) (parent g j) (parent g k) v = u' (parent g i) (parent g j) (parent g k) v)
    (h1 : v = IA → second g i → u (parent g i + 1) (parent g j) (parent g k) v =
      u' (parent g i + 1) (parent g j) (parent g k) v)
    (h2 : v = IB → second g j → u (parent g i) (parent g j + 1) (parent g k) v =
      u' (parent g i) (parent g j + 1) (parent g k) v)
    (h3 : v = IC → second g k → u (parent g i) (parent g j) (parent g k + 1) v =
      u' (parent g i) (parent g j) (parent g k + 1) v) :
    refined3 g u i j k v = refined3 g u' i j k v := by
  unfold refined3
  dsimp only
  split_ifs with a b c
  · rw [h0, h1 a.1 a.2]
  · rw [h0, h2 b.1 b.2]
  · rw [h0, h3 c.1 c.2]
  · rw [h0]

/-- upscaling through a window: the elements whose sources lie in the window, 2D -/
theorem upscale_window2 {lay : Layout} {o : H5Options} (hw : p.WF) (hd : p.dimType = .two)
    (hn : UsualFields p) (hup : o.restartUpscale = true) {s m n e g F H : Int} (hs : 0 ≤ s) (he : 0 ≤ e) (hg : 0 ≤ g) (hm : 0 ≤ m)
    (hnn : 0 ≤ n) (h1 : s + m ≤ p.ny / 2 + 2 * p.ghostWidth) (h2 : s + n ≤ p.nx / 2 + 2 * p.ghostWidth)
    (h3 : e + m ≤ F) (h4 : g + n ≤ H) {f : H5File R} {G : Int → Int → Nat → R} (hf : Stores2 f p.nbvar H F G) {host U : Loc Unit → R}
    (h : readFields lay o p [p.ny / 2 + 2 * p.ghostWidth, p.nx / 2 + 2 * p.ghostWidth] ⟨[s, s], [m, n]⟩
      [F, H] ⟨[e, g], [m, n]⟩ f (h5Fields p) host U) {i j : Int} (hij : inGrid2 p i j) {v : Nat}
    (hv : v < p.nbvar) (hI : s ≤ parent p.ghostWidth i ∧ parent p.ghostWidth i < s + n)
    (hJ : s ≤ parent p.ghostWidth j ∧ parent p.ghostWidth j < s + m)
    (hA : v = IA → second p.ghostWidth i → parent p.ghostWidth i + 1 < s + n)
    (hB : v = IB → second p.ghostWidth j → parent p.ghostWidth j + 1 < s + m) :
    U ⟨(), i, j, 0, v⟩ = refined2 p.ghostWidth (fun I J v => G (g + (I - s)) (e + (J - s)) v) i j v := by
  have key := readFields_get1 (l := ⟨(), i, j, 0, v⟩)
    (x := refined2 p.ghostWidth (fun I J v => G (g + (I - s)) (e + (J - s)) v) i j v) (h5Fields p) ?_ h
  · rw [key, if_pos ((mem_h5Fields hn).2 hv)]
  · rintro w hw' h0 h0' ⟨before, data, rfl, hr⟩
    have hw1 := (mem_h5Fields hn).1 hw'
    obtain ⟨d, hd1, hd2, hd3⟩ := hf w hw1
    rw [hd1] at hr
    simp only [loadBuffer, hd, hup, if_true]
    rw [upscaleBuffer2_get hw data w h0 hij v]
    by_cases huw : v = w
    · subst huw
      rw [if_pos rfl, if_pos rfl]
      have hb : ∀ I J, (s ≤ I ∧ I < s + n) → (s ≤ J ∧ J < s + m) →
          data (I + (p.nx / 2 + 2 * p.ghostWidth) * J) = G (g + (I - s)) (e + (J - s)) v := by
        intro I J h5 h6
        rw [h5read2 hs hs he hg hm hnn h1 h2 h3 h4 hd2 hr h5 h6, hd3 _ _ (by omega) (by omega)]
      exact refined2_congr (hb _ _ hI hJ) (fun a b => hb _ _ ⟨by omega, hA a b⟩ hJ)
        (fun a b => hb _ _ hI ⟨by omega, hB a b⟩)
    · rw [if_neg huw, if_neg huw]

/-- upscaling through a window, 3D -/
theorem upscale_window3 {lay : Layout} {o : H5Options} (hw : p.WF) (hd : p.dimType = .three)
    (hn : UsualFields p) (hup : o.restartUpscale = true) {s l m n e g q E F H : Int} (hs : 0 ≤ s) (he : 0 ≤ e)
    (hg : 0 ≤ g) (hq : 0 ≤ q) (hl : 0 ≤ l)
    (hm : 0 ≤ m) (hnn : 0 ≤ n) (h0 : s + l ≤ p.nz / 2 + 2 * p.ghostWidth)
    (h1 : s + m ≤ p.ny / 2 + 2 * p.ghostWidth) (h2 : s + n ≤ p.nx / 2 + 2 * p.ghostWidth)
    (h3 : e + l ≤ E) (h4 : g + m ≤ F) (h5 : q + n ≤ H) {f : H5File R} {G : Int → Int → Int → Nat → R} (hf : Stores3 f p.nbvar H F E G) {host U : Loc Unit → R}
    (h : readFields lay o p [p.nz / 2 + 2 * p.ghostWidth, p.ny / 2 + 2 * p.ghostWidth,
      p.nx / 2 + 2 * p.ghostWidth] ⟨[s, s, s], [l, m, n]⟩
      [E, F, H] ⟨[e, g, q], [l, m, n]⟩ f (h5Fields p) host U) {i j k : Int} (hij : inGrid3 p i j k) {v : Nat}
    (hv : v < p.nbvar) (hI : s ≤ parent p.ghostWidth i ∧ parent p.ghostWidth i < s + n)
    (hJ : s ≤ parent p.ghostWidth j ∧ parent p.ghostWidth j < s + m)
    (hK : s ≤ parent p.ghostWidth k ∧ parent p.ghostWidth k < s + l)
    (hA : v = IA → second p.ghostWidth i → parent p.ghostWidth i + 1 < s + n)
    (hB : v = IB → second p.ghostWidth j → parent p.ghostWidth j + 1 < s + m)
    (hC : v = IC → second p.ghostWidth k → parent p.ghostWidth k + 1 < s + l) :
    U ⟨(), i, j, k, v⟩ = refined3 p.ghostWidth (fun I J K v => G (q + (I - s)) (g + (J - s)) (e + (K - s)) v) i j k v := by
  have key := readFields_get1 (l := ⟨(), i, j, k, v⟩)
    (x := refined3 p.ghostWidth (fun I J K v => G (q + (I - s)) (g + (J - s)) (e + (K - s)) v) i j k v) (h5Fields p) ?_ h
  · rw [key, if_pos ((mem_h5Fields hn).2 hv)]
  · rintro w hw' h0' h0'' ⟨before, data, rfl, hr⟩
    have hw1 := (mem_h5Fields hn).1 hw'
    obtain ⟨d, hd1, hd2, hd3⟩ := hf w hw1
    rw [hd1] at hr
    simp only [loadBuffer, hd, hup, if_true]
    rw [upscaleBuffer3_get hw data w h0' hij v]
    by_cases huw : v = w
    · subst huw
      rw [if_pos rfl, if_pos rfl]
      have hb : ∀ I J K, (s ≤ I ∧ I < s + n) → (s ≤ J ∧ J < s + m) → (s ≤ K ∧ K < s + l) →
          data (I + (p.nx / 2 + 2 * p.ghostWidth) * J +
            (p.nx / 2 + 2 * p.ghostWidth) * (p.ny / 2 + 2 * p.ghostWidth) * K) =
            G (q + (I - s)) (g + (J - s)) (e + (K - s)) v := by
        intro I J K h6 h7 h8
        rw [h5read3 hs hs hs he hg hq hl hm hnn h0 h1 h2 h3 h4 h5 hd2 hr h6 h7 h8,
          hd3 _ _ _ (by omega) (by omega) (by omega)]
      exact refined3_congr (hb _ _ _ hI hJ hK) (fun a b => hb _ _ _ ⟨by omega, hA a b⟩ hJ hK)
        (fun a b => hb _ _ _ hI ⟨by omega, hB a b⟩ hK) (fun a b => hb _ _ _ hI hJ ⟨by omega, hC a b⟩)
    · rw [if_neg huw, if_neg huw]

/-- **Restarting at twice the resolution** from a file with ghost cells (2D): every cell of the fine grid,
ghost cells included, gets the refined value of the coarse array that was saved. -/
theorem C68_cells_2d {lay lay' : Layout} {o o' : H5Options} (hw : p.WF) (hwc : pc.WF) (hh : HalfGrid pc p)
    (hd : p.dimType = .two) (hdc : pc.dimType = .two) (hn : UsualFields p) (hnc : UsualFields pc)
    (ho : o.ghostIncluded = true) (ho' : o'.ghostIncluded = true) (hup : o'.restartUpscale = true)
    {V host U : Loc Unit → R} {n : Int} {t : R} {f : H5File R} (hs : saveH5 lay o pc V n t f)
    (hl : loadH5 lay' o' p f host U) {i j : Int} (hij : inGrid2 p i j) {v : Nat} (hv : v < p.nbvar) :
    U ⟨(), i, j, 0, v⟩ = refined2 p.ghostWidth (fun I J v => V ⟨(), I, J, 0, v⟩) i j v := by
  have hf := (C66_file_ghosts_2d lay hwc hdc hnc ho hs).2.2
  have a1 := hwc.nx_pos; have a2 := hwc.ny_pos; have a3 := hw.gw_pos
  have z1 := hw.isize_eq; have z2 := hw.jsize_eq
  have b1 := hh.nx; have b2 := hh.ny
  rw [hh.gw, hh.nbvar] at hf
  have e1 : p.nx / 2 = pc.nx := by omega
  have e2 : p.ny / 2 = pc.ny := by omega
  rw [← e1, ← e2] at hf
  simp only [loadH5, readSizes, logical, hd, memSlab, wholeSpace, List.map, hup, ho', if_true] at hl
  have hij' := hij
  obtain ⟨c1, c2, c3, c4⟩ := hij'
  rw [upscale_window2 hw hd hn hup (le_refl 0) (le_refl 0) (le_refl 0) (by omega) (by omega) (by omega)
    (by omega) (by omega) (by omega) hf hl hij hv
    (by unfold parent; omega) (by unfold parent; omega) (by unfold parent second; omega)
    (by unfold parent second; omega)]
  simp only [Int.sub_zero, Int.zero_add]

/-- the same in 3D -/
theorem C68_cells_3d {lay lay' : Layout} {o o' : H5Options} (hw : p.WF) (hwc : pc.WF) (hh : HalfGrid pc p)
    (hd : p.dimType = .three) (hdc : pc.dimType = .three) (hn : UsualFields p) (hnc : UsualFields pc)
    (ho : o.ghostIncluded = true) (ho' : o'.ghostIncluded = true) (hup : o'.restartUpscale = true)
    {V host U : Loc Unit → R} {n : Int} {t : R} {f : H5File R} (hs : saveH5 lay o pc V n t f)
    (hl : loadH5 lay' o' p f host U) {i j k : Int} (hij : inGrid3 p i j k) {v : Nat} (hv : v < p.nbvar) :
    U ⟨(), i, j, k, v⟩ = refined3 p.ghostWidth (fun I J K v => V ⟨(), I, J, K, v⟩) i j k v := by
  have hf := (C66_file_ghosts_3d lay hwc hdc hnc ho hs).2.2
  have a1 := hwc.nx_pos; have a2 := hwc.ny_pos; have a3 := hw.gw_pos
  have z1 := hw.isize_eq; have z2 := hw.jsize_eq; have z3 := hw.ksize_eq; have a4 := hwc.nz_pos
  have b1 := hh.nx; have b2 := hh.ny; have b3 := hh.nz hd
  rw [hh.gw, hh.nbvar] at hf
  have e1 : p.nx / 2 = pc.nx := by omega
  have e2 : p.ny / 2 = pc.ny := by omega
  have e3 : p.nz / 2 = pc.nz := by omega
  rw [← e1, ← e2, ← e3] at hf
  simp only [loadH5, readSizes, logical, hd, memSlab, wholeSpace, List.map, hup, ho', if_true] at hl
  have hij' := hij
  obtain ⟨⟨c1, c2⟩, ⟨c3, c4⟩, c5, c6⟩ := hij'
  rw [upscale_window3 hw hd hn hup (le_refl 0) (le_refl 0) (le_refl 0) (le_refl 0) (by omega) (by omega)
    (by omega) (by omega) (by omega) (by omega) (by omega) (by omega) (by omega) hf hl hij hv
    (by unfold parent; omega) (by unfold parent; omega) (by unfold parent; omega)
    (by unfold parent second; omega) (by unfold parent second; omega) (by unfold parent second; omega)]
  simp only [Int.sub_zero, Int.zero_add]

/-- **From a file without ghost cells** (2D): the interior cells get the refined values, except for the
normal field on the last fine faces inside the domain, see `C68_noghosts_garbage_2d`. -/
theorem C68_noghosts_2d {lay lay' : Layout} {o' : H5Options} (hw : p.WF) (hwc : pc.WF)
    (hh : HalfGrid pc p) (hd : p.dimType = .two) (hdc : pc.dimType = .two) (hn : UsualFields p)
    (hnc : UsualFields pc) (ho' : o'.ghostIncluded = false) (hup : o'.restartUpscale = true)
    {V host U : Loc Unit → R} {n : Int} {t : R} {f : H5File R} (hs : saveH5 lay {} pc V n t f)
    (hl : loadH5 lay' o' p f host U) {i j : Int} (hij : interior2 p i j) {v : Nat} (hv : v < p.nbvar)
    (hA : v = IA → i ≠ p.ghostWidth + p.nx - 1) (hB : v = IB → j ≠ p.ghostWidth + p.ny - 1) :
    U ⟨(), i, j, 0, v⟩ = refined2 p.ghostWidth (fun I J v => V ⟨(), I, J, 0, v⟩) i j v := by
  have hf := (C66_file_2d lay hwc hdc hnc hs).2.2
  have a1 := hwc.nx_pos; have a2 := hwc.ny_pos; have a3 := hw.gw_pos
  have z1 := hw.isize_eq; have z2 := hw.jsize_eq
  have b1 := hh.nx; have b2 := hh.ny
  rw [hh.gw, hh.nbvar] at hf
  have e1 : p.nx / 2 = pc.nx := by omega
  have e2 : p.ny / 2 = pc.ny := by omega
  rw [← e1, ← e2] at hf
  simp only [loadH5, readSizes, logical, hd, memSlab, wholeSpace, List.map, hup, ho', if_true,
    Bool.false_eq_true, if_false] at hl
  have hij' := hij
  obtain ⟨c1, c2, c3, c4⟩ := hij'
  rw [upscale_window2 hw hd hn hup (by omega) (le_refl 0) (le_refl 0) (by omega) (by omega) (by omega)
    (by omega) (by omega) (by omega) hf hl (show inGrid2 p i j from ⟨by omega, by omega, by omega, by omega⟩) hv
    (by unfold parent; omega) (by unfold parent; omega) (by unfold parent second; omega)
    (by unfold parent second; omega)]
  simp only [Int.sub_zero, Int.zero_add, Int.sub_add_cancel]

/-- the same in 3D -/
theorem C68_noghosts_3d {lay lay' : Layout} {o' : H5Options} (hw : p.WF) (hwc : pc.WF)
    (hh : HalfGrid pc p) (hd : p.dimType = .three) (hdc : pc.dimType = .three) (hn : UsualFields p)
    (hnc : UsualFields pc) (ho' : o'.ghostIncluded = false) (hup : o'.restartUpscale = true)
    {V host U : Loc Unit → R} {n : Int} {t : R} {f : H5File R} (hs : saveH5 lay {} pc V n t f)
    (hl : loadH5 lay' o' p f host U) {i j k : Int} (hij : interior3 p i j k) {v : Nat} (hv : v < p.nbvar)
    (hA : v = IA → i ≠ p.ghostWidth + p.nx - 1) (hB : v = IB → j ≠ p.ghostWidth + p.ny - 1)
    (hC : v = IC → k ≠ p.ghostWidth + p.nz - 1) :
    U ⟨(), i, j, k, v⟩ = refined3 p.ghostWidth (fun I J K v => V ⟨(), I, J, K, v⟩) i j k v := by
  have hf := (C66_file_3d lay hwc hdc hnc hs).2.2
  have a1 := hwc.nx_pos; have a2 := hwc.ny_pos; have a3 := hw.gw_pos
  have z1 := hw.isize_eq; have z2 := hw.jsize_eq; have z3 := hw.ksize_eq; have a4 := hwc.nz_pos
  have b1 := hh.nx; have b2 := hh.ny; have b3 := hh.nz hd
  rw [hh.gw, hh.nbvar] at hf
  have e1 : p.nx / 2 = pc.nx := by omega
  have e2 : p.ny / 2 = pc.ny := by omega
  have e3 : p.nz / 2 = pc.nz := by omega
  rw [← e1, ← e2, ← e3] at hf
  simp only [loadH5, readSizes, logical, hd, memSlab, wholeSpace, List.map, hup, ho', if_true,
    Bool.false_eq_true, if_false] at hl
  have hij' := hij
  obtain ⟨⟨c1, c2⟩, ⟨c3, c4⟩, c5, c6⟩ := hij'
  rw [upscale_window3 hw hd hn hup (by omega) (le_refl 0) (le_refl 0) (le_refl 0) (by omega) (by omega)
    (by omega) (by omega) (by omega) (by omega) (by omega) (by omega) (by omega) hf hl
    (show inGrid3 p i j k from ⟨⟨by omega, by omega⟩, ⟨by omega, by omega⟩, by omega, by omega⟩) hv
    (by unfold parent; omega) (by unfold parent; omega) (by unfold parent; omega)
    (by unfold parent second; omega) (by unfold parent second; omega) (by unfold parent second; omega)]
  simp only [Int.sub_zero, Int.zero_add, Int.sub_add_cancel]

/-! ### the divergence of the magnetic field -/

/-- the state of a cell of an array -/
def msOf (u : Nat → ℝ) : MS ℝ := ⟨u ID, u IP, u IU, u IV, u IW, u IA, u IB, u IC⟩

/-- **Refinement keeps the divergence**: in every fine cell the discrete divergence of the refined field is that of
the coarse field in the parent (2D) -/
theorem C68_divB_2d {p pc : Params ℝ} (hx : pc.dx = 2 * p.dx) (hy : pc.dy = 2 * p.dy)
    (u : Int → Int → Nat → ℝ) (g i j : Int) :
    divB2 p (fun i j => msOf (refined2 g u i j)) i j =
      divB2 pc (fun I J => msOf (u I J)) (parent g i) (parent g j) := by
  unfold divB2 msOf refined2
  dsimp only
  rw [hx, hy]
  have hi : (second g i ∧ parent g (i + 1) = parent g i + 1 ∧ ¬ second g (i + 1)) ∨
      (¬ second g i ∧ parent g (i + 1) = parent g i ∧ second g (i + 1)) := by unfold second parent; omega
  have hj : (second g j ∧ parent g (j + 1) = parent g j + 1 ∧ ¬ second g (j + 1)) ∨
      (¬ second g j ∧ parent g (j + 1) = parent g j ∧ second g (j + 1)) := by unfold second parent; omega
  rw [← div_div, ← div_div]
  rcases hi with ⟨h1, h2, h3⟩ | ⟨h1, h2, h3⟩ <;> rcases hj with ⟨h4, h5, h6⟩ | ⟨h4, h5, h6⟩ <;>
    simp only [h1, h2, h3, h4, h5, h6, and_self, and_true, and_false, if_true, if_false,
      show ¬ (IA = IB) by decide, show ¬ (IB = IA) by decide, false_and, RealOps.lit_real] <;> push_cast <;> ring

/-- the same in 3D -/
theorem C68_divB_3d {p pc : Params ℝ} (hx : pc.dx = 2 * p.dx) (hy : pc.dy = 2 * p.dy)
    (hz : pc.dz = 2 * p.dz) (u : Int → Int → Int → Nat → ℝ) (g i j k : Int) :
    divB3 p (fun i j k => msOf (refined3 g u i j k)) i j k =
      divB3 pc (fun I J K => msOf (u I J K)) (parent g i) (parent g j) (parent g k) := by
  unfold divB3 msOf refined3
  dsimp only
  rw [hx, hy, hz]
  have hi : (second g i ∧ parent g (i + 1) = parent g i + 1 ∧ ¬ second g (i + 1)) ∨
      (¬ second g i ∧ parent g (i + 1) = parent g i ∧ second g (i + 1)) := by unfold second parent; omega
  have hj : (second g j ∧ parent g (j + 1) = parent g j + 1 ∧ ¬ second g (j + 1)) ∨
      (¬ second g j ∧ parent g (j + 1) = parent g j ∧ second g (j + 1)) := by unfold second parent; omega
  have hk : (second g k ∧ parent g (k + 1) = parent g k + 1 ∧ ¬ second g (k + 1)) ∨
      (¬ second g k ∧ parent g (k + 1) = parent g k ∧ second g (k + 1)) := by unfold second parent; omega
  rw [← div_div, ← div_div, ← div_div]
  rcases hi with ⟨h1, h2, h3⟩ | ⟨h1, h2, h3⟩ <;> rcases hj with ⟨h4, h5, h6⟩ | ⟨h4, h5, h6⟩ <;>
    rcases hk with ⟨h7, h8, h9⟩ | ⟨h7, h8, h9⟩ <;>
    simp only [h1, h2, h3, h4, h5, h6, h7, h8, h9, and_self, and_true, and_false, if_true, if_false,
      show ¬ (IA = IB) by decide, show ¬ (IB = IA) by decide, show ¬ (IA = IC) by decide,
      show ¬ (IC = IA) by decide, show ¬ (IB = IC) by decide, show ¬ (IC = IB) by decide, false_and,
      RealOps.lit_real] <;> push_cast <;> ring

/-! ### totals -/

theorem parent_even (g : Int) (k : Nat) : parent g (g + 2 * (k : Int)) = g + k := by unfold parent; omega
theorem parent_odd (g : Int) (k : Nat) : parent g (g + 2 * (k : Int) + 1) = g + k := by unfold parent; omega

theorem sum_Ico_succ (f : Int → ℝ) {a b : Int} (h : a ≤ b) :
    ∑ i ∈ Finset.Ico a (b + 1), f i = ∑ i ∈ Finset.Ico a b, f i + f b := by
  have e : Finset.Ico a (b + 1) = insert b (Finset.Ico a b) := by
    ext x; simp only [Finset.mem_Ico, Finset.mem_insert]; omega
  rw [e, Finset.sum_insert (by simp), add_comm]

/-- every coarse cell has two halves -/
theorem sum_parent (g : Int) (f : Int → ℝ) (n : Nat) :
    ∑ i ∈ Finset.Ico g (g + 2 * (n : Int)), f (parent g i) = 2 * ∑ i ∈ Finset.Ico g (g + n), f i := by
  induction n with
  | zero => simp
  | succ n ih =>
    have e1 : g + 2 * ((n + 1 : Nat) : Int) = g + 2 * (n : Int) + 1 + 1 := by push_cast; ring
    have e2 : g + ((n + 1 : Nat) : Int) = g + (n : Int) + 1 := by push_cast; ring
    rw [e1, e2, sum_Ico_succ _ (by omega), sum_Ico_succ _ (by omega), sum_Ico_succ _ (by omega), ih,
      parent_even, parent_odd]
    ring

/-- **Totals**: mass, momentum and energy are kept by the refinement (a fine cell has a quarter of the area) -/
theorem C68_totals_2d {p pc : Params ℝ} (hwc : pc.WF) (hh : HalfGrid pc p)
    (u : Int → Int → Nat → ℝ) {v : Nat} (hA : v ≠ IA) (hB : v ≠ IB) :
    total2 p (fun i j => refined2 p.ghostWidth u i j v) = 4 * total2 pc (fun I J => u I J v) := by
  have a1 := hwc.nx_pos; have a2 := hwc.ny_pos
  obtain ⟨a, ha⟩ := Int.eq_ofNat_of_zero_le (show 0 ≤ pc.nx by omega)
  obtain ⟨b, hb⟩ := Int.eq_ofNat_of_zero_le (show 0 ≤ pc.ny by omega)
  unfold total2 refined2
  simp only [hA, hB, false_and, if_false]
  rw [hh.nx, hh.ny, hh.gw, ha, hb,
    sum_parent p.ghostWidth (fun I => ∑ j ∈ Finset.Ico p.ghostWidth (p.ghostWidth + 2 * (b : Int)),
      u I (parent p.ghostWidth j) v) a]
  simp only [fun I => sum_parent p.ghostWidth (fun J => u I J v) b, ← Finset.mul_sum]
  ring

/-- the same in 3D: a fine cell has an eighth of the volume -/
theorem C68_totals_3d {p pc : Params ℝ} (hwc : pc.WF) (hh : HalfGrid pc p) (hd : p.dimType = .three)
    (u : Int → Int → Int → Nat → ℝ) {v : Nat} (hA : v ≠ IA) (hB : v ≠ IB) (hC : v ≠ IC) :
    total3 p (fun i j k => refined3 p.ghostWidth u i j k v) = 8 * total3 pc (fun I J K => u I J K v) := by
  have a1 := hwc.nx_pos; have a2 := hwc.ny_pos; have a3 := hwc.nz_pos
  obtain ⟨a, ha⟩ := Int.eq_ofNat_of_zero_le (show 0 ≤ pc.nx by omega)
  obtain ⟨b, hb⟩ := Int.eq_ofNat_of_zero_le (show 0 ≤ pc.ny by omega)
  obtain ⟨c, hc⟩ := Int.eq_ofNat_of_zero_le (show 0 ≤ pc.nz by omega)
  unfold total3 refined3
  simp only [hA, hB, hC, false_and, if_false]
  rw [hh.nx, hh.ny, hh.nz hd, hh.gw, ha, hb, hc,
    sum_parent p.ghostWidth (fun I => ∑ j ∈ Finset.Ico p.ghostWidth (p.ghostWidth + 2 * (b : Int)),
      ∑ k ∈ Finset.Ico p.ghostWidth (p.ghostWidth + 2 * (c : Int)),
      u I (parent p.ghostWidth j) (parent p.ghostWidth k) v) a]
  simp only [fun I J => sum_parent p.ghostWidth (fun K => u I J K v) c, ← Finset.mul_sum]
  simp only [fun I => sum_parent p.ghostWidth (fun J =>
      ∑ k ∈ Finset.Ico p.ghostWidth (p.ghostWidth + (c : Int)), u I J k v) b, ← Finset.mul_sum]
  ring

/-! ### thermal energy -/

/-- thermal energy of a cell: the total energy without the kinetic energy and the energy of the mean of
the magnetic field over opposite faces (2D: `IC` is stored at the centre) -/
noncomputable def Spec.thermal2 (u : Int → Int → Nat → ℝ) (i j : Int) : ℝ :=
  u i j IP - (u i j IU ^ 2 + u i j IV ^ 2 + u i j IW ^ 2) / (2 * u i j ID) -
    (((u i j IA + u (i + 1) j IA) / 2) ^ 2 + ((u i j IB + u i (j + 1) IB) / 2) ^ 2 + u i j IC ^ 2) / 2

/-- **Heating and cooling**: the total energy is copied but the magnetic field is interpolated, so the mean thermal energy
of the four children is below that of the parent by 1/32 of the squared jumps of the normal field
across it. -/
theorem C68_thermal_2d (g : Int) (u : Int → Int → Nat → ℝ) (a b : Nat) :
    let I := g + (a : Int)
    let J := g + (b : Int)
    let i := g + 2 * (a : Int)
    let j := g + 2 * (b : Int)
    (thermal2 (refined2 g u) i j + thermal2 (refined2 g u) (i + 1) j +
      thermal2 (refined2 g u) i (j + 1) + thermal2 (refined2 g u) (i + 1) (j + 1)) / 4 =
    thermal2 u I J - ((u (I + 1) J IA - u I J IA) ^ 2 + (u I (J + 1) IB - u I J IB) ^ 2) / 32 := by
  have p1 : ∀ k : Nat, parent g (g + 2 * (k : Int)) = g + k := parent_even g
  have p2 : ∀ k : Nat, parent g (g + 2 * (k : Int) + 1) = g + k := parent_odd g
  have p3 : ∀ k : Nat, parent g (g + 2 * (k : Int) + 1 + 1) = g + k + 1 := by
    intro k; unfold parent; omega
  have s1 : ∀ k : Nat, ¬ second g (g + 2 * (k : Int)) := by intro k; unfold second; omega
  have s2 : ∀ k : Nat, second g (g + 2 * (k : Int) + 1) := by intro k; unfold second; omega
  have s3 : ∀ k : Nat, ¬ second g (g + 2 * (k : Int) + 1 + 1) := by intro k; unfold second; omega
  dsimp only
  unfold thermal2 refined2
  simp only [p1, p2, p3, s1, s2, s3, and_true, and_false, if_true, if_false, RealOps.lit_real,
    show ¬ (IA = IB) by decide, show ¬ (IB = IA) by decide, show ¬ (ID = IA) by decide,
    show ¬ (ID = IB) by decide, show ¬ (IP = IA) by decide, show ¬ (IP = IB) by decide,
    show ¬ (IU = IA) by decide, show ¬ (IU = IB) by decide, show ¬ (IV = IA) by decide,
    show ¬ (IV = IB) by decide, show ¬ (IW = IA) by decide, show ¬ (IW = IB) by decide,
    show ¬ (IC = IA) by decide, show ¬ (IC = IB) by decide, false_and]
  push_cast
  ring

/-- so an admissible coarse state may be refined into one with a negative thermal energy -/
theorem C68_negative_thermal_2d : ∃ (u : Int → Int → Nat → ℝ),
    (∀ i j, 0 < u i j ID ∧ 0 < thermal2 u i j) ∧ ∃ i j, thermal2 (refined2 0 u) i j < 0 := by
  refine ⟨fun i _ v => if v = ID then 1 else if v = IP then 1 else if v = IA then
    (if i % 2 = 0 then 4 else -4) else 0, ?_, 0, 0, ?_⟩
  · intro i j
    unfold thermal2
    have hi : (i % 2 = 0 ∧ (i + 1) % 2 = 1) ∨ (i % 2 = 1 ∧ (i + 1) % 2 = 0) := by omega
    rcases hi with ⟨h1, h2⟩ | ⟨h1, h2⟩ <;> simp [ID, IP, IU, IV, IW, IA, IB, IC, h1, h2]
  · unfold thermal2 refined2 parent second
    simp [ID, IP, IU, IV, IW, IA, IB, IC, RealOps.lit_real]
    norm_num

/-! ### the uninitialised buffer -/

theorem readFields_exists_junk (lay : Layout) (o : H5Options) (p : Params R) (mdims : List Int)
    (mem : Slab) (fdims : List Int) (file : Slab) (f : H5File R) (x : R) (l : Loc Unit)
    (hl : ∀ w h, l.v ≠ w → ∀ data, loadBuffer lay o p data w h l = h l) :
    ∀ (vs : List Nat) (h : Loc Unit → R), l.v ∈ vs → ∃ h', readFields lay o p mdims mem fdims file f vs h h' ∧
      ∃ data h₁, h' l = loadBuffer lay o p data l.v h₁ l ∧ match f.field (varName l.v) with
        | some d => read mdims mem fdims file d (fun _ => x) data
        | none => data = fun _ => x := by
  intro vs
  induction vs with
  | nil => intro h hm; simp at hm
  | cons v vs ih =>
    intro h hm
    have : ∃ h₁ data, readField lay o p mdims mem fdims file f v h h₁ ∧ h₁ = loadBuffer lay o p data v h ∧
        match f.field (varName v) with
        | some d => read mdims mem fdims file d (fun _ => x) data
        | none => data = fun _ => x := by
      cases hf : f.field (varName v) with
      | none => exact ⟨_, fun _ => x, ⟨fun _ => x, _, rfl, by rw [hf]⟩, rfl, rfl⟩
      | some d =>
        obtain ⟨b, hb⟩ := read_exists mdims mem fdims file d fun _ => x
        exact ⟨_, b, ⟨fun _ => x, b, rfl, by rw [hf]; exact hb⟩, rfl, hb⟩
    obtain ⟨h₁, data, r1, r2, r3⟩ := this
    by_cases hv : l.v ∈ vs
    · obtain ⟨h', hr, e⟩ := ih h₁ hv
      exact ⟨h', ⟨h₁, r1, hr⟩, e⟩
    · obtain ⟨h', hr⟩ := readFields_exists lay o p mdims mem fdims file f vs h₁
      have hlv : l.v = v := by rcases List.mem_cons.1 hm with h | h; exact h; exact absurd h hv
      refine ⟨h', ⟨h₁, r1, hr⟩, data, h, ?_, hlv ▸ r3⟩
      rw [hlv, ← r2]
      have : ∀ (vs : List Nat) (a b : Loc Unit → R), l.v ∉ vs →
          readFields lay o p mdims mem fdims file f vs a b → b l = a l := by
        intro vs
        induction vs with
        | nil => intro a b _ hr; rw [show b = a from hr]
        | cons w ws ih =>
          rintro a b hm ⟨c, ⟨_, data, rfl, _⟩, h2⟩
          rw [ih _ _ (fun h => hm (List.mem_cons_of_mem _ h)) h2,
            hl w a (fun h => hm (h ▸ List.mem_cons_self ..))]
      exact this vs h₁ h' hv hr

/-- **A file without ghost cells cannot be refined** in an MHD run (2D): the normal field on the fine faces
in the middle of the last coarse cells depends on memory that was never written.  Every value `x` of
that memory is possible. -/
theorem C68_noghosts_garbage_2d {lay lay' : Layout} {o' : H5Options} (hw : p.WF) (hwc : pc.WF)
    (hh : HalfGrid pc p) (hd : p.dimType = .two) (hdc : pc.dimType = .two) (hn : UsualFields p)
    (hnc : UsualFields pc) (hmhd : p.nbvar = 8) (ho' : o'.ghostIncluded = false) (hup : o'.restartUpscale = true)
    {V host : Loc Unit → R} {n : Int} {t : R} {f : H5File R} (hs : saveH5 lay {} pc V n t f)
    {j : Int} (hj : p.ghostWidth ≤ j ∧ j < p.ghostWidth + p.ny) (x : R) :
    ∃ U, loadH5 lay' o' p f host U ∧ U ⟨(), p.ghostWidth + p.nx - 1, j, 0, IA⟩ =
      (V ⟨(), p.ghostWidth + pc.nx - 1, parent p.ghostWidth j, 0, IA⟩ + x) / lit 2 := by
  have hf := (C66_file_2d lay hwc hdc hnc hs).2.2
  have a1 := hwc.nx_pos; have a2 := hwc.ny_pos; have a3 := hw.gw_pos
  have z1 := hw.isize_eq; have z2 := hw.jsize_eq
  have b1 := hh.nx; have b2 := hh.ny
  rw [hh.gw, hh.nbvar] at hf
  have e1 : p.nx / 2 = pc.nx := by omega
  have e2 : p.ny / 2 = pc.ny := by omega
  have hIA : IA < p.nbvar := by rw [hmhd]; decide
  obtain ⟨d, hd1, hd2, hd3⟩ := hf IA hIA
  have hij : inGrid2 p (p.ghostWidth + p.nx - 1) j := ⟨by omega, by omega, by omega, by omega⟩
  obtain ⟨U, hU, data, h₁, hx, hr⟩ := readFields_exists_junk lay' o' p
    [p.ny / 2 + 2 * p.ghostWidth, p.nx / 2 + 2 * p.ghostWidth]
    ⟨[p.ghostWidth, p.ghostWidth], [p.ny / 2, p.nx / 2]⟩ [p.ny / 2, p.nx / 2] (wholeSpace [p.ny / 2, p.nx / 2]) f x
    ⟨(), p.ghostWidth + p.nx - 1, j, 0, IA⟩ (by
      intro w h hne data
      simp only [loadBuffer, hd, hup, if_true]
      rw [upscaleBuffer2_get hw data w h hij, if_neg hne])
    (h5Fields p) host ((mem_h5Fields hn).2 hIA)
  refine ⟨U, ?_, ?_⟩
  · simp only [loadH5, readSizes, logical, hd, memSlab, List.map, hup, ho', if_true,
      Bool.false_eq_true, if_false]
    exact hU
  · rw [hx]
    simp only [hd1] at hr
    simp only [loadBuffer, hd, hup, if_true]
    rw [upscaleBuffer2_get hw data IA h₁ hij, if_pos rfl]
    unfold refined2
    have hs : second p.ghostWidth (p.ghostWidth + p.nx - 1) := by unfold second; omega
    have hp : parent p.ghostWidth (p.ghostWidth + p.nx - 1) = p.ghostWidth + pc.nx - 1 := by
      unfold parent; omega
    have hq : p.ghostWidth ≤ parent p.ghostWidth j ∧ parent p.ghostWidth j < p.ghostWidth + pc.ny := by
      unfold parent; omega
    simp only [hs, true_and, if_true, hp, wholeSpace, List.map] at hr ⊢
    rw [e1, e2] at hr
    rw [e1]
    rw [h5read2 (by omega) (by omega) (le_refl 0) (le_refl 0) (by omega) (by omega) (by omega) (by omega)
      (by omega) (by omega) hd2 hr (i := p.ghostWidth + pc.nx - 1) (j := parent p.ghostWidth j)
      ⟨by omega, by omega⟩ (by omega), hd3 _ _ (by omega) (by omega)]
    have hx' : data (p.ghostWidth + pc.nx - 1 + 1 + (pc.nx + 2 * p.ghostWidth) * parent p.ghostWidth j) = x := by
      have h' := hr (p.ghostWidth + pc.nx - 1 + 1 + (pc.nx + 2 * p.ghostWidth) * parent p.ghostWidth j)
      simp only [if_pos hd2, fun xs cs => mem_transfer2 (M := pc.ny + 2 * p.ghostWidth)
        (N := pc.nx + 2 * p.ghostWidth) (F := pc.ny) (G := pc.nx) (a := p.ghostWidth) (b := p.ghostWidth)
        (e := 0) (f := 0) (m := pc.ny) (n := pc.nx) (xs := xs) (cs := cs)
        (by omega) (by omega) (le_refl 0) (le_refl 0) (by omega) (by omega) (by omega) (by omega) (by omega)
        (by omega)] at h'
      rcases h' with ⟨_, _, ⟨j', i', hj', hi', rfl, rfl⟩, ho, hv⟩ | ⟨-, h'⟩
      · rw [rowMajor2] at ho
        obtain ⟨h1, h2⟩ := pos2_inj (by omega) (by omega) ho
        omega
      · exact h'
    rw [hx']
    simp only [Int.zero_add, Int.sub_add_cancel]

/-! ### the seam of a periodic domain -/

theorem msOf_a (u : Nat → ℝ) : (msOf u).a = u IA := rfl
theorem msOf_b (u : Nat → ℝ) : (msOf u).b = u IB := rfl

theorem periodic_next_x {p : Params ℝ} (hw : p.WF) (hP : PeriodicBox2 p) (hn : p.ghostWidth ≤ p.nx)
    (u : FldM2 ℝ) {i j : Int} (hij : interior2 p i j) :
    fillM2 p u (i + 1) j = if i = p.ghostWidth + p.nx - 1 then u p.ghostWidth j else u (i + 1) j := by
  have a := hw.gw_pos; have b := hw.nx_pos
  obtain ⟨h1, h2, h3, h4⟩ := hij
  split_ifs with h
  · rw [show i + 1 = p.ghostWidth + p.nx by omega, fillM2_periodic_x hP hn u j (by omega) (by omega),
      fillM2_interior p u ⟨by omega, by omega, h3, h4⟩]
  · exact fillM2_interior p u ⟨by omega, by omega, h3, h4⟩

theorem periodic_next_y {p : Params ℝ} (hw : p.WF) (hP : PeriodicBox2 p) (hn : p.ghostWidth ≤ p.ny)
    (u : FldM2 ℝ) {i j : Int} (hij : interior2 p i j) :
    fillM2 p u i (j + 1) = if j = p.ghostWidth + p.ny - 1 then u i p.ghostWidth else u i (j + 1) := by
  have a := hw.gw_pos; have b := hw.ny_pos
  obtain ⟨h1, h2, h3, h4⟩ := hij
  split_ifs with h
  · rw [show j + 1 = p.ghostWidth + p.ny by omega, fillM2_periodic_y hP hn u i (by omega) (by omega),
      fillM2_interior p u ⟨h1, h2, by omega, by omega⟩]
  · exact fillM2_interior p u ⟨h1, h2, by omega, by omega⟩

/-- the error of the divergence at a seam: `d` in the second half of the last coarse cell, `-d` in the first -/
noncomputable def Spec.seamError (g n i : Int) (d : ℝ) : ℝ :=
  if parent g i = g + n - 1 then (if second g i then d else -d) else 0

/-- **The seam**: on a periodic domain the divergence of the refined field, as the first step sees it (with the
ghost faces filled), is that of the coarse field in the parent, except in the last coarse cells before
the seam, where it is off by the difference between the first face of the domain and the ghost face
stored in the file, over the coarse cell size. -/
theorem C68_seam_2d {p pc : Params ℝ} (hw : p.WF) (hwc : pc.WF) (hh : HalfGrid pc p)
    (hP : PeriodicBox2 p) (hPc : PeriodicBox2 pc) (hx : pc.dx = 2 * p.dx) (hy : pc.dy = 2 * p.dy)
    (tx : pc.ghostWidth ≤ pc.nx) (ty : pc.ghostWidth ≤ pc.ny)
    (u : Int → Int → Nat → ℝ) {i j : Int} (hij : interior2 p i j) :
    let g := p.ghostWidth
    let I := parent g i
    let J := parent g j
    divB2 p (fillM2 p fun i j => msOf (refined2 g u i j)) i j =
      divB2 pc (fillM2 pc fun I J => msOf (u I J)) I J +
      seamError g pc.nx i ((u g J IA - u (g + pc.nx) J IA) / pc.dx) +
      seamError g pc.ny j ((u I g IB - u I (g + pc.ny) IB) / pc.dy) := by
  dsimp only
  have a1 := hwc.nx_pos; have a2 := hwc.ny_pos; have a3 := hw.gw_pos
  have b1 := hh.nx; have b2 := hh.ny; have b3 := hh.gw
  have hij' := hij
  obtain ⟨c1, c2, c3, c4⟩ := hij'
  have hIJ : interior2 pc (parent p.ghostWidth i) (parent p.ghostWidth j) := by
    unfold parent; exact ⟨by omega, by omega, by omega, by omega⟩
  unfold divB2 seamError
  rw [periodic_next_x hw hP (by omega) _ hij, periodic_next_y hw hP (by omega) _ hij,
    fillM2_interior p _ hij, periodic_next_x hwc hPc tx _ hIJ, periodic_next_y hwc hPc ty _ hIJ,
    fillM2_interior pc _ hIJ, hx, hy, hh.gw]
  have g0 : parent p.ghostWidth p.ghostWidth = p.ghostWidth := by unfold parent; omega
  have g1 : ¬ second p.ghostWidth p.ghostWidth := by unfold second; omega
  have cut : ∀ {n nc x : Int}, n = 2 * nc → 
      (second p.ghostWidth x ∧ parent p.ghostWidth (x + 1) = parent p.ghostWidth x + 1 ∧
        ¬ second p.ghostWidth (x + 1) ∧ (x = p.ghostWidth + n - 1 ↔
          parent p.ghostWidth x = p.ghostWidth + nc - 1)) ∨
      (¬ second p.ghostWidth x ∧ parent p.ghostWidth (x + 1) = parent p.ghostWidth x ∧
        second p.ghostWidth (x + 1) ∧ x ≠ p.ghostWidth + n - 1) := by
    intro n nc x hn; unfold second parent; omega
  have hdx : ∀ y : ℝ, y / (2 * p.dx) = y / 2 / p.dx := fun y => by rw [div_div]
  have hdy : ∀ y : ℝ, y / (2 * p.dy) = y / 2 / p.dy := fun y => by rw [div_div]
  simp only [hdx, hdy]
  have e1 : p.ghostWidth + pc.nx - 1 + 1 = p.ghostWidth + pc.nx := by ring
  have e2 : p.ghostWidth + pc.ny - 1 + 1 = p.ghostWidth + pc.ny := by ring
  unfold msOf refined2
  rcases cut b1 (x := i) with ⟨h1, h2, h3, h4⟩ | ⟨h1, h2, h3, h4⟩ <;>
    rcases cut b2 (x := j) with ⟨h5, h6, h7, h8⟩ | ⟨h5, h6, h7, h8⟩ <;>
    by_cases k1 : parent p.ghostWidth i = p.ghostWidth + pc.nx - 1 <;>
    by_cases k2 : parent p.ghostWidth j = p.ghostWidth + pc.ny - 1 <;>
    simp only [h1, h2, h3, h4, h5, h6, h7, h8, k1, k2, g0, g1, e1, e2, and_self, and_true, and_false, if_true,
      if_false, show ¬ (IA = IB) by decide, show ¬ (IB = IA) by decide, false_and, RealOps.lit_real] <;>
    push_cast <;> ring

/-- **The ghost cells of a file are those of the step before** (version 0): after a step on a periodic domain
the ghost face of the new array holds the first face of the domain *before* the step, not after it.  With
`C68_seam_2d`: refining a file written after a step creates a divergence at the seams equal to the last change of
the normal field there, over the cell size. -/
theorem C68_stale_ghosts_2d {p : Params ℝ} (hp : Mhd2 p) (hP : PeriodicBox2 p)
    (hi : p.implementationVersion = 0) (dt : ℝ) (jk : JunkM ℝ) {inA outA : Arr} (hpp : PingPong inA outA)
    {m m' : Mem Arr ℝ} (hm : godunovMhd2 p dt jk inA outA m m') {i j : Int} (hij : interior2 p i j) :
    ms2 m' outA (p.ghostWidth + p.nx) j = ms2 m inA p.ghostWidth j ∧
    ms2 m' outA i (p.ghostWidth + p.ny) = ms2 m inA i p.ghostWidth := by
  obtain ⟨mb, hb, hs⟩ := hm
  obtain ⟨b1, b2, b3, b4, b5⟩ := preMhd2_result hp signLaws_real hpp hb
  have s2 := (postMhd2_result0 hp hi hpp b5 b4 hs).2
  have a := hp.gw; have b := hp.wf.nx_pos; have b' := hp.wf.ny_pos
  have z1 := hp.wf.isize_eq; have z2 := hp.wf.jsize_eq
  obtain ⟨tx, ty⟩ := hP.thick hp.faces
  obtain ⟨h1, h2, h3, h4⟩ := hij
  constructor
  · rw [s2, stepM2, if_neg (fun h => absurd h.2.1 (by omega)), b2 _ _ ⟨by omega, by omega, by omega, by omega⟩,
      fillM2_periodic_x hP tx _ j (by omega) (by omega), fillM2_interior p _ ⟨by omega, by omega, h3, h4⟩]
  · rw [s2, stepM2, if_neg (fun h => absurd h.2.2.2 (by omega)), b2 _ _ ⟨by omega, by omega, by omega, by omega⟩,
      fillM2_periodic_y hP ty _ i (by omega) (by omega), fillM2_interior p _ ⟨h1, h2, by omega, by omega⟩]

/-! ### a case -/

/-- the sample MHD grid of 4 × 3 cells -/
noncomputable def sampleCoarse : Params ℝ :=
  ({ rawSample .periodic .periodic 3 8 with mhdEnabled := true } : Params ℝ).init

/-- … and refined -/
noncomputable def sampleFine : Params ℝ :=
  ({ rawSample .periodic .periodic 3 8 with mhdEnabled := true, nx := 8, ny := 6, nz := 10 } : Params ℝ).init

theorem sampleFine_wf : sampleFine.WF :=
  Params.init_wf _ (by simp [rawSample]) (by simp [rawSample]) (by simp [rawSample]) (by simp [rawSample])

theorem sampleCoarse_wf : sampleCoarse.WF :=
  Params.init_wf _ (by simp [rawSample]) (by simp [rawSample]) (by simp [rawSample]) (by simp [rawSample])

theorem sampleFine_half : HalfGrid sampleCoarse sampleFine := by
  constructor <;> simp [sampleFine, sampleCoarse, rawSample, Params.init]

theorem sampleFine_dx : sampleCoarse.dx = 2 * sampleFine.dx ∧
    sampleCoarse.dy = 2 * sampleFine.dy := by
  constructor <;> simp [sampleFine, sampleCoarse, rawSample, Params.init, intLit, RealOps.lit_real] <;> norm_num

/-- files and loads exist, the seam theorem applies, and the ghost-free load may be wrong -/
example (V host : Loc Unit → ℝ) (x : ℝ) :
    ∃ f, saveH5 .left { ghostIncluded := true } sampleCoarse V 3 1 f ∧
    ∃ U, loadH5 .right { ghostIncluded := true, restartUpscale := true } sampleFine f host U ∧
    (∀ i j v, inGrid2 sampleFine i j → v < 8 →
      U ⟨(), i, j, 0, v⟩ = refined2 3 (fun I J v => V ⟨(), I, J, 0, v⟩) i j v) ∧
    ∃ f, saveH5 .left {} sampleCoarse V 3 1 f ∧
    ∃ U, loadH5 .right { restartUpscale := true } sampleFine f host U ∧
      U ⟨(), 10, 5, 0, IA⟩ = (V ⟨(), 6, 4, 0, IA⟩ + x) / 2 := by
  obtain ⟨f, hf⟩ := saveH5_exists .left { ghostIncluded := true } sampleCoarse V 3 1
  obtain ⟨f', hf'⟩ := saveH5_exists .left {} sampleCoarse V 3 1
  obtain ⟨U, hU⟩ : ∃ U, loadH5 .right { ghostIncluded := true, restartUpscale := true } sampleFine f host U :=
    readFields_exists ..
  have hd : sampleFine.dimType = .two := rfl
  have hdc : sampleCoarse.dimType = .two := rfl
  have hn : UsualFields sampleFine := by simp [UsualFields, sampleFine, rawSample, Params.init]
  have hnc : UsualFields sampleCoarse := by
    simp [UsualFields, sampleCoarse, rawSample, Params.init]
  refine ⟨f, hf, U, hU, fun i j v hij hv => ?_, f', hf', ?_⟩
  · exact C68_cells_2d sampleFine_wf sampleCoarse_wf sampleFine_half hd hdc hn hnc rfl rfl rfl hf hU hij hv
  · obtain ⟨U, h1, h2⟩ := C68_noghosts_garbage_2d (lay' := .right) (o' := { restartUpscale := true })
      sampleFine_wf sampleCoarse_wf sampleFine_half hd hdc hn hnc rfl rfl rfl (host := host) hf'
      (j := 5) ⟨by show (3 : Int) ≤ 5; omega, by show (5 : Int) < 3 + 6; omega⟩ x
    refine ⟨U, h1, ?_⟩
    rw [RealOps.lit_real] at h2
    push_cast at h2
    exact h2

example (u : Int → Int → Nat → ℝ) : ∃ i j : Int, interior2 sampleFine i j ∧
    divB2 sampleFine (fillM2 sampleFine fun i j => msOf (refined2 3 u i j)) i j =
      divB2 sampleCoarse (fillM2 sampleCoarse fun I J => msOf (u I J))
        (parent 3 i) (parent 3 j) +
      seamError 3 4 i ((u 3 (parent 3 j) IA - u 7 (parent 3 j) IA) / sampleCoarse.dx) +
      seamError 3 3 j ((u (parent 3 i) 3 IB - u (parent 3 i) 6 IB) / sampleCoarse.dy) := by
  have hij : interior2 sampleFine 10 8 := by
    simp [interior2, sampleFine, rawSample, Params.init]
  exact ⟨10, 8, hij, C68_seam_2d sampleFine_wf sampleCoarse_wf sampleFine_half ⟨rfl, rfl, rfl, rfl⟩
    ⟨rfl, rfl, rfl, rfl⟩ sampleFine_dx.1 sampleFine_dx.2 (by show (3 : Int) ≤ 4; omega)
    (by show (3 : Int) ≤ 3; omega) u hij⟩

end EulerKokkos
