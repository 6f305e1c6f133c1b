import Verif.Lemmas.Boundaries
import Verif.Lemmas.Step2D

/-!
# The ghost fill as a whole
-/

set_option linter.constructorNameAsVariable false
set_option linter.unusedSectionVars false

namespace EulerKokkos

variable {R : Type} [RealOps R]
open Spec

theorem srcCoord_interior {b1 b2 : BC} {n gw c : Int} (hn : 1 ≤ n) (h1 : BCok b1 n gw)
    (h2 : BCok b2 n gw) (hc : 0 ≤ c) (hc' : c < n + 2 * gw) :
    gw ≤ srcCoord b1 b2 n gw c ∧ srcCoord b1 b2 n gw c < gw + n := by
  unfold srcCoord
  unfold BCok at h1 h2
  split
  · cases b1 <;> simp at h1 <;> simp only <;> omega
  · split
    · cases b2 <;> simp at h2 <;> simp only <;> omega
    · omega

/-- min face then max face along one axis -/
theorem axisFill (hS : SignLaws R) {mhd : Bool} {b1 b2 : BC} {n gw : Int} (hn : 1 ≤ n)
    (hgw : 0 ≤ gw)
    (h1 : BCok b1 n gw) (h2 : BCok b2 n gw) {axis v : Nat} {pos : Int → Loc Arr}
    {m ma mb : Mem Arr R}
    (f1 : ∀ c, 0 ≤ c → c < n + 2 * gw → ma (pos c) =
      if c < gw then m (pos (bcSrcMin b1 n gw c)) * bcSign mhd b1 (IU + axis) (IA + axis) v
      else m (pos c))
    (f2 : ∀ c, 0 ≤ c → c < n + 2 * gw → mb (pos c) =
      if n + gw ≤ c then ma (pos (bcSrcMax b2 n gw c)) * bcSign mhd b2 (IU + axis) (IA + axis) v
      else ma (pos c)) (c : Int) (hc : 0 ≤ c) (hc' : c < n + 2 * gw) :
    mb (pos c) = signed (normalVar mhd axis v ∧ flips b1 b2 n gw c)
      (m (pos (srcCoord b1 b2 n gw c))) := by
  have hsg : ∀ (b : BC) (x : R), x * bcSign mhd b (IU + axis) (IA + axis) v =
      signed (normalVar mhd axis v ∧ b = .dirichlet) x := by
    intro b x
    unfold bcSign signed normalVar
    by_cases hh : b = .dirichlet ∧ (v = IU + axis ∨ (mhd = true ∧ v = IA + axis))
    · rw [if_pos hh, if_pos hh.symm, hS.mul_neg_one]
    · rw [if_neg hh, if_neg (fun h => hh h.symm), hS.mul_one]
  have hsrc := srcCoord_interior hn h1 h2 hc hc'
  rw [f2 c hc hc']
  by_cases c1 : c < gw
  · rw [if_neg (by omega), f1 c hc hc', if_pos c1, hsg]
    have e : bcSrcMin b1 n gw c = srcCoord b1 b2 n gw c := by
      unfold bcSrcMin srcCoord; rw [if_pos c1]; cases b1 <;> simp [add_comm]
    rw [e]
    unfold signed flips
    have : ¬ gw + n ≤ c := by omega
    simp [c1, this]
  · by_cases c2 : n + gw ≤ c
    · rw [if_pos c2, hsg]
      have e : bcSrcMax b2 n gw c = srcCoord b1 b2 n gw c := by
        have c2' : gw + n ≤ c := by omega
        unfold bcSrcMax srcCoord; rw [if_neg c1, if_pos c2']; cases b2 <;> simp <;> omega
      rw [e, f1 _ (by omega) (by omega), if_neg (by omega)]
      unfold signed flips
      have : gw + n ≤ c := by omega
      simp [c1, this]
    · rw [if_neg c2, f1 c hc hc', if_neg c1]
      have e : srcCoord b1 b2 n gw c = c := by
        unfold srcCoord; rw [if_neg c1, if_neg (by omega)]
      have e2 : ¬ flips b1 b2 n gw c := by
        unfold flips; rintro (⟨h, _⟩ | ⟨h, _⟩) <;> omega
      rw [e]; unfold signed; rw [if_neg (fun h => e2 h.2)]

/-- every face of a 2D grid finds its sources inside the domain -/
def Faces2Ok (p : Params R) : Prop :=
  BCok p.boundary_type_xmin p.nx p.ghostWidth ∧ BCok p.boundary_type_xmax p.nx p.ghostWidth ∧
  BCok p.boundary_type_ymin p.ny p.ghostWidth ∧ BCok p.boundary_type_ymax p.ny p.ghostWidth

/-- every face of a 3D grid finds its sources inside the domain -/
def Faces3Ok (p : Params R) : Prop :=
  Faces2Ok p ∧
  BCok p.boundary_type_zmin p.nz p.ghostWidth ∧ BCok p.boundary_type_zmax p.nz p.ghostWidth

theorem faceFill_eval {nb : Nat} {U : Arr} {G : Int × Int × Int → Prop} [DecidablePred G]
    {src : Int × Int × Int → Int × Int × Int} {sgn : Nat → R} {m : Mem Arr R} {i j k : Int} {v : Nat}
    (hv : v < nb) : faceFill nb U G src sgn m ⟨U, i, j, k, v⟩ =
      if G (i, j, k) then m ⟨U, (src (i, j, k)).1, (src (i, j, k)).2.1, (src (i, j, k)).2.2, v⟩ *
        sgn v else m ⟨U, i, j, k, v⟩ := by
  unfold faceFill cellOf
  by_cases hg : G (i, j, k)
  · simp [hg, hv]
  · simp [hg]

theorem faceFill_off {nb : Nat} {U : Arr} {G : Int × Int × Int → Prop} [DecidablePred G]
    {src : Int × Int × Int → Int × Int × Int} {sgn : Nat → R} {m : Mem Arr R} {l : Loc Arr}
    (hl : ¬ (l.arr = U ∧ G (cellOf l) ∧ l.v < nb)) : faceFill nb U G src sgn m l = m l := by
  unfold faceFill; rw [if_neg hl]

/-- The memory after `make_boundaries_serial` (2D), every schedule. -/
theorem makeBoundaries2_is {p : Params R} (hw : p.WF) (hf : Faces2Ok p) (mhd : Bool) (U : Arr) :
    ∃ F, (makeBoundaries2 mhd p U).Is F ∧ ∀ m,
      (∀ l : Loc Arr, ¬ (l.arr = U ∧ l.k = 0 ∧ inGrid2 p l.i l.j ∧ ¬ interior2 p l.i l.j ∧
        l.v < p.nbvar) → F m l = m l) ∧
      (SignLaws R → ∀ i j v, inGrid2 p i j → v < p.nbvar →
        F m ⟨U, i, j, 0, v⟩ = ghost2 mhd p (fun i j v => m ⟨U, i, j, 0, v⟩) i j v) := by
  obtain ⟨f1, f2, f3, f4⟩ := hf
  have hgw := hw.gw_pos
  have hx := hw.nx_pos
  have hy := hw.ny_pos
  have hI := hw.isize_eq
  have hJ := hw.jsize_eq
  refine ⟨_, (makeBoundaryK2_is mhd U hw .xmin f1).seq ((makeBoundaryK2_is mhd U hw .xmax f2).seq
    ((makeBoundaryK2_is mhd U hw .ymin f3).seq ((makeBoundaryK2_is mhd U hw .ymax f4).seq
      Kern.Is.skip))), fun m => ⟨?_, ?_⟩⟩
  · rintro ⟨a, i, j, k, v⟩ hl
    simp only [Function.comp, id]
    have hn : ∀ f : Face, ¬ (a = U ∧ G2 p f (i, j, k) ∧ v < p.nbvar) := by
      rintro f ⟨ha, hg, hv⟩
      apply hl
      simp only [inGrid2, interior2]
      cases f <;> simp only [G2] at hg <;> (try exact hg.2.elim) <;>
        (refine ⟨ha, hg.1, ?_, ?_, hv⟩ <;> omega)
    rw [faceFill_off (hn .ymax), faceFill_off (hn .ymin), faceFill_off (hn .xmax),
      faceFill_off (hn .xmin)]
  · intro hS i j v hij hv
    obtain ⟨hi0, hi1, hj0, hj1⟩ := hij
    simp only [Function.comp, id]
    set m1 := faceFill p.nbvar U (G2 p .xmin) (faceSrc p .xmin) (faceSign mhd p .xmin) m with e1
    set m2 := faceFill p.nbvar U (G2 p .xmax) (faceSrc p .xmax) (faceSign mhd p .xmax) m1 with e2
    set m3 := faceFill p.nbvar U (G2 p .ymin) (faceSrc p .ymin) (faceSign mhd p .ymin) m2 with e3
    set m4 := faceFill p.nbvar U (G2 p .ymax) (faceSrc p .ymax) (faceSign mhd p .ymax) m3 with e4
    have hX : ∀ i j, 0 ≤ i → i < p.nx + 2 * p.ghostWidth → 0 ≤ j → j < p.ny + 2 * p.ghostWidth →
        m2 ⟨U, i, j, 0, v⟩ = _ := fun i j a b c d =>
      axisFill hS (axis := 0) (v := v) (mhd := mhd) hx (by omega) f1 f2
      (pos := fun c => ⟨U, c, j, 0, v⟩) (m := m) (ma := m1) (mb := m2)
      (by
        intro s hs hs'
        rw [e1, faceFill_eval hv]
        refine if_congr ?_ rfl rfl
        simp only [G2]; constructor
        · rintro ⟨_, h⟩; omega
        · intro h; exact ⟨trivial, by omega⟩)
      (by
        intro s hs hs'
        rw [e2, faceFill_eval hv]
        refine if_congr ?_ rfl rfl
        simp only [G2]; constructor
        · rintro ⟨_, h⟩; omega
        · intro h; exact ⟨trivial, by omega⟩) i a b
    have hY := axisFill hS (axis := 1) (v := v) (mhd := mhd) hy (by omega) f3 f4
      (pos := fun c => ⟨U, i, c, 0, v⟩) (m := m2) (ma := m3) (mb := m4)
      (by
        intro s hs hs'
        rw [e3, faceFill_eval hv]
        refine if_congr ?_ rfl rfl
        simp only [G2]; constructor
        · rintro ⟨_, h⟩; omega
        · intro h; exact ⟨trivial, by omega⟩)
      (by
        intro s hs hs'
        rw [e4, faceFill_eval hv]
        refine if_congr ?_ rfl rfl
        simp only [G2]; constructor
        · rintro ⟨_, h⟩; omega
        · intro h; exact ⟨trivial, by omega⟩) j hj0 hj1
    have hs := srcCoord_interior hy f3 f4 hj0 hj1
    rw [hY, hX _ _ hi0 hi1 (by omega) (by omega)]
    rfl

/-- 3D grid cells -/
def Spec.inGrid3 (p : Params R) (i j k : Int) : Prop :=
  (0 ≤ i ∧ i < p.nx + 2 * p.ghostWidth) ∧ (0 ≤ j ∧ j < p.ny + 2 * p.ghostWidth) ∧
  (0 ≤ k ∧ k < p.nz + 2 * p.ghostWidth)

/-- 3D interior cells -/
def Spec.interior3 (p : Params R) (i j k : Int) : Prop :=
  (p.ghostWidth ≤ i ∧ i < p.ghostWidth + p.nx) ∧ (p.ghostWidth ≤ j ∧ j < p.ghostWidth + p.ny) ∧
  (p.ghostWidth ≤ k ∧ k < p.ghostWidth + p.nz)

instance (p : Params R) (i j k : Int) : Decidable (interior3 p i j k) := by
  unfold interior3; infer_instance

/-- The memory after `make_boundaries_serial` (3D), every schedule. -/
theorem makeBoundaries3_is {p : Params R} (hw : p.WF) (hf : Faces3Ok p) (mhd : Bool) (U : Arr) :
    ∃ F, (makeBoundaries3 mhd p U).Is F ∧ ∀ m,
      (∀ l : Loc Arr, ¬ (l.arr = U ∧ inGrid3 p l.i l.j l.k ∧ ¬ interior3 p l.i l.j l.k ∧
        l.v < p.nbvar) → F m l = m l) ∧
      (SignLaws R → ∀ i j k v, inGrid3 p i j k → v < p.nbvar →
        F m ⟨U, i, j, k, v⟩ = ghost3 mhd p (fun i j k v => m ⟨U, i, j, k, v⟩) i j k v) := by
  obtain ⟨⟨f1, f2, f3, f4⟩, f5, f6⟩ := hf
  have hgw := hw.gw_pos
  have hx := hw.nx_pos
  have hy := hw.ny_pos
  have hz := hw.nz_pos
  have hI := hw.isize_eq
  have hJ := hw.jsize_eq
  have hK := hw.ksize_eq
  refine ⟨_, (makeBoundaryK3_is mhd U hw .xmin f1).seq ((makeBoundaryK3_is mhd U hw .xmax f2).seq
    ((makeBoundaryK3_is mhd U hw .ymin f3).seq ((makeBoundaryK3_is mhd U hw .ymax f4).seq
    ((makeBoundaryK3_is mhd U hw .zmin f5).seq ((makeBoundaryK3_is mhd U hw .zmax f6).seq
      Kern.Is.skip))))), fun m => ⟨?_, ?_⟩⟩
  · rintro ⟨a, i, j, k, v⟩ hl
    simp only [Function.comp, id]
    have hn : ∀ f : Face, ¬ (a = U ∧ G3 p f (i, j, k) ∧ v < p.nbvar) := by
      rintro f ⟨ha, hg, hv⟩
      apply hl
      simp only [inGrid3, interior3]
      cases f <;> simp only [G3] at hg <;>
        (refine ⟨ha, ?_, ?_, hv⟩ <;> omega)
    rw [faceFill_off (hn .zmax), faceFill_off (hn .zmin),
      faceFill_off (hn .ymax), faceFill_off (hn .ymin), faceFill_off (hn .xmax),
      faceFill_off (hn .xmin)]
  · intro hS i j k v hij hv
    obtain ⟨⟨hi0, hi1⟩, ⟨hj0, hj1⟩, hk0, hk1⟩ := hij
    simp only [Function.comp, id]
    set m1 := faceFill p.nbvar U (G3 p .xmin) (faceSrc p .xmin) (faceSign mhd p .xmin) m with e1
    set m2 := faceFill p.nbvar U (G3 p .xmax) (faceSrc p .xmax) (faceSign mhd p .xmax) m1 with e2
    set m3 := faceFill p.nbvar U (G3 p .ymin) (faceSrc p .ymin) (faceSign mhd p .ymin) m2 with e3
    set m4 := faceFill p.nbvar U (G3 p .ymax) (faceSrc p .ymax) (faceSign mhd p .ymax) m3 with e4
    set m5 := faceFill p.nbvar U (G3 p .zmin) (faceSrc p .zmin) (faceSign mhd p .zmin) m4 with e5
    set m6 := faceFill p.nbvar U (G3 p .zmax) (faceSrc p .zmax) (faceSign mhd p .zmax) m5 with e6
    have hX : ∀ i j k, 0 ≤ i → i < p.nx + 2 * p.ghostWidth → 0 ≤ j → j < p.ny + 2 * p.ghostWidth →
        0 ≤ k → k < p.nz + 2 * p.ghostWidth →
        m2 ⟨U, i, j, k, v⟩ = _ := fun i j k a b c d e f =>
      axisFill hS (axis := 0) (v := v) (mhd := mhd) hx (by omega) f1 f2
      (pos := fun c => ⟨U, c, j, k, v⟩) (m := m) (ma := m1) (mb := m2)
      (by
        intro s hs hs'
        rw [e1, faceFill_eval hv]
        refine if_congr ?_ rfl rfl
        simp only [G3]; constructor <;> intro h <;> omega)
      (by
        intro s hs hs'
        rw [e2, faceFill_eval hv]
        refine if_congr ?_ rfl rfl
        simp only [G3]; constructor <;> intro h <;> omega) i a b
    have hY : ∀ i j k, 0 ≤ i → i < p.nx + 2 * p.ghostWidth → 0 ≤ j → j < p.ny + 2 * p.ghostWidth →
        0 ≤ k → k < p.nz + 2 * p.ghostWidth →
        m4 ⟨U, i, j, k, v⟩ = _ := fun i j k a b c d e f =>
      axisFill hS (axis := 1) (v := v) (mhd := mhd) hy (by omega) f3 f4
      (pos := fun c => ⟨U, i, c, k, v⟩) (m := m2) (ma := m3) (mb := m4)
      (by
        intro s hs hs'
        rw [e3, faceFill_eval hv]
        refine if_congr ?_ rfl rfl
        simp only [G3]; constructor <;> intro h <;> omega)
      (by
        intro s hs hs'
        rw [e4, faceFill_eval hv]
        refine if_congr ?_ rfl rfl
        simp only [G3]; constructor <;> intro h <;> omega) j c d
    have hZ := axisFill hS (axis := 2) (v := v) (mhd := mhd) hz (by omega) f5 f6
      (pos := fun c => ⟨U, i, j, c, v⟩) (m := m4) (ma := m5) (mb := m6)
      (by
        intro s hs hs'
        rw [e5, faceFill_eval hv]
        refine if_congr ?_ rfl rfl
        simp only [G3]; constructor <;> intro h <;> omega)
      (by
        intro s hs hs'
        rw [e6, faceFill_eval hv]
        refine if_congr ?_ rfl rfl
        simp only [G3]; constructor <;> intro h <;> omega) k hk0 hk1
    have hs := srcCoord_interior hz f5 f6 hk0 hk1
    have hs' := srcCoord_interior hy f3 f4 hj0 hj1
    rw [hZ, hY _ _ _ hi0 hi1 hj0 hj1 (by omega) (by omega),
      hX _ _ _ hi0 hi1 (by omega) (by omega) (by omega) (by omega)]
    rfl

theorem signLaws_real : SignLaws ℝ :=
  ⟨fun x => by simp, fun x => by simp⟩

end EulerKokkos
