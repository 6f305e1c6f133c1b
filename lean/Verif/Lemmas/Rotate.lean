import Verif.Lemmas.RunSymmetry
import Verif.Lemmas.DistMhd
import Verif.Props.C53

/-!
# Moving a periodic domain: ghost cells, time step and scheme
-/

set_option linter.constructorNameAsVariable false
set_option linter.unusedSectionVars false
set_option linter.unusedSimpArgs false

namespace EulerKokkos
open Spec

/-! ## One axis -/

theorem rotIdx_range {n gw a c : Int} (hn : 1 ≤ n) :
    gw ≤ rotIdx n gw a c ∧ rotIdx n gw a c < gw + n := by
  have h1 := Int.emod_nonneg (c - gw + a) (show n ≠ 0 by omega)
  have h2 := Int.emod_lt_of_pos (c - gw + a) (show 0 < n by omega)
  unfold rotIdx
  omega

theorem rotIdx_eq {n gw a c x : Int} (h1 : gw ≤ x) (h2 : x < gw + n) (q : Int)
    (h : x = c + a + n * q) : rotIdx n gw a c = x := by
  unfold rotIdx
  have e : c - gw + a = (x - gw) + n * (-q) := by rw [h]; ring
  rw [e, Int.add_mul_emod_self_left, Int.emod_eq_of_lt (by omega) (by omega)]
  omega

theorem rotIdx_zero {n gw c : Int} (h1 : gw ≤ c) (h2 : c < gw + n) : rotIdx n gw 0 c = c :=
  rotIdx_eq h1 h2 0 (by ring)

theorem rotIdx_repr (n gw a c : Int) : ∃ q, rotIdx n gw a c = c + a + n * q := by
  refine ⟨-((c - gw + a) / n), ?_⟩
  unfold rotIdx
  have := Int.emod_add_mul_ediv (c - gw + a) n
  have e : n * -((c - gw + a) / n) = -(n * ((c - gw + a) / n)) := by ring
  rw [e]
  omega

theorem rotIdx_back {n gw a c : Int} (h1 : gw ≤ c) (h2 : c < gw + n) :
    rotIdx n gw a (rotIdx n gw (-a) c) = c := by
  obtain ⟨q, hq⟩ := rotIdx_repr n gw (-a) c
  refine rotIdx_eq h1 h2 (-q) ?_
  rw [hq]; ring

theorem srcCoord_rot {n gw c : Int} (hn : gw ≤ n) (hc : 0 ≤ c) (hc' : c < n + 2 * gw) :
    srcCoord .periodic .periodic n gw c = rotIdx n gw 0 c := by
  unfold srcCoord
  simp only
  split_ifs
  · exact (rotIdx_eq (by omega) (by omega) 1 (by ring)).symm
  · exact (rotIdx_eq (by omega) (by omega) (-1) (by ring)).symm
  · exact (rotIdx_eq (by omega) (by omega) 0 (by ring)).symm

/-- near interior cells, filling ghost cells and moving the domain commute -/
theorem rot_axis {b1 b2 : BC} {n gw a c x : Int} (hn : 1 ≤ n) (h1 : BCok b1 n gw) (h2 : BCok b2 n gw)
    (hr : Rotates b1 b2 a) (hc : gw ≤ c) (hc' : c < gw + n) (hx : c - gw ≤ x) (hx' : x ≤ c + gw) :
    srcCoord b1 b2 n gw (rotIdx n gw a c - c + x) = rotIdx n gw a (srcCoord b1 b2 n gw x) ∧
    (flips b1 b2 n gw (rotIdx n gw a c - c + x) ↔ flips b1 b2 n gw x) := by
  obtain ⟨r1, r2⟩ := rotIdx_range (gw := gw) (a := a) (c := c) hn
  rcases hr with ⟨rfl, rfl⟩ | rfl
  · have hgn : gw ≤ n := by simpa [BCok] using h1
    refine ⟨?_, by simp [flips]⟩
    rw [srcCoord_rot hgn (by omega) (by omega), srcCoord_rot hgn (by omega) (by omega)]
    obtain ⟨q, hq⟩ := rotIdx_repr n gw a c
    obtain ⟨q', hq'⟩ := rotIdx_repr n gw 0 x
    obtain ⟨q'', hq''⟩ := rotIdx_repr n gw a (rotIdx n gw 0 x)
    obtain ⟨s1, s2⟩ := rotIdx_range (gw := gw) (a := a) (c := rotIdx n gw 0 x) hn
    refine rotIdx_eq s1 s2 (q'' + q' - q) ?_
    rw [hq'', hq, hq']; ring
  · rw [rotIdx_zero hc hc', show c - c + x = x by ring]
    obtain ⟨s1, s2⟩ := srcCoord_interior (c := x) hn h1 h2 (by omega) (by omega)
    exact ⟨(rotIdx_zero s1 s2).symm, Iff.rfl⟩

/-! ## Fields -/

/-- the map of cells of a moved 2D domain -/
def rot2 (p : Params ℝ) (a b : Int) (i j : Int) : Int × Int :=
  (rotIdx p.nx p.ghostWidth a i, rotIdx p.ny p.ghostWidth b j)

/-- the map of cells of a moved 3D domain -/
def rot3 (p : Params ℝ) (a b c : Int) (i j k : Int) : Int × Int × Int :=
  (rotIdx p.nx p.ghostWidth a i, rotIdx p.ny p.ghostWidth b j, rotIdx p.nz p.ghostWidth c k)

theorem signed_iff {P Q : Prop} [Decidable P] [Decidable Q] (h : P ↔ Q) (x : ℝ) :
    signed P x = signed Q x := by
  unfold signed
  by_cases hp : P
  · rw [if_pos hp, if_pos (h.1 hp)]
  · rw [if_neg hp, if_neg (fun hq => hp (h.2 hq))]

theorem fill2_rot {p : Params ℝ} (hp : Hydro2 p) {a b : Int}
    (hx : Rotates p.boundary_type_xmin p.boundary_type_xmax a)
    (hy : Rotates p.boundary_type_ymin p.boundary_type_ymax b) (u : Fld2 ℝ) {i j x y : Int}
    (hij : interior2 p i j) (x1 : i - p.ghostWidth ≤ x) (x2 : x ≤ i + p.ghostWidth)
    (y1 : j - p.ghostWidth ≤ y) (y2 : y ≤ j + p.ghostWidth) :
    fill2 p u (rotIdx p.nx p.ghostWidth a i - i + x) (rotIdx p.ny p.ghostWidth b j - j + y) =
      fill2 p (pull2 (rot2 p a b) id u) x y := by
  obtain ⟨f1, f2, f3, f4⟩ := hp.faces
  obtain ⟨h1, h2, h3, h4⟩ := hij
  obtain ⟨e1, e2⟩ := rot_axis hp.wf.nx_pos f1 f2 hx h1 h2 x1 x2
  obtain ⟨e3, e4⟩ := rot_axis hp.wf.ny_pos f3 f4 hy h3 h4 y1 y2
  unfold fill2
  dsimp only
  rw [e1, e3, signed_iff e2, signed_iff e4]
  rfl

theorem fill3_rot {p : Params ℝ} (hp : Hydro3 p) {a b c : Int}
    (hx : Rotates p.boundary_type_xmin p.boundary_type_xmax a)
    (hy : Rotates p.boundary_type_ymin p.boundary_type_ymax b)
    (hz : Rotates p.boundary_type_zmin p.boundary_type_zmax c) (u : Fld3 ℝ) {i j k x y z : Int}
    (hij : interior3 p i j k) (x1 : i - p.ghostWidth ≤ x) (x2 : x ≤ i + p.ghostWidth)
    (y1 : j - p.ghostWidth ≤ y) (y2 : y ≤ j + p.ghostWidth)
    (z1 : k - p.ghostWidth ≤ z) (z2 : z ≤ k + p.ghostWidth) :
    fill3 p u (rotIdx p.nx p.ghostWidth a i - i + x) (rotIdx p.ny p.ghostWidth b j - j + y)
        (rotIdx p.nz p.ghostWidth c k - k + z) =
      fill3 p (pull3 (rot3 p a b c) id u) x y z := by
  obtain ⟨⟨f1, f2, f3, f4⟩, f5, f6⟩ := hp.faces
  obtain ⟨⟨h1, h2⟩, ⟨h3, h4⟩, h5, h6⟩ := hij
  obtain ⟨e1, e2⟩ := rot_axis hp.wf.nx_pos f1 f2 hx h1 h2 x1 x2
  obtain ⟨e3, e4⟩ := rot_axis hp.wf.ny_pos f3 f4 hy h3 h4 y1 y2
  obtain ⟨e5, e6⟩ := rot_axis hp.wf.nz_pos f5 f6 hz h5 h6 z1 z2
  unfold fill3
  dsimp only
  rw [e1, e3, e5, signed_iff e2, signed_iff e4, signed_iff e6]
  rfl

theorem rot2_int {p : Params ℝ} (hw : p.WF) (a b i j : Int) :
    interior2 p (rot2 p a b i j).1 (rot2 p a b i j).2 := by
  obtain ⟨r1, r2⟩ := rotIdx_range (gw := p.ghostWidth) (a := a) (c := i) hw.nx_pos
  obtain ⟨r3, r4⟩ := rotIdx_range (gw := p.ghostWidth) (a := b) (c := j) hw.ny_pos
  exact ⟨r1, r2, r3, r4⟩

theorem rot3_int {p : Params ℝ} (hw : p.WF) (a b c i j k : Int) :
    interior3 p (rot3 p a b c i j k).1 (rot3 p a b c i j k).2.1 (rot3 p a b c i j k).2.2 := by
  obtain ⟨r1, r2⟩ := rotIdx_range (gw := p.ghostWidth) (a := a) (c := i) hw.nx_pos
  obtain ⟨r3, r4⟩ := rotIdx_range (gw := p.ghostWidth) (a := b) (c := j) hw.ny_pos
  obtain ⟨r5, r6⟩ := rotIdx_range (gw := p.ghostWidth) (a := c) (c := k) hw.nz_pos
  exact ⟨⟨r1, r2⟩, ⟨r3, r4⟩, r5, r6⟩

theorem rot2_onto {p : Params ℝ} (hw : p.WF) (a b : Int) {i j : Int} (h : interior2 p i j) :
    ∃ i' j', interior2 p i' j' ∧ rot2 p a b i' j' = (i, j) := by
  refine ⟨_, _, rot2_int hw (-a) (-b) i j, ?_⟩
  obtain ⟨h1, h2, h3, h4⟩ := h
  unfold rot2
  simp only [rotIdx_back h1 h2, rotIdx_back h3 h4]

theorem rot3_onto {p : Params ℝ} (hw : p.WF) (a b c : Int) {i j k : Int} (h : interior3 p i j k) :
    ∃ i' j' k', interior3 p i' j' k' ∧ rot3 p a b c i' j' k' = (i, j, k) := by
  refine ⟨_, _, _, rot3_int hw (-a) (-b) (-c) i j k, ?_⟩
  obtain ⟨⟨h1, h2⟩, ⟨h3, h4⟩, h5, h6⟩ := h
  unfold rot3
  simp only [rotIdx_back h1 h2, rotIdx_back h3 h4, rotIdx_back h5 h6]

/-- the 2D hydro scheme commutes with moving the domain, under a uniform gravity -/
theorem runSym_rot2 {p : Params ℝ} (hp : Hydro2 p) {a b : Int}
    (hx : Rotates p.boundary_type_xmin p.boundary_type_xmax a)
    (hy : Rotates p.boundary_type_ymin p.boundary_type_ymax b) (g : GravityParams) {gf : Grav2 ℝ}
    (G : ℝ × ℝ) (hG : g.enabled = true → ∀ i j, inGrid2 p i j → gf i j = G) :
    RunSym2 p p g gf (fun _ _ => G) (rot2 p a b) id where
  tEnd := rfl
  nOutput := rfl
  nStepmax := rfl
  cfl := rfl
  int i j _ := rot2_int hp.wf a b i j
  onto i j h := rot2_onto hp.wf a b h
  rate u i j _ := by
    have hi := interior_inGrid2 hp.wf (rot2_int hp.wf a b i j)
    unfold rate2 pull2
    simp only [id]
    by_cases hen : g.enabled = true
    · simp only [hen, if_true]; rw [hG hen _ _ hi]
    · simp only [hen, if_false, Bool.false_eq_true]
  step dt u i j hij := by
    have hgw := hp.wf.gw_pos
    have hr := rot2_int hp.wf a b i j
    obtain ⟨r1, r2, r3, r4⟩ := hr
    have e1 : rotIdx p.nx p.ghostWidth a i - i + i = (rot2 p a b i j).1 := by unfold rot2; omega
    have e2 : rotIdx p.ny p.ghostWidth b j - j + j = (rot2 p a b i j).2 := by unfold rot2; omega
    have hs := step2_shift (p := p) (P := p) ⟨rfl, rfl, rfl, rfl, rfl⟩ (g := g) (dt := dt) (gf := gf)
      (u := fill2 p u) (X := rotIdx p.nx p.ghostWidth a i - i) (Y := rotIdx p.ny p.ghostWidth b j - j)
      hij (by rw [e1, e2]; exact ⟨r1, r2, r3, r4⟩)
    rw [e1, e2] at hs
    unfold fullStep2
    rw [id, hs]
    obtain ⟨h1, h2, h3, h4⟩ := hij
    refine (step2_congr (fun x y _ _ _ _ => ?_) (fun hen x y _ _ _ _ => ?_)).symm
    · exact fill2_rot hp hx hy u ⟨h1, h2, h3, h4⟩ (by omega) (by omega) (by omega) (by omega)
    · change p.ghostWidth ≤ rotIdx p.nx p.ghostWidth a i at r1
      change rotIdx p.nx p.ghostWidth a i < _ at r2
      change p.ghostWidth ≤ rotIdx p.ny p.ghostWidth b j at r3
      change rotIdx p.ny p.ghostWidth b j < _ at r4
      exact hG hen _ _ ⟨by omega, by omega, by omega, by omega⟩

/-- the 3D hydro scheme commutes with moving the domain, under a uniform gravity -/
theorem runSym_rot3 {p : Params ℝ} (hp : Hydro3 p) {a b c : Int}
    (hx : Rotates p.boundary_type_xmin p.boundary_type_xmax a)
    (hy : Rotates p.boundary_type_ymin p.boundary_type_ymax b)
    (hz : Rotates p.boundary_type_zmin p.boundary_type_zmax c) (zk : Bool) (g : GravityParams)
    {gf : Grav3 ℝ} (G : ℝ × ℝ × ℝ) (hG : g.enabled = true → ∀ i j k, inGrid3 p i j k → gf i j k = G) :
    RunSym3 zk zk p p g gf (fun _ _ _ => G) (rot3 p a b c) id where
  tEnd := rfl
  nOutput := rfl
  nStepmax := rfl
  cfl := rfl
  int i j k _ := rot3_int hp.wf a b c i j k
  onto i j k h := rot3_onto hp.wf a b c h
  rate u i j k _ := by
    have hi := interior_inGrid3 hp.wf (rot3_int hp.wf a b c i j k)
    unfold rate3 pull3
    simp only [id]
    by_cases hen : g.enabled = true
    · simp only [hen, if_true]; rw [hG hen _ _ _ hi]
    · simp only [hen, if_false, Bool.false_eq_true]
  step dt u i j k hij := by
    have hgw := hp.wf.gw_pos
    have hr := rot3_int hp.wf a b c i j k
    obtain ⟨⟨r1, r2⟩, ⟨r3, r4⟩, r5, r6⟩ := hr
    have e1 : rotIdx p.nx p.ghostWidth a i - i + i = (rot3 p a b c i j k).1 := by unfold rot3; dsimp only; omega
    have e2 : rotIdx p.ny p.ghostWidth b j - j + j = (rot3 p a b c i j k).2.1 := by unfold rot3; dsimp only; omega
    have e3 : rotIdx p.nz p.ghostWidth c k - k + k = (rot3 p a b c i j k).2.2 := by unfold rot3; dsimp only; omega
    have hs := step3_shift (zk := zk) (p := p) (P := p) ⟨rfl, rfl, rfl, rfl, rfl⟩ (g := g) (dt := dt)
      (gf := gf) (u := fill3 p u) (X := rotIdx p.nx p.ghostWidth a i - i)
      (Y := rotIdx p.ny p.ghostWidth b j - j) (Z := rotIdx p.nz p.ghostWidth c k - k)
      hij (by rw [e1, e2, e3]; exact ⟨⟨r1, r2⟩, ⟨r3, r4⟩, r5, r6⟩)
    rw [e1, e2, e3] at hs
    unfold fullStep3
    rw [id, hs]
    obtain ⟨⟨h1, h2⟩, ⟨h3, h4⟩, h5, h6⟩ := hij
    refine (step3_congr (fun x y z _ _ _ _ _ _ => ?_) (fun hen x y z _ _ _ _ _ _ => ?_)).symm
    · exact fill3_rot hp hx hy hz u ⟨⟨h1, h2⟩, ⟨h3, h4⟩, h5, h6⟩ (by omega) (by omega) (by omega)
        (by omega) (by omega) (by omega)
    · change p.ghostWidth ≤ rotIdx p.nx p.ghostWidth a i at r1
      change rotIdx p.nx p.ghostWidth a i < _ at r2
      change p.ghostWidth ≤ rotIdx p.ny p.ghostWidth b j at r3
      change rotIdx p.ny p.ghostWidth b j < _ at r4
      change p.ghostWidth ≤ rotIdx p.nz p.ghostWidth c k at r5
      change rotIdx p.nz p.ghostWidth c k < _ at r6
      exact hG hen _ _ _ ⟨⟨by omega, by omega⟩, ⟨by omega, by omega⟩, by omega, by omega⟩

/-! ## MHD -/

theorem stepM2_move {R : Type} [RealOps R] {p : Params R} {dt : R} {u : FldM2 R} {X Y i j : Int}
    (h1 : interior2 p i j) (h2 : interior2 p (X + i) (Y + j)) :
    stepM2 p dt u (X + i) (Y + j) = stepM2 p dt (fun a b => u (X + a) (Y + b)) i j := by
  have ht : ∀ a b, tracesM2 p dt (fun a b => u (X + a) (Y + b)) a b =
      tracesM2 p dt u (X + a) (Y + b) := by
    intro a b
    have := tracesM2_shift p dt u X Y a b
    simp only [add_comm _ X, add_comm _ Y] at this
    exact this
  unfold stepM2
  rw [if_pos h1, if_pos h2]
  simp only [ctUpdate2, fluxUpdateM2, fluxXM2, fluxYM2, emfM2, ht, add_assoc, add_sub_assoc]

theorem stepM3_move {R : Type} [RealOps R] {p : Params R} {dt : R} {u : FldM3 R} {X Y Z i j k : Int}
    (h1 : interior3 p i j k) (h2 : interior3 p (X + i) (Y + j) (Z + k)) :
    stepM3 p dt u (X + i) (Y + j) (Z + k) =
      stepM3 p dt (fun a b c => u (X + a) (Y + b) (Z + c)) i j k := by
  have hs : ∀ a b c,
      ((schemeM3 p dt (fun a b c => u (X + a) (Y + b) (Z + c))).x a b c =
        (schemeM3 p dt u).x (X + a) (Y + b) (Z + c)) ∧
      ((schemeM3 p dt (fun a b c => u (X + a) (Y + b) (Z + c))).y a b c =
        (schemeM3 p dt u).y (X + a) (Y + b) (Z + c)) ∧
      ((schemeM3 p dt (fun a b c => u (X + a) (Y + b) (Z + c))).z a b c =
        (schemeM3 p dt u).z (X + a) (Y + b) (Z + c)) ∧
      ∀ d, ((schemeM3 p dt (fun a b c => u (X + a) (Y + b) (Z + c))).e d a b c =
        (schemeM3 p dt u).e d (X + a) (Y + b) (Z + c)) := by
    intro a b c
    have := schemeM3_shift p dt u X Y Z a b c
    unfold shiftM3 at this
    simp only [add_comm _ X, add_comm _ Y, add_comm _ Z] at this
    exact this
  unfold stepM3 stepOfM3
  rw [if_pos h1, if_pos h2]
  simp only [ctUpdate3, fluxUpdateM3, (hs _ _ _).1, (hs _ _ _).2.1, (hs _ _ _).2.2.1,
    (hs _ _ _).2.2.2, add_assoc, add_sub_assoc]

theorem fillM2_rot {p : Params ℝ} (hp : Mhd2 p) {a b : Int}
    (hx : Rotates p.boundary_type_xmin p.boundary_type_xmax a)
    (hy : Rotates p.boundary_type_ymin p.boundary_type_ymax b) (u : FldM2 ℝ) {i j x y : Int}
    (hij : interior2 p i j) (x1 : i - p.ghostWidth ≤ x) (x2 : x ≤ i + p.ghostWidth)
    (y1 : j - p.ghostWidth ≤ y) (y2 : y ≤ j + p.ghostWidth) :
    fillM2 p u (rotIdx p.nx p.ghostWidth a i - i + x) (rotIdx p.ny p.ghostWidth b j - j + y) =
      fillM2 p (fun i j => u (rot2 p a b i j).1 (rot2 p a b i j).2) x y := by
  obtain ⟨f1, f2, f3, f4⟩ := hp.faces
  obtain ⟨h1, h2, h3, h4⟩ := hij
  obtain ⟨e1, e2⟩ := rot_axis hp.wf.nx_pos f1 f2 hx h1 h2 x1 x2
  obtain ⟨e3, e4⟩ := rot_axis hp.wf.ny_pos f3 f4 hy h3 h4 y1 y2
  unfold fillM2 ghost2
  dsimp only
  rw [e1, e3]
  simp only [signed_iff (and_congr_right fun _ => e2), signed_iff (and_congr_right fun _ => e4)]
  rfl

theorem fillM3_rot {p : Params ℝ} (hp : Mhd3 p) {a b c : Int}
    (hx : Rotates p.boundary_type_xmin p.boundary_type_xmax a)
    (hy : Rotates p.boundary_type_ymin p.boundary_type_ymax b)
    (hz : Rotates p.boundary_type_zmin p.boundary_type_zmax c) (u : FldM3 ℝ) {i j k x y z : Int}
    (hij : interior3 p i j k) (x1 : i - p.ghostWidth ≤ x) (x2 : x ≤ i + p.ghostWidth)
    (y1 : j - p.ghostWidth ≤ y) (y2 : y ≤ j + p.ghostWidth)
    (z1 : k - p.ghostWidth ≤ z) (z2 : z ≤ k + p.ghostWidth) :
    fillM3 p u (rotIdx p.nx p.ghostWidth a i - i + x) (rotIdx p.ny p.ghostWidth b j - j + y)
        (rotIdx p.nz p.ghostWidth c k - k + z) =
      fillM3 p (fun i j k => u (rot3 p a b c i j k).1 (rot3 p a b c i j k).2.1
        (rot3 p a b c i j k).2.2) x y z := by
  obtain ⟨⟨f1, f2, f3, f4⟩, f5, f6⟩ := hp.faces
  obtain ⟨⟨h1, h2⟩, ⟨h3, h4⟩, h5, h6⟩ := hij
  obtain ⟨e1, e2⟩ := rot_axis hp.wf.nx_pos f1 f2 hx h1 h2 x1 x2
  obtain ⟨e3, e4⟩ := rot_axis hp.wf.ny_pos f3 f4 hy h3 h4 y1 y2
  obtain ⟨e5, e6⟩ := rot_axis hp.wf.nz_pos f5 f6 hz h5 h6 z1 z2
  unfold fillM3 ghost3
  dsimp only
  rw [e1, e3, e5]
  simp only [signed_iff (and_congr_right fun _ => e2), signed_iff (and_congr_right fun _ => e4),
    signed_iff (and_congr_right fun _ => e6)]
  rfl

/-- the 2D MHD method commutes with moving the domain -/
theorem related_rotM2 {p : Params ℝ} (hp : Mhd2 p) {a b : Int}
    (hx : Rotates p.boundary_type_xmin p.boundary_type_xmax a)
    (hy : Rotates p.boundary_type_ymin p.boundary_type_ymax b) :
    Related p p (mhd2 p) (mhd2 p)
      (fun x y => ∀ i j, interior2 p i j → y i j = x (rot2 p a b i j).1 (rot2 p a b i j).2) where
  tEnd := rfl
  nOutput := rfl
  nStepmax := rfl
  dt x y h := by
    have hgw := hp.gw
    have key : ∀ i j, interior2 p i j → primM2 p (fillM2 p y) i j =
        primM2 p (fillM2 p x) (rot2 p a b i j).1 (rot2 p a b i j).2 := by
      intro i j hij
      obtain ⟨h1, h2, h3, h4⟩ := hij
      have hf : ∀ c d, i ≤ c → c ≤ i + 1 → j ≤ d → d ≤ j + 1 → fillM2 p y c d =
          fillM2 p x (rotIdx p.nx p.ghostWidth a i - i + c) (rotIdx p.ny p.ghostWidth b j - j + d) := by
        intro c d _ _ _ _
        rw [fillM2_rot hp hx hy x ⟨h1, h2, h3, h4⟩ (by omega) (by omega) (by omega) (by omega)]
        exact fillM2_congr hp.wf hp.faces h c d ⟨by omega, by omega, by omega, by omega⟩
      unfold primM2
      rw [hf i j (by omega) (by omega) (by omega) (by omega),
        hf (i + 1) j (by omega) (by omega) (by omega) (by omega),
        hf i (j + 1) (by omega) (by omega) (by omega) (by omega)]
      simp only [rot2]
      rw [show rotIdx p.nx p.ghostWidth a i - i + i = rotIdx p.nx p.ghostWidth a i by ring,
        show rotIdx p.ny p.ghostWidth b j - j + j = rotIdx p.ny p.ghostWidth b j by ring,
        show rotIdx p.nx p.ghostWidth a i - i + (i + 1) = rotIdx p.nx p.ghostWidth a i + 1 by ring,
        show rotIdx p.ny p.ghostWidth b j - j + (j + 1) = rotIdx p.ny p.ghostWidth b j + 1 by ring]
    show cflDtM2 p x = cflDtM2 p y
    unfold cflDtM2
    congr 2
    ext r
    constructor
    · rintro ⟨i, j, hij, rfl⟩
      obtain ⟨i', j', hi, he⟩ := rot2_onto hp.wf a b hij
      exact ⟨i', j', hi, by rw [key i' j' hi, he]⟩
    · rintro ⟨i, j, hij, rfl⟩
      exact ⟨_, _, rot2_int hp.wf a b i j, by rw [key i j hij]⟩
  adv dt x y h i j hij := by
    have hgw := hp.gw
    have hr := rot2_int hp.wf a b i j
    have e1 : rotIdx p.nx p.ghostWidth a i - i + i = (rot2 p a b i j).1 := by unfold rot2; omega
    have e2 : rotIdx p.ny p.ghostWidth b j - j + j = (rot2 p a b i j).2 := by unfold rot2; omega
    have hs := stepM2_move (p := p) (dt := dt) (u := fillM2 p x)
      (X := rotIdx p.nx p.ghostWidth a i - i) (Y := rotIdx p.ny p.ghostWidth b j - j)
      hij (by rw [e1, e2]; exact hr)
    rw [e1, e2] at hs
    show fullStepM2 p dt y i j = fullStepM2 p dt x _ _
    rw [fullStepM2_congr hp h i j hij]
    unfold fullStepM2
    rw [hs]
    obtain ⟨h1, h2, h3, h4⟩ := hij
    refine (stepM2_congr hp.valid (fun c d _ _ _ _ => ?_)).symm
    exact fillM2_rot hp hx hy x ⟨h1, h2, h3, h4⟩ (by omega) (by omega) (by omega) (by omega)

/-- the 3D MHD method commutes with moving the domain -/
theorem related_rotM3 {p : Params ℝ} (hp : Mhd3 p) {a b c : Int}
    (hx : Rotates p.boundary_type_xmin p.boundary_type_xmax a)
    (hy : Rotates p.boundary_type_ymin p.boundary_type_ymax b)
    (hz : Rotates p.boundary_type_zmin p.boundary_type_zmax c) :
    Related p p (mhd3 p) (mhd3 p)
      (fun x y => ∀ i j k, interior3 p i j k →
        y i j k = x (rot3 p a b c i j k).1 (rot3 p a b c i j k).2.1 (rot3 p a b c i j k).2.2) where
  tEnd := rfl
  nOutput := rfl
  nStepmax := rfl
  dt x y h := by
    have hgw := hp.gw
    have key : ∀ i j k, interior3 p i j k → primM3 p (fillM3 p y) i j k =
        primM3 p (fillM3 p x) (rot3 p a b c i j k).1 (rot3 p a b c i j k).2.1
          (rot3 p a b c i j k).2.2 := by
      intro i j k hij
      have hij' := hij
      obtain ⟨⟨h1, h2⟩, ⟨h3, h4⟩, h5, h6⟩ := hij'
      have hf : ∀ d e f, i ≤ d → d ≤ i + 1 → j ≤ e → e ≤ j + 1 → k ≤ f → f ≤ k + 1 →
          fillM3 p y d e f = fillM3 p x (rotIdx p.nx p.ghostWidth a i - i + d)
            (rotIdx p.ny p.ghostWidth b j - j + e) (rotIdx p.nz p.ghostWidth c k - k + f) := by
        intro d e f _ _ _ _ _ _
        rw [fillM3_rot hp hx hy hz x hij (by omega) (by omega) (by omega) (by omega) (by omega) (by omega)]
        exact fillM3_congr hp.wf hp.faces h d e f
          ⟨⟨by omega, by omega⟩, ⟨by omega, by omega⟩, by omega, by omega⟩
      unfold primM3
      rw [hf i j k (by omega) (by omega) (by omega) (by omega) (by omega) (by omega),
        hf (i + 1) j k (by omega) (by omega) (by omega) (by omega) (by omega) (by omega),
        hf i (j + 1) k (by omega) (by omega) (by omega) (by omega) (by omega) (by omega),
        hf i j (k + 1) (by omega) (by omega) (by omega) (by omega) (by omega) (by omega)]
      simp only [rot3]
      rw [show rotIdx p.nx p.ghostWidth a i - i + i = rotIdx p.nx p.ghostWidth a i by ring,
        show rotIdx p.ny p.ghostWidth b j - j + j = rotIdx p.ny p.ghostWidth b j by ring,
        show rotIdx p.nz p.ghostWidth c k - k + k = rotIdx p.nz p.ghostWidth c k by ring,
        show rotIdx p.nx p.ghostWidth a i - i + (i + 1) = rotIdx p.nx p.ghostWidth a i + 1 by ring,
        show rotIdx p.ny p.ghostWidth b j - j + (j + 1) = rotIdx p.ny p.ghostWidth b j + 1 by ring,
        show rotIdx p.nz p.ghostWidth c k - k + (k + 1) = rotIdx p.nz p.ghostWidth c k + 1 by ring]
    show cflDtM3 p x = cflDtM3 p y
    unfold cflDtM3
    congr 2
    ext r
    constructor
    · rintro ⟨i, j, k, hij, rfl⟩
      obtain ⟨i', j', k', hi, he⟩ := rot3_onto hp.wf a b c hij
      exact ⟨i', j', k', hi, by rw [key i' j' k' hi, he]⟩
    · rintro ⟨i, j, k, hij, rfl⟩
      exact ⟨_, _, _, rot3_int hp.wf a b c i j k, by rw [key i j k hij]⟩
  adv dt x y h i j k hij := by
    have hgw := hp.gw
    have hr := rot3_int hp.wf a b c i j k
    have e1 : rotIdx p.nx p.ghostWidth a i - i + i = (rot3 p a b c i j k).1 := by unfold rot3; dsimp only; omega
    have e2 : rotIdx p.ny p.ghostWidth b j - j + j = (rot3 p a b c i j k).2.1 := by unfold rot3; dsimp only; omega
    have e3 : rotIdx p.nz p.ghostWidth c k - k + k = (rot3 p a b c i j k).2.2 := by unfold rot3; dsimp only; omega
    have hs := stepM3_move (p := p) (dt := dt) (u := fillM3 p x)
      (X := rotIdx p.nx p.ghostWidth a i - i) (Y := rotIdx p.ny p.ghostWidth b j - j)
      (Z := rotIdx p.nz p.ghostWidth c k - k) hij (by rw [e1, e2, e3]; exact hr)
    rw [e1, e2, e3] at hs
    show fullStepM3 p dt y i j k = fullStepM3 p dt x _ _ _
    rw [fullStepM3_congr hp h i j k hij]
    unfold fullStepM3
    rw [hs]
    have hij' := hij
    obtain ⟨⟨h1, h2⟩, ⟨h3, h4⟩, h5, h6⟩ := hij'
    refine (stepM3_congr (fun d e f _ _ _ _ _ _ => ?_)).symm
    exact fillM3_rot hp hx hy hz x hij (by omega) (by omega) (by omega) (by omega) (by omega) (by omega)

end EulerKokkos
