import Verif.Model.Boundaries
import Verif.Spec.Boundary
import Verif.Lemmas.Arrays
import Verif.Props.C01

set_option linter.constructorNameAsVariable false
set_option linter.unusedSectionVars false
set_option linter.unnecessarySeqFocus false

namespace EulerKokkos

variable {R : Type} [RealOps R]
open Prog (rd wr forN forRange)
open Spec

/-- the cell of a location -/
def cellOf (l : Loc Arr) : Int × Int × Int := (l.i, l.j, l.k)

theorem foot_copyVars {nb : Nat} {U : Arr} {d s : Int × Int × Int} {sgn : Nat → R}
    {Rd Wr Ad : Loc Arr → Prop} (hr : ∀ v < nb, Rd ⟨U, s.1, s.2.1, s.2.2, v⟩)
    (hw : ∀ v < nb, Wr ⟨U, d.1, d.2.1, d.2.2, v⟩) : (copyVars nb U d s sgn).Foot Rd Wr Ad := by
  unfold copyVars
  refine Prog.foot_forN fun v hv => ?_
  exact Prog.foot_bind (by simpa using hr v hv) (fun x => by simpa using hw v hv)

theorem run_copyVars {nb : Nat} {U : Arr} {d s : Int × Int × Int} {sgn : Nat → R} (hds : d ≠ s)
    (m : Mem Arr R) (l : Loc Arr) :
    ((copyVars nb U d s sgn).run m).2 l =
      if l.arr = U ∧ cellOf l = d ∧ l.v < nb then m ⟨U, s.1, s.2.1, s.2.2, l.v⟩ * sgn l.v
      else m l := by
  unfold copyVars
  induction nb generalizing l with
  | zero => simp [forN]
  | succ n ih =>
    obtain ⟨d1, d2, d3⟩ := d
    obtain ⟨s1, s2, s3⟩ := s
    simp only [forN, Prog.run_bind, Prog.run_rd, Prog.run_wr]
    unfold Prog.upd
    obtain ⟨a, i, j, k, v⟩ := l
    simp only [cellOf, Prod.mk.injEq] at ih ⊢
    by_cases hl : (⟨a, i, j, k, v⟩ : Loc Arr) = ⟨U, d1, d2, d3, n⟩
    · rw [if_pos hl]
      rw [Loc.mk.injEq] at hl
      obtain ⟨rfl, rfl, rfl, rfl, rfl⟩ := hl
      rw [if_pos ⟨rfl, ⟨rfl, rfl, rfl⟩, by omega⟩, ih, if_neg]
      rintro ⟨_, _, h⟩
      simp at h
    · rw [if_neg hl, ih]
      simp only
      by_cases hc : a = U ∧ (i = d1 ∧ j = d2 ∧ k = d3) ∧ v < n
      · rw [if_pos hc, if_pos ⟨hc.1, hc.2.1, by omega⟩]
      · rw [if_neg hc, if_neg]
        rintro ⟨h1, h2, h3⟩
        apply hc
        refine ⟨h1, h2, ?_⟩
        rcases Nat.lt_succ_iff_lt_or_eq.1 h3 with h | h
        · exact h
        · exact absurd (by rw [h1, h2.1, h2.2.1, h2.2.2, h]) hl

/-- A kernel that fills the cells `G` of view `U`, one cell per iteration, each from a source cell
outside `G`. -/
theorem ghostFace {body : Int → Prog Arr R Unit} {N : Int} {nb : Nat} {U : Arr}
    {G : Int × Int × Int → Prop} [DecidablePred G] {dec : Int → Int × Int × Int}
    {enc : Int × Int × Int → Int} {src : Int × Int × Int → Int × Int × Int} {sgn : Nat → R}
    (hbody : ∀ t, 0 ≤ t → body t =
      if G (dec t) then copyVars nb U (dec t) (src (dec t)) sgn else pure ())
    (henc : ∀ c, G c → 0 ≤ enc c ∧ enc c < N ∧ dec (enc c) = c)
    (hdec : ∀ t, 0 ≤ t → G (dec t) → enc (dec t) = t)
    (hsrc : ∀ c, G c → ¬ G (src c)) :
    (forRange (range1 N) body).Is (fun m l =>
      if l.arr = U ∧ G (cellOf l) ∧ l.v < nb then
        m ⟨U, (src (cellOf l)).1, (src (cellOf l)).2.1, (src (cellOf l)).2.2, l.v⟩ * sgn l.v
      else m l) := by
  have h := Prog.forRange_owner (range1 N) body (fun l => enc (cellOf l))
    (fun l => l.arr = U ∧ G (cellOf l)) (by
      intro t ht
      rw [mem_range1] at ht
      rw [hbody t ht.1]
      refine Prog.foot_ite (fun hg => ?_) (fun _ => Prog.foot_pure _ _ _ _)
      refine foot_copyVars (fun v _ => Or.inl ?_) (fun v _ => ⟨⟨rfl, ?_⟩, ?_⟩)
      · rintro ⟨_, h⟩; exact hsrc _ hg h
      · exact hg
      · exact hdec t ht.1 hg)
  intro m m'
  rw [h m m']
  beta_reduce
  refine Eq.congr rfl (funext fun l => ?_)
  by_cases hg : l.arr = U ∧ G (cellOf l)
  · obtain ⟨e1, e2, e3⟩ := henc _ hg.2
    rw [if_pos ⟨hg, mem_range1.2 ⟨e1, e2⟩⟩, hbody _ e1, e3, if_pos hg.2, run_copyVars]
    · simp [hg.1, hg.2]
    · intro e; exact hsrc _ hg.2 (e ▸ hg.2)
  · rw [if_neg (fun h => hg h.1), if_neg (fun h => hg ⟨h.1, h.2.1⟩)]

/-! ## decode/encode of the flat index -/

theorem dec2 {t a : Int} (ht : 0 ≤ t) (ha : 0 < a) :
    0 ≤ t.tdiv a ∧ 0 ≤ t - t.tdiv a * a ∧ t - t.tdiv a * a < a := tdiv_decomp ht ha

theorem enc2 {i j a : Int} (hi : 0 ≤ i) (hi' : i < a) (hj : 0 ≤ j) :
    (i + a * j).tdiv a = j := tdiv_unique (by omega) rfl hi hi' hj

theorem dec3 {t a b : Int} (ht : 0 ≤ t) (ha : 0 < a) (hb : 0 < b) :
    let k := t.tdiv (a * b)
    let j := (t - k * a * b).tdiv a
    let i := t - j * a - k * a * b
    0 ≤ k ∧ (0 ≤ j ∧ j < b) ∧ (0 ≤ i ∧ i < a) := by
  have hN : 0 < a * b := by positivity
  obtain ⟨h1, h2, h3⟩ := tdiv_decomp ht hN
  intro k
  have e : t - k * a * b = t - k * (a * b) := by ring
  rw [← e] at h2 h3
  obtain ⟨g1, g2, g3⟩ := tdiv_decomp h2 ha
  intro j i
  refine ⟨h1, ⟨g1, ?_⟩, by simp only [i]; linarith, by simp only [i]; linarith⟩
  by_contra hc
  push Not at hc
  have : j * a ≥ b * a := Int.mul_le_mul_of_nonneg_right hc ha.le
  simp only [j] at this
  nlinarith

theorem enc3 {i j k a b : Int} (hi : 0 ≤ i) (hi' : i < a) (hj : 0 ≤ j) (hj' : j < b) (hk : 0 ≤ k) :
    (i + a * j + a * b * k).tdiv (a * b) = k ∧
    (i + a * j + a * b * k - k * a * b).tdiv a = j := by
  have ha : 0 < a := by omega
  have hb : 0 < b := by omega
  have h3 : a * (j + 1) ≤ a * b := Int.mul_le_mul_of_nonneg_left (by omega) ha.le
  constructor
  · exact tdiv_unique (r := i + a * j) (by positivity) rfl (by positivity) (by nlinarith) hk
  · rw [show i + a * j + a * b * k - k * a * b = i + a * j by ring]
    exact tdiv_unique ha rfl hi hi' hj

theorem enc3_lt {i j k a b c N : Int} (hi : 0 ≤ i) (hi' : i < a) (hj : 0 ≤ j) (hj' : j < b)
    (hk : 0 ≤ k) (hk' : k < c) (hN : a * b * c ≤ N) :
    0 ≤ i + a * j + a * b * k ∧ i + a * j + a * b * k < N := by
  have ha : 0 < a := by omega
  have hb : 0 < b := by omega
  have h3 : a * (j + 1) ≤ a * b := Int.mul_le_mul_of_nonneg_left (by omega) ha.le
  have h4 : a * b * (k + 1) ≤ a * b * c := Int.mul_le_mul_of_nonneg_left (by omega) (by positivity)
  have := Int.mul_nonneg ha.le hj
  have := Int.mul_nonneg (Int.mul_nonneg ha.le hb.le) hk
  constructor <;> nlinarith

/-- result of a face kernel on memory: the cells `G` of `U` take the value of their source times
the sign -/
def faceFill (nb : Nat) (U : Arr) (G : Int × Int × Int → Prop) [DecidablePred G]
    (src : Int × Int × Int → Int × Int × Int) (sgn : Nat → R) (m : Mem Arr R) : Mem Arr R :=
  fun l => if l.arr = U ∧ G (cellOf l) ∧ l.v < nb then
        m ⟨U, (src (cellOf l)).1, (src (cellOf l)).2.1, (src (cellOf l)).2.2, l.v⟩ * sgn l.v
      else m l

theorem bcSrcMin_ge {bc : BC} {n gw i : Int} (hb : BCok bc n gw) (h0 : 0 ≤ i) (hi : i < gw) :
    gw ≤ bcSrcMin bc n gw i := by
  unfold bcSrcMin
  unfold BCok at hb
  split
  · omega
  · split
    · omega
    · rcases hb with hb | hb
      · contradiction
      · omega

theorem bcSrcMax_lt {bc : BC} {n gw i : Int} (hb : BCok bc n gw) (h0 : n + gw ≤ i)
    (hi : i ≤ n + 2 * gw - 1) : bcSrcMax bc n gw i < n + gw := by
  unfold bcSrcMax
  unfold BCok at hb
  split
  · omega
  · split
    · omega
    · rcases hb with hb | hb
      · contradiction
      · omega

section faces2
variable (mhd : Bool) (p : Params R) (U : Arr)

/-- ghost cells of a 2D face: the kernel of a y face fills whole rows including the corners -/
def G2 (f : Face) (c : Int × Int × Int) : Prop :=
  c.2.2 = 0 ∧ match f with
  | .xmin => 0 ≤ c.1 ∧ c.1 < p.ghostWidth ∧ 0 ≤ c.2.1 ∧ c.2.1 < p.jsize
  | .xmax => p.nx + p.ghostWidth ≤ c.1 ∧ c.1 < p.isize ∧ 0 ≤ c.2.1 ∧ c.2.1 < p.jsize
  | .ymin => 0 ≤ c.2.1 ∧ c.2.1 < p.ghostWidth ∧ 0 ≤ c.1 ∧ c.1 < p.isize
  | .ymax => p.ny + p.ghostWidth ≤ c.2.1 ∧ c.2.1 < p.jsize ∧ 0 ≤ c.1 ∧ c.1 < p.isize
  | _ => False

instance (f : Face) : DecidablePred (G2 p f) := by
  intro c; cases f <;> unfold G2 <;> infer_instance

/-- source cell of a ghost cell of a 2D or 3D face -/
def faceSrc (f : Face) (c : Int × Int × Int) : Int × Int × Int :=
  match f with
  | .xmin => (bcSrcMin p.boundary_type_xmin p.nx p.ghostWidth c.1, c.2.1, c.2.2)
  | .xmax => (bcSrcMax p.boundary_type_xmax p.nx p.ghostWidth c.1, c.2.1, c.2.2)
  | .ymin => (c.1, bcSrcMin p.boundary_type_ymin p.ny p.ghostWidth c.2.1, c.2.2)
  | .ymax => (c.1, bcSrcMax p.boundary_type_ymax p.ny p.ghostWidth c.2.1, c.2.2)
  | .zmin => (c.1, c.2.1, bcSrcMin p.boundary_type_zmin p.nz p.ghostWidth c.2.2)
  | .zmax => (c.1, c.2.1, bcSrcMax p.boundary_type_zmax p.nz p.ghostWidth c.2.2)

/-- sign applied on a face -/
def faceSign (f : Face) (v : Nat) : R :=
  match f with
  | .xmin => bcSign mhd p.boundary_type_xmin IU IA v
  | .xmax => bcSign mhd p.boundary_type_xmax IU IA v
  | .ymin => bcSign mhd p.boundary_type_ymin IV IB v
  | .ymax => bcSign mhd p.boundary_type_ymax IV IB v
  | .zmin => bcSign mhd p.boundary_type_zmin IW IC v
  | .zmax => bcSign mhd p.boundary_type_zmax IW IC v

/-- the boundary condition of a face finds its sources inside the domain -/
def FaceOk (f : Face) : Prop :=
  match f with
  | .xmin => BCok p.boundary_type_xmin p.nx p.ghostWidth
  | .xmax => BCok p.boundary_type_xmax p.nx p.ghostWidth
  | .ymin => BCok p.boundary_type_ymin p.ny p.ghostWidth
  | .ymax => BCok p.boundary_type_ymax p.ny p.ghostWidth
  | .zmin => BCok p.boundary_type_zmin p.nz p.ghostWidth
  | .zmax => BCok p.boundary_type_zmax p.nz p.ghostWidth

variable {p}

/-- the flat index of the 2D boundary kernels decodes to each ghost cell exactly once -/
theorem faceCode2 (hw : p.WF) (f : Face) :
    ∃ (dec : Int → Int × Int × Int) (enc : Int × Int × Int → Int),
      (∀ t, 0 ≤ t → makeBoundary2 mhd p U f t =
        if G2 p f (dec t) then copyVars p.nbvar U (dec t) (faceSrc p f (dec t)) (faceSign mhd p f)
        else pure ()) ∧
      (∀ c, G2 p f c → 0 ≤ enc c ∧ enc c < nbIter2 p ∧ dec (enc c) = c) ∧
      (∀ t, 0 ≤ t → G2 p f (dec t) → enc (dec t) = t) := by
  have hgw := hw.gw_pos
  have hx := hw.nx_pos
  have hy := hw.ny_pos
  have hI := hw.isize_eq
  have hJ := hw.jsize_eq
  have hJ0 := hw.jmin_eq
  have hJ1 := hw.jmax_eq
  have hI0 := hw.imin_eq
  have hI1 := hw.imax_eq
  have hmI : p.ghostWidth * p.isize ≤ nbIter2 p :=
    Int.mul_le_mul_of_nonneg_left (le_max_left _ _) (by omega)
  have hmJ : p.ghostWidth * p.jsize ≤ nbIter2 p :=
    Int.mul_le_mul_of_nonneg_left (le_max_right _ _) (by omega)
  cases f with
  | xmin =>
    refine ⟨fun t => (t - t.tdiv p.ghostWidth * p.ghostWidth,
        t.tdiv p.ghostWidth, 0),
        fun c => c.1 + p.ghostWidth * c.2.1, ?_, ?_, ?_⟩
    · intro t ht
      unfold makeBoundary2
      simp only [G2, faceSrc]
      congr 1
      simp only [eq_iff_iff]
      constructor
      · rintro ⟨a, b, c, d⟩; refine ⟨trivial, ?_⟩; omega
      · rintro ⟨_, a, b, c, d⟩; omega
    · rintro ⟨i, j, k⟩ ⟨hk, h1, h2, h3, h4⟩
      simp only at hk h1 h2 h3 h4 ⊢
      have e := enc2 h1 h2 h3
      have : p.ghostWidth * (j + 1) ≤ p.ghostWidth * p.jsize :=
        Int.mul_le_mul_of_nonneg_left (by omega) (by omega)
      have : 0 ≤ p.ghostWidth * j := Int.mul_nonneg (by omega) h3
      refine ⟨by omega, by linarith, ?_⟩
      rw [e, hk]
      refine Prod.ext ?_ rfl
      simp only; ring
    · intro t ht _
      simp only; ring
  | xmax =>
    refine ⟨fun t => (t - t.tdiv p.ghostWidth * p.ghostWidth + (p.nx +
        p.ghostWidth), t.tdiv p.ghostWidth, 0),
        fun c => (c.1 - (p.nx + p.ghostWidth)) + p.ghostWidth * c.2.1, ?_, ?_, ?_⟩
    · intro t ht
      unfold makeBoundary2
      simp only [G2, faceSrc]
      congr 1
      simp only [eq_iff_iff]
      constructor
      · rintro ⟨a, b, c, d⟩; refine ⟨trivial, ?_⟩; omega
      · rintro ⟨_, a, b, c, d⟩; omega
    · rintro ⟨i, j, k⟩ ⟨hk, h1, h2, h3, h4⟩
      simp only at hk h1 h2 h3 h4 ⊢
      have e := enc2 (i := i - (p.nx + p.ghostWidth)) (a := p.ghostWidth) (j := j)
        (by omega) (by omega) h3
      have : p.ghostWidth * (j + 1) ≤ p.ghostWidth * p.jsize :=
        Int.mul_le_mul_of_nonneg_left (by omega) (by omega)
      have : 0 ≤ p.ghostWidth * j := Int.mul_nonneg (by omega) h3
      refine ⟨by omega, by linarith, ?_⟩
      rw [e, hk]
      refine Prod.ext ?_ rfl
      simp only; ring
    · intro t ht _
      simp only; ring
  | ymin =>
    refine ⟨fun t => (t.tdiv p.ghostWidth, t - t.tdiv p.ghostWidth * p.ghostWidth,
        0),
        fun c => c.2.1 + p.ghostWidth * c.1, ?_, ?_, ?_⟩
    · intro t ht
      unfold makeBoundary2
      simp only [G2, faceSrc]
      congr 1
      simp only [eq_iff_iff]
      constructor
      · rintro ⟨a, b, c, d⟩; refine ⟨trivial, ?_⟩; omega
      · rintro ⟨_, a, b, c, d⟩; omega
    · rintro ⟨i, j, k⟩ ⟨hk, h1, h2, h3, h4⟩
      simp only at hk h1 h2 h3 h4 ⊢
      have e := enc2 h1 h2 h3
      have : p.ghostWidth * (i + 1) ≤ p.ghostWidth * p.isize :=
        Int.mul_le_mul_of_nonneg_left (by omega) (by omega)
      have : 0 ≤ p.ghostWidth * i := Int.mul_nonneg (by omega) h3
      refine ⟨by omega, by linarith, ?_⟩
      rw [e, hk]
      refine Prod.ext rfl (Prod.ext ?_ rfl)
      simp only; ring
    · intro t ht _
      simp only; ring
  | ymax =>
    refine ⟨fun t => (t.tdiv p.ghostWidth, t - t.tdiv p.ghostWidth * p.ghostWidth
        + (p.ny + p.ghostWidth), 0),
        fun c => (c.2.1 - (p.ny + p.ghostWidth)) + p.ghostWidth * c.1, ?_, ?_, ?_⟩
    · intro t ht
      unfold makeBoundary2
      simp only [G2, faceSrc]
      congr 1
      simp only [eq_iff_iff]
      constructor
      · rintro ⟨a, b, c, d⟩; refine ⟨trivial, ?_⟩; omega
      · rintro ⟨_, a, b, c, d⟩; omega
    · rintro ⟨i, j, k⟩ ⟨hk, h1, h2, h3, h4⟩
      simp only at hk h1 h2 h3 h4 ⊢
      have e := enc2 (i := j - (p.ny + p.ghostWidth)) (a := p.ghostWidth) (j := i)
        (by omega) (by omega) h3
      have : p.ghostWidth * (i + 1) ≤ p.ghostWidth * p.isize :=
        Int.mul_le_mul_of_nonneg_left (by omega) (by omega)
      have : 0 ≤ p.ghostWidth * i := Int.mul_nonneg (by omega) h3
      refine ⟨by omega, by linarith, ?_⟩
      rw [e, hk]
      refine Prod.ext rfl (Prod.ext ?_ rfl)
      simp only; ring
    · intro t ht _
      simp only; ring
  | zmin =>
    refine ⟨fun t => (0, 0, 1),
        fun _ => 0, ?_, ?_, ?_⟩
    · intro t ht; unfold makeBoundary2; simp [G2]
    · rintro c ⟨_, h⟩; exact h.elim
    · rintro c _ ⟨_, h⟩; exact h.elim
  | zmax =>
    refine ⟨fun t => (0, 0, 1),
        fun _ => 0, ?_, ?_, ?_⟩
    · intro t ht; unfold makeBoundary2; simp [G2]
    · rintro c ⟨_, h⟩; exact h.elim
    · rintro c _ ⟨_, h⟩; exact h.elim

theorem faceSrc_not_G2 (hw : p.WF) (f : Face) (hf : FaceOk p f) (c : Int × Int × Int) :
    G2 p f c → ¬ G2 p f (faceSrc p f c) := by
  have hgw := hw.gw_pos
  have hx := hw.nx_pos
  have hy := hw.ny_pos
  have hI := hw.isize_eq
  have hJ := hw.jsize_eq
  have hJ0 := hw.jmin_eq
  have hJ1 := hw.jmax_eq
  have hI0 := hw.imin_eq
  have hI1 := hw.imax_eq
  have hmI : p.ghostWidth * p.isize ≤ nbIter2 p :=
    Int.mul_le_mul_of_nonneg_left (le_max_left _ _) (by omega)
  have hmJ : p.ghostWidth * p.jsize ≤ nbIter2 p :=
    Int.mul_le_mul_of_nonneg_left (le_max_right _ _) (by omega)
  revert c
  cases f with
  | xmin =>
    rintro ⟨i, j, k⟩ ⟨hk, h1, h2, h3, h4⟩ ⟨_, h5, h6, _⟩
    simp only [faceSrc] at h1 h2 h6
    have := bcSrcMin_ge hf h1 h2
    omega
  | xmax =>
    rintro ⟨i, j, k⟩ ⟨hk, h1, h2, h3, h4⟩ ⟨_, h5, h6, _⟩
    simp only [faceSrc] at h1 h2 h5
    have := bcSrcMax_lt hf h1 (by omega)
    omega
  | ymin =>
    rintro ⟨i, j, k⟩ ⟨hk, h1, h2, h3, h4⟩ ⟨_, h5, h6, _⟩
    simp only [faceSrc] at h1 h2 h6
    have := bcSrcMin_ge hf h1 h2
    omega
  | ymax =>
    rintro ⟨i, j, k⟩ ⟨hk, h1, h2, h3, h4⟩ ⟨_, h5, h6, _⟩
    simp only [faceSrc] at h1 h2 h5
    have := bcSrcMax_lt hf h1 (by omega)
    omega
  | zmin =>
    rintro c ⟨_, h⟩; exact h.elim
  | zmax =>
    rintro c ⟨_, h⟩; exact h.elim

theorem makeBoundaryK2_is (hw : p.WF) (f : Face) (hf : FaceOk p f) :
    (makeBoundaryK2 mhd p U f).Is
      (faceFill p.nbvar U (G2 p f) (faceSrc p f) (faceSign mhd p f)) := by
  obtain ⟨dec, enc, h1, h2, h3⟩ := faceCode2 mhd U hw f
  exact ghostFace h1 h2 h3 (faceSrc_not_G2 hw f hf)

end faces2

section faces3
variable (mhd : Bool) (p : Params R) (U : Arr)

/-- ghost cells filled by the kernel of a 3D face -/
def G3 (f : Face) (c : Int × Int × Int) : Prop :=
  match f with
  | .xmin => (0 ≤ c.1 ∧ c.1 < p.ghostWidth) ∧ (0 ≤ c.2.1 ∧ c.2.1 < p.jsize) ∧
      (0 ≤ c.2.2 ∧ c.2.2 < p.ksize)
  | .xmax => (p.nx + p.ghostWidth ≤ c.1 ∧ c.1 < p.isize) ∧ (0 ≤ c.2.1 ∧ c.2.1 < p.jsize) ∧
      (0 ≤ c.2.2 ∧ c.2.2 < p.ksize)
  | .ymin => (0 ≤ c.1 ∧ c.1 < p.isize) ∧ (0 ≤ c.2.1 ∧ c.2.1 < p.ghostWidth) ∧
      (0 ≤ c.2.2 ∧ c.2.2 < p.ksize)
  | .ymax => (0 ≤ c.1 ∧ c.1 < p.isize) ∧ (p.ny + p.ghostWidth ≤ c.2.1 ∧ c.2.1 < p.jsize) ∧
      (0 ≤ c.2.2 ∧ c.2.2 < p.ksize)
  | .zmin => (0 ≤ c.1 ∧ c.1 < p.isize) ∧ (0 ≤ c.2.1 ∧ c.2.1 < p.jsize) ∧
      (0 ≤ c.2.2 ∧ c.2.2 < p.ghostWidth)
  | .zmax => (0 ≤ c.1 ∧ c.1 < p.isize) ∧ (0 ≤ c.2.1 ∧ c.2.1 < p.jsize) ∧
      (p.nz + p.ghostWidth ≤ c.2.2 ∧ c.2.2 < p.ksize)

instance (f : Face) : DecidablePred (G3 p f) := by
  intro c; cases f <;> unfold G3 <;> infer_instance

variable {p}

theorem nbIter3_bounds (hw : p.WF) :
    p.ghostWidth * p.jsize * p.ksize ≤ nbIter3 p ∧ p.isize * p.ghostWidth * p.ksize ≤ nbIter3 p ∧
    p.isize * p.jsize * p.ghostWidth ≤ nbIter3 p := by
  have hgw := hw.gw_pos
  have hx := hw.nx_pos
  have hy := hw.ny_pos
  have hz := hw.nz_pos
  have hI := hw.isize_eq
  have hJ := hw.jsize_eq
  have hK := hw.ksize_eq
  have e : nbIter3 p = p.ghostWidth * (max (max p.isize p.jsize) p.ksize *
    max (max p.isize p.jsize) p.ksize) := by unfold nbIter3; ring
  set M := max (max p.isize p.jsize) p.ksize with hM
  have h1 : p.isize ≤ M := le_trans (le_max_left _ _) (le_max_left _ _)
  have h2 : p.jsize ≤ M := le_trans (le_max_right _ _) (le_max_left _ _)
  have h3 : p.ksize ≤ M := le_max_right _ _
  have mm : ∀ a b : Int, 0 ≤ a → 0 ≤ b → a ≤ M → b ≤ M → p.ghostWidth * (a * b) ≤ nbIter3 p := by
    intro a b ha hb h h'
    rw [e]
    exact Int.mul_le_mul_of_nonneg_left (Int.mul_le_mul h h' hb (by omega)) (by omega)
  refine ⟨?_, ?_, ?_⟩
  · have := mm p.jsize p.ksize (by omega) (by omega) h2 h3; linarith
  · have := mm p.isize p.ksize (by omega) (by omega) h1 h3; linarith
  · have := mm p.isize p.jsize (by omega) (by omega) h1 h2; linarith

/-- the flat index of the 3D boundary kernels decodes to each ghost cell exactly once -/
theorem faceCode3 (hw : p.WF) (f : Face) :
    ∃ (dec : Int → Int × Int × Int) (enc : Int × Int × Int → Int),
      (∀ t, 0 ≤ t → makeBoundary3 mhd p U f t =
        if G3 p f (dec t) then copyVars p.nbvar U (dec t) (faceSrc p f (dec t)) (faceSign mhd p f)
        else pure ()) ∧
      (∀ c, G3 p f c → 0 ≤ enc c ∧ enc c < nbIter3 p ∧ dec (enc c) = c) ∧
      (∀ t, 0 ≤ t → G3 p f (dec t) → enc (dec t) = t) := by
  have hgw := hw.gw_pos
  have hx := hw.nx_pos
  have hy := hw.ny_pos
  have hz := hw.nz_pos
  have hI := hw.isize_eq
  have hJ := hw.jsize_eq
  have hK := hw.ksize_eq
  have hJ0 := hw.jmin_eq
  have hJ1 := hw.jmax_eq
  have hI0 := hw.imin_eq
  have hI1 := hw.imax_eq
  have hK0 := hw.kmin_eq
  have hK1 := hw.kmax_eq
  obtain ⟨bX, bY, bZ⟩ := nbIter3_bounds hw
  cases f with
  | xmin =>
    refine ⟨fun t => (t - (t - t.tdiv (p.ghostWidth * p.jsize) * p.ghostWidth * p.jsize).tdiv p.ghostWidth * p.ghostWidth - t.tdiv (p.ghostWidth * p.jsize) * p.ghostWidth * p.jsize,
        (t - t.tdiv (p.ghostWidth * p.jsize) * p.ghostWidth * p.jsize).tdiv p.ghostWidth, t.tdiv (p.ghostWidth * p.jsize)),
        fun c => c.1 + p.ghostWidth * c.2.1 + p.ghostWidth * p.jsize * c.2.2, ?_, ?_, ?_⟩
    · intro t ht
      unfold makeBoundary3
      simp only [G3, faceSrc]
      congr 1
      simp only [eq_iff_iff]
      constructor <;> intro h <;> omega
    · rintro ⟨i, j, k⟩ ⟨⟨h1, h2⟩, ⟨h3, h4⟩, h5, h6⟩
      simp only at h1 h2 h3 h4 h5 h6 ⊢
      obtain ⟨e1, e2⟩ := enc3 (i := i) (j := j) (k := k) (a := p.ghostWidth) (b := p.jsize)
        (by omega) (by omega) (by omega) (by omega) (by omega)
      obtain ⟨e3, e4⟩ := enc3_lt (i := i) (j := j) (k := k) (a := p.ghostWidth) (b := p.jsize)
        (by omega) (by omega) (by omega) (by omega) (by omega) (by omega) bX
      refine ⟨e3, e4, ?_⟩
      rw [e1, e2]
      refine Prod.ext ?_ (Prod.ext ?_ ?_) <;> simp only <;> ring
    · intro t ht _
      simp only; ring
  | xmax =>
    refine ⟨fun t => (t - (t - t.tdiv (p.ghostWidth * p.jsize) * p.ghostWidth * p.jsize).tdiv p.ghostWidth * p.ghostWidth - t.tdiv (p.ghostWidth * p.jsize) * p.ghostWidth * p.jsize + (p.nx + p.ghostWidth),
        (t - t.tdiv (p.ghostWidth * p.jsize) * p.ghostWidth * p.jsize).tdiv p.ghostWidth, t.tdiv (p.ghostWidth * p.jsize)),
        fun c => (c.1 - (p.nx + p.ghostWidth)) + p.ghostWidth * c.2.1 + p.ghostWidth * p.jsize * c.2.2, ?_, ?_, ?_⟩
    · intro t ht
      unfold makeBoundary3
      simp only [G3, faceSrc]
      congr 1
      simp only [eq_iff_iff]
      constructor <;> intro h <;> omega
    · rintro ⟨i, j, k⟩ ⟨⟨h1, h2⟩, ⟨h3, h4⟩, h5, h6⟩
      simp only at h1 h2 h3 h4 h5 h6 ⊢
      obtain ⟨e1, e2⟩ := enc3 (i := i - (p.nx + p.ghostWidth)) (j := j) (k := k) (a := p.ghostWidth) (b := p.jsize)
        (by omega) (by omega) (by omega) (by omega) (by omega)
      obtain ⟨e3, e4⟩ := enc3_lt (i := i - (p.nx + p.ghostWidth)) (j := j) (k := k) (a := p.ghostWidth) (b := p.jsize)
        (by omega) (by omega) (by omega) (by omega) (by omega) (by omega) bX
      refine ⟨e3, e4, ?_⟩
      rw [e1, e2]
      refine Prod.ext ?_ (Prod.ext ?_ ?_) <;> simp only <;> ring
    · intro t ht _
      simp only; ring
  | ymin =>
    refine ⟨fun t => (t - (t - t.tdiv (p.isize * p.ghostWidth) * p.isize * p.ghostWidth).tdiv p.isize * p.isize - t.tdiv (p.isize * p.ghostWidth) * p.isize * p.ghostWidth,
        (t - t.tdiv (p.isize * p.ghostWidth) * p.isize * p.ghostWidth).tdiv p.isize, t.tdiv (p.isize * p.ghostWidth)),
        fun c => c.1 + p.isize * c.2.1 + p.isize * p.ghostWidth * c.2.2, ?_, ?_, ?_⟩
    · intro t ht
      unfold makeBoundary3
      simp only [G3, faceSrc]
      congr 1
      simp only [eq_iff_iff]
      constructor <;> intro h <;> omega
    · rintro ⟨i, j, k⟩ ⟨⟨h1, h2⟩, ⟨h3, h4⟩, h5, h6⟩
      simp only at h1 h2 h3 h4 h5 h6 ⊢
      obtain ⟨e1, e2⟩ := enc3 (i := i) (j := j) (k := k) (a := p.isize) (b := p.ghostWidth)
        (by omega) (by omega) (by omega) (by omega) (by omega)
      obtain ⟨e3, e4⟩ := enc3_lt (i := i) (j := j) (k := k) (a := p.isize) (b := p.ghostWidth)
        (by omega) (by omega) (by omega) (by omega) (by omega) (by omega) bY
      refine ⟨e3, e4, ?_⟩
      rw [e1, e2]
      refine Prod.ext ?_ (Prod.ext ?_ ?_) <;> simp only <;> ring
    · intro t ht _
      simp only; ring
  | ymax =>
    refine ⟨fun t => (t - (t - t.tdiv (p.isize * p.ghostWidth) * p.isize * p.ghostWidth).tdiv p.isize * p.isize - t.tdiv (p.isize * p.ghostWidth) * p.isize * p.ghostWidth,
        (t - t.tdiv (p.isize * p.ghostWidth) * p.isize * p.ghostWidth).tdiv p.isize + (p.ny + p.ghostWidth), t.tdiv (p.isize * p.ghostWidth)),
        fun c => c.1 + p.isize * (c.2.1 - (p.ny + p.ghostWidth)) + p.isize * p.ghostWidth * c.2.2, ?_, ?_, ?_⟩
    · intro t ht
      unfold makeBoundary3
      simp only [G3, faceSrc]
      congr 1
      simp only [eq_iff_iff]
      constructor <;> intro h <;> omega
    · rintro ⟨i, j, k⟩ ⟨⟨h1, h2⟩, ⟨h3, h4⟩, h5, h6⟩
      simp only at h1 h2 h3 h4 h5 h6 ⊢
      obtain ⟨e1, e2⟩ := enc3 (i := i) (j := j - (p.ny + p.ghostWidth)) (k := k) (a := p.isize) (b := p.ghostWidth)
        (by omega) (by omega) (by omega) (by omega) (by omega)
      obtain ⟨e3, e4⟩ := enc3_lt (i := i) (j := j - (p.ny + p.ghostWidth)) (k := k) (a := p.isize) (b := p.ghostWidth)
        (by omega) (by omega) (by omega) (by omega) (by omega) (by omega) bY
      refine ⟨e3, e4, ?_⟩
      rw [e1, e2]
      refine Prod.ext ?_ (Prod.ext ?_ ?_) <;> simp only <;> ring
    · intro t ht _
      simp only; ring
  | zmin =>
    refine ⟨fun t => (t - (t - t.tdiv (p.isize * p.jsize) * p.isize * p.jsize).tdiv p.isize * p.isize - t.tdiv (p.isize * p.jsize) * p.isize * p.jsize,
        (t - t.tdiv (p.isize * p.jsize) * p.isize * p.jsize).tdiv p.isize, t.tdiv (p.isize * p.jsize)),
        fun c => c.1 + p.isize * c.2.1 + p.isize * p.jsize * c.2.2, ?_, ?_, ?_⟩
    · intro t ht
      unfold makeBoundary3
      simp only [G3, faceSrc]
      congr 1
      simp only [eq_iff_iff]
      constructor <;> intro h <;> omega
    · rintro ⟨i, j, k⟩ ⟨⟨h1, h2⟩, ⟨h3, h4⟩, h5, h6⟩
      simp only at h1 h2 h3 h4 h5 h6 ⊢
      obtain ⟨e1, e2⟩ := enc3 (i := i) (j := j) (k := k) (a := p.isize) (b := p.jsize)
        (by omega) (by omega) (by omega) (by omega) (by omega)
      obtain ⟨e3, e4⟩ := enc3_lt (i := i) (j := j) (k := k) (a := p.isize) (b := p.jsize)
        (by omega) (by omega) (by omega) (by omega) (by omega) (by omega) bZ
      refine ⟨e3, e4, ?_⟩
      rw [e1, e2]
      refine Prod.ext ?_ (Prod.ext ?_ ?_) <;> simp only <;> ring
    · intro t ht _
      simp only; ring
  | zmax =>
    refine ⟨fun t => (t - (t - t.tdiv (p.isize * p.jsize) * p.isize * p.jsize).tdiv p.isize * p.isize - t.tdiv (p.isize * p.jsize) * p.isize * p.jsize,
        (t - t.tdiv (p.isize * p.jsize) * p.isize * p.jsize).tdiv p.isize, t.tdiv (p.isize * p.jsize) + (p.nz + p.ghostWidth)),
        fun c => c.1 + p.isize * c.2.1 + p.isize * p.jsize * (c.2.2 - (p.nz + p.ghostWidth)), ?_, ?_, ?_⟩
    · intro t ht
      unfold makeBoundary3
      simp only [G3, faceSrc]
      congr 1
      simp only [eq_iff_iff]
      constructor <;> intro h <;> omega
    · rintro ⟨i, j, k⟩ ⟨⟨h1, h2⟩, ⟨h3, h4⟩, h5, h6⟩
      simp only at h1 h2 h3 h4 h5 h6 ⊢
      obtain ⟨e1, e2⟩ := enc3 (i := i) (j := j) (k := k - (p.nz + p.ghostWidth)) (a := p.isize) (b := p.jsize)
        (by omega) (by omega) (by omega) (by omega) (by omega)
      obtain ⟨e3, e4⟩ := enc3_lt (i := i) (j := j) (k := k - (p.nz + p.ghostWidth)) (a := p.isize) (b := p.jsize)
        (by omega) (by omega) (by omega) (by omega) (by omega) (by omega) bZ
      refine ⟨e3, e4, ?_⟩
      rw [e1, e2]
      refine Prod.ext ?_ (Prod.ext ?_ ?_) <;> simp only <;> ring
    · intro t ht _
      simp only; ring

theorem faceSrc_not_G3 (hw : p.WF) (f : Face) (hf : FaceOk p f) (c : Int × Int × Int) :
    G3 p f c → ¬ G3 p f (faceSrc p f c) := by
  have hgw := hw.gw_pos
  have hx := hw.nx_pos
  have hy := hw.ny_pos
  have hz := hw.nz_pos
  have hI := hw.isize_eq
  have hJ := hw.jsize_eq
  have hK := hw.ksize_eq
  have hJ0 := hw.jmin_eq
  have hJ1 := hw.jmax_eq
  have hI0 := hw.imin_eq
  have hI1 := hw.imax_eq
  have hK0 := hw.kmin_eq
  have hK1 := hw.kmax_eq
  obtain ⟨bX, bY, bZ⟩ := nbIter3_bounds hw
  revert c
  cases f with
  | xmin =>
    rintro ⟨i, j, k⟩ ⟨⟨h1, h2⟩, ⟨h3, h4⟩, h5, h6⟩ ⟨⟨g1, g2⟩, ⟨g3, g4⟩, g5, g6⟩
    simp only [faceSrc] at h1 h2 h3 h4 h5 h6 g1 g2 g3 g4 g5 g6
    have := bcSrcMin_ge hf h1 h2
    omega
  | xmax =>
    rintro ⟨i, j, k⟩ ⟨⟨h1, h2⟩, ⟨h3, h4⟩, h5, h6⟩ ⟨⟨g1, g2⟩, ⟨g3, g4⟩, g5, g6⟩
    simp only [faceSrc] at h1 h2 h3 h4 h5 h6 g1 g2 g3 g4 g5 g6
    have := bcSrcMax_lt hf h1 (by omega)
    omega
  | ymin =>
    rintro ⟨i, j, k⟩ ⟨⟨h1, h2⟩, ⟨h3, h4⟩, h5, h6⟩ ⟨⟨g1, g2⟩, ⟨g3, g4⟩, g5, g6⟩
    simp only [faceSrc] at h1 h2 h3 h4 h5 h6 g1 g2 g3 g4 g5 g6
    have := bcSrcMin_ge hf h3 h4
    omega
  | ymax =>
    rintro ⟨i, j, k⟩ ⟨⟨h1, h2⟩, ⟨h3, h4⟩, h5, h6⟩ ⟨⟨g1, g2⟩, ⟨g3, g4⟩, g5, g6⟩
    simp only [faceSrc] at h1 h2 h3 h4 h5 h6 g1 g2 g3 g4 g5 g6
    have := bcSrcMax_lt hf h3 (by omega)
    omega
  | zmin =>
    rintro ⟨i, j, k⟩ ⟨⟨h1, h2⟩, ⟨h3, h4⟩, h5, h6⟩ ⟨⟨g1, g2⟩, ⟨g3, g4⟩, g5, g6⟩
    simp only [faceSrc] at h1 h2 h3 h4 h5 h6 g1 g2 g3 g4 g5 g6
    have := bcSrcMin_ge hf h5 h6
    omega
  | zmax =>
    rintro ⟨i, j, k⟩ ⟨⟨h1, h2⟩, ⟨h3, h4⟩, h5, h6⟩ ⟨⟨g1, g2⟩, ⟨g3, g4⟩, g5, g6⟩
    simp only [faceSrc] at h1 h2 h3 h4 h5 h6 g1 g2 g3 g4 g5 g6
    have := bcSrcMax_lt hf h5 (by omega)
    omega

theorem makeBoundaryK3_is (hw : p.WF) (f : Face) (hf : FaceOk p f) :
    (makeBoundaryK3 mhd p U f).Is
      (faceFill p.nbvar U (G3 p f) (faceSrc p f) (faceSign mhd p f)) := by
  obtain ⟨dec, enc, h1, h2, h3⟩ := faceCode3 mhd U hw f
  exact ghostFace h1 h2 h3 (faceSrc_not_G3 hw f hf)

end faces3

end EulerKokkos
