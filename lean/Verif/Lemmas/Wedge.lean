import Verif.Model.Wedge
import Verif.Spec.Wedge
import Verif.Lemmas.GhostFill
import Verif.Props.C02

set_option linter.constructorNameAsVariable false
set_option linter.unusedSectionVars false
set_option linter.unusedSimpArgs false

namespace EulerKokkos

variable {R : Type} [RealOps R]
open Prog (rd wr forN forRange)
open Spec

/-- A kernel that runs one program per cell of `G`, each writing its cell of `U` only and reading outside
`G` only. -/
theorem cellFace {body : Int → Prog Arr R Unit} {N : Int} {U : Arr}
    {G : Int × Int × Int → Prop} [DecidablePred G] {dec : Int → Int × Int × Int}
    {enc : Int × Int × Int → Int} {P : Int × Int × Int → Prog Arr R Unit}
    (hbody : ∀ t, 0 ≤ t → body t = if G (dec t) then P (dec t) else pure ())
    (henc : ∀ c, G c → 0 ≤ enc c ∧ enc c < N ∧ dec (enc c) = c)
    (hdec : ∀ t, 0 ≤ t → G (dec t) → enc (dec t) = t)
    (hP : ∀ c, G c → (P c).Foot (fun l => ¬ G (cellOf l)) (fun l => l.arr = U ∧ cellOf l = c)
      (fun _ => False)) :
    (forRange (range1 N) body).Is (fun m l =>
      if l.arr = U ∧ G (cellOf l) then ((P (cellOf l)).run m).2 l else m l) := by
  have h := Prog.forRange_owner (range1 N) body (fun l => enc (cellOf l))
    (fun l => l.arr = U ∧ G (cellOf l)) (by
      intro t ht
      rw [mem_range1] at ht
      rw [hbody t ht.1]
      refine Prog.foot_ite (fun hg => ?_) (fun _ => Prog.foot_pure _ _ _ _)
      refine Prog.foot_mono ?_ ?_ (fun l h => h) (hP _ hg)
      · rintro l hl; left; rintro ⟨_, h⟩; exact hl h
      · rintro l ⟨h1, h2⟩; exact ⟨⟨h1, h2 ▸ hg⟩, by rw [h2]; exact hdec t ht.1 hg⟩)
  intro m m'
  rw [h m m']
  beta_reduce
  refine Eq.congr rfl (funext fun l => ?_)
  by_cases hg : l.arr = U ∧ G (cellOf l)
  · obtain ⟨e1, e2, e3⟩ := henc _ hg.2
    rw [if_pos ⟨hg, mem_range1.2 ⟨e1, e2⟩⟩, hbody _ e1, e3, if_pos hg.2, if_pos hg]
  · rw [if_neg (fun h => hg h.1), if_neg hg]

variable (p : Params R) (w : WedgeParams R) (U : Arr)

/-- what the functor does in one ghost cell -/
def wedgeCell (f : Face) (c : Int × Int × Int) : Prog Arr R Unit :=
  match f with
  | .xmin => putHS2 U c.1 c.2.1 w.s1
  | .xmax => wedgeCopy p.nbvar U c.1 c.2.1 (p.nx + p.ghostWidth - 1) c.2.1
  | .ymin => if RealOps.lt (wedgeX p c.1) w.x_f then putHS2 U c.1 c.2.1 w.s1
      else copyVars p.nbvar U (c.1, c.2.1, 0) (c.1, 2 * p.ghostWidth - 1 - c.2.1, 0) wedgeSign
  | .ymax => if RealOps.lt (wedgeX p c.1) (w.x_f + wedgeY p c.2.1 / w.slope_f + w.delta_x) then
        putHS2 U c.1 c.2.1 w.s1
      else wedgeCopy p.nbvar U c.1 c.2.1 c.1 (p.ny + p.ghostWidth - 1)
  | _ => pure ()

variable {p}

theorem wedgeCode (hw : p.WF) (f : Face) :
    ∃ (dec : Int → Int × Int × Int) (enc : Int × Int × Int → Int),
      (∀ t, 0 ≤ t → makeBoundaryWedge p w U f t =
        if G2 p f (dec t) then wedgeCell p w U f (dec t) else pure ()) ∧
      (∀ c, G2 p f c → 0 ≤ enc c ∧ enc c < nbIter2 p ∧ dec (enc c) = c) ∧
      (∀ t, 0 ≤ t → G2 p f (dec t) → enc (dec t) = t) := by
  have hgw := hw.gw_pos
  have hx := hw.nx_pos
  have hy := hw.ny_pos
  have hI := hw.isize_eq
  have hJ := hw.jsize_eq
  have hJ0 := hw.jmin_eq
  have hJ1 := hw.jmax_eq
  have hI0 := hw.imin_eq
  have hI1 := hw.imax_eq
  have hmI : p.ghostWidth * p.isize ≤ nbIter2 p :=
    Int.mul_le_mul_of_nonneg_left (le_max_left _ _) (by omega)
  have hmJ : p.ghostWidth * p.jsize ≤ nbIter2 p :=
    Int.mul_le_mul_of_nonneg_left (le_max_right _ _) (by omega)
  cases f with
  | xmin =>
    refine ⟨fun t => (t - t.tdiv p.ghostWidth * p.ghostWidth,
        t.tdiv p.ghostWidth, 0),
        fun c => c.1 + p.ghostWidth * c.2.1, ?_, ?_, ?_⟩
    · intro t ht
      unfold makeBoundaryWedge
      simp only [G2, wedgeCell]
      congr 1
      simp only [eq_iff_iff]
      constructor
      · rintro ⟨a, b, c, d⟩; refine ⟨trivial, ?_⟩; omega
      · rintro ⟨_, a, b, c, d⟩; omega
    · rintro ⟨i, j, k⟩ ⟨hk, h1, h2, h3, h4⟩
      simp only at hk h1 h2 h3 h4 ⊢
      have e := enc2 h1 h2 h3
      have : p.ghostWidth * (j + 1) ≤ p.ghostWidth * p.jsize :=
        Int.mul_le_mul_of_nonneg_left (by omega) (by omega)
      have : 0 ≤ p.ghostWidth * j := Int.mul_nonneg (by omega) h3
      refine ⟨by omega, by linarith, ?_⟩
      rw [e, hk]
      refine Prod.ext ?_ rfl
      simp only; ring
    · intro t ht _
      simp only; ring
  | xmax =>
    refine ⟨fun t => (t - t.tdiv p.ghostWidth * p.ghostWidth + (p.nx +
        p.ghostWidth), t.tdiv p.ghostWidth, 0),
        fun c => (c.1 - (p.nx + p.ghostWidth)) + p.ghostWidth * c.2.1, ?_, ?_, ?_⟩
    · intro t ht
      unfold makeBoundaryWedge
      simp only [G2, wedgeCell]
      congr 1
      simp only [eq_iff_iff]
      constructor
      · rintro ⟨a, b, c, d⟩; refine ⟨trivial, ?_⟩; omega
      · rintro ⟨_, a, b, c, d⟩; omega
    · rintro ⟨i, j, k⟩ ⟨hk, h1, h2, h3, h4⟩
      simp only at hk h1 h2 h3 h4 ⊢
      have e := enc2 (i := i - (p.nx + p.ghostWidth)) (a := p.ghostWidth) (j := j)
        (by omega) (by omega) h3
      have : p.ghostWidth * (j + 1) ≤ p.ghostWidth * p.jsize :=
        Int.mul_le_mul_of_nonneg_left (by omega) (by omega)
      have : 0 ≤ p.ghostWidth * j := Int.mul_nonneg (by omega) h3
      refine ⟨by omega, by linarith, ?_⟩
      rw [e, hk]
      refine Prod.ext ?_ rfl
      simp only; ring
    · intro t ht _
      simp only; ring
  | ymin =>
    refine ⟨fun t => (t.tdiv p.ghostWidth, t - t.tdiv p.ghostWidth * p.ghostWidth,
        0),
        fun c => c.2.1 + p.ghostWidth * c.1, ?_, ?_, ?_⟩
    · intro t ht
      unfold makeBoundaryWedge
      simp only [G2, wedgeCell]
      congr 1
      simp only [eq_iff_iff]
      constructor
      · rintro ⟨a, b, c, d⟩; refine ⟨trivial, ?_⟩; omega
      · rintro ⟨_, a, b, c, d⟩; omega
    · rintro ⟨i, j, k⟩ ⟨hk, h1, h2, h3, h4⟩
      simp only at hk h1 h2 h3 h4 ⊢
      have e := enc2 h1 h2 h3
      have : p.ghostWidth * (i + 1) ≤ p.ghostWidth * p.isize :=
        Int.mul_le_mul_of_nonneg_left (by omega) (by omega)
      have : 0 ≤ p.ghostWidth * i := Int.mul_nonneg (by omega) h3
      refine ⟨by omega, by linarith, ?_⟩
      rw [e, hk]
      refine Prod.ext rfl (Prod.ext ?_ rfl)
      simp only; ring
    · intro t ht _
      simp only; ring
  | ymax =>
    refine ⟨fun t => (t.tdiv p.ghostWidth, t - t.tdiv p.ghostWidth * p.ghostWidth
        + (p.ny + p.ghostWidth), 0),
        fun c => (c.2.1 - (p.ny + p.ghostWidth)) + p.ghostWidth * c.1, ?_, ?_, ?_⟩
    · intro t ht
      unfold makeBoundaryWedge
      simp only [G2, wedgeCell]
      congr 1
      simp only [eq_iff_iff]
      constructor
      · rintro ⟨a, b, c, d⟩; refine ⟨trivial, ?_⟩; omega
      · rintro ⟨_, a, b, c, d⟩; omega
    · rintro ⟨i, j, k⟩ ⟨hk, h1, h2, h3, h4⟩
      simp only at hk h1 h2 h3 h4 ⊢
      have e := enc2 (i := j - (p.ny + p.ghostWidth)) (a := p.ghostWidth) (j := i)
        (by omega) (by omega) h3
      have : p.ghostWidth * (i + 1) ≤ p.ghostWidth * p.isize :=
        Int.mul_le_mul_of_nonneg_left (by omega) (by omega)
      have : 0 ≤ p.ghostWidth * i := Int.mul_nonneg (by omega) h3
      refine ⟨by omega, by linarith, ?_⟩
      rw [e, hk]
      refine Prod.ext rfl (Prod.ext ?_ rfl)
      simp only; ring
    · intro t ht _
      simp only; ring
  | zmin =>
    refine ⟨fun t => (0, 0, 1), fun _ => 0, ?_, ?_, ?_⟩
    · intro t ht; unfold makeBoundaryWedge; simp [G2]
    · rintro c ⟨_, h⟩; exact h.elim
    · rintro c _ ⟨_, h⟩; exact h.elim
  | zmax =>
    refine ⟨fun t => (0, 0, 1), fun _ => 0, ?_, ?_, ?_⟩
    · intro t ht; unfold makeBoundaryWedge; simp [G2]
    · rintro c ⟨_, h⟩; exact h.elim
    · rintro c _ ⟨_, h⟩; exact h.elim

theorem foot_wedgeCopy {nb : Nat} {i j i0 j0 : Int} {Rd Wr Ad : Loc Arr → Prop}
    (hr : ∀ v < nb, Rd ⟨U, i0, j0, 0, v⟩) (hw : ∀ v < nb, Wr ⟨U, i, j, 0, v⟩) :
    (wedgeCopy (R := R) nb U i j i0 j0).Foot Rd Wr Ad := by
  unfold wedgeCopy
  refine Prog.foot_forN fun v hv => ?_
  exact Prog.foot_bind (by simpa using hr v hv) (fun x => by simpa using hw v hv)

theorem run_wedgeCopy {nb : Nat} {i j i0 j0 : Int} (hds : (i, j) ≠ (i0, j0))
    (m : Mem Arr R) (l : Loc Arr) :
    ((wedgeCopy nb U i j i0 j0).run m).2 l =
      if l.arr = U ∧ cellOf l = (i, j, 0) ∧ l.v < nb then m ⟨U, i0, j0, 0, l.v⟩ else m l := by
  unfold wedgeCopy
  induction nb generalizing l with
  | zero => simp [forN]
  | succ n ih =>
    simp only [forN, Prog.run_bind, Prog.run_rd, Prog.run_wr]
    unfold Prog.upd
    obtain ⟨a, x, y, z, v⟩ := l
    simp only [cellOf, Prod.mk.injEq] at ih ⊢
    by_cases hl : (⟨a, x, y, z, v⟩ : Loc Arr) = ⟨U, i, j, 0, n⟩
    · rw [if_pos hl]
      rw [Loc.mk.injEq] at hl
      obtain ⟨rfl, rfl, rfl, rfl, rfl⟩ := hl
      rw [if_pos ⟨rfl, ⟨rfl, rfl, rfl⟩, by omega⟩, ih, if_neg]
      rintro ⟨_, _, h⟩
      simp at h
    · rw [if_neg hl, ih]
      simp only
      by_cases hc : a = U ∧ (x = i ∧ y = j ∧ z = 0) ∧ v < n
      · rw [if_pos hc, if_pos ⟨hc.1, hc.2.1, by omega⟩]
      · rw [if_neg hc, if_neg]
        rintro ⟨h1, h2, h3⟩
        apply hc
        refine ⟨h1, h2, ?_⟩
        rcases Nat.lt_succ_iff_lt_or_eq.1 h3 with h | h
        · exact h
        · exact absurd (by rw [h1, h2.1, h2.2.1, h2.2.2, h]) hl

theorem wedgeCell_foot (hw : p.WF) (hn : p.nbvar = 4) (f : Face) (c : Int × Int × Int) (hc : G2 p f c) :
    (wedgeCell p w U f c).Foot
      (fun l => ¬ G2 p f (cellOf l) ∧ l.arr = U ∧ l.k = 0 ∧ inGrid2 p l.i l.j ∧ l.v < 4)
      (fun l => l.arr = U ∧ cellOf l = c ∧ l.v < 4) (fun _ => False) := by
  have hgw := hw.gw_pos
  have hx := hw.nx_pos
  have hy := hw.ny_pos
  have hI := hw.isize_eq
  have hJ := hw.jsize_eq
  obtain ⟨i, j, k⟩ := c
  obtain ⟨hk, hc⟩ := hc
  simp only at hk
  subst hk
  have hW : ∀ v < 4, (⟨U, i, j, 0, v⟩ : Loc Arr).arr = U ∧ cellOf ⟨U, i, j, 0, v⟩ = (i, j, 0) ∧ v < 4 :=
    fun v hv => ⟨rfl, rfl, hv⟩
  cases f with
  | xmin => exact foot_putHS2 hW
  | xmax =>
    simp only [wedgeCell, hn] at hc ⊢
    refine foot_wedgeCopy U (fun v hv => ?_) hW
    refine ⟨?_, rfl, rfl, ⟨?_, ?_, ?_, ?_⟩, hv⟩
    · rintro ⟨_, h1, h2⟩; simp only [cellOf] at h1; omega
    all_goals simp only; omega
  | ymin =>
    simp only [wedgeCell, hn] at hc ⊢
    refine Prog.foot_ite (fun _ => foot_putHS2 hW) (fun _ => foot_copyVars (fun v hv => ?_) hW)
    refine ⟨?_, rfl, rfl, ⟨?_, ?_, ?_, ?_⟩, hv⟩
    · rintro ⟨_, h1, h2, h3⟩; simp only [cellOf] at h1 h2; omega
    all_goals simp only; omega
  | ymax =>
    simp only [wedgeCell, hn] at hc ⊢
    refine Prog.foot_ite (fun _ => foot_putHS2 hW) (fun _ => foot_wedgeCopy U (fun v hv => ?_) hW)
    refine ⟨?_, rfl, rfl, ⟨?_, ?_, ?_, ?_⟩, hv⟩
    · rintro ⟨_, h1, h2, h3⟩; simp only [cellOf] at h1 h2; omega
    all_goals simp only; omega
  | zmin => exact hc.elim
  | zmax => exact hc.elim

/-- value a ghost cell of face `f` receives -/
def wedgeVal (f : Face) (m : Mem Arr R) (i j : Int) (v : Nat) : R :=
  match f with
  | .xmin => w.s1.get v
  | .xmax => m ⟨U, p.nx + p.ghostWidth - 1, j, 0, v⟩
  | .ymin => if RealOps.lt (wedgeX p i) w.x_f then w.s1.get v
      else m ⟨U, i, 2 * p.ghostWidth - 1 - j, 0, v⟩ * wedgeSign v
  | .ymax => if RealOps.lt (wedgeX p i) (w.x_f + wedgeY p j / w.slope_f + w.delta_x) then w.s1.get v
      else m ⟨U, i, p.ny + p.ghostWidth - 1, 0, v⟩
  | _ => m ⟨U, i, j, 0, v⟩

variable (p) in
/-- the memory after one face -/
def wedgeFace (f : Face) (m : Mem Arr R) : Mem Arr R := fun l =>
  if l.arr = U ∧ G2 p f (cellOf l) ∧ l.v < 4 then wedgeVal (p := p) w U f m l.i l.j l.v else m l

theorem wedgeFace_eval (f : Face) (m : Mem Arr R) (i j : Int) {v : Nat} (hv : v < 4) :
    wedgeFace p w U f m ⟨U, i, j, 0, v⟩ =
      if G2 p f (i, j, 0) then wedgeVal (p := p) w U f m i j v else m ⟨U, i, j, 0, v⟩ := by
  unfold wedgeFace cellOf
  by_cases hg : G2 p f (i, j, 0)
  · simp [hg, hv]
  · simp [hg]

theorem wedgeFace_off {f : Face} {m : Mem Arr R} {l : Loc Arr}
    (hl : ¬ (l.arr = U ∧ G2 p f (cellOf l) ∧ l.v < 4)) : wedgeFace p w U f m l = m l := by
  unfold wedgeFace; rw [if_neg hl]

theorem wedgeK_is (hw : p.WF) (hn : p.nbvar = 4) (f : Face) :
    (wedgeBoundaryK p w U f).Is (wedgeFace p w U f) := by
  obtain ⟨dec, enc, h1, h2, h3⟩ := wedgeCode w U hw f
  have h := cellFace (U := U) h1 h2 h3 (fun c hc => Prog.foot_mono (fun l h => h.1)
    (fun l h => ⟨h.1, h.2.1⟩) (fun l h => h) (wedgeCell_foot w U hw hn f c hc))
  have hgw := hw.gw_pos
  intro m m'
  unfold wedgeBoundaryK wedgeFace
  rw [h m m']
  beta_reduce
  refine Eq.congr rfl (funext fun l => ?_)
  obtain ⟨a, i, j, k, v⟩ := l
  by_cases hg : a = U ∧ G2 p f (i, j, k)
  · obtain ⟨rfl, hg⟩ := hg
    have hk : k = 0 := hg.1
    subst hk
    have hc := hg.2
    simp only [cellOf, hg, and_self, true_and, if_true]
    have hput : ((putHS2 a i j w.s1).run m).2 ⟨a, i, j, 0, v⟩ =
        if v < 4 then w.s1.get v else m ⟨a, i, j, 0, v⟩ := by
      rw [run_putHS2]; simp [setMem2]
    cases f with
    | xmin => exact hput
    | xmax =>
      simp only [wedgeCell, wedgeVal, hn] at hc ⊢
      rw [run_wedgeCopy a (by simp; omega)]
      simp [cellOf]
    | ymin =>
      simp only [wedgeCell, wedgeVal, hn] at hc ⊢
      split
      · exact hput
      · rw [run_copyVars (by simp; omega)]
        simp [cellOf]
    | ymax =>
      simp only [wedgeCell, wedgeVal, hn] at hc ⊢
      split
      · exact hput
      · rw [run_wedgeCopy a (by simp; omega)]
        simp [cellOf]
    | zmin => exact hc.elim
    | zmax => exact hc.elim
  · exact (if_neg hg).trans (if_neg (fun h => hg ⟨h.1, h.2.1⟩)).symm

end EulerKokkos
