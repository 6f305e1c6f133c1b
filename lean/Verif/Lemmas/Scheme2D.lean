import Verif.Lemmas.Step2D
import Mathlib.Tactic.Ring
import Verif.Core.ExactAdd

/-! # One 2D hydro step (after the ghost fill) computes `Spec.step2` -/

set_option linter.constructorNameAsVariable false
set_option linter.unusedSectionVars false

namespace EulerKokkos

open Prog (rd wr add upd run_bind run_rd run_wr run_pure foot_bind foot_rd foot_wr foot_add
  foot_pure foot_ite foot_mono Foot forRange)
open Spec

section generic
variable {R : Type} [RealOps R]

/-! ## Locality of the specification -/

theorem slopes2_congr {p : Params R} {q q' : Fld2 R} {i j : Int}
    (h : ∀ a b, i - 1 ≤ a → a ≤ i + 1 → j - 1 ≤ b → b ≤ j + 1 → q a b = q' a b) :
    slopes2 p q i j = slopes2 p q' i j := by
  unfold slopes2
  rw [h i j (by omega) (by omega) (by omega) (by omega),
    h (i + 1) j (by omega) (by omega) (by omega) (by omega),
    h (i - 1) j (by omega) (by omega) (by omega) (by omega),
    h i (j + 1) (by omega) (by omega) (by omega) (by omega),
    h i (j - 1) (by omega) (by omega) (by omega) (by omega)]

theorem face2_congr {p : Params R} {g : GravityParams} {dt : R} {gf gf' : Grav2 R} {f : Face}
    {q q' : Fld2 R} {i j : Int}
    (h : ∀ a b, i - 1 ≤ a → a ≤ i + 1 → j - 1 ≤ b → b ≤ j + 1 → q a b = q' a b)
    (hg : g.enabled = true → gf i j = gf' i j) :
    face2 p g dt gf q f i j = face2 p g dt gf' q' f i j := by
  unfold face2
  rw [slopes2_congr h, h i j (by omega) (by omega) (by omega) (by omega)]
  unfold kick2
  by_cases he : g.enabled = true
  · rw [hg he]
  · simp [he]

theorem fluxX2_congr {p : Params R} {g : GravityParams} {dt : R} {gf gf' : Grav2 R}
    {q q' : Fld2 R} {i j : Int}
    (h : ∀ a b, i - 2 ≤ a → a ≤ i + 1 → j - 1 ≤ b → b ≤ j + 1 → q a b = q' a b)
    (hg : g.enabled = true → ∀ a, i - 1 ≤ a → a ≤ i → gf a j = gf' a j) :
    fluxX2 p g dt gf q i j = fluxX2 p g dt gf' q' i j := by
  unfold fluxX2
  rw [face2_congr (f := .xmax) (i := i - 1) (j := j) (q' := q') (gf' := gf')
      (fun a b h1 h2 h3 h4 => h a b (by omega) (by omega) h3 h4)
      (fun e => hg e _ (by omega) (by omega)),
    face2_congr (f := .xmin) (i := i) (j := j) (q' := q') (gf' := gf')
      (fun a b h1 h2 h3 h4 => h a b (by omega) (by omega) h3 h4)
      (fun e => hg e _ (by omega) (by omega))]

theorem fluxY2_congr {p : Params R} {g : GravityParams} {dt : R} {gf gf' : Grav2 R}
    {q q' : Fld2 R} {i j : Int}
    (h : ∀ a b, i - 1 ≤ a → a ≤ i + 1 → j - 2 ≤ b → b ≤ j + 1 → q a b = q' a b)
    (hg : g.enabled = true → ∀ b, j - 1 ≤ b → b ≤ j → gf i b = gf' i b) :
    fluxY2 p g dt gf q i j = fluxY2 p g dt gf' q' i j := by
  unfold fluxY2
  rw [face2_congr (f := .ymax) (i := i) (j := j - 1) (q' := q') (gf' := gf')
      (fun a b h1 h2 h3 h4 => h a b (by omega) (by omega) (by omega) (by omega))
      (fun e => hg e _ (by omega) (by omega)),
    face2_congr (f := .ymin) (i := i) (j := j) (q' := q') (gf' := gf')
      (fun a b h1 h2 h3 h4 => h a b (by omega) (by omega) (by omega) (by omega))
      (fun e => hg e _ (by omega) (by omega))]

/-- The new value of cell `(i,j)` depends only on the old field at distance at most 2. -/
theorem step2_congr {p : Params R} {g : GravityParams} {dt : R} {gf gf' : Grav2 R}
    {u u' : Fld2 R} {i j : Int}
    (h : ∀ a b, i - 2 ≤ a → a ≤ i + 2 → j - 2 ≤ b → b ≤ j + 2 → u a b = u' a b)
    (hg : g.enabled = true → ∀ a b, i - 1 ≤ a → a ≤ i + 1 → j - 1 ≤ b → b ≤ j + 1 →
      gf a b = gf' a b) :
    step2 p g dt gf u i j = step2 p g dt gf' u' i j := by
  have hq : ∀ a b, i - 2 ≤ a → a ≤ i + 2 → j - 2 ≤ b → b ≤ j + 2 →
      prim2 p u a b = prim2 p u' a b := by
    intro a b h1 h2 h3 h4; unfold prim2; rw [h a b h1 h2 h3 h4]
  have x1 := fluxX2_congr (p := p) (g := g) (dt := dt) (gf := gf) (gf' := gf') (i := i) (j := j)
    (q := prim2 p u) (q' := prim2 p u')
    (fun a b h1 h2 h3 h4 => hq a b (by omega) (by omega) (by omega) (by omega))
    (fun e a h1 h2 => hg e _ _ (by omega) (by omega) (by omega) (by omega))
  have x2 := fluxX2_congr (p := p) (g := g) (dt := dt) (gf := gf) (gf' := gf') (i := i + 1) (j := j)
    (q := prim2 p u) (q' := prim2 p u')
    (fun a b h1 h2 h3 h4 => hq a b (by omega) (by omega) (by omega) (by omega))
    (fun e a h1 h2 => hg e _ _ (by omega) (by omega) (by omega) (by omega))
  have y1 := fluxY2_congr (p := p) (g := g) (dt := dt) (gf := gf) (gf' := gf') (i := i) (j := j)
    (q := prim2 p u) (q' := prim2 p u')
    (fun a b h1 h2 h3 h4 => hq a b (by omega) (by omega) (by omega) (by omega))
    (fun e a h1 h2 => hg e _ _ (by omega) (by omega) (by omega) (by omega))
  have y2 := fluxY2_congr (p := p) (g := g) (dt := dt) (gf := gf) (gf' := gf') (i := i) (j := j + 1)
    (q := prim2 p u) (q' := prim2 p u')
    (fun a b h1 h2 h3 h4 => hq a b (by omega) (by omega) (by omega) (by omega))
    (fun e a h1 h2 => hg e _ _ (by omega) (by omega) (by omega) (by omega))
  unfold step2 fluxUpdate2
  simp only
  rw [h i j (by omega) (by omega) (by omega) (by omega), x1, x2, y1, y2]
  by_cases he : g.enabled = true
  · rw [hg he i j (by omega) (by omega) (by omega) (by omega)]
  · simp [he]

theorem cellGuard2_iff {p : Params R} (hw : p.WF) (i j : Int) :
    cellGuard2 p (i, j) ↔ interior2 p i j := by
  unfold cellGuard2 interior2
  have := hw.isize_eq
  have := hw.jsize_eq
  simp only
  omega

/-! ## The step -/

/-- The two state views, in either role. -/
def PingPong (inA outA : Arr) : Prop := (inA = .U ∧ outA = .U2) ∨ (inA = .U2 ∧ outA = .U)

theorem deepCopy_result {dst src : Arr} {m m' : Mem Arr R} (h : deepCopy dst src m m') :
    SameOff (· = dst) m m' ∧ ∀ l : Loc Arr, l.arr = dst → m' l = m { l with arr := src } := by
  cases h
  exact ⟨fun l hl => by simp [hl], fun l hl => by simp [hl]⟩

theorem deepCopy_hs2 {dst src : Arr} {m m' : Mem Arr R} (h : deepCopy dst src m m') :
    hs2 m' dst = hs2 m src := by
  funext i j
  have := (deepCopy_result h).2
  unfold hs2
  rw [this _ rfl, this _ rfl, this _ rfl, this _ rfl]

/-- views written by the scheme -/
def SchemeOuts (outA a : Arr) : Prop :=
  a = outA ∨ a = .Q ∨ a = .Fx ∨ a = .Fy ∨ a = .Sx ∨ a = .Sy

theorem SameOff.mono {o o' : Arr → Prop} {m m' : Mem Arr R} (h : SameOff o m m')
    (hh : ∀ a, o a → o' a) : SameOff o' m m' := fun l hl => h l (fun e => hl (hh _ e))

theorem SameOff.trans {o : Arr → Prop} {m m' m'' : Mem Arr R} (h : SameOff o m m')
    (h' : SameOff o m' m'') : SameOff o m m'' := fun l hl => (h' l hl).trans (h l hl)

/-- final assembly, common to all versions -/
theorem scheme2_key {p : Params R} (hw : p.WF) {g : GravityParams} {dt : R} {gf : Grav2 R}
    {u : Fld2 R} (q : Fld2 R) (fin : Fld2 R)
    (hq : ∀ i j, inGrid2 p i j → q i j = prim2 p u i j)
    (hfin : ∀ i j, fin i j = if cellGuard2 p (i, j) ∧ g.enabled = true then
        gravity2 p dt (gf i j) (u i j)
          (if cellGuard2 p (i, j) then
            fluxUpdate2 (fluxX2 p g dt gf q) (fluxY2 p g dt gf q) (u i j) i j else u i j)
        else (if cellGuard2 p (i, j) then
            fluxUpdate2 (fluxX2 p g dt gf q) (fluxY2 p g dt gf q) (u i j) i j else u i j))
    (i j : Int) : fin i j = step2 p g dt gf u i j := by
  have hgw := hw.gw_pos
  have hI := hw.isize_eq
  have hJ := hw.jsize_eq
  rw [hfin i j]
  unfold step2
  by_cases hc : interior2 p i j
  · have hc' := (cellGuard2_iff hw i j).2 hc
    obtain ⟨c1, c2, c3, c4⟩ := id hc
    have hq' : ∀ a b, i - 2 ≤ a → a ≤ i + 2 → j - 2 ≤ b → b ≤ j + 2 →
        q a b = prim2 p u a b := fun a b h1 h2 h3 h4 =>
      hq a b ⟨by omega, by omega, by omega, by omega⟩
    simp only [hc, hc', true_and, if_true]
    unfold fluxUpdate2
    rw [fluxX2_congr (i := i) (q' := prim2 p u) (gf' := gf)
        (fun a b h1 h2 h3 h4 => hq' a b (by omega) (by omega) (by omega) (by omega))
        (fun _ _ _ _ => rfl),
      fluxX2_congr (i := i + 1) (q' := prim2 p u) (gf' := gf)
        (fun a b h1 h2 h3 h4 => hq' a b (by omega) (by omega) (by omega) (by omega))
        (fun _ _ _ _ => rfl),
      fluxY2_congr (j := j) (q' := prim2 p u) (gf' := gf)
        (fun a b h1 h2 h3 h4 => hq' a b (by omega) (by omega) (by omega) (by omega))
        (fun _ _ _ _ => rfl),
      fluxY2_congr (j := j + 1) (q' := prim2 p u) (gf' := gf)
        (fun a b h1 h2 h3 h4 => hq' a b (by omega) (by omega) (by omega) (by omega))
        (fun _ _ _ _ => rfl)]
  · have hc' : ¬ cellGuard2 p (i, j) := fun h => hc ((cellGuard2_iff hw i j).1 h)
    simp only [hc, hc', false_and, if_false]

/-- **Version 0 and 1 of the 2D step** compute `Spec.step2`, for every schedule, every content of
uninitialised locals and any arithmetic. -/
theorem scheme2_result01 {p : Params R} (hw : p.WF) (hv : Valid2 p)
    (hi : p.implementationVersion = 0 ∨ p.implementationVersion = 1)
    {g : GravityParams} {dt : R} {jk : Junk R} {inA outA : Arr} (hpp : PingPong inA outA)
    {m m' : Mem Arr R} (hm : Kern.seqs (scheme2 p g dt jk inA outA) m m') :
    SameOff (SchemeOuts outA) m m' ∧ ∀ i j, inGrid2 p i j →
      hs2 m' outA i j = step2 p g dt (gravOf m .grav) (hs2 m inA) i j := by
  have hgw := hw.gw_pos
  have hI := hw.isize_eq
  have hJ := hw.jsize_eq
  have n1 : inA ≠ outA := by rcases hpp with ⟨rfl, rfl⟩ | ⟨rfl, rfl⟩ <;> decide
  have n2 : inA ≠ .Q := by rcases hpp with ⟨rfl, rfl⟩ | ⟨rfl, rfl⟩ <;> decide
  have n3 : Arr.Fx ≠ outA := by rcases hpp with ⟨rfl, rfl⟩ | ⟨rfl, rfl⟩ <;> decide
  have n4 : Arr.Fy ≠ outA := by rcases hpp with ⟨rfl, rfl⟩ | ⟨rfl, rfl⟩ <;> decide
  have n5 : Arr.grav ≠ outA := by rcases hpp with ⟨rfl, rfl⟩ | ⟨rfl, rfl⟩ <;> decide
  have n6 : Arr.Q ≠ outA := by rcases hpp with ⟨rfl, rfl⟩ | ⟨rfl, rfl⟩ <;> decide
  have n7 : Arr.Fx ≠ inA := by rcases hpp with ⟨rfl, rfl⟩ | ⟨rfl, rfl⟩ <;> decide
  have n8 : Arr.Fy ≠ inA := by rcases hpp with ⟨rfl, rfl⟩ | ⟨rfl, rfl⟩ <;> decide
  have n9 : Arr.Sx ≠ outA := by rcases hpp with ⟨rfl, rfl⟩ | ⟨rfl, rfl⟩ <;> decide
  have n10 : Arr.Sy ≠ outA := by rcases hpp with ⟨rfl, rfl⟩ | ⟨rfl, rfl⟩ <;> decide
  have n11 : Arr.Sx ≠ inA := by rcases hpp with ⟨rfl, rfl⟩ | ⟨rfl, rfl⟩ <;> decide
  have n12 : Arr.Sy ≠ inA := by rcases hpp with ⟨rfl, rfl⟩ | ⟨rfl, rfl⟩ <;> decide
  have key := fun q fin hq hfin i j => scheme2_key (R := R) hw (g := g) (dt := dt)
    (gf := gravOf m .grav) (u := hs2 m inA) q fin hq hfin i j
  have fg : ∀ i j, cellGuard2 p (i, j) → faceGuard2 p (i, j) ∧ faceGuard2 p (i + 1, j) ∧
      faceGuard2 p (i, j + 1) := by
    rintro i j ⟨a, b, c, d⟩
    simp only at a b c d
    refine ⟨⟨?_, ?_, ?_, ?_⟩, ⟨?_, ?_, ?_, ?_⟩, ⟨?_, ?_, ?_, ?_⟩⟩ <;> simp only <;> omega
  unfold scheme2 at hm
  obtain ⟨m1, k1, m2, k2, hm⟩ := hm
  have r1 := deepCopy_result k1
  have u1 : hs2 m1 outA = hs2 m inA := deepCopy_hs2 k1
  have i1 : hs2 m1 inA = hs2 m inA := r1.1.hs2 n1
  have g1 : gravOf m1 .grav = gravOf m .grav := r1.1.grav n5
  obtain ⟨s2, q2⟩ := convert2_result n2 k2
  rw [i1] at q2
  have u2 : hs2 m2 outA = hs2 m inA := (s2.hs2 n6.symm).trans u1
  have i2 : hs2 m2 inA = hs2 m inA := (s2.hs2 n2).trans i1
  have g2 : gravOf m2 .grav = gravOf m .grav := (s2.grav (by decide)).trans g1
  have hq : ∀ i j, inGrid2 p i j → hs2 m2 .Q i j = prim2 p (hs2 m inA) i j := by
    rintro i j ⟨a, b, c, d⟩
    exact q2 i j a (by omega) c (by omega)
  have S0 : SameOff (SchemeOuts outA) m m2 :=
    (r1.1.mono (o' := SchemeOuts outA) (fun a h => Or.inl h)).trans
      (s2.mono (fun a h => Or.inr (Or.inl h)))
  rcases hi with hi | hi
  · simp only [hi, if_true] at hm
    obtain ⟨m3, k3, m4, k4, m5, k5, rfl⟩ := hm
    obtain ⟨s3, f3⟩ := fluxes2_result hw hv (by decide) (by decide) (by decide) (by decide)
      (by decide) k3
    obtain ⟨s4, f4⟩ := update2_result hw n3 n4 k4
    obtain ⟨s5, f5⟩ := gravityStep2_result hw n1 n5 k5
    refine ⟨S0.trans ((s3.mono ?_).trans ((s4.mono ?_).trans (s5.mono ?_))), fun i j _ => ?_⟩
    · rintro a (rfl | rfl) <;> simp [SchemeOuts]
    · rintro a rfl; simp [SchemeOuts]
    · rintro a rfl; simp [SchemeOuts]
    have u3 : hs2 m3 outA = hs2 m inA :=
      (s3.hs2 (by rintro (h | h); exacts [n3 h.symm, n4 h.symm])).trans u2
    have i3 : hs2 m3 inA = hs2 m inA :=
      (s3.hs2 (by rintro (h | h); exacts [n7 h.symm, n8 h.symm])).trans i2
    have i4 : hs2 m4 inA = hs2 m inA := (s4.hs2 n1).trans i3
    have g4 : gravOf m4 .grav = gravOf m .grav :=
      (s4.grav n5).trans ((s3.grav (by decide)).trans g2)
    refine key (hs2 m2 .Q) (fun i j => hs2 m' outA i j) hq (fun i j => ?_) i j
    have e4 : hs2 m4 outA i j = if cellGuard2 p (i, j) then
            fluxUpdate2 (fluxX2 p g dt (gravOf m .grav) (hs2 m2 .Q))
              (fluxY2 p g dt (gravOf m .grav) (hs2 m2 .Q))
              (hs2 m inA i j) i j else hs2 m inA i j := by
      rw [f4 i j, u3]
      by_cases hc : cellGuard2 p (i, j)
      · rw [if_pos hc, if_pos hc]
        obtain ⟨b1, b2, b3⟩ := fg i j hc
        unfold fluxUpdate2
        rw [(f3 _ _ b1).1, (f3 _ _ b1).2, (f3 _ _ b2).1, (f3 _ _ b3).2, g2]
      · rw [if_neg hc, if_neg hc]
    rw [f5 i j, e4, i4, g4]
  · simp only [hi, one_ne_zero, if_false, if_true] at hm
    obtain ⟨m3, k3, m4, k4, m5, k5, m6, k6, m7, k7, m8, k8, rfl⟩ := hm
    obtain ⟨s3, f3⟩ := slopes2_result hw (by decide) (by decide) (by decide) k3
    have q3 : hs2 m3 .Q = hs2 m2 .Q := s3.hs2 (by decide)
    have g3 : gravOf m3 .grav = gravOf m .grav := (s3.grav (by decide)).trans g2
    obtain ⟨s4, f4⟩ := traceX2_result hw hv (by decide) (by decide) (by decide) (by decide)
      (by rw [q3]; exact f3) k4
    have q4 : hs2 m4 .Q = hs2 m2 .Q := (s4.hs2 (by decide)).trans q3
    have g4 : gravOf m4 .grav = gravOf m .grav := (s4.grav (by decide)).trans g3
    obtain ⟨s5, f5⟩ := updateDir2_result hw n3 .x k5
    have q5 : hs2 m5 .Q = hs2 m2 .Q := (s5.hs2 n6).trans q4
    have g5 : gravOf m5 .grav = gravOf m .grav := (s5.grav n5).trans g4
    obtain ⟨s6, f6⟩ := traceY2_result hw hv (by decide) (by decide) (by decide) (by decide)
      (by
        rw [q5, s5.hs2 n9, s5.hs2 n10, s4.hs2 (show Arr.Sx ≠ Arr.Fx by decide),
          s4.hs2 (show Arr.Sy ≠ Arr.Fx by decide)]
        exact f3) k6
    obtain ⟨s7, f7⟩ := updateDir2_result hw n3 .y k7
    obtain ⟨s8, f8⟩ := gravityStep2_result hw n1 n5 k8
    refine ⟨S0.trans ((s3.mono ?_).trans ((s4.mono ?_).trans ((s5.mono ?_).trans ((s6.mono ?_).trans
      ((s7.mono ?_).trans (s8.mono ?_)))))), fun i j _ => ?_⟩
    · rintro a (rfl | rfl) <;> simp [SchemeOuts]
    · rintro a rfl; simp [SchemeOuts]
    · rintro a rfl; simp [SchemeOuts]
    · rintro a rfl; simp [SchemeOuts]
    · rintro a rfl; simp [SchemeOuts]
    · rintro a rfl; simp [SchemeOuts]
    have u4 : hs2 m4 outA = hs2 m inA :=
      (s4.hs2 n3.symm).trans ((s3.hs2 (by rintro (h | h); exacts [n9 h.symm, n10 h.symm])).trans u2)
    have i7 : hs2 m7 inA = hs2 m inA :=
      (s7.hs2 n1).trans ((s6.hs2 n7.symm).trans ((s5.hs2 n1).trans ((s4.hs2 n7.symm).trans
        ((s3.hs2 (by rintro (h | h); exacts [n11 h.symm, n12 h.symm])).trans i2))))
    have g7 : gravOf m7 .grav = gravOf m .grav :=
      (s7.grav n5).trans ((s6.grav (by decide)).trans g5)
    have u6 : hs2 m6 outA = hs2 m5 outA := s6.hs2 n3.symm
    refine key (hs2 m2 .Q) (fun i j => hs2 m' outA i j) hq (fun i j => ?_) i j
    have e7 : hs2 m7 outA i j = if cellGuard2 p (i, j) then
            fluxUpdate2 (fluxX2 p g dt (gravOf m .grav) (hs2 m2 .Q))
              (fluxY2 p g dt (gravOf m .grav) (hs2 m2 .Q))
              (hs2 m inA i j) i j else hs2 m inA i j := by
      rw [f7 i j, u6, f5 i j, u4]
      by_cases hc : cellGuard2 p (i, j)
      · rw [if_pos hc, if_pos hc, if_pos hc]
        obtain ⟨b1, b2, b3⟩ := fg i j hc
        unfold fluxUpdate2
        simp only
        rw [f4 _ _ b1, f4 _ _ b2, f6 _ _ b1, f6 _ _ b3, g3, g5, q3, q5]
        rfl
      · rw [if_neg hc, if_neg hc, if_neg hc]
    rw [f8 i j, e7, i7, g7]

end generic

section atomic
variable {R : Type} [RealOps R] [ExactAdd R]
attribute [local instance 10] ExactAdd.monoid


theorem addends_atomicAdd2 (U : Arr) (a b : Int) (s : HS R) (m : Mem Arr R) (i j : Int) (v : Nat)
    (hv : v < 4) : ((atomicAdd2 U a b s).addends m ⟨U, i, j, 0, v⟩).sum =
      if (a, b) = (i, j) then s.get v else 0 := by
  simp only [atomicAdd2, Prog.addends_bind, Prog.addends_add, Loc.mk.injEq, true_and,
    List.sum_append, ID, IP, IU, IV]
  by_cases h : (a, b) = (i, j)
  · obtain ⟨rfl, rfl⟩ := Prod.mk.inj h
    match v, hv with
    | 0, _ => simp [HS.get]
    | 1, _ => simp [HS.get]
    | 2, _ => simp [HS.get]
    | 3, _ => simp [HS.get]
  · have h' : ¬ (i = a ∧ j = b) := fun e => h (by rw [e.1, e.2])
    rw [if_neg h]
    rw [if_neg (by tauto), if_neg (by tauto), if_neg (by tauto), if_neg (by tauto)]
    simp

theorem addends_atomicSub2 (U : Arr) (a b : Int) (s : HS R) (m : Mem Arr R) (i j : Int) (v : Nat)
    (hv : v < 4) : ((atomicSub2 U a b s).addends m ⟨U, i, j, 0, v⟩).sum =
      if (a, b) = (i, j) then -s.get v else 0 := by
  simp only [atomicSub2, Prog.addends_bind, Prog.addends_add, Loc.mk.injEq, true_and,
    List.sum_append, ID, IP, IU, IV]
  by_cases h : (a, b) = (i, j)
  · obtain ⟨rfl, rfl⟩ := Prod.mk.inj h
    match v, hv with
    | 0, _ => simp [HS.get]
    | 1, _ => simp [HS.get]
    | 2, _ => simp [HS.get]
    | 3, _ => simp [HS.get]
  · have h' : ¬ (i = a ∧ j = b) := fun e => h (by rw [e.1, e.2])
    rw [if_neg h]
    rw [if_neg (by tauto), if_neg (by tauto), if_neg (by tauto), if_neg (by tauto)]
    simp

theorem addends_pif {c : Prop} [Decidable c] (q : Prog Arr R Unit) (m : Mem Arr R) (l : Loc Arr) :
    ((Prog.pif c q).addends m l).sum = if c then (q.addends m l).sum else 0 := by
  unfold Prog.pif
  split
  · rfl
  · rfl

/-- the addends of one iteration of the single-pass kernel -/
theorem addends_all2 {p : Params R} (hv : Valid2 p) {Q U grav : Arr} {dt : R} {g : GravityParams}
    {jk : Junk R} (m : Mem Arr R) (t : Int × Int) (ht : faceGuard2 p t) (i j : Int) (v : Nat)
    (hvv : v < 4) :
    ((computeAllFluxesAndUpdate2 p Q U grav dt g jk t).addends m ⟨U, i, j, 0, v⟩).sum =
      (if t.2 < p.jsize - p.ghostWidth ∧ t.1 < p.isize - p.ghostWidth then
        if (t.1, t.2) = (i, j) then (fluxX2 p g dt (gravOf m grav) (hs2 m Q) t.1 t.2).get v else 0
        else 0) +
      (if t.2 < p.jsize - p.ghostWidth ∧ t.1 > p.ghostWidth then
        if (t.1 - 1, t.2) = (i, j) then -(fluxX2 p g dt (gravOf m grav) (hs2 m Q) t.1 t.2).get v
        else 0 else 0) +
      (if t.2 < p.jsize - p.ghostWidth ∧ t.1 < p.isize - p.ghostWidth then
        if (t.1, t.2) = (i, j) then (fluxY2 p g dt (gravOf m grav) (hs2 m Q) t.1 t.2).get v else 0
        else 0) +
      (if t.2 > p.ghostWidth ∧ t.1 < p.isize - p.ghostWidth then
        if (t.1, t.2 - 1) = (i, j) then -(fluxY2 p g dt (gravOf m grav) (hs2 m Q) t.1 t.2).get v
        else 0 else 0) := by
  unfold computeAllFluxesAndUpdate2
  rw [if_pos ht]
  have hx := Prog.readOnly_addends (foot_xInterface2 (Wr := fun _ => False) (Ad := fun _ => False)
    p Q grav dt g jk t ht) m ⟨U, i, j, 0, v⟩
  rw [run_xInterface2 hv] at hx
  simp only [Prog.addends_bind, List.sum_append, addends_pif, addends_atomicAdd2 _ _ _ _ _ _ _ _ hvv,
    addends_atomicSub2 _ _ _ _ _ _ _ _ hvv, hx.1, hx.2.1]
  have hy := fun x => Prog.readOnly_addends (foot_yInterface2 (Wr := fun _ => False)
    (Ad := fun _ => False) p Q grav dt g jk t x ht) m ⟨U, i, j, 0, v⟩
  rw [(hy _).1, (hy _).2.1, run_yInterface2 hv _ _ _ _ _ _ _ _ _ rfl rfl rfl]
  have e : ∀ (s : HS R), s.trunc.get v = s.get v := by
    intro s
    match v, hvv with
    | 0, _ => rfl
    | 1, _ => rfl
    | 2, _ => rfl
    | 3, _ => rfl
  have e' : ∀ (s : HS R) c, (s.swapUV.smul c) = (s.smul c).swapUV := fun s c => rfl
  simp only [fluxX2_raw, fluxY2_raw, e, e', List.sum_nil, zero_add, add_assoc]

theorem allFluxes2_result {p : Params R} (hw : p.WF) (hv : Valid2 p) {Q U grav : Arr} {dt : R}
    {g : GravityParams} {jk : Junk R} (h1 : Q ≠ U) (h2 : grav ≠ U) {m m' : Mem Arr R}
    (hm : forRange (range2 p.isize p.jsize) (computeAllFluxesAndUpdate2 p Q U grav dt g jk) m m') :
    SameOff (· = U) m m' ∧ ∀ i j, hs2 m' U i j =
      if cellGuard2 p (i, j) then
        fluxUpdate2 (fluxX2 p g dt (gravOf m grav) (hs2 m Q)) (fluxY2 p g dt (gravOf m grav) (hs2 m Q))
          (hs2 m U i j) i j
      else hs2 m U i j := by
  classical
  have hf := foot_computeAllFluxesAndUpdate2 p Q U grav dt g jk
  have hdis : ∀ l : Loc Arr, (∃ i j, cellGuard2 p (i, j) ∧ Cell2 U i j l) → ¬ (l.arr = Q ∨ l.arr = grav) := by
    rintro l ⟨i, j, _, e, _⟩ (h | h)
    · exact h1 (h.symm.trans e)
    · exact h2 (h.symm.trans e)
  have hm' := (Prog.parFor_atomic (range2 p.isize p.jsize) (fun l => l.arr = Q ∨ l.arr = grav) _
    hdis (fun t _ => foot_mono (by
      rintro l ⟨_, ⟨e, _⟩ | ⟨_, e, _⟩⟩
      · exact Or.inl e
      · exact Or.inr e) (fun _ h => h) (fun _ h => h) (hf t)) m m').1 hm
  have hsame : ∀ l, ¬ (∃ i j, cellGuard2 p (i, j) ∧ Cell2 U i j l) → m' l = m l := by
    intro l hl
    rw [hm']
    beta_reduce
    rw [Finset.sum_eq_zero]
    · simp
    · intro t _
      rw [Prog.addends_nil (hf t) m l hl]; rfl
  refine ⟨fun l hl => hsame l (by rintro ⟨i, j, _, e, _⟩; exact hl e), fun i j => ?_⟩
  by_cases hc : cellGuard2 p (i, j)
  · rw [if_pos hc]
    have hgw := hw.gw_pos
    obtain ⟨a, b, c, d⟩ := id hc
    simp only at a b c d
    have val : ∀ v, v < 4 → m' ⟨U, i, j, 0, v⟩ = m ⟨U, i, j, 0, v⟩ +
        ((fluxX2 p g dt (gravOf m grav) (hs2 m Q) i j).get v -
          (fluxX2 p g dt (gravOf m grav) (hs2 m Q) (i + 1) j).get v +
          (fluxY2 p g dt (gravOf m grav) (hs2 m Q) i j).get v -
          (fluxY2 p g dt (gravOf m grav) (hs2 m Q) i (j + 1)).get v) := by
      intro v hvv
      rw [hm']
      beta_reduce
      congr 1
      have hs : ∀ t ∈ range2 p.isize p.jsize,
          ((computeAllFluxesAndUpdate2 p Q U grav dt g jk t).addends m ⟨U, i, j, 0, v⟩).sum =
          (if t = (i, j) then (fluxX2 p g dt (gravOf m grav) (hs2 m Q) i j).get v +
            (fluxY2 p g dt (gravOf m grav) (hs2 m Q) i j).get v else 0) +
          (if t = (i + 1, j) then -(fluxX2 p g dt (gravOf m grav) (hs2 m Q) (i + 1) j).get v else 0) +
          (if t = (i, j + 1) then -(fluxY2 p g dt (gravOf m grav) (hs2 m Q) i (j + 1)).get v
            else 0) := by
        rintro ⟨s, t⟩ _
        by_cases hfg : faceGuard2 p (s, t)
        · rw [addends_all2 hv m (s, t) hfg i j v hvv]
          simp only [Prod.mk.injEq]
          by_cases e1 : s = i ∧ t = j
          · obtain ⟨rfl, rfl⟩ := e1
            have f1 : t < p.jsize - p.ghostWidth ∧ s < p.isize - p.ghostWidth := by omega
            have f2 : ¬ s - 1 = s := by omega
            have f3 : ¬ t - 1 = t := by omega
            simp [f1, f2, f3]
          by_cases e2 : s = i + 1 ∧ t = j
          · obtain ⟨rfl, rfl⟩ := e2
            have f1 : t < p.jsize - p.ghostWidth ∧ i + 1 > p.ghostWidth := by omega
            have f2 : ¬ t - 1 = t := by omega
            simp [f1, f2]
            try omega
          by_cases e3 : s = i ∧ t = j + 1
          · obtain ⟨rfl, rfl⟩ := e3
            have f1 : j + 1 > p.ghostWidth ∧ s < p.isize - p.ghostWidth := by omega
            have f2 : ¬ s - 1 = s := by omega
            simp [f1, f2]
            try omega
          simp only [e1, e2, e3, if_false]
          have e4 : ¬ (s - 1 = i ∧ t = j) := by omega
          have e5 : ¬ (s = i ∧ t - 1 = j) := by omega
          simp [e4, e5]
        · have hfg' : ¬ (s = i ∧ t = j) ∧ ¬ (s = i + 1 ∧ t = j) ∧ ¬ (s = i ∧ t = j + 1) := by
            refine ⟨?_, ?_, ?_⟩ <;> rintro ⟨rfl, rfl⟩ <;> apply hfg <;>
              refine ⟨?_, ?_, ?_, ?_⟩ <;> simp only <;> omega
          have : computeAllFluxesAndUpdate2 p Q U grav dt g jk (s, t) = pure () := by
            unfold computeAllFluxesAndUpdate2; rw [if_neg hfg]
          rw [this]
          simp [hfg']
      rw [Finset.sum_congr rfl hs, Finset.sum_add_distrib, Finset.sum_add_distrib,
        Finset.sum_ite_eq', Finset.sum_ite_eq', Finset.sum_ite_eq', if_pos, if_pos, if_pos]
      · exact_add
      all_goals simp only [mem_range2]; omega
    have e0 := val 0 (by omega)
    have e1 := val 1 (by omega)
    have e2 := val 2 (by omega)
    have e3 := val 3 (by omega)
    simp only [HS.get] at e0 e1 e2 e3
    unfold fluxUpdate2
    ext
    · simp only [hs2, HS.trunc, HS.sub, HS.add]; rw [e0]; exact_add
    · simp only [hs2, HS.trunc, HS.sub, HS.add]; rw [e1]; exact_add
    · simp only [hs2, HS.trunc, HS.sub, HS.add]; rw [e2]; exact_add
    · simp only [hs2, HS.trunc, HS.sub, HS.add]; rw [e3]; exact_add
    · rfl
  · rw [if_neg hc]
    have : ∀ v, m' ⟨U, i, j, 0, v⟩ = m ⟨U, i, j, 0, v⟩ := by
      intro v
      apply hsame
      rintro ⟨i', j', hc', _, hi, hj, _⟩
      simp only at hi hj
      exact hc (by rw [hi, hj]; exact hc')
    unfold hs2
    simp only [this]

/-- **Version 2 of the 2D step** (atomic accumulation), exact arithmetic: every schedule ends in
`Spec.step2`. -/
theorem scheme2_result2 {p : Params R} (hw : p.WF) (hv : Valid2 p)
    (hi : p.implementationVersion = 2)
    {g : GravityParams} {dt : R} {jk : Junk R} {inA outA : Arr} (hpp : PingPong inA outA)
    {m m' : Mem Arr R} (hm : Kern.seqs (scheme2 p g dt jk inA outA) m m') :
    SameOff (SchemeOuts outA) m m' ∧ ∀ i j, inGrid2 p i j →
      hs2 m' outA i j = step2 p g dt (gravOf m .grav) (hs2 m inA) i j := by
  have hI := hw.isize_eq
  have hJ := hw.jsize_eq
  have n1 : inA ≠ outA := by rcases hpp with ⟨rfl, rfl⟩ | ⟨rfl, rfl⟩ <;> decide
  have n2 : inA ≠ .Q := by rcases hpp with ⟨rfl, rfl⟩ | ⟨rfl, rfl⟩ <;> decide
  have n5 : Arr.grav ≠ outA := by rcases hpp with ⟨rfl, rfl⟩ | ⟨rfl, rfl⟩ <;> decide
  have n6 : Arr.Q ≠ outA := by rcases hpp with ⟨rfl, rfl⟩ | ⟨rfl, rfl⟩ <;> decide
  unfold scheme2 at hm
  rw [hi] at hm
  simp only [show (2 : Int) ≠ 0 by decide, show (2 : Int) ≠ 1 by decide, if_false, if_true] at hm
  obtain ⟨m1, k1, m2, k2, m3, k3, m4, k4, rfl⟩ := hm
  have r1 := deepCopy_result k1
  have u1 : hs2 m1 outA = hs2 m inA := deepCopy_hs2 k1
  have i1 : hs2 m1 inA = hs2 m inA := r1.1.hs2 n1
  have g1 : gravOf m1 .grav = gravOf m .grav := r1.1.grav n5
  obtain ⟨s2, q2⟩ := convert2_result n2 k2
  rw [i1] at q2
  have u2 : hs2 m2 outA = hs2 m inA := (s2.hs2 n6.symm).trans u1
  have i2 : hs2 m2 inA = hs2 m inA := (s2.hs2 n2).trans i1
  have g2 : gravOf m2 .grav = gravOf m .grav := (s2.grav (by decide)).trans g1
  have hq : ∀ i j, inGrid2 p i j → hs2 m2 .Q i j = prim2 p (hs2 m inA) i j := by
    rintro i j ⟨a, b, c, d⟩
    exact q2 i j a (by omega) c (by omega)
  have S0 : SameOff (SchemeOuts outA) m m2 :=
    (r1.1.mono (o' := SchemeOuts outA) (fun a h => Or.inl h)).trans
      (s2.mono (fun a h => Or.inr (Or.inl h)))
  obtain ⟨s3, f3⟩ := allFluxes2_result hw hv n6 n5 k3
  obtain ⟨s4, f4⟩ := gravityStep2_result hw n1 n5 k4
  refine ⟨S0.trans ((s3.mono ?_).trans (s4.mono ?_)), fun i j _ => ?_⟩
  · rintro a rfl; simp [SchemeOuts]
  · rintro a rfl; simp [SchemeOuts]
  refine scheme2_key hw (hs2 m2 .Q) (fun i j => hs2 m' outA i j) hq (fun i j => ?_) i j
  have i3 : hs2 m3 inA = hs2 m inA := (s3.hs2 n1).trans i2
  have g3 : gravOf m3 .grav = gravOf m .grav := (s3.grav n5).trans g2
  rw [f4 i j, f3 i j, u2, i3, g2, g3]

end atomic

end EulerKokkos
