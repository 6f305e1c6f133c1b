import Verif.Lemmas.Step3D
import Verif.Lemmas.Scheme2D

/-! # One 3D hydro step (after the ghost fill) computes `Spec.step3` -/

set_option linter.constructorNameAsVariable false
set_option linter.unusedSectionVars false
set_option linter.unusedSimpArgs false

namespace EulerKokkos

open Prog (rd wr add upd run_bind run_rd run_wr run_pure foot_bind foot_rd foot_wr foot_add
  foot_pure foot_ite foot_mono Foot forRange)
open Spec

section generic
variable {R : Type} [RealOps R]

/-! ## Locality of the specification -/

/-- two fields agree within distance `r` of a cell -/
def AgreeNear {α : Type} (r i j k : Int) (f f' : Int → Int → Int → α) : Prop :=
  ∀ a b c, i - r ≤ a → a ≤ i + r → j - r ≤ b → b ≤ j + r → k - r ≤ c → c ≤ k + r →
    f a b c = f' a b c

theorem AgreeNear.sub {α : Type} {r r' i j k i' j' k' : Int} {f f' : Int → Int → Int → α}
    (h : AgreeNear r i j k f f')
    (h' : i - r ≤ i' - r' ∧ i' + r' ≤ i + r ∧ j - r ≤ j' - r' ∧ j' + r' ≤ j + r ∧
      k - r ≤ k' - r' ∧ k' + r' ≤ k + r) : AgreeNear r' i' j' k' f f' :=
  fun a b c h1 h2 h3 h4 h5 h6 => h a b c (by omega) (by omega) (by omega) (by omega) (by omega)
    (by omega)

theorem AgreeNear.at {α : Type} {r i j k : Int} {f f' : Int → Int → Int → α}
    (h : AgreeNear r i j k f f') (hr : 0 ≤ r) : f i j k = f' i j k :=
  h i j k (by omega) (by omega) (by omega) (by omega) (by omega) (by omega)

theorem slopes3_congr {p : Params R} {q q' : Fld3 R} {i j k : Int} (h : AgreeNear 1 i j k q q') :
    slopes3 p q i j k = slopes3 p q' i j k := by
  unfold slopes3
  rw [h i j k (by omega) (by omega) (by omega) (by omega) (by omega) (by omega),
    h (i + 1) j k (by omega) (by omega) (by omega) (by omega) (by omega) (by omega),
    h (i - 1) j k (by omega) (by omega) (by omega) (by omega) (by omega) (by omega),
    h i (j + 1) k (by omega) (by omega) (by omega) (by omega) (by omega) (by omega),
    h i (j - 1) k (by omega) (by omega) (by omega) (by omega) (by omega) (by omega),
    h i j (k + 1) (by omega) (by omega) (by omega) (by omega) (by omega) (by omega),
    h i j (k - 1) (by omega) (by omega) (by omega) (by omega) (by omega) (by omega)]

theorem trace3_congr {p : Params R} {dt : R} {f : Face} {q q' : Fld3 R} {i j k : Int}
    (h : AgreeNear 1 i j k q q') : trace3 p dt q f i j k = trace3 p dt q' f i j k := by
  unfold trace3
  rw [slopes3_congr h, h.at (by omega)]

theorem face3_congr {p : Params R} {g : GravityParams} {dt : R} {gf gf' : Grav3 R} {f : Face}
    {q q' : Fld3 R} {i j k : Int} (h : AgreeNear 1 i j k q q')
    (hg : g.enabled = true → gf i j k = gf' i j k) :
    face3 p g dt gf q f i j k = face3 p g dt gf' q' f i j k := by
  unfold face3
  rw [trace3_congr h]
  unfold kick3
  by_cases he : g.enabled = true
  · rw [hg he]
  · simp [he]

theorem fluxX3_congr {p : Params R} {g : GravityParams} {dt : R} {gf gf' : Grav3 R}
    {q q' : Fld3 R} {i j k : Int} (h0 : AgreeNear 1 i j k q q') (h1 : AgreeNear 1 (i - 1) j k q q')
    (hg : g.enabled = true → gf i j k = gf' i j k ∧ gf (i - 1) j k = gf' (i - 1) j k) :
    fluxX3 p g dt gf q i j k = fluxX3 p g dt gf' q' i j k := by
  unfold fluxX3
  rw [face3_congr h0 (fun e => (hg e).1), face3_congr h1 (fun e => (hg e).2)]

theorem fluxY3_congr {p : Params R} {g : GravityParams} {dt : R} {gf gf' : Grav3 R}
    {q q' : Fld3 R} {i j k : Int} (h0 : AgreeNear 1 i j k q q') (h1 : AgreeNear 1 i (j - 1) k q q')
    (hg : g.enabled = true → gf i j k = gf' i j k ∧ gf i (j - 1) k = gf' i (j - 1) k) :
    fluxY3 p g dt gf q i j k = fluxY3 p g dt gf' q' i j k := by
  unfold fluxY3
  rw [face3_congr h0 (fun e => (hg e).1), face3_congr h1 (fun e => (hg e).2)]

theorem fluxZ3_congr {zk : Bool} {p : Params R} {g : GravityParams} {dt : R} {gf gf' : Grav3 R}
    {q q' : Fld3 R} {i j k : Int} (h0 : AgreeNear 1 i j k q q') (h1 : AgreeNear 1 i j (k - 1) q q')
    (hg : g.enabled = true → gf i j k = gf' i j k ∧ gf i j (k - 1) = gf' i j (k - 1)) :
    fluxZ3 zk p g dt gf q i j k = fluxZ3 zk p g dt gf' q' i j k := by
  unfold fluxZ3
  rw [face3_congr h0 (fun e => (hg e).1), face3_congr h1 (fun e => (hg e).2), trace3_congr h0]

theorem fluxUpdate3_congr {zk : Bool} {p : Params R} {g : GravityParams} {dt : R}
    {gf gf' : Grav3 R} {q q' : Fld3 R} {i j k : Int} (h : AgreeNear 2 i j k q q')
    (hg : g.enabled = true → AgreeNear 1 i j k gf gf') (u : HS R) :
    fluxUpdate3 (fluxX3 p g dt gf q) (fluxY3 p g dt gf q) (fluxZ3 zk p g dt gf q) u i j k =
    fluxUpdate3 (fluxX3 p g dt gf' q') (fluxY3 p g dt gf' q') (fluxZ3 zk p g dt gf' q') u i j k := by
  have hs : ∀ {i' j' k'}, i - 1 ≤ i' → i' ≤ i + 1 → j - 1 ≤ j' → j' ≤ j + 1 → k - 1 ≤ k' →
      k' ≤ k + 1 → AgreeNear 1 i' j' k' q q' := fun _ _ _ _ _ _ => h.sub (by omega)
  have hs' : ∀ {i' j' k'}, g.enabled = true → i - 1 ≤ i' → i' ≤ i + 1 → j - 1 ≤ j' → j' ≤ j + 1 →
      k - 1 ≤ k' → k' ≤ k + 1 → gf i' j' k' = gf' i' j' k' :=
    fun e _ _ _ _ _ _ => hg e _ _ _ (by omega) (by omega) (by omega) (by omega) (by omega)
      (by omega)
  have e1 : ∀ x : Int, x + 1 - 1 = x := by intro x; omega
  unfold fluxUpdate3
  rw [fluxX3_congr (i := i) (gf' := gf') (q' := q') (hs (by omega) (by omega) (by omega) (by omega) (by omega) (by omega))
      (hs (by omega) (by omega) (by omega) (by omega) (by omega) (by omega))
      (fun e => ⟨hs' e (by omega) (by omega) (by omega) (by omega) (by omega) (by omega),
        hs' e (by omega) (by omega) (by omega) (by omega) (by omega) (by omega)⟩),
    fluxX3_congr (i := i + 1) (gf' := gf') (q' := q') (hs (by omega) (by omega) (by omega) (by omega) (by omega) (by omega))
      (hs (by omega) (by omega) (by omega) (by omega) (by omega) (by omega))
      (fun e => ⟨hs' e (by omega) (by omega) (by omega) (by omega) (by omega) (by omega),
        hs' e (by omega) (by omega) (by omega) (by omega) (by omega) (by omega)⟩),
    fluxY3_congr (j := j) (gf' := gf') (q' := q') (hs (by omega) (by omega) (by omega) (by omega) (by omega) (by omega))
      (hs (by omega) (by omega) (by omega) (by omega) (by omega) (by omega))
      (fun e => ⟨hs' e (by omega) (by omega) (by omega) (by omega) (by omega) (by omega),
        hs' e (by omega) (by omega) (by omega) (by omega) (by omega) (by omega)⟩),
    fluxY3_congr (j := j + 1) (gf' := gf') (q' := q') (hs (by omega) (by omega) (by omega) (by omega) (by omega) (by omega))
      (hs (by omega) (by omega) (by omega) (by omega) (by omega) (by omega))
      (fun e => ⟨hs' e (by omega) (by omega) (by omega) (by omega) (by omega) (by omega),
        hs' e (by omega) (by omega) (by omega) (by omega) (by omega) (by omega)⟩),
    fluxZ3_congr (k := k) (gf' := gf') (q' := q') (hs (by omega) (by omega) (by omega) (by omega) (by omega) (by omega))
      (hs (by omega) (by omega) (by omega) (by omega) (by omega) (by omega))
      (fun e => ⟨hs' e (by omega) (by omega) (by omega) (by omega) (by omega) (by omega),
        hs' e (by omega) (by omega) (by omega) (by omega) (by omega) (by omega)⟩),
    fluxZ3_congr (k := k + 1) (gf' := gf') (q' := q') (hs (by omega) (by omega) (by omega) (by omega) (by omega) (by omega))
      (hs (by omega) (by omega) (by omega) (by omega) (by omega) (by omega))
      (fun e => ⟨hs' e (by omega) (by omega) (by omega) (by omega) (by omega) (by omega),
        hs' e (by omega) (by omega) (by omega) (by omega) (by omega) (by omega)⟩)]

/-- The new value of cell `(i,j,k)` depends only on the old field at distance at most 2. -/
theorem step3_congr {zk : Bool} {p : Params R} {g : GravityParams} {dt : R} {gf gf' : Grav3 R}
    {u u' : Fld3 R} {i j k : Int} (h : AgreeNear 2 i j k u u')
    (hg : g.enabled = true → AgreeNear 1 i j k gf gf') :
    step3 zk p g dt gf u i j k = step3 zk p g dt gf' u' i j k := by
  have hq : AgreeNear 2 i j k (prim3 p u) (prim3 p u') := by
    intro a b c h1 h2 h3 h4 h5 h6; unfold prim3; rw [h a b c h1 h2 h3 h4 h5 h6]
  unfold step3
  simp only
  rw [h.at (by omega), fluxUpdate3_congr hq hg]
  by_cases he : g.enabled = true
  · rw [(hg he).at (by omega)]
  · simp [he]

theorem cellGuard3_iff {p : Params R} (hw : p.WF) (i j k : Int) :
    cellGuard3 p (i, j, k) ↔ interior3 p i j k := by
  unfold cellGuard3 interior3
  have := hw.isize_eq
  have := hw.jsize_eq
  have := hw.ksize_eq
  simp only
  omega

/-! ## The step -/

theorem deepCopy_hs3 {dst src : Arr} {m m' : Mem Arr R} (h : deepCopy dst src m m') :
    hs3 m' dst = hs3 m src := by
  funext i j k
  have := (deepCopy_result h).2
  unfold hs3
  rw [this _ rfl, this _ rfl, this _ rfl, this _ rfl, this _ rfl]

/-- views written by the scheme -/
def SchemeOuts3 (outA a : Arr) : Prop :=
  a = outA ∨ a = .Q ∨ a = .Fx ∨ a = .Fy ∨ a = .Fz ∨ a = .Sx ∨ a = .Sy ∨ a = .Sz

/-- final assembly, common to all versions -/
theorem scheme3_key {zk : Bool} {p : Params R} (hw : p.WF) {g : GravityParams} {dt : R}
    {gf : Grav3 R} {u : Fld3 R} (q : Fld3 R) (fin : Fld3 R)
    (hq : ∀ i j k, inGrid3 p i j k → q i j k = prim3 p u i j k)
    (hfin : ∀ i j k, fin i j k = if cellGuard3 p (i, j, k) ∧ g.enabled = true then
        gravity3 dt (gf i j k) (u i j k)
          (if cellGuard3 p (i, j, k) then
            fluxUpdate3 (fluxX3 p g dt gf q) (fluxY3 p g dt gf q) (fluxZ3 zk p g dt gf q)
              (u i j k) i j k else u i j k)
        else (if cellGuard3 p (i, j, k) then
            fluxUpdate3 (fluxX3 p g dt gf q) (fluxY3 p g dt gf q) (fluxZ3 zk p g dt gf q)
              (u i j k) i j k else u i j k))
    (i j k : Int) : fin i j k = step3 zk p g dt gf u i j k := by
  have hgw := hw.gw_pos
  have hI := hw.isize_eq
  have hJ := hw.jsize_eq
  have hK := hw.ksize_eq
  rw [hfin i j k]
  unfold step3
  by_cases hc : interior3 p i j k
  · have hc' := (cellGuard3_iff hw i j k).2 hc
    obtain ⟨⟨c1, c2⟩, ⟨c3, c4⟩, c5, c6⟩ := id hc
    have hq' : AgreeNear 2 i j k q (prim3 p u) := fun a b c h1 h2 h3 h4 h5 h6 =>
      hq a b c ⟨⟨by omega, by omega⟩, ⟨by omega, by omega⟩, by omega, by omega⟩
    simp only [hc, hc', true_and, if_true]
    rw [fluxUpdate3_congr hq' (fun _ _ _ _ _ _ _ _ _ _ => rfl)]
  · have hc' : ¬ cellGuard3 p (i, j, k) := fun h => hc ((cellGuard3_iff hw i j k).1 h)
    simp only [hc, hc', false_and, if_false]

theorem face_of_cell3 {p : Params R} {i j k : Int} (h : cellGuard3 p (i, j, k)) :
    faceGuard3 p (i, j, k) ∧ faceGuard3 p (i + 1, j, k) ∧ faceGuard3 p (i, j + 1, k) ∧
      faceGuard3 p (i, j, k + 1) := by
  obtain ⟨a, b, c, d, e, f⟩ := h
  simp only at a b c d e f
  simp only [faceGuard3]
  omega

/-- the z-face right state receives the gravity kick in version `v` -/
def zKick (v : Int) : Bool := v != 1

/-- **Version 0 and 1 of the 3D step** compute `Spec.step3`, for every schedule, every content of
uninitialised locals and any arithmetic; version 1 without the kick of the state above z-faces. -/
theorem scheme3_result01 {p : Params R} (hw : p.WF) (hv : Valid3 p)
    (hi : p.implementationVersion = 0 ∨ p.implementationVersion = 1)
    {g : GravityParams} {dt : R} {jk : Junk R} {inA outA : Arr} (hpp : PingPong inA outA)
    {m m' : Mem Arr R} (hm : Kern.seqs (scheme3 p g dt jk inA outA) m m') :
    SameOff (SchemeOuts3 outA) m m' ∧ ∀ i j k, inGrid3 p i j k →
      hs3 m' outA i j k =
        step3 (zKick p.implementationVersion) p g dt (gravOf3 m .grav) (hs3 m inA) i j k := by
  have hgw := hw.gw_pos
  have n1 : inA ≠ outA := by rcases hpp with ⟨rfl, rfl⟩ | ⟨rfl, rfl⟩ <;> decide
  have n2 : inA ≠ .Q := by rcases hpp with ⟨rfl, rfl⟩ | ⟨rfl, rfl⟩ <;> decide
  have n3 : Arr.Fx ≠ outA := by rcases hpp with ⟨rfl, rfl⟩ | ⟨rfl, rfl⟩ <;> decide
  have n4 : Arr.Fy ≠ outA := by rcases hpp with ⟨rfl, rfl⟩ | ⟨rfl, rfl⟩ <;> decide
  have n4' : Arr.Fz ≠ outA := by rcases hpp with ⟨rfl, rfl⟩ | ⟨rfl, rfl⟩ <;> decide
  have n5 : Arr.grav ≠ outA := by rcases hpp with ⟨rfl, rfl⟩ | ⟨rfl, rfl⟩ <;> decide
  have n6 : Arr.Q ≠ outA := by rcases hpp with ⟨rfl, rfl⟩ | ⟨rfl, rfl⟩ <;> decide
  have n7 : Arr.Fx ≠ inA := by rcases hpp with ⟨rfl, rfl⟩ | ⟨rfl, rfl⟩ <;> decide
  have n8 : Arr.Fy ≠ inA := by rcases hpp with ⟨rfl, rfl⟩ | ⟨rfl, rfl⟩ <;> decide
  have n8' : Arr.Fz ≠ inA := by rcases hpp with ⟨rfl, rfl⟩ | ⟨rfl, rfl⟩ <;> decide
  have n9 : Arr.Sx ≠ outA := by rcases hpp with ⟨rfl, rfl⟩ | ⟨rfl, rfl⟩ <;> decide
  have n10 : Arr.Sy ≠ outA := by rcases hpp with ⟨rfl, rfl⟩ | ⟨rfl, rfl⟩ <;> decide
  have n10' : Arr.Sz ≠ outA := by rcases hpp with ⟨rfl, rfl⟩ | ⟨rfl, rfl⟩ <;> decide
  have n11 : Arr.Sx ≠ inA := by rcases hpp with ⟨rfl, rfl⟩ | ⟨rfl, rfl⟩ <;> decide
  have n12 : Arr.Sy ≠ inA := by rcases hpp with ⟨rfl, rfl⟩ | ⟨rfl, rfl⟩ <;> decide
  have n12' : Arr.Sz ≠ inA := by rcases hpp with ⟨rfl, rfl⟩ | ⟨rfl, rfl⟩ <;> decide
  have key := fun zk q fin hq hfin i j k => scheme3_key (R := R) (zk := zk) hw (g := g) (dt := dt)
    (gf := gravOf3 m .grav) (u := hs3 m inA) q fin hq hfin i j k
  unfold scheme3 at hm
  obtain ⟨m1, k1, m2, k2, hm⟩ := hm
  have r1 := deepCopy_result k1
  have u1 : hs3 m1 outA = hs3 m inA := deepCopy_hs3 k1
  have i1 : hs3 m1 inA = hs3 m inA := r1.1.hs3 n1
  have g1 : gravOf3 m1 .grav = gravOf3 m .grav := r1.1.grav3 n5
  obtain ⟨s2, q2⟩ := convert3_result hw n2 k2
  rw [i1] at q2
  have u2 : hs3 m2 outA = hs3 m inA := (s2.hs3 n6.symm).trans u1
  have i2 : hs3 m2 inA = hs3 m inA := (s2.hs3 n2).trans i1
  have g2 : gravOf3 m2 .grav = gravOf3 m .grav := (s2.grav3 (by decide)).trans g1
  have S0 : SameOff (SchemeOuts3 outA) m m2 :=
    (r1.1.mono (o' := SchemeOuts3 outA) (fun a h => Or.inl h)).trans
      (s2.mono (fun a h => Or.inr (Or.inl h)))
  rcases hi with hi | hi
  · simp only [hi, if_true] at hm
    obtain ⟨m3, k3, m4, k4, m5, k5, rfl⟩ := hm
    obtain ⟨s3, f3⟩ := fluxes3_result hw hv (by decide) (by decide) (by decide) (by decide)
      (by decide) (by decide) (by decide) (by decide) (by decide) k3
    obtain ⟨s4, f4⟩ := update3_result hw n3 n4 n4' k4
    obtain ⟨s5, f5⟩ := gravityStep3_result hw n1 n5 k5
    refine ⟨S0.trans ((s3.mono ?_).trans ((s4.mono ?_).trans (s5.mono ?_))), fun i j k _ => ?_⟩
    · rintro a (rfl | rfl | rfl) <;> simp [SchemeOuts3]
    · rintro a rfl; simp [SchemeOuts3]
    · rintro a rfl; simp [SchemeOuts3]
    have u3 : hs3 m3 outA = hs3 m inA :=
      (s3.hs3 (by rintro (h | h | h); exacts [n3 h.symm, n4 h.symm, n4' h.symm])).trans u2
    have i3 : hs3 m3 inA = hs3 m inA :=
      (s3.hs3 (by rintro (h | h | h); exacts [n7 h.symm, n8 h.symm, n8' h.symm])).trans i2
    have i4 : hs3 m4 inA = hs3 m inA := (s4.hs3 n1).trans i3
    have g4 : gravOf3 m4 .grav = gravOf3 m .grav :=
      (s4.grav3 n5).trans ((s3.grav3 (by decide)).trans g2)
    rw [hi]
    refine key true (hs3 m2 .Q) (fun i j k => hs3 m' outA i j k) q2 (fun i j k => ?_) i j k
    have e4 : hs3 m4 outA i j k = if cellGuard3 p (i, j, k) then
            fluxUpdate3 (fluxX3 p g dt (gravOf3 m .grav) (hs3 m2 .Q))
              (fluxY3 p g dt (gravOf3 m .grav) (hs3 m2 .Q))
              (fluxZ3 true p g dt (gravOf3 m .grav) (hs3 m2 .Q))
              (hs3 m inA i j k) i j k else hs3 m inA i j k := by
      rw [f4 i j k, u3]
      by_cases hc : cellGuard3 p (i, j, k)
      · rw [if_pos hc, if_pos hc]
        obtain ⟨b1, b2, b3, b4⟩ := face_of_cell3 hc
        unfold fluxUpdate3
        rw [(f3 _ _ _ b1).1, (f3 _ _ _ b1).2.1, (f3 _ _ _ b1).2.2, (f3 _ _ _ b2).1,
          (f3 _ _ _ b3).2.1, (f3 _ _ _ b4).2.2, g2]
      · rw [if_neg hc, if_neg hc]
    rw [f5 i j k, e4, i4, g4]
  · simp only [hi, one_ne_zero, if_false, if_true] at hm
    obtain ⟨m3, k3, m4, k4, m5, k5, m6, k6, m7, k7, m8, k8, m9, k9, m10, k10, rfl⟩ := hm
    obtain ⟨s3, f3⟩ := slopes3_result hw hv (by decide) (by decide) (by decide) (by decide)
      (by decide) (by decide) k3
    have q3 : hs3 m3 .Q = hs3 m2 .Q := s3.hs3 (by decide)
    have g3 : gravOf3 m3 .grav = gravOf3 m .grav := (s3.grav3 (by decide)).trans g2
    have keep : ∀ {o : Arr → Prop} {a b : Mem Arr R}, SameOff o a b → ¬ o .Q → ¬ o .Sx → ¬ o .Sy →
        ¬ o .Sz → SlopesStored3 p .Q .Sx .Sy .Sz a → SlopesStored3 p .Q .Sx .Sy .Sz b := by
      intro o a b h h1 h2 h3 h4 hs
      unfold SlopesStored3
      rw [h.hs3 h1, h.hs3 h2, h.hs3 h3, h.hs3 h4]; exact hs
    obtain ⟨s4, f4⟩ := trace3_result hw hv (by decide) (by decide) (by decide) (by decide)
      (by decide) f3 .x k4
    have st4 := keep s4 (by decide) (by decide) (by decide) (by decide) f3
    have q4 : hs3 m4 .Q = hs3 m2 .Q := (s4.hs3 (by decide)).trans q3
    have g4 : gravOf3 m4 .grav = gravOf3 m .grav := (s4.grav3 (by decide)).trans g3
    obtain ⟨s5, f5⟩ := updateDir3_result hw n3 .x k5
    have st5 := keep s5 n6 n9 n10 n10' st4
    have q5 : hs3 m5 .Q = hs3 m2 .Q := (s5.hs3 n6).trans q4
    have g5 : gravOf3 m5 .grav = gravOf3 m .grav := (s5.grav3 n5).trans g4
    obtain ⟨s6, f6⟩ := trace3_result hw hv (by decide) (by decide) (by decide) (by decide)
      (by decide) st5 .y k6
    have st6 := keep s6 (by decide) (by decide) (by decide) (by decide) st5
    have q6 : hs3 m6 .Q = hs3 m2 .Q := (s6.hs3 (by decide)).trans q5
    have g6 : gravOf3 m6 .grav = gravOf3 m .grav := (s6.grav3 (by decide)).trans g5
    obtain ⟨s7, f7⟩ := updateDir3_result hw n3 .y k7
    have st7 := keep s7 n6 n9 n10 n10' st6
    have q7 : hs3 m7 .Q = hs3 m2 .Q := (s7.hs3 n6).trans q6
    have g7 : gravOf3 m7 .grav = gravOf3 m .grav := (s7.grav3 n5).trans g6
    obtain ⟨s8, f8⟩ := trace3_result hw hv (by decide) (by decide) (by decide) (by decide)
      (by decide) st7 .z k8
    obtain ⟨s9, f9⟩ := updateDir3_result hw n3 .z k9
    obtain ⟨s10, f10⟩ := gravityStep3_result hw n1 n5 k10
    refine ⟨S0.trans ((s3.mono ?_).trans ((s4.mono ?_).trans ((s5.mono ?_).trans ((s6.mono ?_).trans
      ((s7.mono ?_).trans ((s8.mono ?_).trans ((s9.mono ?_).trans (s10.mono ?_)))))))),
      fun i j k _ => ?_⟩
    · rintro a (rfl | rfl | rfl) <;> simp [SchemeOuts3]
    iterate 7 · rintro a rfl; simp [SchemeOuts3]
    have u4 : hs3 m4 outA = hs3 m inA :=
      (s4.hs3 n3.symm).trans ((s3.hs3 (by
        rintro (h | h | h); exacts [n9 h.symm, n10 h.symm, n10' h.symm])).trans u2)
    have i9 : hs3 m9 inA = hs3 m inA :=
      (s9.hs3 n1).trans ((s8.hs3 n7.symm).trans ((s7.hs3 n1).trans ((s6.hs3 n7.symm).trans
        ((s5.hs3 n1).trans ((s4.hs3 n7.symm).trans ((s3.hs3 (by
          rintro (h | h | h); exacts [n11 h.symm, n12 h.symm, n12' h.symm])).trans i2))))))
    have g9 : gravOf3 m9 .grav = gravOf3 m .grav :=
      (s9.grav3 n5).trans ((s8.grav3 (by decide)).trans g7)
    have u6 : hs3 m6 outA = hs3 m5 outA := s6.hs3 n3.symm
    have u8 : hs3 m8 outA = hs3 m7 outA := s8.hs3 n3.symm
    rw [hi]
    refine key false (hs3 m2 .Q) (fun i j k => hs3 m' outA i j k) q2 (fun i j k => ?_) i j k
    have e9 : hs3 m9 outA i j k = if cellGuard3 p (i, j, k) then
            fluxUpdate3 (fluxX3 p g dt (gravOf3 m .grav) (hs3 m2 .Q))
              (fluxY3 p g dt (gravOf3 m .grav) (hs3 m2 .Q))
              (fluxZ3 false p g dt (gravOf3 m .grav) (hs3 m2 .Q))
              (hs3 m inA i j k) i j k else hs3 m inA i j k := by
      rw [f9 i j k, u8, f7 i j k, u6, f5 i j k, u4]
      by_cases hc : cellGuard3 p (i, j, k)
      · simp only [if_pos hc]
        obtain ⟨b1, b2, b3, b4⟩ := face_of_cell3 hc
        unfold fluxUpdate3
        rw [f4 _ _ _ b1, f4 _ _ _ b2, f6 _ _ _ b1, f6 _ _ _ b3, f8 _ _ _ b1, f8 _ _ _ b4, g3, g5,
          g7, q3, q5, q7]
      · simp only [if_neg hc]
    rw [f10 i j k, e9, i9, g9]

end generic

section atomic
variable {R : Type} [RealOps R] [ExactAdd R]
attribute [local instance 10] ExactAdd.monoid


theorem addends_atomicAdd3 (U : Arr) (a b c : Int) (s : HS R) (m : Mem Arr R) (i j k : Int)
    (v : Nat) (hv : v < 5) : ((atomicAdd3 U a b c s).addends m ⟨U, i, j, k, v⟩).sum =
      if (a, b, c) = (i, j, k) then s.get v else 0 := by
  simp only [atomicAdd3, Prog.addends_bind, Prog.addends_add, Loc.mk.injEq, true_and,
    List.sum_append, ID, IP, IU, IV, IW]
  by_cases h : (a, b, c) = (i, j, k)
  · simp only [Prod.mk.injEq] at h
    obtain ⟨rfl, rfl, rfl⟩ := h
    match v, hv with
    | 0, _ => simp [HS.get]
    | 1, _ => simp [HS.get]
    | 2, _ => simp [HS.get]
    | 3, _ => simp [HS.get]
    | 4, _ => simp [HS.get]
  · have h' : ¬ (i = a ∧ j = b ∧ k = c) := fun e => h (by rw [e.1, e.2.1, e.2.2])
    rw [if_neg h]
    rw [if_neg (by tauto), if_neg (by tauto), if_neg (by tauto), if_neg (by tauto),
      if_neg (by tauto)]
    simp

theorem addends_atomicSub3 (U : Arr) (a b c : Int) (s : HS R) (m : Mem Arr R) (i j k : Int)
    (v : Nat) (hv : v < 5) : ((atomicSub3 U a b c s).addends m ⟨U, i, j, k, v⟩).sum =
      if (a, b, c) = (i, j, k) then -s.get v else 0 := by
  simp only [atomicSub3, Prog.addends_bind, Prog.addends_add, Loc.mk.injEq, true_and,
    List.sum_append, ID, IP, IU, IV, IW]
  by_cases h : (a, b, c) = (i, j, k)
  · simp only [Prod.mk.injEq] at h
    obtain ⟨rfl, rfl, rfl⟩ := h
    match v, hv with
    | 0, _ => simp [HS.get]
    | 1, _ => simp [HS.get]
    | 2, _ => simp [HS.get]
    | 3, _ => simp [HS.get]
    | 4, _ => simp [HS.get]
  · have h' : ¬ (i = a ∧ j = b ∧ k = c) := fun e => h (by rw [e.1, e.2.1, e.2.2])
    rw [if_neg h]
    rw [if_neg (by tauto), if_neg (by tauto), if_neg (by tauto), if_neg (by tauto),
      if_neg (by tauto)]
    simp

/-- the addends of one iteration of the single-pass kernel -/
theorem addends_all3 {p : Params R} (hv : Valid3 p) {Q U grav : Arr} {dt : R} {g : GravityParams}
    {jk : Junk R} (m : Mem Arr R) (t : Int × Int × Int) (ht : faceGuard3 p t) (i j k : Int)
    (v : Nat) (hvv : v < 5) (X Y Z : Int → Int → Int → R)
    (hX : X = fun a b c => (fluxX3 p g dt (gravOf3 m grav) (hs3 m Q) a b c).get v)
    (hY : Y = fun a b c => (fluxY3 p g dt (gravOf3 m grav) (hs3 m Q) a b c).get v)
    (hZ : Z = fun a b c => (fluxZ3 true p g dt (gravOf3 m grav) (hs3 m Q) a b c).get v) :
    ((computeAllFluxesAndUpdate3 p Q U grav dt g jk t).addends m ⟨U, i, j, k, v⟩).sum =
      (if t.2.2 < p.ksize - p.ghostWidth ∧ t.2.1 < p.jsize - p.ghostWidth ∧
          t.1 < p.isize - p.ghostWidth then
        if (t.1, t.2.1, t.2.2) = (i, j, k) then X t.1 t.2.1 t.2.2 else 0 else 0) +
      (if t.2.2 < p.ksize - p.ghostWidth ∧ t.2.1 < p.jsize - p.ghostWidth ∧
          t.1 > p.ghostWidth then
        if (t.1 - 1, t.2.1, t.2.2) = (i, j, k) then -X t.1 t.2.1 t.2.2 else 0 else 0) +
      (if t.2.2 < p.ksize - p.ghostWidth ∧ t.2.1 < p.jsize - p.ghostWidth ∧
          t.1 < p.isize - p.ghostWidth then
        if (t.1, t.2.1, t.2.2) = (i, j, k) then Y t.1 t.2.1 t.2.2 else 0 else 0) +
      (if t.2.2 < p.ksize - p.ghostWidth ∧ t.2.1 > p.ghostWidth ∧
          t.1 < p.isize - p.ghostWidth then
        if (t.1, t.2.1 - 1, t.2.2) = (i, j, k) then -Y t.1 t.2.1 t.2.2 else 0 else 0) +
      (if t.2.2 < p.ksize - p.ghostWidth ∧ t.2.1 < p.jsize - p.ghostWidth ∧
          t.1 < p.isize - p.ghostWidth then
        if (t.1, t.2.1, t.2.2) = (i, j, k) then Z t.1 t.2.1 t.2.2 else 0 else 0) +
      (if t.2.2 > p.ghostWidth ∧ t.2.1 < p.jsize - p.ghostWidth ∧
          t.1 < p.isize - p.ghostWidth then
        if (t.1, t.2.1, t.2.2 - 1) = (i, j, k) then -Z t.1 t.2.1 t.2.2 else 0 else 0) := by
  subst hX hY hZ
  unfold computeAllFluxesAndUpdate3
  rw [if_pos ht]
  have hx := Prog.readOnly_addends (foot_xInterface3 (Wr := fun _ => False) (Ad := fun _ => False)
    p Q grav dt g jk t ht) m ⟨U, i, j, k, v⟩
  rw [run_xInterface3 hv] at hx
  simp only [Prog.addends_bind, List.sum_append, addends_pif,
    addends_atomicAdd3 _ _ _ _ _ _ _ _ _ _ hvv, addends_atomicSub3 _ _ _ _ _ _ _ _ _ _ hvv,
    hx.1, hx.2.1]
  have hy := fun x => Prog.readOnly_addends (foot_yInterface3 (Wr := fun _ => False)
    (Ad := fun _ => False) p Q grav dt g jk t x ht) m ⟨U, i, j, k, v⟩
  rw [(hy _).1, (hy _).2.1, run_yInterface3 hv _ _ _ _ _ _ _ _ _ _ rfl rfl]
  have hz := fun x d => Prog.readOnly_addends (foot_zInterface3 (Wr := fun _ => False)
    (Ad := fun _ => False) p Q grav dt g jk t x d ht) m ⟨U, i, j, k, v⟩
  rw [(hz _ _).1, (hz _ _).2.1, run_zInterface3 hv _ _ _ _ _ _ _ _ _ _ _ rfl rfl]
  have e1 : ∀ a b c, (rawX3 p g dt (gravOf3 m grav) (hs3 m Q) a b c).smul (dt / p.dx)
    = fluxX3 p g dt (gravOf3 m grav) (hs3 m Q) a b c := fun _ _ _ => rfl
  have e2 : ∀ a b c, (rawY3 p g dt (gravOf3 m grav) (hs3 m Q) a b c).swapUV.smul (dt / p.dy)
    = fluxY3 p g dt (gravOf3 m grav) (hs3 m Q) a b c := fun _ _ _ => rfl
  have e3 : ∀ a b c, (rawZ3 true p g dt (gravOf3 m grav) (hs3 m Q) a b c).swapUW.smul (dt / p.dz)
    = fluxZ3 true p g dt (gravOf3 m grav) (hs3 m Q) a b c := fun _ _ _ => rfl
  simp only [e1, e2, e3, List.sum_nil, zero_add, add_assoc]

theorem allFluxes3_result {p : Params R} (hw : p.WF) (hv : Valid3 p) {Q U grav : Arr} {dt : R}
    {g : GravityParams} {jk : Junk R} (h1 : Q ≠ U) (h2 : grav ≠ U) {m m' : Mem Arr R}
    (hm : forRange (range3 p.isize p.jsize p.ksize)
      (computeAllFluxesAndUpdate3 p Q U grav dt g jk) m m') :
    SameOff (· = U) m m' ∧ ∀ i j k, hs3 m' U i j k =
      if cellGuard3 p (i, j, k) then
        fluxUpdate3 (fluxX3 p g dt (gravOf3 m grav) (hs3 m Q))
          (fluxY3 p g dt (gravOf3 m grav) (hs3 m Q))
          (fluxZ3 true p g dt (gravOf3 m grav) (hs3 m Q)) (hs3 m U i j k) i j k
      else hs3 m U i j k := by
  classical
  have hf := foot_computeAllFluxesAndUpdate3 p Q U grav dt g jk
  have hdis : ∀ l : Loc Arr, (∃ i j k, cellGuard3 p (i, j, k) ∧ Cell3 U i j k l) →
      ¬ (l.arr = Q ∨ l.arr = grav) := by
    rintro l ⟨i, j, k, _, e, _⟩ (h | h)
    · exact h1 (h.symm.trans e)
    · exact h2 (h.symm.trans e)
  have hm' := (Prog.parFor_atomic (range3 p.isize p.jsize p.ksize)
    (fun l => l.arr = Q ∨ l.arr = grav) _
    hdis (fun t _ => foot_mono (by
      rintro l ⟨_, ⟨e, _⟩ | ⟨_, e, _⟩⟩
      · exact Or.inl e
      · exact Or.inr e) (fun _ h => h) (fun _ h => h) (hf t)) m m').1 hm
  have hsame : ∀ l, ¬ (∃ i j k, cellGuard3 p (i, j, k) ∧ Cell3 U i j k l) → m' l = m l := by
    intro l hl
    rw [hm']
    beta_reduce
    rw [Finset.sum_eq_zero]
    · simp
    · intro t _
      rw [Prog.addends_nil (hf t) m l hl]; rfl
  refine ⟨fun l hl => hsame l (by rintro ⟨i, j, k, _, e, _⟩; exact hl e), fun i j k => ?_⟩
  by_cases hc : cellGuard3 p (i, j, k)
  · rw [if_pos hc]
    have hgw := hw.gw_pos
    obtain ⟨a, b, c, d, e, f⟩ := id hc
    simp only at a b c d e f
    have val : ∀ v, v < 5 → m' ⟨U, i, j, k, v⟩ = m ⟨U, i, j, k, v⟩ +
        ((fluxX3 p g dt (gravOf3 m grav) (hs3 m Q) i j k).get v -
          (fluxX3 p g dt (gravOf3 m grav) (hs3 m Q) (i + 1) j k).get v +
          (fluxY3 p g dt (gravOf3 m grav) (hs3 m Q) i j k).get v -
          (fluxY3 p g dt (gravOf3 m grav) (hs3 m Q) i (j + 1) k).get v +
          (fluxZ3 true p g dt (gravOf3 m grav) (hs3 m Q) i j k).get v -
          (fluxZ3 true p g dt (gravOf3 m grav) (hs3 m Q) i j (k + 1)).get v) := by
      intro v hvv
      obtain ⟨X, hX⟩ : ∃ X : Int → Int → Int → R, X = fun a b c =>
        (fluxX3 p g dt (gravOf3 m grav) (hs3 m Q) a b c).get v := ⟨_, rfl⟩
      obtain ⟨Y, hY⟩ : ∃ Y : Int → Int → Int → R, Y = fun a b c =>
        (fluxY3 p g dt (gravOf3 m grav) (hs3 m Q) a b c).get v := ⟨_, rfl⟩
      obtain ⟨Z, hZ⟩ : ∃ Z : Int → Int → Int → R, Z = fun a b c =>
        (fluxZ3 true p g dt (gravOf3 m grav) (hs3 m Q) a b c).get v := ⟨_, rfl⟩
      rw [hm']
      beta_reduce
      congr 1
      have hs : ∀ t ∈ range3 p.isize p.jsize p.ksize,
          ((computeAllFluxesAndUpdate3 p Q U grav dt g jk t).addends m ⟨U, i, j, k, v⟩).sum =
          (if t = (i, j, k) then X i j k + Y i j k + Z i j k else 0) +
          (if t = (i + 1, j, k) then -X (i + 1) j k else 0) +
          (if t = (i, j + 1, k) then -Y i (j + 1) k else 0) +
          (if t = (i, j, k + 1) then -Z i j (k + 1) else 0) := by
        rintro ⟨s, t, r⟩ _
        by_cases hfg : faceGuard3 p (s, t, r)
        · rw [addends_all3 hv m (s, t, r) hfg i j k v hvv X Y Z hX hY hZ]
          simp only [Prod.mk.injEq]
          by_cases e1 : s = i ∧ t = j ∧ r = k
          · obtain ⟨rfl, rfl, rfl⟩ := e1
            have f1 : r < p.ksize - p.ghostWidth ∧ t < p.jsize - p.ghostWidth ∧
              s < p.isize - p.ghostWidth := by omega
            have f2 : ¬ s - 1 = s := by omega
            have f3 : ¬ t - 1 = t := by omega
            have f4 : ¬ r - 1 = r := by omega
            simp [f1, f2, f3, f4]
          by_cases e2 : s = i + 1 ∧ t = j ∧ r = k
          · obtain ⟨rfl, rfl, rfl⟩ := e2
            have f1 : r < p.ksize - p.ghostWidth ∧ t < p.jsize - p.ghostWidth ∧
              i + 1 > p.ghostWidth := by omega
            have f2 : ¬ t - 1 = t := by omega
            have f3 : ¬ r - 1 = r := by omega
            simp [f1, f2, f3]
            try omega
          by_cases e3 : s = i ∧ t = j + 1 ∧ r = k
          · obtain ⟨rfl, rfl, rfl⟩ := e3
            have f1 : r < p.ksize - p.ghostWidth ∧ j + 1 > p.ghostWidth ∧
              s < p.isize - p.ghostWidth := by omega
            have f2 : ¬ s - 1 = s := by omega
            have f3 : ¬ r - 1 = r := by omega
            simp [f1, f2, f3]
            try omega
          by_cases e4 : s = i ∧ t = j ∧ r = k + 1
          · obtain ⟨rfl, rfl, rfl⟩ := e4
            have f1 : k + 1 > p.ghostWidth ∧ t < p.jsize - p.ghostWidth ∧
              s < p.isize - p.ghostWidth := by omega
            have f2 : ¬ s - 1 = s := by omega
            have f3 : ¬ t - 1 = t := by omega
            simp [f1, f2, f3]
            try omega
          simp only [e1, e2, e3, e4, if_false]
          have e5 : ¬ (s - 1 = i ∧ t = j ∧ r = k) := by omega
          have e6 : ¬ (s = i ∧ t - 1 = j ∧ r = k) := by omega
          have e7 : ¬ (s = i ∧ t = j ∧ r - 1 = k) := by omega
          simp [e5, e6, e7]
        · have hfg' : ¬ (s = i ∧ t = j ∧ r = k) ∧ ¬ (s = i + 1 ∧ t = j ∧ r = k) ∧
              ¬ (s = i ∧ t = j + 1 ∧ r = k) ∧ ¬ (s = i ∧ t = j ∧ r = k + 1) := by
            obtain ⟨b1, b2, b3, b4⟩ := face_of_cell3 hc
            refine ⟨?_, ?_, ?_, ?_⟩ <;> rintro ⟨rfl, rfl, rfl⟩ <;> apply hfg <;> assumption
          have : computeAllFluxesAndUpdate3 p Q U grav dt g jk (s, t, r) = pure () := by
            unfold computeAllFluxesAndUpdate3; rw [if_neg hfg]
          rw [this]
          simp [hfg']
      rw [Finset.sum_congr rfl hs, Finset.sum_add_distrib, Finset.sum_add_distrib,
        Finset.sum_add_distrib,
        Finset.sum_ite_eq', Finset.sum_ite_eq', Finset.sum_ite_eq', Finset.sum_ite_eq', if_pos,
        if_pos, if_pos, if_pos]
      · rw [hX, hY, hZ]; exact_add
      all_goals simp only [mem_range3]; omega
    have e0 := val 0 (by omega)
    have e1 := val 1 (by omega)
    have e2 := val 2 (by omega)
    have e3 := val 3 (by omega)
    have e4 := val 4 (by omega)
    simp only [HS.get] at e0 e1 e2 e3 e4
    unfold fluxUpdate3
    ext
    · simp only [hs3, HS.sub, HS.add]; rw [e0]; exact_add
    · simp only [hs3, HS.sub, HS.add]; rw [e1]; exact_add
    · simp only [hs3, HS.sub, HS.add]; rw [e2]; exact_add
    · simp only [hs3, HS.sub, HS.add]; rw [e3]; exact_add
    · simp only [hs3, HS.sub, HS.add]; rw [e4]; exact_add
  · rw [if_neg hc]
    have : ∀ v, m' ⟨U, i, j, k, v⟩ = m ⟨U, i, j, k, v⟩ := by
      intro v
      apply hsame
      rintro ⟨i', j', k', hc', _, hi, hj, hk, _⟩
      simp only at hi hj hk
      exact hc (by rw [hi, hj, hk]; exact hc')
    unfold hs3
    simp only [this]

/-- **Version 2 of the 3D step** (atomic accumulation), exact arithmetic: every schedule ends in
`Spec.step3`. -/
theorem scheme3_result2 {p : Params R} (hw : p.WF) (hv : Valid3 p)
    (hi : p.implementationVersion = 2)
    {g : GravityParams} {dt : R} {jk : Junk R} {inA outA : Arr} (hpp : PingPong inA outA)
    {m m' : Mem Arr R} (hm : Kern.seqs (scheme3 p g dt jk inA outA) m m') :
    SameOff (SchemeOuts3 outA) m m' ∧ ∀ i j k, inGrid3 p i j k →
      hs3 m' outA i j k = step3 true p g dt (gravOf3 m .grav) (hs3 m inA) i j k := by
  have n1 : inA ≠ outA := by rcases hpp with ⟨rfl, rfl⟩ | ⟨rfl, rfl⟩ <;> decide
  have n2 : inA ≠ .Q := by rcases hpp with ⟨rfl, rfl⟩ | ⟨rfl, rfl⟩ <;> decide
  have n5 : Arr.grav ≠ outA := by rcases hpp with ⟨rfl, rfl⟩ | ⟨rfl, rfl⟩ <;> decide
  have n6 : Arr.Q ≠ outA := by rcases hpp with ⟨rfl, rfl⟩ | ⟨rfl, rfl⟩ <;> decide
  unfold scheme3 at hm
  rw [hi] at hm
  simp only [show (2 : Int) ≠ 0 by decide, show (2 : Int) ≠ 1 by decide, if_false, if_true] at hm
  obtain ⟨m1, k1, m2, k2, m3, k3, m4, k4, rfl⟩ := hm
  have r1 := deepCopy_result k1
  have u1 : hs3 m1 outA = hs3 m inA := deepCopy_hs3 k1
  have i1 : hs3 m1 inA = hs3 m inA := r1.1.hs3 n1
  have g1 : gravOf3 m1 .grav = gravOf3 m .grav := r1.1.grav3 n5
  obtain ⟨s2, q2⟩ := convert3_result hw n2 k2
  rw [i1] at q2
  have u2 : hs3 m2 outA = hs3 m inA := (s2.hs3 n6.symm).trans u1
  have i2 : hs3 m2 inA = hs3 m inA := (s2.hs3 n2).trans i1
  have g2 : gravOf3 m2 .grav = gravOf3 m .grav := (s2.grav3 (by decide)).trans g1
  have S0 : SameOff (SchemeOuts3 outA) m m2 :=
    (r1.1.mono (o' := SchemeOuts3 outA) (fun a h => Or.inl h)).trans
      (s2.mono (fun a h => Or.inr (Or.inl h)))
  obtain ⟨s3, f3⟩ := allFluxes3_result hw hv n6 n5 k3
  obtain ⟨s4, f4⟩ := gravityStep3_result hw n1 n5 k4
  refine ⟨S0.trans ((s3.mono ?_).trans (s4.mono ?_)), fun i j k _ => ?_⟩
  · rintro a rfl; simp [SchemeOuts3]
  · rintro a rfl; simp [SchemeOuts3]
  refine scheme3_key hw (hs3 m2 .Q) (fun i j k => hs3 m' outA i j k) q2 (fun i j k => ?_) i j k
  have i3 : hs3 m3 inA = hs3 m inA := (s3.hs3 n1).trans i2
  have g3 : gravOf3 m3 .grav = gravOf3 m .grav := (s3.grav3 n5).trans g2
  rw [f4 i j k, f3 i j k, u2, i3, g2, g3]

end atomic

end EulerKokkos
