import Verif.Lemmas.Restart
import Verif.Spec.Restart
import Verif.Props.C66
import Verif.Props.C23
import Verif.Props.C53
import Verif.Props.C60

/-!
# C67: a restarted run continues the run it was started from
-/

set_option linter.constructorNameAsVariable false
set_option linter.unusedSectionVars false
set_option linter.unusedSimpArgs false

namespace EulerKokkos
open Spec

section
variable {X : Type} {p : Params ℝ} {S S' : SolverOps ℝ} {M M' : Method X} {E : X → X → Prop}
  {Inv Inv' : Nat → Mem Arr ℝ → X → Prop} {View : (Loc Unit → ℝ) → X → Prop}
  {Same : (Loc Unit → ℝ) → (Loc Unit → ℝ) → Prop}

theorem forall₂_split {α β : Type} {r : α → β → Prop} {l₁ : List α} {a : α} {l₂ : List α} {m : List β}
    (h : List.Forall₂ r (l₁ ++ a :: l₂) m) : ∃ m₁ b m₂, m = m₁ ++ b :: m₂ ∧ List.Forall₂ r l₁ m₁ ∧
      r a b ∧ List.Forall₂ r l₂ m₂ := by
  induction l₁ generalizing m with
  | nil =>
    cases h with
    | cons h1 h2 => exact ⟨[], _, _, rfl, .nil, h1, h2⟩
  | cons x l ih =>
    cases h with
    | cons h1 h2 =>
      obtain ⟨m₁, b, m₂, rfl, i1, i2, i3⟩ := ih h2
      exact ⟨_ :: m₁, b, m₂, rfl, .cons h1 i1, i2, i3⟩

theorem forall₂_nil_iff {α β : Type} {r : α → β → Prop} {l : List α} {m : List β}
    (h : List.Forall₂ r l m) : l = [] ↔ m = [] := by
  cases h <;> simp

theorem sameFiles (hsame : ∀ a b x y, View a x → View b y → E x y → Same a b) {d : Int}
    {l m : List (Output ℝ)} {u w : List (Int × ℝ × X)} (h1 : List.Forall₂ (FileOK View) l u)
    (h2 : List.Forall₂ (FileE d E) u w) (h3 : List.Forall₂ (FileOK View) m w) :
    List.Forall₂ (SameFile Same d) l m := by
  induction h1 generalizing m w with
  | nil => cases h2; cases h3; exact .nil
  | cons a _ ih =>
    cases h2 with
    | cons b h2 =>
      cases h3 with
      | cons c h3 =>
        refine .cons ⟨?_, ?_, hsame _ _ _ _ a.2.2 c.2.2 b.2.2⟩ (ih h2 h3)
        · rw [c.1, a.1, b.1]
        · rw [c.2.1, a.2.1, b.2.1]

/-- the general statement, for a solver that refines a numerical method -/
theorem restart_run (hRA : Refines p S M Inv View) (hRB : Refines p S' M' Inv' View)
    (hA : Agree E M M') (hsame : ∀ a b x y, View a x → View b y → E x y → Same a b)
    (he : p.enableOutput = decide (p.nOutput ≠ 0)) (hne : p.nOutput ≠ 0)
    {m m' : Mem Arr ℝ} {x y : X} {t : ℝ} {sv : Int} {sA sB : RunState ℝ}
    (hinit : ∀ m₁, S.setup m m₁ → Inv 0 m₁ x) (hinit' : ∀ m₁, S'.setup m' m₁ → Inv' 0 m₁ y)
    (h : runMain p S m t sv sA) (hend : p.tEnd - 1 / 100000000000000 ≤ sA.t)
    {pre post : List (Output ℝ)} {o : Output ℝ} (ho : sA.outputs = pre ++ o :: post)
    (hy : ∀ z, View o.data z → E z y) (hB : runMain p S' m' o.time o.number sB) :
    Continues Same p pre o post sA sB := by
  obtain ⟨a1, a2⟩ := refine_run hRA he hinit h
  obtain ⟨b1, b2⟩ := refine_run hRB he hinit' hB
  have hf := a2.files
  rw [ho] at hf
  obtain ⟨fpre, f, fpost, hfiles, f1, f2, f3⟩ := forall₂_split hf
  have hyE := hy _ f2.2.2
  have hend' := hend
  rw [a2.t] at hend'
  rw [f2.1, f2.2.1] at b1 b2
  obtain ⟨j, hj, j1, j2⟩ := Sim.file_state (M := M) hne
    (show f ∈ (Sim.result p M x t sv sA.iteration).files by rw [hfiles]; simp)
  obtain ⟨r1, r2⟩ := Sim.restart_end (p := p) (M' := M') (y := y) (ty := f.2.1) (sy := f.1) hA hj a1
    hend' (by rw [j1]; exact hyE) j2
  have ek := Sim.Length.unique b1 r1
  refine ⟨?_, ?_, fun hpost hnd => ?_, fun hpre hc => ?_⟩
  · rw [b2.t, a2.t, ek, r2.t]
  · refine hsame _ _ _ _ (hRA.view _ _ _ a2.inv) (hRB.view _ _ _ b2.inv) ?_
    rw [ek]; exact r2.x
  · obtain ⟨k', l1, l2⟩ := Sim.restart_exact (p := p) (M' := M') (y := y) hA a1 hne hend' hfiles
      (fun hh => hpost ((forall₂_nil_iff f3).2 hh)) (by
        rcases hnd with hnd | ⟨n1, n2, n3⟩
        · exact .inl ((forall₂_nil_iff f1).1 hnd)
        · right
          unfold Sim.Due
          dsimp only
          rw [← f2.1, ← f2.2.1]
          push Not
          exact ⟨n1.le, fun _ => ⟨by push_cast; exact n2, n3⟩⟩) hyE
    rw [Sim.Length.unique l1 b1] at l2
    exact sameFiles hsame (List.Forall₂.cons f2 f3) l2 b2.files
  · obtain ⟨k', l1, tail, l2, l3⟩ := Sim.restart_shift (p := p) (M' := M') (y := y) hA a1 hne hend' hfiles
      (fun hh => hpre ((forall₂_nil_iff f1).2 hh))
      (hc.elim (fun h => .inr ((forall₂_nil_iff f3).1 h)) .inl) hyE
    rw [Sim.Length.unique l1 b1] at l2
    have hb := b2.files
    rw [l2] at hb
    rcases hout : sB.outputs with _ | ⟨o', tl⟩
    · rw [hout] at hb; cases hb
    · rw [hout] at hb
      cases hb with
      | cons c1 c2 =>
        refine ⟨o', tl, rfl, ⟨?_, ?_, hsame _ _ _ _ f2.2.2 c1.2.2 hyE⟩,
          sameFiles hsame (List.Forall₂.cons f2 f3) l3 c2⟩
        · rw [c1.1, f2.1, add_zero]
        · rw [c1.2.1, f2.2.1]
end

/-! ### the four solvers: only the interior cells matter -/

theorem agree_hydro2 {p : Params ℝ} (hp : Hydro2 p) {g : GravityParams} {gf gf' : Grav2 ℝ}
    (hg : g.enabled = true → ∀ i j, inGrid2 p i j → gf i j = gf' i j) :
    Agree (fun x y => ∀ i j, interior2 p i j → x i j = y i j) (hydro2 p g gf) (hydro2 p g gf') where
  dt x y h := by
    show cflDt2 p g gf x = cflDt2 p g gf' y
    unfold cflDt2
    congr 2
    ext r
    have e : ∀ i j, interior2 p i j → rate2 p g gf x i j = rate2 p g gf' y i j := by
      intro i j hij
      unfold rate2
      rw [h i j hij]
      by_cases hen : g.enabled = true
      · rw [hg hen i j (interior_inGrid2 hp.wf hij)]
      · simp only [hen, if_false]; rfl
    constructor <;> rintro ⟨i, j, hij, rfl⟩
    · exact ⟨i, j, hij, e i j hij⟩
    · exact ⟨i, j, hij, (e i j hij).symm⟩
  adv d x y h i j hij := by
    show fullStep2 p g d gf x i j = fullStep2 p g d gf' y i j
    have hgw := hp.wf.gw_pos
    obtain ⟨a, b, c, e⟩ := hij
    unfold fullStep2
    exact step2_congr (fun x y _ _ _ _ => fill2_congr_interior hp h x y
      ⟨by omega, by omega, by omega, by omega⟩)
      (fun hen x y _ _ _ _ => hg hen x y ⟨by omega, by omega, by omega, by omega⟩)

theorem agree_hydro3 {p : Params ℝ} (hp : Hydro3 p) {zk : Bool} {g : GravityParams} {gf gf' : Grav3 ℝ}
    (hg : g.enabled = true → ∀ i j k, inGrid3 p i j k → gf i j k = gf' i j k) :
    Agree (fun x y => ∀ i j k, interior3 p i j k → x i j k = y i j k) (hydro3 zk p g gf)
      (hydro3 zk p g gf') where
  dt x y h := by
    show cflDt3 p g gf x = cflDt3 p g gf' y
    unfold cflDt3
    congr 2
    ext r
    have e : ∀ i j k, interior3 p i j k → rate3 p g gf x i j k = rate3 p g gf' y i j k := by
      intro i j k hij
      unfold rate3
      rw [h i j k hij]
      by_cases hen : g.enabled = true
      · rw [hg hen i j k (interior_inGrid3 hp.wf hij)]
      · simp only [hen, if_false]; rfl
    constructor <;> rintro ⟨i, j, k, hij, rfl⟩
    · exact ⟨i, j, k, hij, e i j k hij⟩
    · exact ⟨i, j, k, hij, (e i j k hij).symm⟩
  adv d x y h i j k hij := by
    show fullStep3 zk p g d gf x i j k = fullStep3 zk p g d gf' y i j k
    have hgw := hp.wf.gw_pos
    obtain ⟨⟨a, b⟩, ⟨c, e⟩, f, f'⟩ := hij
    unfold fullStep3
    exact step3_congr (fun x y z _ _ _ _ _ _ => fill3_congr_interior hp h x y z
      ⟨⟨by omega, by omega⟩, ⟨by omega, by omega⟩, by omega, by omega⟩)
      (fun hen x y z _ _ _ _ _ _ => hg hen x y z
        ⟨⟨by omega, by omega⟩, ⟨by omega, by omega⟩, by omega, by omega⟩)

theorem agree_mhd2 {p : Params ℝ} (hp : Mhd2 p) :
    Agree (fun x y => ∀ i j, interior2 p i j → x i j = y i j) (mhd2 p) (mhd2 p) where
  dt x y h := by
    show cflDtM2 p x = cflDtM2 p y
    unfold cflDtM2
    congr 2
    ext r
    have e : ∀ i j, interior2 p i j → primM2 p (fillM2 p x) i j = primM2 p (fillM2 p y) i j := by
      intro i j hij
      have hf := fillM2_congr hp.wf hp.faces h
      have hgw := hp.wf.gw_pos
      obtain ⟨a, b, c, d⟩ := hij
      unfold primM2
      rw [hf i j ⟨by omega, by omega, by omega, by omega⟩,
        hf (i + 1) j ⟨by omega, by omega, by omega, by omega⟩,
        hf i (j + 1) ⟨by omega, by omega, by omega, by omega⟩]
    constructor <;> rintro ⟨i, j, hij, rfl⟩
    · exact ⟨i, j, hij, by rw [e i j hij]⟩
    · exact ⟨i, j, hij, by rw [e i j hij]⟩
  adv d x y h i j hij := fullStepM2_congr hp h i j hij

theorem agree_mhd3 {p : Params ℝ} (hp : Mhd3 p) :
    Agree (fun x y => ∀ i j k, interior3 p i j k → x i j k = y i j k) (mhd3 p) (mhd3 p) where
  dt x y h := by
    show cflDtM3 p x = cflDtM3 p y
    unfold cflDtM3
    congr 2
    ext r
    have e : ∀ i j k, interior3 p i j k →
        primM3 p (fillM3 p x) i j k = primM3 p (fillM3 p y) i j k := by
      intro i j k hij
      have hf := fillM3_congr hp.wf hp.faces h
      have hgw := hp.wf.gw_pos
      obtain ⟨⟨a, b⟩, ⟨c, d⟩, u, v⟩ := hij
      unfold primM3
      rw [hf i j k ⟨⟨by omega, by omega⟩, ⟨by omega, by omega⟩, by omega, by omega⟩,
        hf (i + 1) j k ⟨⟨by omega, by omega⟩, ⟨by omega, by omega⟩, by omega, by omega⟩,
        hf i (j + 1) k ⟨⟨by omega, by omega⟩, ⟨by omega, by omega⟩, by omega, by omega⟩,
        hf i j (k + 1) ⟨⟨by omega, by omega⟩, ⟨by omega, by omega⟩, by omega, by omega⟩]
    constructor <;> rintro ⟨i, j, k, hij, rfl⟩
    · exact ⟨i, j, k, hij, by rw [e i j k hij]⟩
    · exact ⟨i, j, k, hij, by rw [e i j k hij]⟩
  adv d x y h i j k hij := fullStepM3_congr hp h i j k hij

theorem shows2_same {p : Params ℝ} (hp : Hydro2 p) (a b : Loc Unit → ℝ) (x y : Fld2 ℝ)
    (ha : Shows2 p a x) (hb : Shows2 p b y) (h : ∀ i j, interior2 p i j → x i j = y i j) :
    SameInterior2 p a b := by
  intro i j v hij hv
  have hgr := interior_inGrid2 hp.wf hij
  have e := (ha i j hgr).trans ((h i j hij).trans (hb i j hgr).symm)
  rw [hp.nbvar] at hv
  rw [HS.mk.injEq] at e
  match v with
  | 0 => exact e.1
  | 1 => exact e.2.1
  | 2 => exact e.2.2.1
  | 3 => exact e.2.2.2.1
  | n + 4 => omega

theorem shows3_same {p : Params ℝ} (hp : Hydro3 p) (a b : Loc Unit → ℝ) (x y : Fld3 ℝ)
    (ha : Shows3 p a x) (hb : Shows3 p b y) (h : ∀ i j k, interior3 p i j k → x i j k = y i j k) :
    SameInterior3 p a b := by
  intro i j k v hij hv
  have hgr := interior_inGrid3 hp.wf hij
  have e := (ha i j k hgr).trans ((h i j k hij).trans (hb i j k hgr).symm)
  rw [hp.nbvar] at hv
  rw [HS.mk.injEq] at e
  match v with
  | 0 => exact e.1
  | 1 => exact e.2.1
  | 2 => exact e.2.2.1
  | 3 => exact e.2.2.2.1
  | 4 => exact e.2.2.2.2
  | n + 5 => omega

theorem showsM2_same {p : Params ℝ} (hp : Mhd2 p) (a b : Loc Unit → ℝ) (x y : FldM2 ℝ)
    (ha : ShowsM2 p a x) (hb : ShowsM2 p b y) (h : ∀ i j, interior2 p i j → x i j = y i j) :
    SameInterior2 p a b := by
  intro i j v hij hv
  have e := (ha i j hij).trans ((h i j hij).trans (hb i j hij).symm)
  rw [hp.nbvar] at hv
  rw [← shownM_get a i j 0 hv, e, shownM_get b i j 0 hv]

theorem showsM3_same {p : Params ℝ} (hp : Mhd3 p) (a b : Loc Unit → ℝ) (x y : FldM3 ℝ)
    (ha : ShowsM3 p a x) (hb : ShowsM3 p b y) (h : ∀ i j k, interior3 p i j k → x i j k = y i j k) :
    SameInterior3 p a b := by
  intro i j k v hij hv
  have e := (ha i j k hij).trans ((h i j k hij).trans (hb i j k hij).symm)
  rw [hp.nbvar] at hv
  rw [← shownM_get a i j k hv, e, shownM_get b i j k hv]

theorem start_hydro2 {p : Params ℝ} (hp : Hydro2 p) {o : Loc Unit → ℝ} {m' : Mem Arr ℝ}
    (hm : SameInterior2 p o (viewOf m' .U)) :
    ∀ z, Shows2 p o z → ∀ i j, interior2 p i j → z i j = fill2 p (hs2 m' .U) i j := by
  intro z hz i j hij
  have hrt := fun v (hv : v < p.nbvar) => hm i j v hij hv
  rw [hp.nbvar] at hrt
  rw [← hz i j (interior_inGrid2 hp.wf hij)]
  obtain ⟨a, b, c, d⟩ := hij
  unfold fill2
  simp only [srcCoord_self a b, srcCoord_self c d, signed, flips_not a b, flips_not c d, if_false, hs2]
  rw [hrt ID (by decide), hrt IP (by decide), hrt IU (by decide), hrt IV (by decide)]
  simp [viewOf]

/-- from the file itself: the view holds what the file shows -/
theorem continues_hydro2 {p : Params ℝ} (hp : Hydro2 p)
    (hi : p.implementationVersion = 0 ∨ p.implementationVersion = 1 ∨ p.implementationVersion = 2)
    (hg : GoodGrid p) (he : p.enableOutput = decide (p.nOutput ≠ 0)) (hne : p.nOutput ≠ 0) (g : GravityParams)
    {ident ident' : ℝ} (hid : ident ≤ 0) (hid' : ident' ≤ 0) {jk jk' : Junk ℝ}
    {m m' : Mem Arr ℝ} {t : ℝ} {sv : Int} {A B : RunState ℝ}
    (hA : runMain p (hydroOps2 p g ident jk) m t sv A) (hend : p.tEnd - 1 / 100000000000000 ≤ A.t)
    {pre post : List (Output ℝ)} {o : Output ℝ} (ho : A.outputs = pre ++ o :: post)
    (hm : SameInterior2 p o.data (viewOf m' .U))
    (hgr : g.enabled = true → ∀ i j, inGrid2 p i j → gravOf m .grav i j = gravOf m' .grav i j)
    (hB : runMain p (hydroOps2 p g ident' jk') m' o.time o.number B) :
    Continues (SameInterior2 p) p pre o post A B := by
  refine restart_run (refines_hydro2 hp hi hg g hid jk _) (refines_hydro2 hp hi hg g hid' jk' _)
    (agree_hydro2 hp hgr) (shows2_same hp) he hne (fun _ h => setup_hydro2 hp h)
    (fun _ h => setup_hydro2 hp h) hA hend ho ?_ hB
  exact start_hydro2 hp hm

theorem start_hydro3 {p : Params ℝ} (hp : Hydro3 p) {o : Loc Unit → ℝ} {m' : Mem Arr ℝ}
    (hm : SameInterior3 p o (viewOf m' .U)) :
    ∀ z, Shows3 p o z → ∀ i j k, interior3 p i j k → z i j k = fill3 p (hs3 m' .U) i j k := by
  intro z hz i j k hij
  have hrt := fun v (hv : v < p.nbvar) => hm i j k v hij hv
  rw [hp.nbvar] at hrt
  rw [← hz i j k (interior_inGrid3 hp.wf hij), fill3_interior p _ hij]
  simp only [hs3]
  rw [hrt ID (by decide), hrt IP (by decide), hrt IU (by decide), hrt IV (by decide),
    hrt IW (by decide)]
  simp [viewOf]

/-- from the file itself: the view holds what the file shows -/
theorem continues_hydro3 {p : Params ℝ} (hp : Hydro3 p)
    (hi : p.implementationVersion = 0 ∨ p.implementationVersion = 1 ∨ p.implementationVersion = 2)
    (hg : GoodGrid p) (he : p.enableOutput = decide (p.nOutput ≠ 0)) (hne : p.nOutput ≠ 0) (g : GravityParams)
    {ident ident' : ℝ} (hid : ident ≤ 0) (hid' : ident' ≤ 0) {jk jk' : Junk ℝ}
    {m m' : Mem Arr ℝ} {t : ℝ} {sv : Int} {A B : RunState ℝ}
    (hA : runMain p (hydroOps3 p g ident jk) m t sv A) (hend : p.tEnd - 1 / 100000000000000 ≤ A.t)
    {pre post : List (Output ℝ)} {o : Output ℝ} (ho : A.outputs = pre ++ o :: post)
    (hm : SameInterior3 p o.data (viewOf m' .U))
    (hgr : g.enabled = true → ∀ i j k, inGrid3 p i j k → gravOf3 m .grav i j k = gravOf3 m' .grav i j k)
    (hB : runMain p (hydroOps3 p g ident' jk') m' o.time o.number B) :
    Continues (SameInterior3 p) p pre o post A B := by
  refine restart_run (refines_hydro3 hp hi hg g hid jk _) (refines_hydro3 hp hi hg g hid' jk' _)
    (agree_hydro3 hp hgr) (shows3_same hp) he hne (fun _ h => setup_hydro3 hp h)
    (fun _ h => setup_hydro3 hp h) hA hend ho ?_ hB
  exact start_hydro3 hp hm

theorem start_mhd2 {p : Params ℝ} (hp : Mhd2 p) {o : Loc Unit → ℝ} {m' : Mem Arr ℝ}
    (hm : SameInterior2 p o (viewOf m' .U)) :
    ∀ z, ShowsM2 p o z → ∀ i j, interior2 p i j → z i j = ms2 m' .U i j := by
  intro z hz i j hij
  have hrt := fun v (hv : v < p.nbvar) => hm i j v hij hv
  rw [hp.nbvar] at hrt
  rw [← hz i j hij]
  unfold shownM
  rw [hrt ID (by decide), hrt IP (by decide), hrt IU (by decide), hrt IV (by decide),
    hrt IW (by decide), hrt IA (by decide), hrt IB (by decide), hrt IC (by decide)]
  simp [viewOf, ms2, ms]

/-- from the file itself: the view holds what the file shows -/
theorem continues_mhd2 {p : Params ℝ} (hp : Mhd2 p)
    (hi : p.implementationVersion = 0 ∨ p.implementationVersion = 1 ∨ p.implementationVersion = 2)
    (hg : GoodGrid p) (he : p.enableOutput = decide (p.nOutput ≠ 0)) (hne : p.nOutput ≠ 0)
    {ident ident' : ℝ} (hid : ident ≤ 0) (hid' : ident' ≤ 0) {jk jk' : JunkM ℝ}
    {m m' : Mem Arr ℝ} {t : ℝ} {sv : Int} {A B : RunState ℝ}
    (hA : runMain p (mhdOps2 p ident jk) m t sv A) (hend : p.tEnd - 1 / 100000000000000 ≤ A.t)
    {pre post : List (Output ℝ)} {o : Output ℝ} (ho : A.outputs = pre ++ o :: post)
    (hm : SameInterior2 p o.data (viewOf m' .U))
    (hB : runMain p (mhdOps2 p ident' jk') m' o.time o.number B) :
    Continues (SameInterior2 p) p pre o post A B := by
  refine restart_run (refines_mhd2 hp hi hg hid jk) (refines_mhd2 hp hi hg hid' jk')
    (agree_mhd2 hp) (showsM2_same hp) he hne (x := ms2 m .U) (y := ms2 m' .U)
    (fun _ h => setup_mhd2 hp signLaws_real h) (fun _ h => setup_mhd2 hp signLaws_real h) hA hend ho ?_ hB
  exact start_mhd2 hp hm

theorem start_mhd3 {p : Params ℝ} (hp : Mhd3 p) {o : Loc Unit → ℝ} {m' : Mem Arr ℝ}
    (hm : SameInterior3 p o (viewOf m' .U)) :
    ∀ z, ShowsM3 p o z → ∀ i j k, interior3 p i j k → z i j k = ms m' .U i j k := by
  intro z hz i j k hij
  have hrt := fun v (hv : v < p.nbvar) => hm i j k v hij hv
  rw [hp.nbvar] at hrt
  rw [← hz i j k hij]
  unfold shownM
  rw [hrt ID (by decide), hrt IP (by decide), hrt IU (by decide), hrt IV (by decide),
    hrt IW (by decide), hrt IA (by decide), hrt IB (by decide), hrt IC (by decide)]
  simp [viewOf, ms]

/-- from the file itself: the view holds what the file shows -/
theorem continues_mhd3 {p : Params ℝ} (hp : Mhd3 p)
    (hi : p.implementationVersion = 0 ∨ p.implementationVersion = 1 ∨ p.implementationVersion = 2)
    (hg : GoodGrid p) (he : p.enableOutput = decide (p.nOutput ≠ 0)) (hne : p.nOutput ≠ 0)
    {ident ident' : ℝ} (hid : ident ≤ 0) (hid' : ident' ≤ 0) {jk jk' : JunkM ℝ}
    {m m' : Mem Arr ℝ} {t : ℝ} {sv : Int} {A B : RunState ℝ}
    (hA : runMain p (mhdOps3 p ident jk) m t sv A) (hend : p.tEnd - 1 / 100000000000000 ≤ A.t)
    {pre post : List (Output ℝ)} {o : Output ℝ} (ho : A.outputs = pre ++ o :: post)
    (hm : SameInterior3 p o.data (viewOf m' .U))
    (hB : runMain p (mhdOps3 p ident' jk') m' o.time o.number B) :
    Continues (SameInterior3 p) p pre o post A B := by
  refine restart_run (refines_mhd3 hp hi hg hid jk) (refines_mhd3 hp hi hg hid' jk')
    (agree_mhd3 hp) (showsM3_same hp) he hne (x := ms m .U) (y := ms m' .U)
    (fun _ h => setup_mhd3 hp signLaws_real h) (fun _ h => setup_mhd3 hp signLaws_real h) hA hend ho ?_ hB
  exact start_mhd3 hp hm

/-! ### the restarted run -/

theorem restart_reads {R : Type} [RealOps R] {name : List Char} {disk : List Char → Option (H5File R)} {f : H5File R}
    {load : H5File R → (Loc Unit → R) → (Loc Unit → R) → Prop} {U₀ U : Loc Unit → R} {tc t' : R} {n : Int}
    (hname : isHdf5 name = true) (hdisk : disk name = some f)
    (hr : initRestart true false name disk (fun f U => ∃ host, load f host U) U₀ tc U n t') :
    ∃ host, load f host U ∧ n = f.step ∧ t' = f.time := by
  obtain ⟨_, ht, hr⟩ := hr
  simp only [hname, Bool.and_self, if_true] at hr
  obtain ⟨f', hf', ⟨host, hl⟩, hnum, htime⟩ := hr
  obtain rfl : f = f' := by rw [hdisk] at hf'; exact Option.some.inj hf'
  simp only [Bool.false_eq_true, if_false] at ht
  exact ⟨host, hl, hnum, ht.trans htime⟩

/-- **A run restarted from an HDF5 file of a run continues it** (2D hydro): whatever the schedules of the
kernels, the memory layouts, the contents of host arrays and uninitialised locals of either run.  With
gravity, the restarted run must have the same gravity field (the code sets it in the initial condition of
one problem only: see `C67_gravity_lost_2d`). -/
theorem C67_restart_hydro_2d {p : Params ℝ} (hp : Hydro2 p) (hd : p.dimType = .two) (hn : UsualFields p)
    (hi : p.implementationVersion = 0 ∨ p.implementationVersion = 1 ∨ p.implementationVersion = 2)
    (hg : GoodGrid p) (he : p.enableOutput = decide (p.nOutput ≠ 0)) (hne : p.nOutput ≠ 0) (g : GravityParams)
    {ident ident' : ℝ} (hid : ident ≤ 0) (hid' : ident' ≤ 0) {jk jk' : Junk ℝ}
    {m m' : Mem Arr ℝ} {t : ℝ} {sv : Int} {A B : RunState ℝ}
    -- run A, ended because `tEnd` was reached
    (hA : runMain p (hydroOps2 p g ident jk) m t sv A) (hend : p.tEnd - 1 / 100000000000000 ≤ A.t)
    {pre post : List (Output ℝ)} {o : Output ℝ} (ho : A.outputs = pre ++ o :: post)
    -- file `o` was saved as HDF5 file `f`
    {lay lay' : Layout} {f : H5File ℝ} (hs : saveH5 lay {} p o.data o.number o.time f)
    -- run B starts from it
    {name : List Char} {disk : List Char → Option (H5File ℝ)} {U₀ : Loc Unit → ℝ} {tc t' : ℝ} {n : Int}
    (hname : isHdf5 name = true) (hdisk : disk name = some f)
    (hr : initRestart true false name disk (fun f U => ∃ host, loadH5 lay' {} p f host U) U₀ tc
      (viewOf m' .U) n t')
    (hgr : g.enabled = true → ∀ i j, inGrid2 p i j → gravOf m .grav i j = gravOf m' .grav i j)
    (hB : runMain p (hydroOps2 p g ident' jk') m' t' n B) :
    Continues (SameInterior2 p) p pre o post A B := by
  obtain ⟨host, hl, e1, e2⟩ := restart_reads hname hdisk hr
  rw [e1, e2, hs.1, hs.2.1] at hB
  exact continues_hydro2 hp hi hg he hne g hid hid' hA hend ho
    (fun i j v hij hv => (C66_roundtrip_2d hp.wf hd hn hs hl hij hv).symm) hgr hB

/-- the same in 3D -/
theorem C67_restart_hydro_3d {p : Params ℝ} (hp : Hydro3 p) (hd : p.dimType = .three) (hn : UsualFields p)
    (hi : p.implementationVersion = 0 ∨ p.implementationVersion = 1 ∨ p.implementationVersion = 2)
    (hg : GoodGrid p) (he : p.enableOutput = decide (p.nOutput ≠ 0)) (hne : p.nOutput ≠ 0) (g : GravityParams)
    {ident ident' : ℝ} (hid : ident ≤ 0) (hid' : ident' ≤ 0) {jk jk' : Junk ℝ}
    {m m' : Mem Arr ℝ} {t : ℝ} {sv : Int} {A B : RunState ℝ}
    -- run A, ended because `tEnd` was reached
    (hA : runMain p (hydroOps3 p g ident jk) m t sv A) (hend : p.tEnd - 1 / 100000000000000 ≤ A.t)
    {pre post : List (Output ℝ)} {o : Output ℝ} (ho : A.outputs = pre ++ o :: post)
    -- file `o` was saved as HDF5 file `f`
    {lay lay' : Layout} {f : H5File ℝ} (hs : saveH5 lay {} p o.data o.number o.time f)
    -- run B starts from it
    {name : List Char} {disk : List Char → Option (H5File ℝ)} {U₀ : Loc Unit → ℝ} {tc t' : ℝ} {n : Int}
    (hname : isHdf5 name = true) (hdisk : disk name = some f)
    (hr : initRestart true false name disk (fun f U => ∃ host, loadH5 lay' {} p f host U) U₀ tc
      (viewOf m' .U) n t')
    (hgr : g.enabled = true → ∀ i j k, inGrid3 p i j k → gravOf3 m .grav i j k = gravOf3 m' .grav i j k)
    (hB : runMain p (hydroOps3 p g ident' jk') m' t' n B) :
    Continues (SameInterior3 p) p pre o post A B := by
  obtain ⟨host, hl, e1, e2⟩ := restart_reads hname hdisk hr
  rw [e1, e2, hs.1, hs.2.1] at hB
  exact continues_hydro3 hp hi hg he hne g hid hid' hA hend ho
    (fun i j k v hij hv => (C66_roundtrip_3d hp.wf hd hn hs hl hij hv).symm) hgr hB

/-- **A restarted MHD run continues the run** (2D) -/
theorem C67_restart_mhd_2d {p : Params ℝ} (hp : Mhd2 p) (hd : p.dimType = .two) (hn : UsualFields p)
    (hi : p.implementationVersion = 0 ∨ p.implementationVersion = 1 ∨ p.implementationVersion = 2)
    (hg : GoodGrid p) (he : p.enableOutput = decide (p.nOutput ≠ 0)) (hne : p.nOutput ≠ 0)
    {ident ident' : ℝ} (hid : ident ≤ 0) (hid' : ident' ≤ 0) {jk jk' : JunkM ℝ}
    {m m' : Mem Arr ℝ} {t : ℝ} {sv : Int} {A B : RunState ℝ}
    -- run A, ended because `tEnd` was reached
    (hA : runMain p (mhdOps2 p ident jk) m t sv A) (hend : p.tEnd - 1 / 100000000000000 ≤ A.t)
    {pre post : List (Output ℝ)} {o : Output ℝ} (ho : A.outputs = pre ++ o :: post)
    -- file `o` was saved as HDF5 file `f`
    {lay lay' : Layout} {f : H5File ℝ} (hs : saveH5 lay {} p o.data o.number o.time f)
    -- run B starts from it
    {name : List Char} {disk : List Char → Option (H5File ℝ)} {U₀ : Loc Unit → ℝ} {tc t' : ℝ} {n : Int}
    (hname : isHdf5 name = true) (hdisk : disk name = some f)
    (hr : initRestart true false name disk (fun f U => ∃ host, loadH5 lay' {} p f host U) U₀ tc
      (viewOf m' .U) n t')
    (hB : runMain p (mhdOps2 p ident' jk') m' t' n B) :
    Continues (SameInterior2 p) p pre o post A B := by
  obtain ⟨host, hl, e1, e2⟩ := restart_reads hname hdisk hr
  rw [e1, e2, hs.1, hs.2.1] at hB
  exact continues_mhd2 hp hi hg he hne hid hid' hA hend ho
    (fun i j v hij hv => (C66_roundtrip_2d hp.wf hd hn hs hl hij hv).symm) hB

/-- the same in 3D -/
theorem C67_restart_mhd_3d {p : Params ℝ} (hp : Mhd3 p) (hd : p.dimType = .three) (hn : UsualFields p)
    (hi : p.implementationVersion = 0 ∨ p.implementationVersion = 1 ∨ p.implementationVersion = 2)
    (hg : GoodGrid p) (he : p.enableOutput = decide (p.nOutput ≠ 0)) (hne : p.nOutput ≠ 0)
    {ident ident' : ℝ} (hid : ident ≤ 0) (hid' : ident' ≤ 0) {jk jk' : JunkM ℝ}
    {m m' : Mem Arr ℝ} {t : ℝ} {sv : Int} {A B : RunState ℝ}
    -- run A, ended because `tEnd` was reached
    (hA : runMain p (mhdOps3 p ident jk) m t sv A) (hend : p.tEnd - 1 / 100000000000000 ≤ A.t)
    {pre post : List (Output ℝ)} {o : Output ℝ} (ho : A.outputs = pre ++ o :: post)
    -- file `o` was saved as HDF5 file `f`
    {lay lay' : Layout} {f : H5File ℝ} (hs : saveH5 lay {} p o.data o.number o.time f)
    -- run B starts from it
    {name : List Char} {disk : List Char → Option (H5File ℝ)} {U₀ : Loc Unit → ℝ} {tc t' : ℝ} {n : Int}
    (hname : isHdf5 name = true) (hdisk : disk name = some f)
    (hr : initRestart true false name disk (fun f U => ∃ host, loadH5 lay' {} p f host U) U₀ tc
      (viewOf m' .U) n t')
    (hB : runMain p (mhdOps3 p ident' jk') m' t' n B) :
    Continues (SameInterior3 p) p pre o post A B := by
  obtain ⟨host, hl, e1, e2⟩ := restart_reads hname hdisk hr
  rw [e1, e2, hs.1, hs.2.1] at hB
  exact continues_mhd3 hp hi hg he hne hid hid' hA hend ho
    (fun i j k v hij hv => (C66_roundtrip_3d hp.wf hd hn hs hl hij hv).symm) hB

/-! ### a run in two pieces -/

section
variable {X : Type} {pA pB pC : Params ℝ} {S S' S'' : SolverOps ℝ} {M M' : Method X} {E : X → X → Prop}
  {Inv Inv' Inv'' : Nat → Mem Arr ℝ → X → Prop} {View : (Loc Unit → ℝ) → X → Prop}
  {Same : (Loc Unit → ℝ) → (Loc Unit → ℝ) → Prop}

theorem pieces_run (hRA : Refines pA S M Inv View) (hRB : Refines pB S' M' Inv' View)
    (hRC : Refines pC S'' M Inv'' View) (hAC : Agree E M M) (hAB : Agree E M M')
    (hsame : ∀ a b x y z, View a x → View b y → E z x → E z y → Same a b)
    (heA : pA.enableOutput = decide (pA.nOutput ≠ 0)) (heB : pB.enableOutput = decide (pB.nOutput ≠ 0))
    (heC : pC.enableOutput = decide (pC.nOutput ≠ 0)) (hne : pA.nOutput ≠ 0)
    (hTB : pA.tEnd = pB.tEnd) (hTC : pA.tEnd = pC.tEnd)
    {m m' : Mem Arr ℝ} {x y : X} {t : ℝ} {sv : Int} {sA sB sC : RunState ℝ} (hrefl : E x x)
    (hinit : ∀ m₁, S.setup m m₁ → Inv 0 m₁ x) (hinit' : ∀ m₁, S'.setup m' m₁ → Inv' 0 m₁ y)
    (hinit'' : ∀ m₁, S''.setup m m₁ → Inv'' 0 m₁ x)
    (hA : runMain pA S m t sv sA) {pre : List (Output ℝ)} {o : Output ℝ} (ho : sA.outputs = pre ++ [o])
    (hy : ∀ z, View o.data z → E z y) (hB : runMain pB S' m' o.time o.number sB)
    (hb : 0 ≤ pB.nStepmax) (hC : pC.nStepmax = sA.iteration + pB.nStepmax)
    (hC' : runMain pC S'' m t sv sC) :
    sC.iteration = sA.iteration + sB.iteration ∧ sC.t = sB.t ∧
      Same (viewOf sC.mem (pingIn sC.iteration)) (viewOf sB.mem (pingIn sB.iteration)) := by
  obtain ⟨a1, a2⟩ := refine_run hRA heA hinit hA
  obtain ⟨b1, b2⟩ := refine_run hRB heB hinit' hB
  obtain ⟨c1, c2⟩ := refine_run hRC heC hinit'' hC'
  have hf := a2.files
  rw [ho] at hf
  obtain ⟨fpre, f, fpost, hfiles, f1, f2, f3⟩ := forall₂_split hf
  cases f3
  have hlast : f = (((Sim.turn pA M)^[sA.iteration] (Sim.start pA x t sv)).next,
      (Sim.result pA M x t sv sA.iteration).t, (Sim.result pA M x t sv sA.iteration).x) := by
    rw [(Sim.result_xt ..).1, (Sim.result_xt ..).2]
    have hh := hfiles
    unfold Sim.result at hh
    simp only [if_pos hne, Sim.save] at hh
    exact ((List.cons.inj (List.append_inj' hh rfl).2).1).symm
  obtain ⟨d1, d2, z, d3, d4⟩ := Sim.two_pieces (E := E) hTB hTC hAC hAB hrefl hb hC a1 b1
    (by have := hy _ f2.2.2; rw [hlast] at this; exact this) (by rw [f2.2.1, hlast])
  have ek := Sim.Length.unique c1 d1
  refine ⟨ek, ?_, ?_⟩
  · rw [c2.t, b2.t, ek, d2]
  · refine hsame _ _ _ _ z (hRC.view _ _ _ c2.inv) (hRB.view _ _ _ b2.inv) ?_ d4
    rw [ek]; exact d3
end

/-- the same parameters with another maximal number of iterations -/
abbrev withSteps (p : Params ℝ) (n : Int) : Params ℝ := { p with nStepmax := n }

theorem withSteps_wf {p : Params ℝ} (h : p.WF) (n : Int) : (withSteps p n).WF :=
  ⟨h.nx_pos, h.ny_pos, h.nz_pos, h.gw_pos, h.imin_eq, h.jmin_eq, h.kmin_eq, h.imax_eq, h.jmax_eq,
    h.kmax_eq, h.isize_eq, h.jsize_eq, h.ksize_eq⟩

theorem withSteps_hydro2 {p : Params ℝ} (h : Hydro2 p) (n : Int) : Hydro2 (withSteps p n) :=
  ⟨withSteps_wf h.wf n, h.nbvar, ⟨h.valid.slope, h.valid.riemann⟩, h.faces⟩

theorem withSteps_hydro3 {p : Params ℝ} (h : Hydro3 p) (n : Int) : Hydro3 (withSteps p n) :=
  ⟨withSteps_wf h.wf n, h.nbvar, ⟨h.valid.slope, h.valid.riemann⟩, h.faces⟩

theorem withSteps_mhd2 {p : Params ℝ} (h : Mhd2 p) (n : Int) : Mhd2 (withSteps p n) :=
  ⟨withSteps_wf h.wf n, h.gw, h.nbvar, ⟨h.valid.slope, h.valid.riemann⟩, h.faces⟩

theorem withSteps_mhd3 {p : Params ℝ} (h : Mhd3 p) (n : Int) : Mhd3 (withSteps p n) :=
  ⟨withSteps_wf h.wf n, h.gw, h.nbvar, ⟨h.valid.slope, h.valid.riemann⟩, h.faces⟩

theorem withSteps_grid {p : Params ℝ} (h : GoodGrid p) (n : Int) : GoodGrid (withSteps p n) :=
  ⟨h.settings, h.cfl, h.dx, h.dy, h.dz⟩

theorem refines_steps_hydro2 {p : Params ℝ} (hp : Hydro2 p)
    (hi : p.implementationVersion = 0 ∨ p.implementationVersion = 1 ∨ p.implementationVersion = 2)
    (hg : GoodGrid p) (g : GravityParams) {ident : ℝ} (hid : ident ≤ 0) (jk : Junk ℝ) (gf : Grav2 ℝ) (n : Int) :
    Refines (withSteps p n) (hydroOps2 (withSteps p n) g ident jk) (hydro2 p g gf) (HydroInv2 p gf) (Shows2 p) :=
  refines_hydro2 (withSteps_hydro2 hp n) hi (withSteps_grid hg n) g hid jk gf

theorem refines_steps_hydro3 {p : Params ℝ} (hp : Hydro3 p)
    (hi : p.implementationVersion = 0 ∨ p.implementationVersion = 1 ∨ p.implementationVersion = 2)
    (hg : GoodGrid p) (g : GravityParams) {ident : ℝ} (hid : ident ≤ 0) (jk : Junk ℝ) (gf : Grav3 ℝ) (n : Int) :
    Refines (withSteps p n) (hydroOps3 (withSteps p n) g ident jk)
      (hydro3 (zKick p.implementationVersion) p g gf) (HydroInv3 p gf) (Shows3 p) :=
  refines_hydro3 (withSteps_hydro3 hp n) hi (withSteps_grid hg n) g hid jk gf

theorem mhd2_steps (p : Params ℝ) (n : Int) : mhd2 (withSteps p n) = mhd2 p := rfl

section steps3
variable (p : Params ℝ) (n : Int)
theorem primM3_steps : primM3 (withSteps p n) = primM3 p := rfl
theorem fillM3_steps : fillM3 (withSteps p n) = fillM3 p := rfl
theorem traceInM3_steps : traceInM3 (withSteps p n) = traceInM3 p := rfl
theorem traceM3_steps : traceM3 (withSteps p n) = traceM3 p := by
  funext dt q u i j k
  unfold traceM3
  rw [traceInM3_steps]
theorem fluxOfTraces_steps : fluxOfTraces (withSteps p n) = fluxOfTraces p := by
  funext T
  rfl
theorem fluxesM3_steps : fluxesM3 (withSteps p n) = fluxesM3 p := by
  funext dt u
  unfold fluxesM3
  rw [fluxOfTraces_steps, traceM3_steps, primM3_steps]
theorem slopeV2_steps : slopeV2 (withSteps p n) = slopeV2 p := rfl
theorem sFaceV2_steps : sFaceV2 (withSteps p n) = sFaceV2 p := rfl
theorem limSlopeV2_steps : limSlopeV2 (withSteps p n) = limSlopeV2 p := rfl
theorem q2V2_steps : q2V2 (withSteps p n) = q2V2 p := by
  funext dt q u i j k
  unfold q2V2
  rw [slopeV2_steps]
theorem fluxV2_steps : fluxV2 (withSteps p n) = fluxV2 p := by
  funext dt q u d i j k
  unfold fluxV2
  rw [slopeV2_steps, q2V2_steps, sFaceV2_steps]
theorem edgeV2_steps : edgeV2 (withSteps p n) = edgeV2 p := by
  funext dt q u d d' i j k e
  unfold edgeV2
  rw [slopeV2_steps, q2V2_steps, sFaceV2_steps, limSlopeV2_steps]
theorem emfV2_steps : emfV2 (withSteps p n) = emfV2 p := by
  funext dt q u d i j k
  unfold emfV2
  rw [edgeV2_steps]
theorem fluxesV2M3_steps : fluxesV2M3 (withSteps p n) = fluxesV2M3 p := by
  funext dt u
  unfold fluxesV2M3
  rw [fluxV2_steps, emfV2_steps, primM3_steps]
theorem stepM3_steps : stepM3 (withSteps p n) = stepM3 p := by
  funext dt u
  unfold stepM3 schemeM3
  rw [fluxesV2M3_steps, fluxesM3_steps]
  rfl
theorem cflDtM3_steps : cflDtM3 (withSteps p n) = cflDtM3 p := by
  funext u
  unfold cflDtM3
  rw [primM3_steps, fillM3_steps]
  rfl
theorem mhd3_steps : mhd3 (withSteps p n) = mhd3 p := by
  unfold mhd3 fullStepM3
  rw [stepM3_steps, fillM3_steps, cflDtM3_steps]
end steps3

theorem refines_steps_mhd2 {p : Params ℝ} (hp : Mhd2 p)
    (hi : p.implementationVersion = 0 ∨ p.implementationVersion = 1 ∨ p.implementationVersion = 2)
    (hg : GoodGrid p) {ident : ℝ} (hid : ident ≤ 0) (jk : JunkM ℝ) (n : Int) :
    Refines (withSteps p n) (mhdOps2 (withSteps p n) ident jk) (mhd2 p) (MhdInv2 p) (ShowsM2 p) := by
  rw [← mhd2_steps p n]
  exact refines_mhd2 (withSteps_mhd2 hp n) hi (withSteps_grid hg n) hid jk

theorem refines_steps_mhd3 {p : Params ℝ} (hp : Mhd3 p)
    (hi : p.implementationVersion = 0 ∨ p.implementationVersion = 1 ∨ p.implementationVersion = 2)
    (hg : GoodGrid p) {ident : ℝ} (hid : ident ≤ 0) (jk : JunkM ℝ) (n : Int) :
    Refines (withSteps p n) (mhdOps3 (withSteps p n) ident jk) (mhd3 p) (MhdInv3 p) (ShowsM3 p) := by
  rw [← mhd3_steps p n]
  exact refines_mhd3 (withSteps_mhd3 hp n) hi (withSteps_grid hg n) hid jk

/-- **A run may be cut in pieces**: if a run stopped after some number of iterations is restarted from its
last file, with at most `b` iterations, the final time and solution are those of the run with `b` more
iterations allowed from the beginning (2D hydro). -/
theorem C67_two_pieces_hydro_2d {p : Params ℝ} (hp : Hydro2 p) (hd : p.dimType = .two) (hn : UsualFields p)
    (hi : p.implementationVersion = 0 ∨ p.implementationVersion = 1 ∨ p.implementationVersion = 2)
    (hg : GoodGrid p) (he : p.enableOutput = decide (p.nOutput ≠ 0)) (hne : p.nOutput ≠ 0) {g : GravityParams}
    {ident : ℝ} (hid : ident ≤ 0) {jk jk' jk'' : Junk ℝ}
    {m m' : Mem Arr ℝ} {t : ℝ} {sv : Int} {A B C : RunState ℝ} {a b : Int} (hb : 0 ≤ b)
    -- run A, of at most `a` iterations, and its last file
    (hA : runMain (withSteps p a) (hydroOps2 (withSteps p a) g ident jk) m t sv A)
    {pre : List (Output ℝ)} {o : Output ℝ} (ho : A.outputs = pre ++ [o])
    {lay lay' : Layout} {f : H5File ℝ} (hs : saveH5 lay {} p o.data o.number o.time f)
    -- run B, of at most `b` iterations, starts from that file
    {name : List Char} {disk : List Char → Option (H5File ℝ)} {U₀ : Loc Unit → ℝ} {tc t' : ℝ} {n : Int}
    (hname : isHdf5 name = true) (hdisk : disk name = some f)
    (hr : initRestart true false name disk (fun f U => ∃ host, loadH5 lay' {} p f host U) U₀ tc
      (viewOf m' .U) n t')
    (hgr : g.enabled = true → ∀ i j, inGrid2 p i j → gravOf m .grav i j = gravOf m' .grav i j)
    (hB : runMain (withSteps p b) (hydroOps2 (withSteps p b) g ident jk') m' t' n B)
    -- run C is run A with `b` iterations more
    (hC : runMain (withSteps p (A.iteration + b)) (hydroOps2 (withSteps p (A.iteration + b)) g ident jk'') m t sv C) :
    C.iteration = A.iteration + B.iteration ∧ C.t = B.t ∧
      SameInterior2 p (viewOf C.mem (pingIn C.iteration)) (viewOf B.mem (pingIn B.iteration)) := by
  obtain ⟨host, hl, e1, e2⟩ := restart_reads hname hdisk hr
  rw [e1, e2, hs.1, hs.2.1] at hB
  refine pieces_run (refines_steps_hydro2 hp hi hg g hid jk _ a)
    (refines_steps_hydro2 hp hi hg g hid jk' _ b)
    (refines_steps_hydro2 hp hi hg g hid jk'' _ (A.iteration + b))
    (agree_hydro2 hp (fun _ _ _ _ => rfl)) (agree_hydro2 hp hgr)
    (fun u w x y z hu hw h1 h2 => shows2_same hp u w x y hu hw
      (fun i j hij => (h1 i j hij).symm.trans (h2 i j hij))) he he he hne rfl rfl
    (fun i j _ => rfl) (fun _ h => setup_hydro2 (withSteps_hydro2 hp a) h)
    (fun _ h => setup_hydro2 (withSteps_hydro2 hp b) h)
    (fun _ h => setup_hydro2 (withSteps_hydro2 hp (A.iteration + b)) h) hA ho
    (fun z hz => start_hydro2 hp
      (fun i j v hij hv => (C66_roundtrip_2d hp.wf hd hn hs hl hij hv).symm) z hz) hB hb rfl hC

/-- the same in 3D -/
theorem C67_two_pieces_hydro_3d {p : Params ℝ} (hp : Hydro3 p) (hd : p.dimType = .three) (hn : UsualFields p)
    (hi : p.implementationVersion = 0 ∨ p.implementationVersion = 1 ∨ p.implementationVersion = 2)
    (hg : GoodGrid p) (he : p.enableOutput = decide (p.nOutput ≠ 0)) (hne : p.nOutput ≠ 0) {g : GravityParams}
    {ident : ℝ} (hid : ident ≤ 0) {jk jk' jk'' : Junk ℝ}
    {m m' : Mem Arr ℝ} {t : ℝ} {sv : Int} {A B C : RunState ℝ} {a b : Int} (hb : 0 ≤ b)
    -- run A, of at most `a` iterations, and its last file
    (hA : runMain (withSteps p a) (hydroOps3 (withSteps p a) g ident jk) m t sv A)
    {pre : List (Output ℝ)} {o : Output ℝ} (ho : A.outputs = pre ++ [o])
    {lay lay' : Layout} {f : H5File ℝ} (hs : saveH5 lay {} p o.data o.number o.time f)
    -- run B, of at most `b` iterations, starts from that file
    {name : List Char} {disk : List Char → Option (H5File ℝ)} {U₀ : Loc Unit → ℝ} {tc t' : ℝ} {n : Int}
    (hname : isHdf5 name = true) (hdisk : disk name = some f)
    (hr : initRestart true false name disk (fun f U => ∃ host, loadH5 lay' {} p f host U) U₀ tc
      (viewOf m' .U) n t')
    (hgr : g.enabled = true → ∀ i j k, inGrid3 p i j k → gravOf3 m .grav i j k = gravOf3 m' .grav i j k)
    (hB : runMain (withSteps p b) (hydroOps3 (withSteps p b) g ident jk') m' t' n B)
    -- run C is run A with `b` iterations more
    (hC : runMain (withSteps p (A.iteration + b)) (hydroOps3 (withSteps p (A.iteration + b)) g ident jk'') m t sv C) :
    C.iteration = A.iteration + B.iteration ∧ C.t = B.t ∧
      SameInterior3 p (viewOf C.mem (pingIn C.iteration)) (viewOf B.mem (pingIn B.iteration)) := by
  obtain ⟨host, hl, e1, e2⟩ := restart_reads hname hdisk hr
  rw [e1, e2, hs.1, hs.2.1] at hB
  refine pieces_run (refines_steps_hydro3 hp hi hg g hid jk _ a)
    (refines_steps_hydro3 hp hi hg g hid jk' _ b)
    (refines_steps_hydro3 hp hi hg g hid jk'' _ (A.iteration + b))
    (agree_hydro3 hp (fun _ _ _ _ _ => rfl)) (agree_hydro3 hp hgr)
    (fun u w x y z hu hw h1 h2 => shows3_same hp u w x y hu hw
      (fun i j k hij => (h1 i j k hij).symm.trans (h2 i j k hij))) he he he hne rfl rfl
    (fun i j k _ => rfl) (fun _ h => setup_hydro3 (withSteps_hydro3 hp a) h)
    (fun _ h => setup_hydro3 (withSteps_hydro3 hp b) h)
    (fun _ h => setup_hydro3 (withSteps_hydro3 hp (A.iteration + b)) h) hA ho
    (fun z hz => start_hydro3 hp
      (fun i j k v hij hv => (C66_roundtrip_3d hp.wf hd hn hs hl hij hv).symm) z hz) hB hb rfl hC

/-- the same for 2D MHD -/
theorem C67_two_pieces_mhd_2d {p : Params ℝ} (hp : Mhd2 p) (hd : p.dimType = .two) (hn : UsualFields p)
    (hi : p.implementationVersion = 0 ∨ p.implementationVersion = 1 ∨ p.implementationVersion = 2)
    (hg : GoodGrid p) (he : p.enableOutput = decide (p.nOutput ≠ 0)) (hne : p.nOutput ≠ 0)
    {ident : ℝ} (hid : ident ≤ 0) {jk jk' jk'' : JunkM ℝ}
    {m m' : Mem Arr ℝ} {t : ℝ} {sv : Int} {A B C : RunState ℝ} {a b : Int} (hb : 0 ≤ b)
    -- run A, of at most `a` iterations, and its last file
    (hA : runMain (withSteps p a) (mhdOps2 (withSteps p a) ident jk) m t sv A)
    {pre : List (Output ℝ)} {o : Output ℝ} (ho : A.outputs = pre ++ [o])
    {lay lay' : Layout} {f : H5File ℝ} (hs : saveH5 lay {} p o.data o.number o.time f)
    -- run B, of at most `b` iterations, starts from that file
    {name : List Char} {disk : List Char → Option (H5File ℝ)} {U₀ : Loc Unit → ℝ} {tc t' : ℝ} {n : Int}
    (hname : isHdf5 name = true) (hdisk : disk name = some f)
    (hr : initRestart true false name disk (fun f U => ∃ host, loadH5 lay' {} p f host U) U₀ tc
      (viewOf m' .U) n t')
    (hB : runMain (withSteps p b) (mhdOps2 (withSteps p b) ident jk') m' t' n B)
    -- run C is run A with `b` iterations more
    (hC : runMain (withSteps p (A.iteration + b)) (mhdOps2 (withSteps p (A.iteration + b)) ident jk'') m t sv C) :
    C.iteration = A.iteration + B.iteration ∧ C.t = B.t ∧
      SameInterior2 p (viewOf C.mem (pingIn C.iteration)) (viewOf B.mem (pingIn B.iteration)) := by
  obtain ⟨host, hl, e1, e2⟩ := restart_reads hname hdisk hr
  rw [e1, e2, hs.1, hs.2.1] at hB
  refine pieces_run (refines_steps_mhd2 hp hi hg hid jk a)
    (refines_steps_mhd2 hp hi hg hid jk' b)
    (refines_steps_mhd2 hp hi hg hid jk'' (A.iteration + b))
    (agree_mhd2 hp) (agree_mhd2 hp)
    (fun u w x y z hu hw h1 h2 => showsM2_same hp u w x y hu hw
      (fun i j hij => (h1 i j hij).symm.trans (h2 i j hij))) he he he hne rfl rfl
    (x := ms2 m .U) (y := ms2 m' .U)
    (fun i j _ => rfl) (fun _ h => setup_mhd2 (withSteps_mhd2 hp a) signLaws_real h)
    (fun _ h => setup_mhd2 (withSteps_mhd2 hp b) signLaws_real h)
    (fun _ h => setup_mhd2 (withSteps_mhd2 hp (A.iteration + b)) signLaws_real h) hA ho
    (fun z hz => start_mhd2 hp
      (fun i j v hij hv => (C66_roundtrip_2d hp.wf hd hn hs hl hij hv).symm) z hz) hB hb rfl hC

/-- the same for 3D MHD -/
theorem C67_two_pieces_mhd_3d {p : Params ℝ} (hp : Mhd3 p) (hd : p.dimType = .three) (hn : UsualFields p)
    (hi : p.implementationVersion = 0 ∨ p.implementationVersion = 1 ∨ p.implementationVersion = 2)
    (hg : GoodGrid p) (he : p.enableOutput = decide (p.nOutput ≠ 0)) (hne : p.nOutput ≠ 0)
    {ident : ℝ} (hid : ident ≤ 0) {jk jk' jk'' : JunkM ℝ}
    {m m' : Mem Arr ℝ} {t : ℝ} {sv : Int} {A B C : RunState ℝ} {a b : Int} (hb : 0 ≤ b)
    -- run A, of at most `a` iterations, and its last file
    (hA : runMain (withSteps p a) (mhdOps3 (withSteps p a) ident jk) m t sv A)
    {pre : List (Output ℝ)} {o : Output ℝ} (ho : A.outputs = pre ++ [o])
    {lay lay' : Layout} {f : H5File ℝ} (hs : saveH5 lay {} p o.data o.number o.time f)
    -- run B, of at most `b` iterations, starts from that file
    {name : List Char} {disk : List Char → Option (H5File ℝ)} {U₀ : Loc Unit → ℝ} {tc t' : ℝ} {n : Int}
    (hname : isHdf5 name = true) (hdisk : disk name = some f)
    (hr : initRestart true false name disk (fun f U => ∃ host, loadH5 lay' {} p f host U) U₀ tc
      (viewOf m' .U) n t')
    (hB : runMain (withSteps p b) (mhdOps3 (withSteps p b) ident jk') m' t' n B)
    -- run C is run A with `b` iterations more
    (hC : runMain (withSteps p (A.iteration + b)) (mhdOps3 (withSteps p (A.iteration + b)) ident jk'') m t sv C) :
    C.iteration = A.iteration + B.iteration ∧ C.t = B.t ∧
      SameInterior3 p (viewOf C.mem (pingIn C.iteration)) (viewOf B.mem (pingIn B.iteration)) := by
  obtain ⟨host, hl, e1, e2⟩ := restart_reads hname hdisk hr
  rw [e1, e2, hs.1, hs.2.1] at hB
  refine pieces_run (refines_steps_mhd3 hp hi hg hid jk a)
    (refines_steps_mhd3 hp hi hg hid jk' b)
    (refines_steps_mhd3 hp hi hg hid jk'' (A.iteration + b))
    (agree_mhd3 hp) (agree_mhd3 hp)
    (fun u w x y z hu hw h1 h2 => showsM3_same hp u w x y hu hw
      (fun i j k hij => (h1 i j k hij).symm.trans (h2 i j k hij))) he he he hne rfl rfl
    (x := ms m .U) (y := ms m' .U)
    (fun i j k _ => rfl) (fun _ h => setup_mhd3 (withSteps_mhd3 hp a) signLaws_real h)
    (fun _ h => setup_mhd3 (withSteps_mhd3 hp b) signLaws_real h)
    (fun _ h => setup_mhd3 (withSteps_mhd3 hp (A.iteration + b)) signLaws_real h) hA ho
    (fun z hz => start_mhd3 hp
      (fun i j k v hij hv => (C66_roundtrip_3d hp.wf hd hn hs hl hij hv).symm) z hz) hB hb rfl hC

end EulerKokkos
