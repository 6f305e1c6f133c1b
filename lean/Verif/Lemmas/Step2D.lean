import Verif.Lemmas.Hydro2D

/-! # The 2D kernels compute the field-level scheme -/

set_option linter.constructorNameAsVariable false
set_option linter.unusedSectionVars false

namespace EulerKokkos

open Prog (rd wr add upd run_bind run_rd run_wr run_pure foot_bind foot_rd foot_wr foot_add
  foot_pure foot_ite foot_mono Foot forRange)
open Spec

variable {R : Type} [RealOps R]

/-- gravity field stored in a view -/
def gravOf (m : Mem Arr R) (a : Arr) : Grav2 R := fun i j => (m ⟨a, i, j, 0, IX⟩, m ⟨a, i, j, 0, IY⟩)

theorem slope2_valid {p : Params R} (hv : Valid2 p) (q a b c d x y : HS R) :
    slope2 p.settings q a b c d x y = slope2 p.settings q a b c d HS.zero HS.zero := by
  unfold slope2
  rcases hv.slope with h | h | h
  · simp [h]
  · simp [h]
  · simp [h]

theorem slope2_w {p : Params R} (q a b c d : HS R) :
    (slope2 p.settings q a b c d HS.zero HS.zero).1.trunc
      = (slope2 p.settings q a b c d HS.zero HS.zero).1 ∧
    (slope2 p.settings q a b c d HS.zero HS.zero).2.trunc
      = (slope2 p.settings q a b c d HS.zero HS.zero).2 := by
  unfold slope2 HS.trunc HS.zero
  split
  · exact ⟨rfl, rfl⟩
  · split <;> exact ⟨rfl, rfl⟩

theorem riemannHydro2_valid {p : Params R} (hv : Valid2 p) (a b x : HS R) :
    riemannHydro2 p.settings p.riemannSolverType a b x
      = riemannHydro2 p.settings p.riemannSolverType a b HS.zero := by
  have := hv.riemann
  unfold riemannHydro2
  split <;> simp_all

theorem run_gravPredictor2 (g : GravityParams) (grav : Arr) (dt : R) (i j : Int) (q : HS R)
    (m : Mem Arr R) :
    (gravPredictor2 g grav dt i j q).run m = (kick2 g dt (gravOf m grav i j) q, m) := by
  unfold gravPredictor2 kick2
  split
  · simp [gravOf]
  · rfl

/-- flux before multiplication by `dt/dx` -/
def rawX2 (p : Params R) (g : GravityParams) (dt : R) (gf : Grav2 R) (q : Fld2 R) (i j : Int) :
    HS R :=
  riemannHydro2 p.settings p.riemannSolverType (face2 p g dt gf q .xmax (i - 1) j)
    (face2 p g dt gf q .xmin i j) HS.zero

/-- y flux in the swapped frame before multiplication by `dt/dy` -/
def rawY2 (p : Params R) (g : GravityParams) (dt : R) (gf : Grav2 R) (q : Fld2 R) (i j : Int) :
    HS R :=
  riemannHydro2 p.settings p.riemannSolverType (face2 p g dt gf q .ymax i (j - 1)).swapUV
    (face2 p g dt gf q .ymin i j).swapUV HS.zero

theorem fluxX2_raw (p : Params R) (g : GravityParams) (dt : R) (gf : Grav2 R) (q : Fld2 R)
    (i j : Int) : fluxX2 p g dt gf q i j = ((rawX2 p g dt gf q i j).smul (dt / p.dx)).trunc := rfl

theorem fluxY2_raw (p : Params R) (g : GravityParams) (dt : R) (gf : Grav2 R) (q : Fld2 R)
    (i j : Int) :
    fluxY2 p g dt gf q i j = ((rawY2 p g dt gf q i j).smul (dt / p.dy)).swapUV.trunc := rfl

theorem run_xInterface2 {p : Params R} (hv : Valid2 p) (Q grav : Arr) (dt : R) (g : GravityParams)
    (jk : Junk R) (i j : Int) (m : Mem Arr R) :
    (xInterface2 p Q grav dt g jk i j).run m =
      (⟨hs2 m Q i j, (slopes2 p (hs2 m Q) i j).1, (slopes2 p (hs2 m Q) i j).2,
        (slopes2 p (hs2 m Q) (i - 1) j).1, (slopes2 p (hs2 m Q) (i - 1) j).2,
        rawX2 p g dt (gravOf m grav) (hs2 m Q) i j⟩, m) := by
  have e1 : i - 1 + 1 = i := by omega
  have e2 : i - 1 - 1 = i - 2 := by omega
  simp only [xInterface2, run_bind, run_getHS2, run_gravPredictor2, run_pure, slope2_valid hv,
    riemannHydro2_valid hv]
  simp only [rawX2, face2, slopes2, e1, e2]

theorem run_yInterface2 {p : Params R} (hv : Valid2 p) (Q grav : Arr) (dt : R) (g : GravityParams)
    (jk : Junk R) (i j : Int) (x : XPart R) (m : Mem Arr R) (h1 : x.qLoc = hs2 m Q i j)
    (h2 : x.dqX = (slopes2 p (hs2 m Q) i j).1) (h3 : x.dqY = (slopes2 p (hs2 m Q) i j).2) :
    (yInterface2 p Q grav dt g jk i j x).run m =
      (rawY2 p g dt (gravOf m grav) (hs2 m Q) i j, m) := by
  have e1 : j - 1 + 1 = j := by omega
  have e2 : j - 1 - 1 = j - 2 := by omega
  simp only [yInterface2, run_bind, run_getHS2, run_gravPredictor2, run_pure, slope2_valid hv,
    riemannHydro2_valid hv, h1, h2, h3]
  simp only [rawY2, face2, slopes2, e1, e2]

/-! ## Frames -/

theorem own2_of_foot {outs : Arr → Prop} {body : Int × Int → Prog Arr R Unit}
    {Rd Wr : Int × Int → Loc Arr → Prop}
    (hf : ∀ t, (body t).Foot (Rd t) (Wr t) (fun _ => False))
    (hR : ∀ t l, Rd t l → ¬ outs l.arr ∨ (l.i, l.j) = t)
    (hW : ∀ t l, Wr t l → outs l.arr ∧ (l.i, l.j) = t) : Own2 outs body :=
  fun t => foot_mono (hR t) (hW t) (fun _ h => h) (hf t)

theorem own_convertToPrimitives2 (p : Params R) {U Q : Arr} (h : U ≠ Q) :
    Own2 (· = Q) (convertToPrimitives2 p U Q) := by
  refine own2_of_foot (foot_convertToPrimitives2 p U Q) ?_ ?_
  · rintro t l ⟨_, h1, h2, h3, _⟩; left; rw [h1]; exact h
  · rintro t l ⟨_, h1, h2, h3, _⟩; exact ⟨h1, by rw [h2, h3]⟩

theorem own_computeAndStoreFluxes2 (p : Params R) {Q Fx Fy grav : Arr} (dt : R)
    (g : GravityParams) (jk : Junk R) (h1 : Q ≠ Fx) (h2 : Q ≠ Fy) (h3 : grav ≠ Fx)
    (h4 : grav ≠ Fy) :
    Own2 (fun a => a = Fx ∨ a = Fy) (computeAndStoreFluxes2 p Q Fx Fy grav dt g jk) := by
  refine own2_of_foot (foot_computeAndStoreFluxes2 p Q Fx Fy grav dt g jk) ?_ ?_
  · rintro t l ⟨_, ⟨e, _⟩ | ⟨_, e, _⟩⟩ <;> left <;> rw [e] <;> tauto
  · rintro t l ⟨_, ⟨h1, h2, h3, _⟩ | ⟨h1, h2, h3, _⟩⟩ <;> exact ⟨by tauto, by rw [h2, h3]⟩

theorem own_update2 (p : Params R) {U Fx Fy : Arr} (h1 : Fx ≠ U) (h2 : Fy ≠ U) :
    Own2 (· = U) (update2 p U Fx Fy) := by
  refine own2_of_foot (foot_update2 p U Fx Fy) ?_ ?_
  · rintro t l ⟨_, ⟨_, h1, h2, _⟩ | ⟨e | e, _⟩⟩
    · right; rw [h1, h2]
    · left; rw [e]; exact h1
    · left; rw [e]; exact h2
  · rintro t l ⟨_, h1, h2, h3, _⟩; exact ⟨h1, by rw [h2, h3]⟩

theorem own_updateDir2 (dir : Dir) (p : Params R) {U F : Arr} (h : F ≠ U) :
    Own2 (· = U) (updateDir2 dir p U F) := by
  refine own2_of_foot (foot_updateDir2 dir p U F) ?_ ?_
  · rintro t l ⟨_, ⟨_, h1, h2, _⟩ | ⟨e, _⟩⟩
    · right; rw [h1, h2]
    · left; rw [e]; exact h
  · rintro t l ⟨_, h1, h2, h3, _⟩; exact ⟨h1, by rw [h2, h3]⟩

theorem own_computeSlopes2 (p : Params R) {Q Sx Sy : Arr} (h1 : Q ≠ Sx) (h2 : Q ≠ Sy) :
    Own2 (fun a => a = Sx ∨ a = Sy) (computeSlopes2 p Q Sx Sy) := by
  refine own2_of_foot (foot_computeSlopes2 p Q Sx Sy) ?_ ?_
  · rintro t l ⟨_, e, _⟩; left; rw [e]; tauto
  · rintro t l ⟨_, ⟨h1, h2, h3, _⟩ | ⟨h1, h2, h3, _⟩⟩ <;> exact ⟨by tauto, by rw [h2, h3]⟩

theorem own_computeTraceAndFluxes2 (dir : Dir) (p : Params R) {Q Sx Sy F grav : Arr} (dt : R)
    (g : GravityParams) (jk : Junk R) (h1 : Q ≠ F) (h2 : Sx ≠ F) (h3 : Sy ≠ F) (h4 : grav ≠ F) :
    Own2 (· = F) (computeTraceAndFluxes2 dir p Q Sx Sy F grav dt g jk) := by
  refine own2_of_foot (foot_computeTraceAndFluxes2 dir p Q Sx Sy F grav dt g jk) ?_ ?_
  · rintro t l ⟨_, ⟨e | e | e, _⟩ | ⟨_, e, _⟩⟩ <;> left <;> rw [e] <;> assumption
  · rintro t l ⟨_, h1, h2, h3, _⟩; exact ⟨h1, by rw [h2, h3]⟩

theorem own_gravitySource2 (p : Params R) {Uin Uout grav : Arr} (dt : R) (h1 : Uin ≠ Uout)
    (h2 : grav ≠ Uout) : Own2 (· = Uout) (gravitySource2 p Uin Uout grav dt) := by
  refine own2_of_foot (foot_gravitySource2 p Uin Uout grav dt) ?_ ?_
  · rintro t l ⟨_, ⟨e, _⟩ | ⟨_, e1, e2, _⟩ | ⟨e, _⟩⟩
    · left; rw [e]; exact h1
    · right; rw [e1, e2]
    · left; rw [e]; exact h2
  · rintro t l ⟨_, h1, h2, h3, _⟩; exact ⟨h1, by rw [h2, h3]⟩

/-! ## Kernel results -/

/-- `m'` agrees with `m` outside the views in `outs` -/
def SameOff (outs : Arr → Prop) (m m' : Mem Arr R) : Prop := ∀ l : Loc Arr, ¬ outs l.arr → m' l = m l

theorem SameOff.hs2 {outs : Arr → Prop} {m m' : Mem Arr R} (h : SameOff outs m m') {a : Arr}
    (ha : ¬ outs a) : EulerKokkos.hs2 m' a = EulerKokkos.hs2 m a := by
  funext i j
  unfold EulerKokkos.hs2
  rw [h ⟨a, i, j, 0, ID⟩ ha, h ⟨a, i, j, 0, IP⟩ ha, h ⟨a, i, j, 0, IU⟩ ha, h ⟨a, i, j, 0, IV⟩ ha]

theorem SameOff.grav {outs : Arr → Prop} {m m' : Mem Arr R} (h : SameOff outs m m') {a : Arr}
    (ha : ¬ outs a) : gravOf m' a = gravOf m a := by
  funext i j
  unfold gravOf
  rw [h ⟨a, i, j, 0, IX⟩ ha, h ⟨a, i, j, 0, IY⟩ ha]

theorem sameOff_forRange2 {outs : Arr → Prop} {body : Int × Int → Prog Arr R Unit}
    (h : Own2 outs body) {F : Finset (Int × Int)} {m m' : Mem Arr R} (hm : forRange F body m m') :
    SameOff outs m m' := fun _ hl => forRange2_else h hm (fun hh => hl hh.1)

theorem convert2_result {p : Params R} {U Q : Arr} (h : U ≠ Q) {m m' : Mem Arr R}
    (hm : forRange (range2 p.isize p.jsize) (convertToPrimitives2 p U Q) m m') :
    SameOff (· = Q) m m' ∧ ∀ i j, 0 ≤ i → i < p.isize → 0 ≤ j → j < p.jsize →
      hs2 m' Q i j = prim2 p (hs2 m U) i j := by
  have ho := own_convertToPrimitives2 p h
  refine ⟨sameOff_forRange2 ho hm, fun i j h1 h2 h3 h4 => ?_⟩
  rw [forRange2_hs2_out ho hm rfl (by simp [*])]
  unfold convertToPrimitives2
  rw [if_pos (by simp [*])]
  simp only [run_bind, run_getHS2, run_putHS2]
  rw [hs2_setMem2_same]; rfl

theorem fluxes2_result {p : Params R} (hw : p.WF) (hv : Valid2 p) {Q Fx Fy grav : Arr} {dt : R}
    {g : GravityParams} {jk : Junk R} (h1 : Q ≠ Fx) (h2 : Q ≠ Fy) (h3 : grav ≠ Fx)
    (h4 : grav ≠ Fy) (h5 : Fx ≠ Fy) {m m' : Mem Arr R}
    (hm : forRange (range2 p.isize p.jsize) (computeAndStoreFluxes2 p Q Fx Fy grav dt g jk) m m') :
    SameOff (fun a => a = Fx ∨ a = Fy) m m' ∧ ∀ i j, faceGuard2 p (i, j) →
      hs2 m' Fx i j = fluxX2 p g dt (gravOf m grav) (hs2 m Q) i j ∧
      hs2 m' Fy i j = fluxY2 p g dt (gravOf m grav) (hs2 m Q) i j := by
  have ho := own_computeAndStoreFluxes2 p dt g jk h1 h2 h3 h4
  refine ⟨sameOff_forRange2 ho hm, fun i j hg => ?_⟩
  have hin : (i, j) ∈ range2 p.isize p.jsize := by
    obtain ⟨a, b, c, d⟩ := hg
    have := hw.gw_pos
    simp only at a b c d
    simp only [mem_range2]; omega
  rw [forRange2_hs2_out ho hm (Or.inl rfl) hin, forRange2_hs2_out ho hm (Or.inr rfl) hin]
  unfold computeAndStoreFluxes2
  rw [if_pos hg]
  simp only [run_bind, run_xInterface2 hv, run_putHS2]
  have hQ : ∀ s, hs2 (setMem2 m Fx i j s) Q = hs2 m Q := fun s => by
    funext a b; exact hs2_setMem2_ne _ _ _ _ _ _ _ _ (Or.inl h1)
  have hG : ∀ s, gravOf (setMem2 m Fx i j s) grav = gravOf m grav := fun s => by
    funext a b; simp [gravOf, setMem2, h3]
  rw [run_yInterface2 (h1 := by rw [hQ]) (h2 := by rw [hQ]) (h3 := by rw [hQ]) hv]
  simp only [hQ, hG]
  rw [hs2_setMem2_ne _ _ _ _ _ _ _ _ (Or.inl h5), hs2_setMem2_same, hs2_setMem2_same]
  exact ⟨rfl, rfl⟩

theorem update2_result {p : Params R} (hw : p.WF) {U Fx Fy : Arr} (h1 : Fx ≠ U) (h2 : Fy ≠ U)
    {m m' : Mem Arr R} (hm : forRange (range2 p.isize p.jsize) (update2 p U Fx Fy) m m') :
    SameOff (· = U) m m' ∧ ∀ i j, hs2 m' U i j =
      if cellGuard2 p (i, j) then fluxUpdate2 (hs2 m Fx) (hs2 m Fy) (hs2 m U i j) i j
      else hs2 m U i j := by
  have ho := own_update2 p h1 h2
  refine ⟨sameOff_forRange2 ho hm, fun i j => ?_⟩
  by_cases hin : (i, j) ∈ range2 p.isize p.jsize
  · rw [forRange2_hs2_out ho hm rfl hin]
    unfold update2
    split
    · have e : ∀ (m : Mem Arr R) s a, a ≠ U → hs2 (setMem2 m U i j s) a = hs2 m a := by
        intro m s a ha; funext x y; exact hs2_setMem2_ne _ _ _ _ _ _ _ _ (Or.inl ha)
      simp only [run_bind, run_plusEq2 h1, run_plusEq2 h2, run_minusEq2 h1, run_minusEq2 h2,
        hs2_setMem2_same, e _ _ _ h1, e _ _ _ h2]
      rfl
    · rfl
  · rw [forRange2_hs2_else ho hm (fun hh => hin hh.2), if_neg]
    rintro ⟨a, b, c, d⟩
    have := hw.gw_pos
    simp only at a b c d
    apply hin; simp only [mem_range2]; omega

theorem updateDir2_result {p : Params R} (hw : p.WF) {U F : Arr} (h1 : F ≠ U) (dir : Dir)
    {m m' : Mem Arr R} (hm : forRange (range2 p.isize p.jsize) (updateDir2 dir p U F) m m') :
    SameOff (· = U) m m' ∧ ∀ i j, hs2 m' U i j =
      if cellGuard2 p (i, j) then
        (match dir with
        | .x => (((hs2 m U i j).add (hs2 m F i j)).sub (hs2 m F (i + 1) j)).trunc
        | .y => (((hs2 m U i j).add (hs2 m F i j)).sub (hs2 m F i (j + 1))).trunc
        | .z => hs2 m U i j)
      else hs2 m U i j := by
  have ho := own_updateDir2 dir p h1
  refine ⟨sameOff_forRange2 ho hm, fun i j => ?_⟩
  by_cases hin : (i, j) ∈ range2 p.isize p.jsize
  · rw [forRange2_hs2_out ho hm rfl hin]
    unfold updateDir2
    split
    · have e : ∀ (m : Mem Arr R) s a, a ≠ U → hs2 (setMem2 m U i j s) a = hs2 m a := by
        intro m s a ha; funext x y; exact hs2_setMem2_ne _ _ _ _ _ _ _ _ (Or.inl ha)
      cases dir
      all_goals
        simp only [run_bind, run_plusEq2 h1, run_minusEq2 h1, hs2_setMem2_same, e _ _ _ h1]
        rfl
    · rfl
  · rw [forRange2_hs2_else ho hm (fun hh => hin hh.2), if_neg]
    rintro ⟨a, b, c, d⟩
    have := hw.gw_pos
    simp only at a b c d
    apply hin; simp only [mem_range2]; omega

theorem slopes2_result {p : Params R} (hw : p.WF) {Q Sx Sy : Arr} (h1 : Q ≠ Sx) (h2 : Q ≠ Sy)
    (h3 : Sx ≠ Sy) {m m' : Mem Arr R}
    (hm : forRange (range2 p.isize p.jsize) (computeSlopes2 p Q Sx Sy) m m') :
    SameOff (fun a => a = Sx ∨ a = Sy) m m' ∧ ∀ i j, slopeGuard2 p (i, j) →
      hs2 m' Sx i j = (slopes2 p (hs2 m Q) i j).1 ∧ hs2 m' Sy i j = (slopes2 p (hs2 m Q) i j).2 := by
  have ho := own_computeSlopes2 p h1 h2
  refine ⟨sameOff_forRange2 ho hm, fun i j hg => ?_⟩
  have hin : (i, j) ∈ range2 p.isize p.jsize := by
    obtain ⟨a, b, c, d⟩ := hg
    have := hw.gw_pos
    simp only at a b c d
    simp only [mem_range2]; omega
  rw [forRange2_hs2_out ho hm (Or.inl rfl) hin, forRange2_hs2_out ho hm (Or.inr rfl) hin]
  unfold computeSlopes2
  rw [if_pos hg]
  simp only [run_bind, run_getHS2, run_putHS2]
  rw [hs2_setMem2_ne _ _ _ _ _ _ _ _ (Or.inl h3), hs2_setMem2_same, hs2_setMem2_same]
  exact slope2_w _ _ _ _ _

theorem traceX2_result {p : Params R} (hw : p.WF) (hv : Valid2 p) {Q Sx Sy F grav : Arr} {dt : R}
    {g : GravityParams} {jk : Junk R} (h1 : Q ≠ F) (h2 : Sx ≠ F) (h3 : Sy ≠ F) (h4 : grav ≠ F)
    {m m' : Mem Arr R}
    (hS : ∀ i j, slopeGuard2 p (i, j) → hs2 m Sx i j = (slopes2 p (hs2 m Q) i j).1 ∧
      hs2 m Sy i j = (slopes2 p (hs2 m Q) i j).2)
    (hm : forRange (range2 p.isize p.jsize)
      (computeTraceAndFluxes2 .x p Q Sx Sy F grav dt g jk) m m') :
    SameOff (· = F) m m' ∧ ∀ i j, faceGuard2 p (i, j) →
      hs2 m' F i j = fluxX2 p g dt (gravOf m grav) (hs2 m Q) i j := by
  have ho := own_computeTraceAndFluxes2 .x p dt g jk h1 h2 h3 h4
  refine ⟨sameOff_forRange2 ho hm, fun i j hg => ?_⟩
  obtain ⟨a, b, c, d⟩ := id hg
  have := hw.gw_pos
  simp only at a b c d
  have hin : (i, j) ∈ range2 p.isize p.jsize := by simp only [mem_range2]; omega
  rw [forRange2_hs2_out ho hm rfl hin]
  unfold computeTraceAndFluxes2
  rw [if_pos hg]
  simp only [run_bind, run_getHS2, run_putHS2, run_gravPredictor2, riemannHydro2_valid hv,
    hs2_setMem2_same]
  have s1 := hS i j ⟨by simp only; omega, by simp only; omega, by simp only; omega, by simp only; omega⟩
  have s2 := hS (i - 1) j
    ⟨by simp only; omega, by simp only; omega, by simp only; omega, by simp only; omega⟩
  rw [s1.1, s1.2, s2.1, s2.2]
  rfl

theorem traceY2_result {p : Params R} (hw : p.WF) (hv : Valid2 p) {Q Sx Sy F grav : Arr} {dt : R}
    {g : GravityParams} {jk : Junk R} (h1 : Q ≠ F) (h2 : Sx ≠ F) (h3 : Sy ≠ F) (h4 : grav ≠ F)
    {m m' : Mem Arr R}
    (hS : ∀ i j, slopeGuard2 p (i, j) → hs2 m Sx i j = (slopes2 p (hs2 m Q) i j).1 ∧
      hs2 m Sy i j = (slopes2 p (hs2 m Q) i j).2)
    (hm : forRange (range2 p.isize p.jsize)
      (computeTraceAndFluxes2 .y p Q Sx Sy F grav dt g jk) m m') :
    SameOff (· = F) m m' ∧ ∀ i j, faceGuard2 p (i, j) →
      hs2 m' F i j = fluxY2 p g dt (gravOf m grav) (hs2 m Q) i j := by
  have ho := own_computeTraceAndFluxes2 .y p dt g jk h1 h2 h3 h4
  refine ⟨sameOff_forRange2 ho hm, fun i j hg => ?_⟩
  obtain ⟨a, b, c, d⟩ := id hg
  have := hw.gw_pos
  simp only at a b c d
  have hin : (i, j) ∈ range2 p.isize p.jsize := by simp only [mem_range2]; omega
  rw [forRange2_hs2_out ho hm rfl hin]
  unfold computeTraceAndFluxes2
  rw [if_pos hg]
  simp only [run_bind, run_getHS2, run_putHS2, run_gravPredictor2, riemannHydro2_valid hv,
    hs2_setMem2_same]
  have s1 := hS i j ⟨by simp only; omega, by simp only; omega, by simp only; omega, by simp only; omega⟩
  have s2 := hS i (j - 1)
    ⟨by simp only; omega, by simp only; omega, by simp only; omega, by simp only; omega⟩
  rw [s1.1, s1.2, s2.1, s2.2]
  rfl

theorem gravity2_result {p : Params R} (hw : p.WF) {Uin Uout grav : Arr} {dt : R}
    (h1 : Uin ≠ Uout) (h2 : grav ≠ Uout) {m m' : Mem Arr R}
    (hm : forRange (range2 p.isize p.jsize) (gravitySource2 p Uin Uout grav dt) m m') :
    SameOff (· = Uout) m m' ∧ ∀ i j, hs2 m' Uout i j =
      if cellGuard2 p (i, j) then
        gravity2 p dt (gravOf m grav i j) (hs2 m Uin i j) (hs2 m Uout i j)
      else hs2 m Uout i j := by
  have ho := own_gravitySource2 p dt h1 h2
  refine ⟨sameOff_forRange2 ho hm, fun i j => ?_⟩
  by_cases hin : (i, j) ∈ range2 p.isize p.jsize
  · rw [forRange2_hs2_out ho hm rfl hin]
    unfold gravitySource2
    split
    · simp only [run_bind, run_rd, run_wr]
      simp [hs2, upd, gravity2, gravOf, IU, IV, Loc.mk.injEq]
    · rfl
  · rw [forRange2_hs2_else ho hm (fun hh => hin hh.2), if_neg]
    rintro ⟨a, b, c, d⟩
    have := hw.gw_pos
    simp only at a b c d
    apply hin; simp only [mem_range2]; omega

theorem gravityStep2_result {p : Params R} (hw : p.WF) {g : GravityParams} {Uin Uout : Arr} {dt : R}
    (h1 : Uin ≠ Uout) (h2 : .grav ≠ Uout) {m m' : Mem Arr R}
    (hm : gravityStep2 p g dt Uin Uout m m') :
    SameOff (· = Uout) m m' ∧ ∀ i j, hs2 m' Uout i j =
      if cellGuard2 p (i, j) ∧ g.enabled = true then
        gravity2 p dt (gravOf m .grav i j) (hs2 m Uin i j) (hs2 m Uout i j)
      else hs2 m Uout i j := by
  unfold gravityStep2 at hm
  split at hm
  · rename_i hg
    have := gravity2_result hw h1 h2 hm
    simpa [hg] using this
  · rename_i hg
    cases hm
    exact ⟨fun _ _ => rfl, fun i j => by simp [hg]⟩

end EulerKokkos
