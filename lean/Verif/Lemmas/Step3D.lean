import Verif.Lemmas.Hydro3D
import Verif.Lemmas.Step2D

/-! # The 3D kernels compute the field-level scheme -/

set_option linter.constructorNameAsVariable false
set_option linter.unusedSectionVars false
set_option linter.unusedSimpArgs false

namespace EulerKokkos

open Prog (rd wr add upd run_bind run_rd run_wr run_pure foot_bind foot_rd foot_wr foot_add
  foot_pure foot_ite foot_mono Foot forRange)
open Spec

variable {R : Type} [RealOps R]

/-- gravity field stored in a view -/
def gravOf3 (m : Mem Arr R) (a : Arr) : Grav3 R :=
  fun i j k => (m ⟨a, i, j, k, IX⟩, m ⟨a, i, j, k, IY⟩, m ⟨a, i, j, k, IZ⟩)

theorem slope3_valid {p : Params R} (hv : Valid3 p) (q a b c d e f : HS R) (x : Slopes3 R) :
    slope3 p.settings q a b c d e f x
      = slope3 p.settings q a b c d e f ⟨HS.zero, HS.zero, HS.zero⟩ := by
  unfold slope3
  rcases hv.slope with h | h | h
  · simp [h]
  · simp [h]
  · simp [h]

theorem riemannHydro3_valid {p : Params R} (hv : Valid3 p) (a b x : HS R) :
    riemannHydro3 p.settings p.riemannSolverType a b x
      = riemannHydro3 p.settings p.riemannSolverType a b HS.zero := by
  have := hv.riemann
  unfold riemannHydro3
  split <;> simp_all

theorem run_gravPredictor3 (g : GravityParams) (grav : Arr) (dt : R) (i j k : Int) (q : HS R)
    (m : Mem Arr R) :
    (gravPredictor3 g grav dt i j k q).run m = (kick3 g dt (gravOf3 m grav i j k) q, m) := by
  unfold gravPredictor3 kick3
  split
  · simp [gravOf3]
  · rfl

theorem run_stencilSlopes3 {p : Params R} (hv : Valid3 p) (Q : Arr) (i j k : Int)
    (d0 : Slopes3 R) (m : Mem Arr R) :
    (stencilSlopes3 p Q i j k d0).run m =
      ((hs3 m Q i j k, slopes3 p (hs3 m Q) i j k), m) := by
  simp only [stencilSlopes3, run_bind, run_getHS3, run_pure, slope3_valid hv]
  rfl

/-- flux before multiplication by `dt/dx` -/
def rawX3 (p : Params R) (g : GravityParams) (dt : R) (gf : Grav3 R) (q : Fld3 R) (i j k : Int) :
    HS R :=
  riemannHydro3 p.settings p.riemannSolverType (face3 p g dt gf q .xmax (i - 1) j k)
    (face3 p g dt gf q .xmin i j k) HS.zero

/-- y flux in the swapped frame before multiplication by `dt/dy` -/
def rawY3 (p : Params R) (g : GravityParams) (dt : R) (gf : Grav3 R) (q : Fld3 R) (i j k : Int) :
    HS R :=
  riemannHydro3 p.settings p.riemannSolverType (face3 p g dt gf q .ymax i (j - 1) k).swapUV
    (face3 p g dt gf q .ymin i j k).swapUV HS.zero

/-- z flux in the swapped frame before multiplication by `dt/dz` -/
def rawZ3 (zk : Bool) (p : Params R) (g : GravityParams) (dt : R) (gf : Grav3 R) (q : Fld3 R)
    (i j k : Int) : HS R :=
  riemannHydro3 p.settings p.riemannSolverType (face3 p g dt gf q .zmax i j (k - 1)).swapUW
    (if zk then face3 p g dt gf q .zmin i j k else trace3 p dt q .zmin i j k).swapUW HS.zero

theorem run_xInterface3 {p : Params R} (hv : Valid3 p) (Q grav : Arr) (dt : R) (g : GravityParams)
    (jk : Junk R) (i j k : Int) (m : Mem Arr R) :
    (xInterface3 p Q grav dt g jk i j k).run m =
      (⟨hs3 m Q i j k, slopes3 p (hs3 m Q) i j k, slopes3 p (hs3 m Q) (i - 1) j k,
        rawX3 p g dt (gravOf3 m grav) (hs3 m Q) i j k⟩, m) := by
  simp only [xInterface3, run_bind, run_stencilSlopes3 hv, run_gravPredictor3, run_pure,
    riemannHydro3_valid hv]
  rfl

theorem run_yInterface3 {p : Params R} (hv : Valid3 p) (Q grav : Arr) (dt : R) (g : GravityParams)
    (jk : Junk R) (i j k : Int) (x : CellPart3 R) (m : Mem Arr R) (h1 : x.qLoc = hs3 m Q i j k)
    (h2 : x.dq = slopes3 p (hs3 m Q) i j k) :
    (yInterface3 p Q grav dt g jk i j k x).run m =
      ((rawY3 p g dt (gravOf3 m grav) (hs3 m Q) i j k, slopes3 p (hs3 m Q) i (j - 1) k), m) := by
  simp only [yInterface3, run_bind, run_stencilSlopes3 hv, run_gravPredictor3, run_pure,
    riemannHydro3_valid hv, h1, h2]
  rfl

theorem run_zInterface3 {p : Params R} (hv : Valid3 p) (Q grav : Arr) (dt : R) (g : GravityParams)
    (jk : Junk R) (i j k : Int) (x : CellPart3 R) (dqn : Slopes3 R) (m : Mem Arr R)
    (h1 : x.qLoc = hs3 m Q i j k) (h2 : x.dq = slopes3 p (hs3 m Q) i j k) :
    (zInterface3 p Q grav dt g jk i j k x dqn).run m =
      (rawZ3 true p g dt (gravOf3 m grav) (hs3 m Q) i j k, m) := by
  simp only [zInterface3, run_bind, run_stencilSlopes3 hv, run_gravPredictor3, run_pure,
    riemannHydro3_valid hv, h1, h2]
  rfl

/-! ## Frames -/

theorem own3_of_foot {outs : Arr → Prop} {body : Int × Int × Int → Prog Arr R Unit}
    {Rd Wr : Int × Int × Int → Loc Arr → Prop}
    (hf : ∀ t, (body t).Foot (Rd t) (Wr t) (fun _ => False))
    (hR : ∀ t l, Rd t l → ¬ outs l.arr ∨ (l.i, l.j, l.k) = t)
    (hW : ∀ t l, Wr t l → outs l.arr ∧ (l.i, l.j, l.k) = t) : Own3 outs body :=
  fun t => foot_mono (hR t) (hW t) (fun _ h => h) (hf t)

theorem own_convertToPrimitives3 (p : Params R) {U Q : Arr} (h : U ≠ Q) :
    Own3 (· = Q) (convertToPrimitives3 p U Q) := by
  refine own3_of_foot (foot_convertToPrimitives3 p U Q) ?_ ?_
  · rintro t l ⟨_, h1, h2, h3, _⟩; left; rw [h1]; exact h
  · rintro t l ⟨_, h1, h2, h3, h4, _⟩; exact ⟨h1, by rw [h2, h3, h4]⟩

theorem own_computeAndStoreFluxes3 (p : Params R) {Q Fx Fy Fz grav : Arr} (dt : R)
    (g : GravityParams) (jk : Junk R) (h1 : Q ≠ Fx) (h2 : Q ≠ Fy) (h2' : Q ≠ Fz) (h3 : grav ≠ Fx)
    (h4 : grav ≠ Fy) (h4' : grav ≠ Fz) :
    Own3 (fun a => a = Fx ∨ a = Fy ∨ a = Fz)
      (computeAndStoreFluxes3 p Q Fx Fy Fz grav dt g jk) := by
  refine own3_of_foot (foot_computeAndStoreFluxes3 p Q Fx Fy Fz grav dt g jk) ?_ ?_
  · rintro t l ⟨_, ⟨e, _⟩ | ⟨_, e, _⟩⟩ <;> left <;> rw [e] <;> tauto
  · rintro t l ⟨_, ⟨h1, h2, h3, h4, _⟩ | ⟨h1, h2, h3, h4, _⟩ | ⟨h1, h2, h3, h4, _⟩⟩ <;>
      exact ⟨by tauto, by rw [h2, h3, h4]⟩

theorem own_update3 (p : Params R) {U Fx Fy Fz : Arr} (h1 : Fx ≠ U) (h2 : Fy ≠ U) (h3 : Fz ≠ U) :
    Own3 (· = U) (update3 p U Fx Fy Fz) := by
  refine own3_of_foot (foot_update3 p U Fx Fy Fz) ?_ ?_
  · rintro t l ⟨_, ⟨_, h1, h2, h3, _⟩ | ⟨e | e | e, _⟩⟩
    · right; rw [h1, h2, h3]
    · left; rw [e]; exact h1
    · left; rw [e]; exact h2
    · left; rw [e]; exact h3
  · rintro t l ⟨_, h1, h2, h3, h4, _⟩; exact ⟨h1, by rw [h2, h3, h4]⟩

theorem own_updateDir3 (dir : Dir) (p : Params R) {U F : Arr} (h : F ≠ U) :
    Own3 (· = U) (updateDir3 dir p U F) := by
  refine own3_of_foot (foot_updateDir3 dir p U F) ?_ ?_
  · rintro t l ⟨_, ⟨_, h1, h2, h3, _⟩ | ⟨e, _⟩⟩
    · right; rw [h1, h2, h3]
    · left; rw [e]; exact h
  · rintro t l ⟨_, h1, h2, h3, h4, _⟩; exact ⟨h1, by rw [h2, h3, h4]⟩

theorem own_computeSlopes3 (p : Params R) {Q Sx Sy Sz : Arr} (jk : Junk R) (h1 : Q ≠ Sx)
    (h2 : Q ≠ Sy) (h3 : Q ≠ Sz) :
    Own3 (fun a => a = Sx ∨ a = Sy ∨ a = Sz) (computeSlopes3 p Q Sx Sy Sz jk) := by
  refine own3_of_foot (foot_computeSlopes3 p Q Sx Sy Sz jk) ?_ ?_
  · rintro t l ⟨_, e, _⟩; left; rw [e]; tauto
  · rintro t l ⟨_, ⟨h1, h2, h3, h4, _⟩ | ⟨h1, h2, h3, h4, _⟩ | ⟨h1, h2, h3, h4, _⟩⟩ <;>
      exact ⟨by tauto, by rw [h2, h3, h4]⟩

theorem own_computeTraceAndFluxes3 (dir : Dir) (p : Params R) {Q Sx Sy Sz F grav : Arr} (dt : R)
    (g : GravityParams) (jk : Junk R) (h1 : Q ≠ F) (h2 : Sx ≠ F) (h3 : Sy ≠ F) (h3' : Sz ≠ F)
    (h4 : grav ≠ F) :
    Own3 (· = F) (computeTraceAndFluxes3 dir p Q Sx Sy Sz F grav dt g jk) := by
  refine own3_of_foot (foot_computeTraceAndFluxes3 dir p Q Sx Sy Sz F grav dt g jk) ?_ ?_
  · rintro t l ⟨_, ⟨e | e | e | e, _⟩ | ⟨_, e, _⟩⟩ <;> left <;> rw [e] <;> assumption
  · rintro t l ⟨_, h1, h2, h3, h4, _⟩; exact ⟨h1, by rw [h2, h3, h4]⟩

theorem own_gravitySource3 (p : Params R) {Uin Uout grav : Arr} (dt : R) (h1 : Uin ≠ Uout)
    (h2 : grav ≠ Uout) : Own3 (· = Uout) (gravitySource3 p Uin Uout grav dt) := by
  refine own3_of_foot (foot_gravitySource3 p Uin Uout grav dt) ?_ ?_
  · rintro t l ⟨_, ⟨e, _⟩ | ⟨_, e1, e2, e3, _⟩ | ⟨e, _⟩⟩
    · left; rw [e]; exact h1
    · right; rw [e1, e2, e3]
    · left; rw [e]; exact h2
  · rintro t l ⟨_, h1, h2, h3, h4, _⟩; exact ⟨h1, by rw [h2, h3, h4]⟩

/-! ## Kernel results -/

theorem SameOff.hs3 {outs : Arr → Prop} {m m' : Mem Arr R} (h : SameOff outs m m') {a : Arr}
    (ha : ¬ outs a) : EulerKokkos.hs3 m' a = EulerKokkos.hs3 m a := by
  funext i j k
  unfold EulerKokkos.hs3
  rw [h ⟨a, i, j, k, ID⟩ ha, h ⟨a, i, j, k, IP⟩ ha, h ⟨a, i, j, k, IU⟩ ha, h ⟨a, i, j, k, IV⟩ ha,
    h ⟨a, i, j, k, IW⟩ ha]

theorem SameOff.grav3 {outs : Arr → Prop} {m m' : Mem Arr R} (h : SameOff outs m m') {a : Arr}
    (ha : ¬ outs a) : gravOf3 m' a = gravOf3 m a := by
  funext i j k
  unfold gravOf3
  rw [h ⟨a, i, j, k, IX⟩ ha, h ⟨a, i, j, k, IY⟩ ha, h ⟨a, i, j, k, IZ⟩ ha]

theorem sameOff_forRange3 {outs : Arr → Prop} {body : Int × Int × Int → Prog Arr R Unit}
    (h : Own3 outs body) {F : Finset (Int × Int × Int)} {m m' : Mem Arr R}
    (hm : forRange F body m m') :
    SameOff outs m m' := fun _ hl => forRange3_else h hm (fun hh => hl hh.1)

theorem convert3_result {p : Params R} (hw : p.WF) {U Q : Arr} (h : U ≠ Q) {m m' : Mem Arr R}
    (hm : forRange (range3 p.isize p.jsize p.ksize) (convertToPrimitives3 p U Q) m m') :
    SameOff (· = Q) m m' ∧ ∀ i j k, inGrid3 p i j k →
      hs3 m' Q i j k = prim3 p (hs3 m U) i j k := by
  have ho := own_convertToPrimitives3 p h
  refine ⟨sameOff_forRange3 ho hm, fun i j k hin => ?_⟩
  obtain ⟨⟨h1, h2⟩, ⟨h3, h4⟩, h5, h6⟩ := hin
  rw [← hw.isize_eq] at h2
  rw [← hw.jsize_eq] at h4
  rw [← hw.ksize_eq] at h6
  rw [forRange3_hs3_out ho hm rfl (by simp [*])]
  unfold convertToPrimitives3
  rw [if_pos (by simp [*])]
  simp only [run_bind, run_getHS3, run_putHS3]
  rw [hs3_setMem3_same]; rfl

theorem face_mem3 {p : Params R} (hw : p.WF) {i j k : Int} (hg : faceGuard3 p (i, j, k)) :
    (i, j, k) ∈ range3 p.isize p.jsize p.ksize := by
  obtain ⟨a, b, c, d, e, f⟩ := hg
  have := hw.gw_pos
  simp only at a b c d e f
  simp only [mem_range3]; omega

theorem cell_mem3 {p : Params R} (hw : p.WF) {i j k : Int} (hg : cellGuard3 p (i, j, k)) :
    (i, j, k) ∈ range3 p.isize p.jsize p.ksize := by
  obtain ⟨a, b, c, d, e, f⟩ := hg
  have := hw.gw_pos
  simp only at a b c d e f
  simp only [mem_range3]; omega

theorem fluxes3_result {p : Params R} (hw : p.WF) (hv : Valid3 p) {Q Fx Fy Fz grav : Arr} {dt : R}
    {g : GravityParams} {jk : Junk R} (h1 : Q ≠ Fx) (h2 : Q ≠ Fy) (h2' : Q ≠ Fz) (h3 : grav ≠ Fx)
    (h4 : grav ≠ Fy) (h4' : grav ≠ Fz) (h5 : Fx ≠ Fy) (h6 : Fx ≠ Fz) (h7 : Fy ≠ Fz)
    {m m' : Mem Arr R}
    (hm : forRange (range3 p.isize p.jsize p.ksize)
      (computeAndStoreFluxes3 p Q Fx Fy Fz grav dt g jk) m m') :
    SameOff (fun a => a = Fx ∨ a = Fy ∨ a = Fz) m m' ∧ ∀ i j k, faceGuard3 p (i, j, k) →
      hs3 m' Fx i j k = fluxX3 p g dt (gravOf3 m grav) (hs3 m Q) i j k ∧
      hs3 m' Fy i j k = fluxY3 p g dt (gravOf3 m grav) (hs3 m Q) i j k ∧
      hs3 m' Fz i j k = fluxZ3 true p g dt (gravOf3 m grav) (hs3 m Q) i j k := by
  have ho := own_computeAndStoreFluxes3 p dt g jk h1 h2 h2' h3 h4 h4'
  refine ⟨sameOff_forRange3 ho hm, fun i j k hg => ?_⟩
  have hin := face_mem3 hw hg
  rw [forRange3_hs3_out ho hm (Or.inl rfl) hin, forRange3_hs3_out ho hm (Or.inr (Or.inl rfl)) hin,
    forRange3_hs3_out ho hm (Or.inr (Or.inr rfl)) hin]
  unfold computeAndStoreFluxes3
  rw [if_pos hg]
  simp only [run_bind, run_xInterface3 hv, run_putHS3]
  have hQ : ∀ (m : Mem Arr R) A s, Q ≠ A → hs3 (setMem3 m A i j k s) Q = hs3 m Q :=
    fun m A s hA => by funext a b c; exact hs3_setMem3_ne _ _ _ _ _ _ _ _ _ _ (Or.inl hA)
  have hG : ∀ (m : Mem Arr R) A s, grav ≠ A →
      gravOf3 (setMem3 m A i j k s) grav = gravOf3 m grav := fun m A s hA => by
    funext a b c; simp [gravOf3, setMem3, hA]
  rw [run_yInterface3 (h1 := by rw [hQ _ _ _ h1]) (h2 := by rw [hQ _ _ _ h1]) hv]
  simp only [hQ _ _ _ h1, hG _ _ _ h3]
  rw [run_zInterface3 (h1 := by rw [hQ _ _ _ h2, hQ _ _ _ h1])
    (h2 := by rw [hQ _ _ _ h2, hQ _ _ _ h1]) hv]
  simp only [hQ _ _ _ h1, hG _ _ _ h3, hQ _ _ _ h2, hG _ _ _ h4]
  rw [hs3_setMem3_ne _ _ _ _ _ _ _ _ _ _ (Or.inl h6), hs3_setMem3_ne _ _ _ _ _ _ _ _ _ _ (Or.inl h5),
    hs3_setMem3_same, hs3_setMem3_ne _ _ _ _ _ _ _ _ _ _ (Or.inl h7), hs3_setMem3_same,
    hs3_setMem3_same]
  exact ⟨rfl, rfl, rfl⟩

theorem update3_result {p : Params R} (hw : p.WF) {U Fx Fy Fz : Arr} (h1 : Fx ≠ U) (h2 : Fy ≠ U)
    (h3 : Fz ≠ U) {m m' : Mem Arr R}
    (hm : forRange (range3 p.isize p.jsize p.ksize) (update3 p U Fx Fy Fz) m m') :
    SameOff (· = U) m m' ∧ ∀ i j k, hs3 m' U i j k =
      if cellGuard3 p (i, j, k) then
        fluxUpdate3 (hs3 m Fx) (hs3 m Fy) (hs3 m Fz) (hs3 m U i j k) i j k
      else hs3 m U i j k := by
  have ho := own_update3 p h1 h2 h3
  refine ⟨sameOff_forRange3 ho hm, fun i j k => ?_⟩
  by_cases hin : (i, j, k) ∈ range3 p.isize p.jsize p.ksize
  · rw [forRange3_hs3_out ho hm rfl hin]
    unfold update3
    split
    · have e : ∀ (m : Mem Arr R) s a, a ≠ U → hs3 (setMem3 m U i j k s) a = hs3 m a := by
        intro m s a ha; funext x y z; exact hs3_setMem3_ne _ _ _ _ _ _ _ _ _ _ (Or.inl ha)
      simp only [run_bind, run_plusEq3 h1, run_plusEq3 h2, run_plusEq3 h3, run_minusEq3 h1,
        run_minusEq3 h2, run_minusEq3 h3, hs3_setMem3_same, e _ _ _ h1, e _ _ _ h2, e _ _ _ h3]
      rfl
    · rfl
  · rw [forRange3_hs3_else ho hm (fun hh => hin hh.2), if_neg]
    exact fun h => hin (cell_mem3 hw h)

theorem updateDir3_result {p : Params R} (hw : p.WF) {U F : Arr} (h1 : F ≠ U) (dir : Dir)
    {m m' : Mem Arr R}
    (hm : forRange (range3 p.isize p.jsize p.ksize) (updateDir3 dir p U F) m m') :
    SameOff (· = U) m m' ∧ ∀ i j k, hs3 m' U i j k =
      if cellGuard3 p (i, j, k) then
        (match dir with
        | .x => ((hs3 m U i j k).add (hs3 m F i j k)).sub (hs3 m F (i + 1) j k)
        | .y => ((hs3 m U i j k).add (hs3 m F i j k)).sub (hs3 m F i (j + 1) k)
        | .z => ((hs3 m U i j k).add (hs3 m F i j k)).sub (hs3 m F i j (k + 1)))
      else hs3 m U i j k := by
  have ho := own_updateDir3 dir p h1
  refine ⟨sameOff_forRange3 ho hm, fun i j k => ?_⟩
  by_cases hin : (i, j, k) ∈ range3 p.isize p.jsize p.ksize
  · rw [forRange3_hs3_out ho hm rfl hin]
    unfold updateDir3
    split
    · have e : ∀ (m : Mem Arr R) s a, a ≠ U → hs3 (setMem3 m U i j k s) a = hs3 m a := by
        intro m s a ha; funext x y z; exact hs3_setMem3_ne _ _ _ _ _ _ _ _ _ _ (Or.inl ha)
      cases dir
      all_goals
        simp only [run_bind, run_plusEq3 h1, run_minusEq3 h1, hs3_setMem3_same, e _ _ _ h1]
    · rfl
  · rw [forRange3_hs3_else ho hm (fun hh => hin hh.2), if_neg]
    exact fun h => hin (cell_mem3 hw h)

/-- the stored slopes agree with the field-level slopes wherever the slope kernel writes -/
def SlopesStored3 (p : Params R) (Q Sx Sy Sz : Arr) (m : Mem Arr R) : Prop :=
  ∀ i j k, slopeGuard3 p (i, j, k) →
    (⟨hs3 m Sx i j k, hs3 m Sy i j k, hs3 m Sz i j k⟩ : Slopes3 R) = slopes3 p (hs3 m Q) i j k

theorem slopes3_result {p : Params R} (hw : p.WF) (hv : Valid3 p) {Q Sx Sy Sz : Arr}
    {jk : Junk R} (h1 : Q ≠ Sx)
    (h2 : Q ≠ Sy) (h3 : Q ≠ Sz) (h4 : Sx ≠ Sy) (h5 : Sx ≠ Sz) (h6 : Sy ≠ Sz) {m m' : Mem Arr R}
    (hm : forRange (range3 p.isize p.jsize p.ksize) (computeSlopes3 p Q Sx Sy Sz jk) m m') :
    SameOff (fun a => a = Sx ∨ a = Sy ∨ a = Sz) m m' ∧ SlopesStored3 p Q Sx Sy Sz m' := by
  have ho := own_computeSlopes3 p jk h1 h2 h3
  have hs := sameOff_forRange3 ho hm
  refine ⟨hs, fun i j k hg => ?_⟩
  have hin : (i, j, k) ∈ range3 p.isize p.jsize p.ksize := by
    obtain ⟨a, b, c, d, e, f⟩ := hg
    have := hw.gw_pos
    simp only at a b c d e f
    simp only [mem_range3]; omega
  rw [hs.hs3 (a := Q) (by tauto)]
  rw [forRange3_hs3_out ho hm (Or.inl rfl) hin, forRange3_hs3_out ho hm (Or.inr (Or.inl rfl)) hin,
    forRange3_hs3_out ho hm (Or.inr (Or.inr rfl)) hin]
  unfold computeSlopes3
  rw [if_pos hg]
  simp only [run_bind, run_stencilSlopes3 hv, run_putHS3]
  rw [hs3_setMem3_ne _ _ _ _ _ _ _ _ _ _ (Or.inl h5), hs3_setMem3_ne _ _ _ _ _ _ _ _ _ _ (Or.inl h4),
    hs3_setMem3_same, hs3_setMem3_ne _ _ _ _ _ _ _ _ _ _ (Or.inl h6), hs3_setMem3_same,
    hs3_setMem3_same]

theorem trace3_result {p : Params R} (hw : p.WF) (hv : Valid3 p) {Q Sx Sy Sz F grav : Arr} {dt : R}
    {g : GravityParams} {jk : Junk R} (h1 : Q ≠ F) (h2 : Sx ≠ F) (h3 : Sy ≠ F) (h3' : Sz ≠ F)
    (h4 : grav ≠ F) {m m' : Mem Arr R} (hS : SlopesStored3 p Q Sx Sy Sz m) (dir : Dir)
    (hm : forRange (range3 p.isize p.jsize p.ksize)
      (computeTraceAndFluxes3 dir p Q Sx Sy Sz F grav dt g jk) m m') :
    SameOff (· = F) m m' ∧ ∀ i j k, faceGuard3 p (i, j, k) →
      hs3 m' F i j k = match dir with
        | .x => fluxX3 p g dt (gravOf3 m grav) (hs3 m Q) i j k
        | .y => fluxY3 p g dt (gravOf3 m grav) (hs3 m Q) i j k
        | .z => fluxZ3 false p g dt (gravOf3 m grav) (hs3 m Q) i j k := by
  have ho := own_computeTraceAndFluxes3 dir p dt g jk h1 h2 h3 h3' h4
  refine ⟨sameOff_forRange3 ho hm, fun i j k hg => ?_⟩
  have hin := face_mem3 hw hg
  obtain ⟨a, b, c, d, e, f⟩ := id hg
  simp only at a b c d e f
  rw [forRange3_hs3_out ho hm rfl hin]
  unfold computeTraceAndFluxes3 getCell3
  rw [if_pos hg]
  have s0 := hS i j k (by simp only [slopeGuard3]; omega)
  cases dir
  · have s1 := hS (i - 1) j k (by simp only [slopeGuard3]; omega)
    simp only [run_bind, run_getHS3, run_putHS3, run_gravPredictor3, riemannHydro3_valid hv,
      hs3_setMem3_same, run_pure, s0, s1]
    rfl
  · have s1 := hS i (j - 1) k (by simp only [slopeGuard3]; omega)
    simp only [run_bind, run_getHS3, run_putHS3, run_gravPredictor3, riemannHydro3_valid hv,
      hs3_setMem3_same, run_pure, s0, s1]
    rfl
  · have s1 := hS i j (k - 1) (by simp only [slopeGuard3]; omega)
    simp only [run_bind, run_getHS3, run_putHS3, run_gravPredictor3, riemannHydro3_valid hv,
      hs3_setMem3_same, run_pure, s0, s1]
    rfl

theorem gravity3_result {p : Params R} (hw : p.WF) {Uin Uout grav : Arr} {dt : R}
    (h1 : Uin ≠ Uout) (h2 : grav ≠ Uout) {m m' : Mem Arr R}
    (hm : forRange (range3 p.isize p.jsize p.ksize) (gravitySource3 p Uin Uout grav dt) m m') :
    SameOff (· = Uout) m m' ∧ ∀ i j k, hs3 m' Uout i j k =
      if cellGuard3 p (i, j, k) then
        gravity3 dt (gravOf3 m grav i j k) (hs3 m Uin i j k) (hs3 m Uout i j k)
      else hs3 m Uout i j k := by
  have ho := own_gravitySource3 p dt h1 h2
  refine ⟨sameOff_forRange3 ho hm, fun i j k => ?_⟩
  by_cases hin : (i, j, k) ∈ range3 p.isize p.jsize p.ksize
  · rw [forRange3_hs3_out ho hm rfl hin]
    unfold gravitySource3
    split
    · simp only [run_bind, run_rd, run_wr]
      simp [hs3, upd, gravity3, gravOf3, IU, IV, IW, Loc.mk.injEq]
    · rfl
  · rw [forRange3_hs3_else ho hm (fun hh => hin hh.2), if_neg]
    exact fun h => hin (cell_mem3 hw h)

theorem gravityStep3_result {p : Params R} (hw : p.WF) {g : GravityParams} {Uin Uout : Arr} {dt : R}
    (h1 : Uin ≠ Uout) (h2 : .grav ≠ Uout) {m m' : Mem Arr R}
    (hm : gravityStep3 p g dt Uin Uout m m') :
    SameOff (· = Uout) m m' ∧ ∀ i j k, hs3 m' Uout i j k =
      if cellGuard3 p (i, j, k) ∧ g.enabled = true then
        gravity3 dt (gravOf3 m .grav i j k) (hs3 m Uin i j k) (hs3 m Uout i j k)
      else hs3 m Uout i j k := by
  unfold gravityStep3 at hm
  split at hm
  · rename_i hg
    have := gravity3_result hw h1 h2 hm
    simpa [hg] using this
  · rename_i hg
    cases hm
    exact ⟨fun _ _ => rfl, fun i j k => by simp [hg]⟩

end EulerKokkos
