import Verif.Spec.Scheme3D
import Verif.Lemmas.Hydro2D

/-! # What each 3D hydro kernel touches -/

set_option linter.constructorNameAsVariable false
set_option linter.unusedSectionVars false

namespace EulerKokkos

open Prog (rd wr add upd run_bind run_rd run_wr run_pure foot_bind foot_rd foot_wr foot_add
  foot_pure foot_ite foot_pif foot_mono Foot forRange)

variable {R : Type} [RealOps R]

/-! ## Owner-computes for 3D grids -/

/-- every iteration reads its own cell of the output views only, and writes only there -/
def Own3 (outs : Arr → Prop) (body : Int × Int × Int → Prog Arr R Unit) : Prop :=
  ∀ t, (body t).Foot (fun l => ¬ outs l.arr ∨ (l.i, l.j, l.k) = t)
    (fun l => outs l.arr ∧ (l.i, l.j, l.k) = t) (fun _ => False)

open Classical in
theorem forRange3_is {outs : Arr → Prop} {body : Int × Int × Int → Prog Arr R Unit}
    (h : Own3 outs body) (F : Finset (Int × Int × Int)) :
    (forRange F body).Is (fun m l => if outs l.arr ∧ (l.i, l.j, l.k) ∈ F then
      ((body (l.i, l.j, l.k)).run m).2 l else m l) :=
  Prog.forRange_owner F body (fun l => (l.i, l.j, l.k)) (fun l => outs l.arr) (fun t _ => h t)

theorem forRange3_out {outs : Arr → Prop} {body : Int × Int × Int → Prog Arr R Unit}
    (h : Own3 outs body) {F : Finset (Int × Int × Int)} {m m' : Mem Arr R}
    (hm : forRange F body m m') {l : Loc Arr} (ho : outs l.arr) (hij : (l.i, l.j, l.k) ∈ F) :
    m' l = ((body (l.i, l.j, l.k)).run m).2 l := by
  have := (forRange3_is h F m m').1 hm
  rw [this]; simp [ho, hij]

theorem forRange3_else {outs : Arr → Prop} {body : Int × Int × Int → Prog Arr R Unit}
    (h : Own3 outs body) {F : Finset (Int × Int × Int)} {m m' : Mem Arr R}
    (hm : forRange F body m m') {l : Loc Arr} (ho : ¬ (outs l.arr ∧ (l.i, l.j, l.k) ∈ F)) :
    m' l = m l := by
  have := (forRange3_is h F m m').1 hm
  rw [this]; exact if_neg ho

theorem forRange3_hs3_out {outs : Arr → Prop} {body : Int × Int × Int → Prog Arr R Unit}
    (h : Own3 outs body) {F : Finset (Int × Int × Int)} {m m' : Mem Arr R}
    (hm : forRange F body m m') {a : Arr} {i j k : Int} (ho : outs a) (hij : (i, j, k) ∈ F) :
    hs3 m' a i j k = hs3 ((body (i, j, k)).run m).2 a i j k := by
  unfold hs3
  rw [forRange3_out h hm (l := ⟨a, i, j, k, ID⟩) ho hij,
    forRange3_out h hm (l := ⟨a, i, j, k, IP⟩) ho hij,
    forRange3_out h hm (l := ⟨a, i, j, k, IU⟩) ho hij,
    forRange3_out h hm (l := ⟨a, i, j, k, IV⟩) ho hij,
    forRange3_out h hm (l := ⟨a, i, j, k, IW⟩) ho hij]

theorem forRange3_hs3_else {outs : Arr → Prop} {body : Int × Int × Int → Prog Arr R Unit}
    (h : Own3 outs body) {F : Finset (Int × Int × Int)} {m m' : Mem Arr R}
    (hm : forRange F body m m') {a : Arr} {i j k : Int} (ho : ¬ (outs a ∧ (i, j, k) ∈ F)) :
    hs3 m' a i j k = hs3 m a i j k := by
  unfold hs3
  rw [forRange3_else h hm (l := ⟨a, i, j, k, ID⟩) ho,
    forRange3_else h hm (l := ⟨a, i, j, k, IP⟩) ho,
    forRange3_else h hm (l := ⟨a, i, j, k, IU⟩) ho,
    forRange3_else h hm (l := ⟨a, i, j, k, IV⟩) ho,
    forRange3_else h hm (l := ⟨a, i, j, k, IW⟩) ho]

/-! ## Exact footprints -/

/-- cell `(i,j,k)` of the 3D view `a`, five variables -/
def Cell3 (a : Arr) (i j k : Int) (l : Loc Arr) : Prop :=
  l.arr = a ∧ l.i = i ∧ l.j = j ∧ l.k = k ∧ l.v < 5

/-- a box of cells around `t` of the view `a`, `n` variables -/
def Box3 (a : Arr) (n : Nat) (t : Int × Int × Int) (lo hi : Int) (l : Loc Arr) : Prop :=
  l.arr = a ∧ (t.1 + lo ≤ l.i ∧ l.i ≤ t.1 + hi) ∧ (t.2.1 + lo ≤ l.j ∧ l.j ≤ t.2.1 + hi) ∧
    (t.2.2 + lo ≤ l.k ∧ l.k ≤ t.2.2 + hi) ∧ l.v < n

theorem box3_mk {a : Arr} {n : Nat} {t : Int × Int × Int} {lo hi i j k : Int} {v : Nat}
    (h : t.1 + lo ≤ i ∧ i ≤ t.1 + hi ∧ t.2.1 + lo ≤ j ∧ j ≤ t.2.1 + hi ∧
      t.2.2 + lo ≤ k ∧ k ≤ t.2.2 + hi) (hv : v < n) :
    Box3 a n t lo hi ⟨a, i, j, k, v⟩ :=
  ⟨rfl, ⟨h.1, h.2.1⟩, ⟨h.2.2.1, h.2.2.2.1⟩, h.2.2.2.2, hv⟩

theorem foot_gravPredictor3 {Rd Wr Ad : Loc Arr → Prop} {g : GravityParams} {grav : Arr} {dt : R}
    {i j k : Int} {q : HS R}
    (h : g.enabled = true → ∀ v < 3, Rd ⟨grav, i, j, k, v⟩) :
    (gravPredictor3 g grav dt i j k q).Foot Rd Wr Ad := by
  unfold gravPredictor3
  refine foot_ite (fun hg => ?_) (fun _ => foot_pure _ _ _ _)
  simp only [Bool.and_eq_true] at hg
  refine foot_bind ((foot_rd _ _ _ _).2 (h hg.1 _ (by decide))) (fun _ => ?_)
  refine foot_bind ((foot_rd _ _ _ _).2 (h hg.1 _ (by decide))) (fun _ => ?_)
  refine foot_bind ((foot_rd _ _ _ _).2 (h hg.1 _ (by decide))) (fun _ => ?_)
  exact foot_pure _ _ _ _

/-- read set of the face kernels -/
def FaceRd3 (p : Params R) (arrs : Arr → Prop) (grav : Arr) (g : GravityParams)
    (t : Int × Int × Int) (l : Loc Arr) : Prop :=
  faceGuard3 p t ∧ ((arrs l.arr ∧ Box3 l.arr 5 t (-2) 1 l) ∨
    (g.enabled = true ∧ Box3 grav 3 t (-1) 0 l))

set_option hygiene false in
macro "foot_steps3" : tactic => `(tactic| (
  repeat' (first
    | exact foot_pure _ _ _ _
    | (apply foot_getHS3; intro v hv)
    | (apply foot_putHS3; intro v hv)
    | (apply foot_gravPredictor3; intro hg v hv)
    | (apply foot_plusEq3 <;> intro v hv)
    | (apply foot_minusEq3 <;> intro v hv)
    | (apply foot_atomicAdd3; intro v hv)
    | (apply foot_atomicSub3; intro v hv)
    | (refine foot_bind ?_ (fun _ => ?_))
    | (refine foot_ite (fun hc => ?_) (fun _ => ?_)))))

theorem foot_stencilSlopes3 {Rd Wr Ad : Loc Arr → Prop} (p : Params R) (Q : Arr) (i j k : Int)
    (d0 : Slopes3 R)
    (h : ∀ l : Loc Arr, Box3 Q 5 (i, j, k) (-1) 1 l → Rd l) :
    (stencilSlopes3 p Q i j k d0).Foot Rd Wr Ad := by
  unfold stencilSlopes3
  foot_steps3
  all_goals exact h _ (box3_mk (by simp only; omega) hv)

theorem faceRd3_box {p : Params R} {Q grav : Arr} {g : GravityParams} {t : Int × Int × Int}
    (ht : faceGuard3 p t) {a b c : Int}
    (h : (a, b, c) = t ∨ (a, b, c) = (t.1 - 1, t.2.1, t.2.2) ∨ (a, b, c) = (t.1, t.2.1 - 1, t.2.2) ∨
      (a, b, c) = (t.1, t.2.1, t.2.2 - 1)) :
    ∀ l : Loc Arr, Box3 Q 5 (a, b, c) (-1) 1 l → FaceRd3 p (· = Q) grav g t l := by
  intro l hl
  obtain ⟨ha, h1, h2, h3, hv⟩ := hl
  obtain ⟨t1, t2, t3⟩ := t
  refine ⟨ht, Or.inl ⟨ha, rfl, ?_⟩⟩
  simp only [Prod.mk.injEq] at h
  simp only at h1 h2 h3 ⊢
  refine ⟨by omega, by omega, by omega, hv⟩

theorem foot_xInterface3 {Wr Ad : Loc Arr → Prop} (p : Params R) (Q grav : Arr) (dt : R)
    (g : GravityParams) (jk : Junk R) (t : Int × Int × Int) (ht : faceGuard3 p t) :
    (xInterface3 p Q grav dt g jk t.1 t.2.1 t.2.2).Foot (FaceRd3 p (· = Q) grav g t) Wr Ad := by
  unfold xInterface3
  refine foot_bind (foot_stencilSlopes3 _ _ _ _ _ _ (faceRd3_box ht (by simp))) (fun _ => ?_)
  refine foot_bind (foot_stencilSlopes3 _ _ _ _ _ _ (faceRd3_box ht (by simp))) (fun _ => ?_)
  foot_steps3
  all_goals exact ⟨ht, Or.inr ⟨hg, box3_mk (by omega) hv⟩⟩

theorem foot_yInterface3 {Wr Ad : Loc Arr → Prop} (p : Params R) (Q grav : Arr) (dt : R)
    (g : GravityParams) (jk : Junk R) (t : Int × Int × Int) (x : CellPart3 R)
    (ht : faceGuard3 p t) :
    (yInterface3 p Q grav dt g jk t.1 t.2.1 t.2.2 x).Foot (FaceRd3 p (· = Q) grav g t) Wr Ad := by
  unfold yInterface3
  refine foot_bind (foot_stencilSlopes3 _ _ _ _ _ _ (faceRd3_box ht (by simp))) (fun _ => ?_)
  foot_steps3
  all_goals exact ⟨ht, Or.inr ⟨hg, box3_mk (by omega) hv⟩⟩

theorem foot_zInterface3 {Wr Ad : Loc Arr → Prop} (p : Params R) (Q grav : Arr) (dt : R)
    (g : GravityParams) (jk : Junk R) (t : Int × Int × Int) (x : CellPart3 R) (dqn : Slopes3 R)
    (ht : faceGuard3 p t) :
    (zInterface3 p Q grav dt g jk t.1 t.2.1 t.2.2 x dqn).Foot (FaceRd3 p (· = Q) grav g t)
      Wr Ad := by
  unfold zInterface3
  refine foot_bind (foot_stencilSlopes3 _ _ _ _ _ _ (faceRd3_box ht (by simp))) (fun _ => ?_)
  foot_steps3
  all_goals exact ⟨ht, Or.inr ⟨hg, box3_mk (by omega) hv⟩⟩

theorem foot_convertToPrimitives3 (p : Params R) (U Q : Arr) (t : Int × Int × Int) :
    (convertToPrimitives3 p U Q t).Foot
      (fun l => (0 ≤ t.2.2 ∧ t.2.2 < p.ksize ∧ 0 ≤ t.2.1 ∧ t.2.1 < p.jsize ∧ 0 ≤ t.1 ∧
        t.1 < p.isize) ∧ Cell3 U t.1 t.2.1 t.2.2 l)
      (fun l => (0 ≤ t.2.2 ∧ t.2.2 < p.ksize ∧ 0 ≤ t.2.1 ∧ t.2.1 < p.jsize ∧ 0 ≤ t.1 ∧
        t.1 < p.isize) ∧ Cell3 Q t.1 t.2.1 t.2.2 l)
      (fun _ => False) := by
  unfold convertToPrimitives3
  foot_steps3
  all_goals exact ⟨hc, rfl, rfl, rfl, rfl, hv⟩

theorem foot_computeAndStoreFluxes3 (p : Params R) (Q Fx Fy Fz grav : Arr) (dt : R)
    (g : GravityParams) (jk : Junk R) (t : Int × Int × Int) :
    (computeAndStoreFluxes3 p Q Fx Fy Fz grav dt g jk t).Foot (FaceRd3 p (· = Q) grav g t)
      (fun l => faceGuard3 p t ∧ (Cell3 Fx t.1 t.2.1 t.2.2 l ∨ Cell3 Fy t.1 t.2.1 t.2.2 l ∨
        Cell3 Fz t.1 t.2.1 t.2.2 l)) (fun _ => False) := by
  unfold computeAndStoreFluxes3
  refine foot_ite (fun hc => ?_) (fun _ => foot_pure _ _ _ _)
  refine foot_bind (foot_xInterface3 p Q grav dt g jk t hc) (fun x => ?_)
  refine foot_bind (foot_putHS3 (fun v hv => ⟨hc, Or.inl ⟨rfl, rfl, rfl, rfl, hv⟩⟩)) (fun _ => ?_)
  refine foot_bind (foot_yInterface3 p Q grav dt g jk t x hc) (fun fy => ?_)
  refine foot_bind (foot_putHS3 (fun v hv => ⟨hc, Or.inr (Or.inl ⟨rfl, rfl, rfl, rfl, hv⟩)⟩))
    (fun _ => ?_)
  refine foot_bind (foot_zInterface3 p Q grav dt g jk t x _ hc) (fun fy => ?_)
  exact foot_putHS3 (fun v hv => ⟨hc, Or.inr (Or.inr ⟨rfl, rfl, rfl, rfl, hv⟩)⟩)

/-- read set of the update kernels -/
def UpdRd3 (p : Params R) (arrs : Arr → Prop) (U : Arr) (t : Int × Int × Int) (l : Loc Arr) :
    Prop :=
  cellGuard3 p t ∧ (Cell3 U t.1 t.2.1 t.2.2 l ∨ (arrs l.arr ∧ Box3 l.arr 5 t 0 1 l))

theorem foot_update3 (p : Params R) (U Fx Fy Fz : Arr) (t : Int × Int × Int) :
    (update3 p U Fx Fy Fz t).Foot (UpdRd3 p (fun a => a = Fx ∨ a = Fy ∨ a = Fz) U t)
      (fun l => cellGuard3 p t ∧ Cell3 U t.1 t.2.1 t.2.2 l) (fun _ => False) := by
  unfold update3
  foot_steps3
  all_goals
    refine ⟨hc, ?_⟩
    first
      | exact ⟨rfl, rfl, rfl, rfl, hv⟩
      | exact Or.inl ⟨rfl, rfl, rfl, rfl, hv⟩
      | exact Or.inr ⟨by simp, box3_mk (by omega) hv⟩

theorem foot_updateDir3 (dir : Dir) (p : Params R) (U F : Arr) (t : Int × Int × Int) :
    (updateDir3 dir p U F t).Foot (UpdRd3 p (fun a => a = F) U t)
      (fun l => cellGuard3 p t ∧ Cell3 U t.1 t.2.1 t.2.2 l) (fun _ => False) := by
  unfold updateDir3
  refine foot_ite (fun hc => ?_) (fun _ => foot_pure _ _ _ _)
  cases dir
  all_goals
    simp only
    foot_steps3
  all_goals
    refine ⟨hc, ?_⟩
    first
      | exact ⟨rfl, rfl, rfl, rfl, hv⟩
      | exact Or.inl ⟨rfl, rfl, rfl, rfl, hv⟩
      | exact Or.inr ⟨by simp, box3_mk (by omega) hv⟩

theorem foot_computeSlopes3 (p : Params R) (Q Sx Sy Sz : Arr) (jk : Junk R)
    (t : Int × Int × Int) :
    (computeSlopes3 p Q Sx Sy Sz jk t).Foot
      (fun l => slopeGuard3 p t ∧ Box3 Q 5 t (-1) 1 l)
      (fun l => slopeGuard3 p t ∧ (Cell3 Sx t.1 t.2.1 t.2.2 l ∨ Cell3 Sy t.1 t.2.1 t.2.2 l ∨
        Cell3 Sz t.1 t.2.1 t.2.2 l)) (fun _ => False) := by
  unfold computeSlopes3
  refine foot_ite (fun hc => ?_) (fun _ => foot_pure _ _ _ _)
  refine foot_bind (foot_stencilSlopes3 _ _ _ _ _ _ (fun l hl => ⟨hc, hl⟩)) (fun _ => ?_)
  refine foot_bind (foot_putHS3 (fun v hv => ⟨hc, Or.inl ⟨rfl, rfl, rfl, rfl, hv⟩⟩)) (fun _ => ?_)
  refine foot_bind (foot_putHS3 (fun v hv => ⟨hc, Or.inr (Or.inl ⟨rfl, rfl, rfl, rfl, hv⟩)⟩))
    (fun _ => ?_)
  exact foot_putHS3 (fun v hv => ⟨hc, Or.inr (Or.inr ⟨rfl, rfl, rfl, rfl, hv⟩)⟩)

theorem foot_computeTraceAndFluxes3 (dir : Dir) (p : Params R) (Q Sx Sy Sz F grav : Arr) (dt : R)
    (g : GravityParams) (jk : Junk R) (t : Int × Int × Int) :
    (computeTraceAndFluxes3 dir p Q Sx Sy Sz F grav dt g jk t).Foot
      (fun l => faceGuard3 p t ∧ (((l.arr = Q ∨ l.arr = Sx ∨ l.arr = Sy ∨ l.arr = Sz) ∧
        Box3 l.arr 5 t (-1) 0 l) ∨ (g.enabled = true ∧ Box3 grav 3 t (-1) 0 l)))
      (fun l => faceGuard3 p t ∧ Cell3 F t.1 t.2.1 t.2.2 l) (fun _ => False) := by
  unfold computeTraceAndFluxes3 getCell3
  refine foot_ite (fun hc => ?_) (fun _ => foot_pure _ _ _ _)
  cases dir
  all_goals
    simp only
    foot_steps3
  all_goals
    refine ⟨hc, ?_⟩
    first
      | exact ⟨rfl, rfl, rfl, rfl, hv⟩
      | exact Or.inl ⟨by simp, box3_mk (by omega) hv⟩
      | exact Or.inr ⟨hg, box3_mk (by omega) hv⟩

theorem foot_computeAllFluxesAndUpdate3 (p : Params R) (Q U grav : Arr) (dt : R)
    (g : GravityParams) (jk : Junk R) (t : Int × Int × Int) :
    (computeAllFluxesAndUpdate3 p Q U grav dt g jk t).Foot (FaceRd3 p (· = Q) grav g t)
      (fun _ => False)
      (fun l => ∃ i j k, cellGuard3 p (i, j, k) ∧ Cell3 U i j k l) := by
  unfold computeAllFluxesAndUpdate3
  refine foot_ite (fun hc => ?_) (fun _ => foot_pure _ _ _ _)
  have hcell : ∀ {i j k : Int} {v : Nat}, cellGuard3 p (i, j, k) → v < 5 →
      ∃ i' j' k', cellGuard3 p (i', j', k') ∧ Cell3 U i' j' k' ⟨U, i, j, k, v⟩ :=
    fun h hv => ⟨_, _, _, h, rfl, rfl, rfl, rfl, hv⟩
  obtain ⟨h1, h2, h3, h4, h5, h6⟩ := id hc
  simp only
  refine foot_bind (foot_xInterface3 p Q grav dt g jk t hc) (fun x => ?_)
  refine foot_bind (foot_pif (fun hc' => foot_atomicAdd3 (fun v hv =>
    hcell (by simp only [cellGuard3]; omega) hv)))
    (fun _ => ?_)
  refine foot_bind (foot_pif (fun hc' => foot_atomicSub3 (fun v hv =>
    hcell (by simp only [cellGuard3]; omega) hv))) (fun _ => ?_)
  refine foot_bind (foot_yInterface3 p Q grav dt g jk t x hc) (fun fy => ?_)
  refine foot_bind (foot_pif (fun hc' => foot_atomicAdd3 (fun v hv =>
    hcell (by simp only [cellGuard3]; omega) hv)))
    (fun _ => ?_)
  refine foot_bind (foot_pif (fun hc' => foot_atomicSub3 (fun v hv =>
    hcell (by simp only [cellGuard3]; omega) hv))) (fun _ => ?_)
  refine foot_bind (foot_zInterface3 p Q grav dt g jk t x _ hc) (fun fz => ?_)
  refine foot_bind (foot_pif (fun hc' => foot_atomicAdd3 (fun v hv =>
    hcell (by simp only [cellGuard3]; omega) hv)))
    (fun _ => ?_)
  exact foot_pif (fun hc' => foot_atomicSub3 (fun v hv =>
    hcell (by simp only [cellGuard3]; omega) hv))

theorem foot_gravitySource3 (p : Params R) (Uin Uout grav : Arr) (dt : R) (t : Int × Int × Int) :
    (gravitySource3 p Uin Uout grav dt t).Foot
      (fun l => cellGuard3 p t ∧ (Cell3 Uin t.1 t.2.1 t.2.2 l ∨ Cell3 Uout t.1 t.2.1 t.2.2 l ∨
        Box3 grav 3 t 0 0 l))
      (fun l => cellGuard3 p t ∧ Cell3 Uout t.1 t.2.1 t.2.2 l) (fun _ => False) := by
  unfold gravitySource3
  refine foot_ite (fun hc => ?_) (fun _ => foot_pure _ _ _ _)
  repeat' (first
    | (refine foot_bind ?_ (fun _ => ?_)))
  all_goals simp only [foot_rd, foot_wr]
  all_goals simp [Cell3, Box3, ID, IP, IU, IV, IW, IX, IY, IZ, hc]

end EulerKokkos
