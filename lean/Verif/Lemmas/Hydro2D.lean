import Verif.Spec.Scheme2D
import Verif.Lemmas.Arrays

/-! # What each 2D hydro kernel computes -/

set_option linter.constructorNameAsVariable false
set_option linter.unusedSectionVars false

namespace EulerKokkos

open Prog (rd wr add upd run_bind run_rd run_wr run_pure foot_bind foot_rd foot_wr foot_add
  foot_pure foot_ite foot_pif foot_mono Foot forRange)

variable {R : Type} [RealOps R]

/-! ## Owner-computes for 2D grids -/

/-- every iteration reads its own cell of the output views only, and writes only there -/
def Own2 (outs : Arr → Prop) (body : Int × Int → Prog Arr R Unit) : Prop :=
  ∀ t, (body t).Foot (fun l => ¬ outs l.arr ∨ (l.i, l.j) = t)
    (fun l => outs l.arr ∧ (l.i, l.j) = t) (fun _ => False)

open Classical in
theorem forRange2_is {outs : Arr → Prop} {body : Int × Int → Prog Arr R Unit}
    (h : Own2 outs body) (F : Finset (Int × Int)) :
    (forRange F body).Is (fun m l => if outs l.arr ∧ (l.i, l.j) ∈ F then
      ((body (l.i, l.j)).run m).2 l else m l) :=
  Prog.forRange_owner F body (fun l => (l.i, l.j)) (fun l => outs l.arr) (fun t _ => h t)

theorem forRange2_out {outs : Arr → Prop} {body : Int × Int → Prog Arr R Unit}
    (h : Own2 outs body) {F : Finset (Int × Int)} {m m' : Mem Arr R} (hm : forRange F body m m')
    {l : Loc Arr} (ho : outs l.arr) (hij : (l.i, l.j) ∈ F) :
    m' l = ((body (l.i, l.j)).run m).2 l := by
  have := (forRange2_is h F m m').1 hm
  rw [this]; simp [ho, hij]

theorem forRange2_else {outs : Arr → Prop} {body : Int × Int → Prog Arr R Unit}
    (h : Own2 outs body) {F : Finset (Int × Int)} {m m' : Mem Arr R} (hm : forRange F body m m')
    {l : Loc Arr} (ho : ¬ (outs l.arr ∧ (l.i, l.j) ∈ F)) :
    m' l = m l := by
  have := (forRange2_is h F m m').1 hm
  rw [this]; exact if_neg ho

theorem forRange2_hs2_out {outs : Arr → Prop} {body : Int × Int → Prog Arr R Unit}
    (h : Own2 outs body) {F : Finset (Int × Int)} {m m' : Mem Arr R} (hm : forRange F body m m')
    {a : Arr} {i j : Int} (ho : outs a) (hij : (i, j) ∈ F) :
    hs2 m' a i j = hs2 ((body (i, j)).run m).2 a i j := by
  unfold hs2
  rw [forRange2_out h hm (l := ⟨a, i, j, 0, ID⟩) ho hij,
    forRange2_out h hm (l := ⟨a, i, j, 0, IP⟩) ho hij,
    forRange2_out h hm (l := ⟨a, i, j, 0, IU⟩) ho hij,
    forRange2_out h hm (l := ⟨a, i, j, 0, IV⟩) ho hij]

theorem forRange2_hs2_else {outs : Arr → Prop} {body : Int × Int → Prog Arr R Unit}
    (h : Own2 outs body) {F : Finset (Int × Int)} {m m' : Mem Arr R} (hm : forRange F body m m')
    {a : Arr} {i j : Int} (ho : ¬ (outs a ∧ (i, j) ∈ F)) :
    hs2 m' a i j = hs2 m a i j := by
  unfold hs2
  rw [forRange2_else h hm (l := ⟨a, i, j, 0, ID⟩) ho,
    forRange2_else h hm (l := ⟨a, i, j, 0, IP⟩) ho,
    forRange2_else h hm (l := ⟨a, i, j, 0, IU⟩) ho,
    forRange2_else h hm (l := ⟨a, i, j, 0, IV⟩) ho]

/-! ## Exact footprints -/

/-- cell `(i,j)` of the 2D view `a`, four variables -/
def Cell2 (a : Arr) (i j : Int) (l : Loc Arr) : Prop :=
  l.arr = a ∧ l.i = i ∧ l.j = j ∧ l.k = 0 ∧ l.v < 4

/-- a box of cells around `t` of the view `a`, `n` variables -/
def Box2 (a : Arr) (n : Nat) (t : Int × Int) (lo hi : Int) (l : Loc Arr) : Prop :=
  l.arr = a ∧ (t.1 + lo ≤ l.i ∧ l.i ≤ t.1 + hi) ∧ (t.2 + lo ≤ l.j ∧ l.j ≤ t.2 + hi) ∧ l.k = 0 ∧
    l.v < n

theorem box2_mk {a : Arr} {n : Nat} {t : Int × Int} {lo hi i j : Int} {v : Nat}
    (h : t.1 + lo ≤ i ∧ i ≤ t.1 + hi ∧ t.2 + lo ≤ j ∧ j ≤ t.2 + hi) (hv : v < n) :
    Box2 a n t lo hi ⟨a, i, j, 0, v⟩ := ⟨rfl, ⟨h.1, h.2.1⟩, h.2.2, rfl, hv⟩

theorem foot_gravPredictor2 {Rd Wr Ad : Loc Arr → Prop} {g : GravityParams} {grav : Arr} {dt : R}
    {i j : Int} {q : HS R}
    (h : g.enabled = true → ∀ v < 2, Rd ⟨grav, i, j, 0, v⟩) :
    (gravPredictor2 g grav dt i j q).Foot Rd Wr Ad := by
  unfold gravPredictor2
  refine foot_ite (fun hg => ?_) (fun _ => foot_pure _ _ _ _)
  simp only [Bool.and_eq_true] at hg
  refine foot_bind ((foot_rd _ _ _ _).2 (h hg.1 _ (by decide))) (fun _ => ?_)
  refine foot_bind ((foot_rd _ _ _ _).2 (h hg.1 _ (by decide))) (fun _ => ?_)
  exact foot_pure _ _ _ _

/-- read set of the face kernels -/
def FaceRd2 (p : Params R) (arrs : Arr → Prop) (grav : Arr) (g : GravityParams) (t : Int × Int)
    (l : Loc Arr) : Prop :=
  faceGuard2 p t ∧ ((arrs l.arr ∧ Box2 l.arr 4 t (-2) 1 l) ∨
    (g.enabled = true ∧ Box2 grav 2 t (-1) 0 l))

set_option hygiene false in
macro "foot_steps" : tactic => `(tactic| (
  repeat' (first
    | exact foot_pure _ _ _ _
    | (apply foot_getHS2; intro v hv)
    | (apply foot_putHS2; intro v hv)
    | (apply foot_gravPredictor2; intro hg v hv)
    | (apply foot_plusEq2 <;> intro v hv)
    | (apply foot_minusEq2 <;> intro v hv)
    | (apply foot_atomicAdd2; intro v hv)
    | (apply foot_atomicSub2; intro v hv)
    | (refine foot_bind ?_ (fun _ => ?_))
    | (refine foot_ite (fun hc => ?_) (fun _ => ?_)))))

theorem foot_xInterface2 {Wr Ad : Loc Arr → Prop} (p : Params R) (Q grav : Arr) (dt : R)
    (g : GravityParams) (jk : Junk R) (t : Int × Int) (ht : faceGuard2 p t) :
    (xInterface2 p Q grav dt g jk t.1 t.2).Foot (FaceRd2 p (· = Q) grav g t) Wr Ad := by
  unfold xInterface2
  foot_steps
  all_goals
    refine ⟨ht, ?_⟩
    first
      | exact Or.inl ⟨rfl, box2_mk (by omega) hv⟩
      | exact Or.inr ⟨hg, box2_mk (by omega) hv⟩

theorem foot_yInterface2 {Wr Ad : Loc Arr → Prop} (p : Params R) (Q grav : Arr) (dt : R)
    (g : GravityParams) (jk : Junk R) (t : Int × Int) (x : XPart R) (ht : faceGuard2 p t) :
    (yInterface2 p Q grav dt g jk t.1 t.2 x).Foot (FaceRd2 p (· = Q) grav g t) Wr Ad := by
  unfold yInterface2
  foot_steps
  all_goals
    refine ⟨ht, ?_⟩
    first
      | exact Or.inl ⟨rfl, box2_mk (by omega) hv⟩
      | exact Or.inr ⟨hg, box2_mk (by omega) hv⟩

theorem foot_convertToPrimitives2 (p : Params R) (U Q : Arr) (t : Int × Int) :
    (convertToPrimitives2 p U Q t).Foot
      (fun l => (0 ≤ t.2 ∧ t.2 < p.jsize ∧ 0 ≤ t.1 ∧ t.1 < p.isize) ∧ Cell2 U t.1 t.2 l)
      (fun l => (0 ≤ t.2 ∧ t.2 < p.jsize ∧ 0 ≤ t.1 ∧ t.1 < p.isize) ∧ Cell2 Q t.1 t.2 l)
      (fun _ => False) := by
  unfold convertToPrimitives2
  foot_steps
  all_goals exact ⟨hc, rfl, rfl, rfl, rfl, hv⟩

theorem foot_computeAndStoreFluxes2 (p : Params R) (Q Fx Fy grav : Arr) (dt : R)
    (g : GravityParams) (jk : Junk R) (t : Int × Int) :
    (computeAndStoreFluxes2 p Q Fx Fy grav dt g jk t).Foot (FaceRd2 p (· = Q) grav g t)
      (fun l => faceGuard2 p t ∧ (Cell2 Fx t.1 t.2 l ∨ Cell2 Fy t.1 t.2 l)) (fun _ => False) := by
  unfold computeAndStoreFluxes2
  refine foot_ite (fun hc => ?_) (fun _ => foot_pure _ _ _ _)
  refine foot_bind (foot_xInterface2 p Q grav dt g jk t hc) (fun x => ?_)
  refine foot_bind (foot_putHS2 (fun v hv => ⟨hc, Or.inl ⟨rfl, rfl, rfl, rfl, hv⟩⟩)) (fun _ => ?_)
  refine foot_bind (foot_yInterface2 p Q grav dt g jk t x hc) (fun fy => ?_)
  exact foot_putHS2 (fun v hv => ⟨hc, Or.inr ⟨rfl, rfl, rfl, rfl, hv⟩⟩)

/-- read set of the update kernels -/
def UpdRd2 (p : Params R) (arrs : Arr → Prop) (U : Arr) (t : Int × Int) (l : Loc Arr) : Prop :=
  cellGuard2 p t ∧ (Cell2 U t.1 t.2 l ∨ (arrs l.arr ∧ Box2 l.arr 4 t 0 1 l))

theorem foot_update2 (p : Params R) (U Fx Fy : Arr) (t : Int × Int) :
    (update2 p U Fx Fy t).Foot (UpdRd2 p (fun a => a = Fx ∨ a = Fy) U t)
      (fun l => cellGuard2 p t ∧ Cell2 U t.1 t.2 l) (fun _ => False) := by
  unfold update2
  foot_steps
  all_goals
    refine ⟨hc, ?_⟩
    first
      | exact ⟨rfl, rfl, rfl, rfl, hv⟩
      | exact Or.inl ⟨rfl, rfl, rfl, rfl, hv⟩
      | exact Or.inr ⟨by simp, box2_mk (by omega) hv⟩

theorem foot_updateDir2 (dir : Dir) (p : Params R) (U F : Arr) (t : Int × Int) :
    (updateDir2 dir p U F t).Foot (UpdRd2 p (fun a => a = F) U t)
      (fun l => cellGuard2 p t ∧ Cell2 U t.1 t.2 l) (fun _ => False) := by
  unfold updateDir2
  refine foot_ite (fun hc => ?_) (fun _ => foot_pure _ _ _ _)
  cases dir
  all_goals
    simp only
    foot_steps
  all_goals
    refine ⟨hc, ?_⟩
    first
      | exact ⟨rfl, rfl, rfl, rfl, hv⟩
      | exact Or.inl ⟨rfl, rfl, rfl, rfl, hv⟩
      | exact Or.inr ⟨by simp, box2_mk (by omega) hv⟩

theorem foot_computeSlopes2 (p : Params R) (Q Sx Sy : Arr) (t : Int × Int) :
    (computeSlopes2 p Q Sx Sy t).Foot
      (fun l => slopeGuard2 p t ∧ Box2 Q 4 t (-1) 1 l)
      (fun l => slopeGuard2 p t ∧ (Cell2 Sx t.1 t.2 l ∨ Cell2 Sy t.1 t.2 l)) (fun _ => False) := by
  unfold computeSlopes2
  foot_steps
  all_goals
    refine ⟨hc, ?_⟩
    first
      | exact Or.inl ⟨rfl, rfl, rfl, rfl, hv⟩
      | exact Or.inr ⟨rfl, rfl, rfl, rfl, hv⟩
      | exact box2_mk (by omega) hv

theorem foot_computeTraceAndFluxes2 (dir : Dir) (p : Params R) (Q Sx Sy F grav : Arr) (dt : R)
    (g : GravityParams) (jk : Junk R) (t : Int × Int) :
    (computeTraceAndFluxes2 dir p Q Sx Sy F grav dt g jk t).Foot
      (fun l => faceGuard2 p t ∧ (((l.arr = Q ∨ l.arr = Sx ∨ l.arr = Sy) ∧ Box2 l.arr 4 t (-1) 0 l) ∨
        (g.enabled = true ∧ Box2 grav 2 t (-1) 0 l)))
      (fun l => faceGuard2 p t ∧ Cell2 F t.1 t.2 l) (fun _ => False) := by
  unfold computeTraceAndFluxes2
  refine foot_ite (fun hc => ?_) (fun _ => foot_pure _ _ _ _)
  cases dir
  all_goals
    simp only
    foot_steps
  all_goals
    refine ⟨hc, ?_⟩
    first
      | exact ⟨rfl, rfl, rfl, rfl, hv⟩
      | exact Or.inl ⟨by simp, box2_mk (by omega) hv⟩
      | exact Or.inr ⟨hg, box2_mk (by omega) hv⟩

theorem foot_computeAllFluxesAndUpdate2 (p : Params R) (Q U grav : Arr) (dt : R)
    (g : GravityParams) (jk : Junk R) (t : Int × Int) :
    (computeAllFluxesAndUpdate2 p Q U grav dt g jk t).Foot (FaceRd2 p (· = Q) grav g t)
      (fun _ => False)
      (fun l => ∃ i j, cellGuard2 p (i, j) ∧ Cell2 U i j l) := by
  unfold computeAllFluxesAndUpdate2
  refine foot_ite (fun hc => ?_) (fun _ => foot_pure _ _ _ _)
  obtain ⟨h1, h2, h3, h4⟩ := id hc
  simp only
  refine foot_bind (foot_xInterface2 p Q grav dt g jk t hc) (fun x => ?_)
  refine foot_bind (foot_pif (fun hc' => foot_atomicAdd2 (fun v hv =>
    ⟨t.1, t.2, ⟨h1, by omega, h3, by omega⟩, rfl, rfl, rfl, rfl, hv⟩))) (fun _ => ?_)
  refine foot_bind (foot_pif (fun hc' => foot_atomicSub2 (fun v hv =>
    ⟨t.1 - 1, t.2, ⟨h1, by omega, by simp only; omega, by simp only; omega⟩, rfl, rfl, rfl, rfl,
      hv⟩))) (fun _ => ?_)
  refine foot_bind (foot_yInterface2 p Q grav dt g jk t x hc) (fun fy => ?_)
  refine foot_bind (foot_pif (fun hc' => foot_atomicAdd2 (fun v hv =>
    ⟨t.1, t.2, ⟨h1, by omega, h3, by omega⟩, rfl, rfl, rfl, rfl, hv⟩))) (fun _ => ?_)
  exact foot_pif (fun hc' => foot_atomicSub2 (fun v hv =>
    ⟨t.1, t.2 - 1, ⟨by simp only; omega, by simp only; omega, h3, by simp only; omega⟩,
      rfl, rfl, rfl, rfl, hv⟩))

theorem foot_gravitySource2 (p : Params R) (Uin Uout grav : Arr) (dt : R) (t : Int × Int) :
    (gravitySource2 p Uin Uout grav dt t).Foot
      (fun l => cellGuard2 p t ∧ (Cell2 Uin t.1 t.2 l ∨ Cell2 Uout t.1 t.2 l ∨ Box2 grav 2 t 0 0 l))
      (fun l => cellGuard2 p t ∧ Cell2 Uout t.1 t.2 l) (fun _ => False) := by
  unfold gravitySource2
  refine foot_ite (fun hc => ?_) (fun _ => foot_pure _ _ _ _)
  repeat' (first
    | (refine foot_bind ?_ (fun _ => ?_)))
  all_goals simp only [foot_rd, foot_wr]
  all_goals simp [Cell2, Box2, ID, IP, IU, IV, IX, IY, hc]

end EulerKokkos
