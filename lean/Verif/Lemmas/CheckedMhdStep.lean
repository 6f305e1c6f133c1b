import Verif.Lemmas.CheckedEmf
import Verif.Lemmas.CheckedStep
import Verif.Lemmas.MhdFull2D
import Verif.Lemmas.MhdFull3D

/-!
# Checked arithmetic: the MHD step
-/

set_option linter.unusedSimpArgs false
set_option linter.constructorNameAsVariable false
set_option linter.unusedSectionVars false

namespace EulerKokkos

open Chk Spec

theorem zeroM_ok : (MS.zero : MS Chk) = (MS.zero : MS ℝ).map ok := rfl

theorem ms_ext {a b : MS Chk} (h1 : a.d = b.d) (h2 : a.p = b.p) (h3 : a.u = b.u) (h4 : a.v = b.v)
    (h5 : a.w = b.w) (h6 : a.a = b.a) (h7 : a.b = b.b) (h8 : a.c = b.c) : a = b := by
  cases a; cases b; simp_all

/-- componentwise image -/
def BF.map {R S : Type} (f : R → S) (q : BF R) : BF S := ⟨f q.x, f q.y, f q.z⟩

theorem isoGuard_ok (s : Settings ℝ) : gtb (s.map ok).cIso (lit 0) = gtb s.cIso (lit 0) := rfl

theorem constoprimMhd_ok {s : Settings ℝ} (hs : GoodSettings s) (u : MS ℝ) (nb : BF ℝ) :
    (constoprimMhd (s.map ok) (u.map ok) (nb.map ok)).1 = (constoprimMhd s u nb).1.map ok ∧
      PhysM (constoprimMhd s u nb).1 := by
  have hd : 0 < fmax u.d s.smallr := lt_max_of_lt_right hs.smallr
  have hp := hs.smallp_pos
  have hg := hs.gamma
  unfold constoprimMhd
  cases h : gtb s.cIso (lit 0)
  · have h' := (isoGuard_ok s).trans h
    simp only [h, h', Bool.false_eq_true, if_false]
    simp only [MS.map, BF.map, Settings.map, ok_fmax]
    generalize fmax u.d s.smallr = d at *
    have hd' := hd.ne'
    refine ⟨by push_okm [], hd, ?_⟩
    exact lt_max_of_lt_right (by positivity)
  · have h' := (isoGuard_ok s).trans h
    simp only [h, h', if_true]
    simp only [MS.map, BF.map, Settings.map, ok_fmax]
    generalize fmax u.d s.smallr = d at *
    have hd' := hd.ne'
    refine ⟨by push_okm [], hd, ?_⟩
    have : 0 < s.cIso := by
      have := (decide_eq_true_iff.mp h : (((lit 0 : ℝ)) < s.cIso))
      simpa using this
    change 0 < d * s.cIso * s.cIso
    positivity

theorem slopeM_ok (s : Settings ℝ) (q a b x : MS ℝ) :
    slopeM (s.map ok) (q.map ok) (a.map ok) (b.map ok) (x.map ok) = (slopeM s q a b x).map ok := by
  unfold slopeM
  have e : ∀ t, RealOps.beq (s.map ok).slope_type (lit t) = RealOps.beq s.slope_type (lit t) := fun _ => rfl
  simp only [e]
  cases (RealOps.beq s.slope_type (lit 1) || RealOps.beq s.slope_type (lit 2))
  · rfl
  · simp only [if_true]
    simp only [Settings.map, MS.map, slopeScalarDir_ok]

theorem floored_ok (s : Settings ℝ) (q : MS ℝ) :
    MS.floored (s.map ok) (q.map ok) = (MS.floored s q).map ok := rfl

theorem floored_phys {s : Settings ℝ} (hs : GoodSettings s) (q : MS ℝ) : PhysM (MS.floored s q) := by
  have hd : 0 < fmax s.smallr q.d := lt_max_of_lt_left hs.smallr
  have hp := hs.smallp_pos
  exact ⟨hd, lt_max_of_lt_left (mul_pos hp hd)⟩

theorem flooredP_ok (s : Settings ℝ) (q : MS ℝ) :
    MS.flooredP (s.map ok) (q.map ok) = (MS.flooredP s q).map ok := rfl

theorem flooredP_phys {s : Settings ℝ} (hs : GoodSettings s) (q : MS ℝ) : PhysM (MS.flooredP s q) :=
  ⟨lt_max_of_lt_left hs.smallr, lt_max_of_lt_left hs.smallp_pos⟩

theorem map_half (q : MS ℝ) : (q.map ok).half = q.half.map ok := rfl
theorem map_swapXY (q : MS ℝ) : (q.map ok).swapXY = q.swapXY.map ok := rfl
theorem map_swapXZ (q : MS ℝ) : (q.map ok).swapXZ = q.swapXZ.map ok := rfl
theorem phys_swapXY {q : MS ℝ} (h : PhysM q) : PhysM q.swapXY := ⟨h.d, h.p⟩
theorem phys_swapXZ {q : MS ℝ} (h : PhysM q) : PhysM q.swapXZ := ⟨h.d, h.p⟩

theorem sourceM2_ok (s : Settings ℝ) (q a b : MS ℝ) (x y z w : ℝ) (h : q.d ≠ 0) :
    sourceM2 (s.map ok) (q.map ok) (a.map ok) (b.map ok) (ok x) (ok y) (ok z) (ok w) =
      (sourceM2 s q a b x y z w).map ok := by
  unfold sourceM2
  push_okm []

theorem sourceM3_ok (s : Settings ℝ) (q a b c : MS ℝ) (x y z x' y' z' : ℝ) (h : q.d ≠ 0) :
    sourceM3 (s.map ok) (q.map ok) (a.map ok) (b.map ok) (c.map ok) (ok x) (ok y) (ok z) (ok x') (ok y')
      (ok z') = (sourceM3 s q a b c x y z x' y' z').map ok := by
  unfold sourceM3
  push_okm []

/-! ## 2D -/

/-- componentwise image -/
def TraceM2.map {R S : Type} (f : R → S) (t : TraceM2 R) : TraceM2 S :=
  ⟨t.qmx.map f, t.qpx.map f, t.qmy.map f, t.qpy.map f, t.rt.map f, t.rb.map f, t.lt.map f, t.lb.map f⟩

/-- all states are physical -/
structure TraceM2.Phys (t : TraceM2 ℝ) : Prop where
  qmx : PhysM t.qmx
  qpx : PhysM t.qpx
  qmy : PhysM t.qmy
  qpy : PhysM t.qpy
  rt : PhysM t.rt
  rb : PhysM t.rb
  lt : PhysM t.lt
  lb : PhysM t.lb

theorem traceMhd2_phys {s : Settings ℝ} (hs : GoodSettings s) (q : Int × Int → MS ℝ)
    (b : Int × Int → BF ℝ) (x y : ℝ) (j0 j1 : MS ℝ) : (traceMhd2 s q b x y j0 j1).Phys :=
  ⟨floored_phys hs _, floored_phys hs _, floored_phys hs _, floored_phys hs _, floored_phys hs _,
    floored_phys hs _, floored_phys hs _, floored_phys hs _⟩

theorem traceMhd2_ok (s : Settings ℝ) {Q : Int × Int → MS Chk} {q : Int × Int → MS ℝ}
    {B : Int × Int → BF Chk} {b : Int × Int → BF ℝ}
    (hQ : ∀ x y : Int, -1 ≤ x ∧ x ≤ 1 → -1 ≤ y ∧ y ≤ 1 → Q (x, y) = (q (x, y)).map ok)
    (hB : ∀ x y : Int, -1 ≤ x ∧ x ≤ 1 → -1 ≤ y ∧ y ≤ 1 → B (x, y) = (b (x, y)).map ok)
    (hd : (q (0, 0)).d ≠ 0) (x y : ℝ) (j0 j1 : MS ℝ) :
    traceMhd2 (s.map ok) Q B (ok x) (ok y) (j0.map ok) (j1.map ok) =
      (traceMhd2 s q b x y j0 j1).map ok := by
  have hE : ∀ x y : Int, 0 ≤ x ∧ x ≤ 1 → 0 ≤ y ∧ y ≤ 1 → elecZ2 Q B x y = ok (elecZ2 q b x y) := by
    intro x y h1 h2
    unfold elecZ2
    rw [hQ (x - 1) (y - 1) (by omega) (by omega), hQ (x - 1) y (by omega) (by omega),
      hQ x (y - 1) (by omega) (by omega), hQ x y (by omega) (by omega),
      hB x (y - 1) (by omega) (by omega), hB (x - 1) y (by omega) (by omega),
      hB x y (by omega) (by omega)]
    rfl
  have b00 := hB 0 0 (by omega) (by omega)
  have b10 := hB 1 0 (by omega) (by omega)
  have b01 := hB 0 1 (by omega) (by omega)
  have b11 := hB 1 1 (by omega) (by omega)
  have b0m := hB 0 (-1) (by omega) (by omega)
  have bm0 := hB (-1) 0 (by omega) (by omega)
  have b1m := hB 1 (-1) (by omega) (by omega)
  have bm1 := hB (-1) 1 (by omega) (by omega)
  have q00 := hQ 0 0 (by omega) (by omega)
  have q10 := hQ 1 0 (by omega) (by omega)
  have q01 := hQ 0 1 (by omega) (by omega)
  have q0m := hQ 0 (-1) (by omega) (by omega)
  have qm0 := hQ (-1) 0 (by omega) (by omega)
  have e1 := hE 0 0 (by omega) (by omega)
  have e2 := hE 0 1 (by omega) (by omega)
  have e3 := hE 1 0 (by omega) (by omega)
  have e4 := hE 1 1 (by omega) (by omega)
  have fx : ∀ q : BF ℝ, (q.map ok).x = ok q.x := fun _ => rfl
  have fy : ∀ q : BF ℝ, (q.map ok).y = ok q.y := fun _ => rfl
  have st : (s.map ok).slope_type = ok s.slope_type := rfl
  unfold traceMhd2
  rw [b00, b10, b01, b11, b0m, bm0, b1m, bm1, q00, q10, q01, q0m, qm0, e1, e2, e3, e4]
  simp only [slopeM_ok, map_half, fx, fy, st, slopeScalarDir_ok, ok_lit, ok_mul, ok_sub, sourceM2_ok _ _ _ _ _ _ _ _ hd]
  rfl

theorem riemannMhd_ok {p : Params ℝ} (hs : GoodSettings p.settings) {l r : MS ℝ} (hl : PhysM l)
    (hr : PhysM r) (hreg : RegularFace p l r) (f : MS ℝ) :
    riemannMhd (p.settings.map ok) p.riemannSolverType (l.map ok) (r.map ok) (f.map ok) =
      (riemannMhd p.settings p.riemannSolverType l r f).map ok := by
  unfold RegularFace at hreg
  cases h : p.riemannSolverType
  · rfl
  · exact mhdLlf_ok hs hl hr
  · exact mhdHll_ok hs hl hr
  · rfl
  · exact hlld_ok hs hl hr (hreg h)

namespace Spec

/-- The faces of the interior cells of a 2D field are regular. -/
def RegularStepM2 (p : Params ℝ) (dt : ℝ) (u : FldM2 ℝ) : Prop :=
  let T := tracesM2 p dt (fillM2 p u)
  (∀ i j, interior2 p i j ∨ interior2 p (i - 1) j → RegularFace p (T (i - 1) j).qmx (T i j).qpx) ∧
  (∀ i j, interior2 p i j ∨ interior2 p i (j - 1) →
    RegularFace p (T i (j - 1)).qmy.swapXY (T i j).qpy.swapXY)

end Spec

theorem fillM2_ok {p : Params ℝ} (hw : p.WF) (hf : Faces2Ok p) {U : FldM2 Chk} {u : FldM2 ℝ}
    (hU : ∀ i j, interior2 p i j → U i j = (u i j).map ok) (i j : Int) (hij : inGrid2 p i j) :
    fillM2 (p.map ok) U i j = (fillM2 p u i j).map ok := by
  obtain ⟨a, b, c, d⟩ := hij
  have h1 := srcCoord_interior hw.nx_pos hf.1 hf.2.1 a b
  have h2 := srcCoord_interior hw.ny_pos hf.2.2.1 hf.2.2.2 c d
  have e := hU _ _ ⟨h1.1, h1.2, h2.1, h2.2⟩
  unfold fillM2 ghost2
  simp only [Params.map]
  rw [e]
  have g : ∀ v, ((u (srcCoord p.boundary_type_xmin p.boundary_type_xmax p.nx p.ghostWidth i)
      (srcCoord p.boundary_type_ymin p.boundary_type_ymax p.ny p.ghostWidth j)).map ok).get v =
      ok ((u (srcCoord p.boundary_type_xmin p.boundary_type_xmax p.nx p.ghostWidth i)
      (srcCoord p.boundary_type_ymin p.boundary_type_ymax p.ny p.ghostWidth j)).get v) := by
    intro v
    unfold MS.get
    split <;> rfl
  simp only [g, signed_ok]
  rfl

theorem primM2_ok {p : Params ℝ} (hs : GoodSettings p.settings) {U : FldM2 Chk} {u : FldM2 ℝ} {i j : Int}
    (h0 : U i j = (u i j).map ok) (h1 : U (i + 1) j = (u (i + 1) j).map ok)
    (h2 : U i (j + 1) = (u i (j + 1)).map ok) :
    primM2 (p.map ok) U i j = (primM2 p u i j).map ok := by
  unfold primM2
  rw [h0, h1, h2]
  exact (constoprimMhd_ok hs (u i j) ⟨(u (i + 1) j).a, (u i (j + 1)).b, lit 0⟩).1

theorem primM2_phys {p : Params ℝ} (hs : GoodSettings p.settings) (u : FldM2 ℝ) (i j : Int) :
    PhysM (primM2 p u i j) :=
  (constoprimMhd_ok hs (u i j) ⟨(u (i + 1) j).a, (u i (j + 1)).b, lit 0⟩).2

theorem tracesM2_ok {p : Params ℝ} (hs : GoodSettings p.settings) (hx : p.dx ≠ 0) (hy : p.dy ≠ 0)
    (dt : ℝ) {U : FldM2 Chk} {u : FldM2 ℝ} {i j : Int}
    (hU : ∀ a b : Int, -1 ≤ a ∧ a ≤ 2 → -1 ≤ b ∧ b ≤ 2 → U (i + a) (j + b) = (u (i + a) (j + b)).map ok) :
    tracesM2 (p.map ok) (ok dt) U i j = (tracesM2 p dt u i j).map ok := by
  have e1 : (ok dt / (p.map ok).dx : Chk) = ok (dt / p.dx) := ok_div hx
  have e2 : (ok dt / (p.map ok).dy : Chk) = ok (dt / p.dy) := ok_div hy
  unfold tracesM2 traceM2
  rw [e1, e2]
  refine traceMhd2_ok p.settings ?_ ?_ ?_ (dt / p.dx) (dt / p.dy) MS.zero MS.zero
  · intro x y h1 h2
    refine primM2_ok hs (hU _ _ (by omega) (by omega)) ?_ ?_
    · have := hU (x + 1) y (by omega) (by omega)
      rwa [show i + (x + 1) = i + x + 1 by ring] at this
    · have := hU x (y + 1) (by omega) (by omega)
      rwa [show j + (y + 1) = j + y + 1 by ring] at this
  · intro x y h1 h2
    dsimp only
    rw [hU x y (by omega) (by omega)]
    rfl
  · exact (primM2_phys hs _ _ _).d.ne'

/-- One 2D MHD step, checked. -/
theorem fullStepM2_ok {p : Params ℝ} (hw : p.WF) (hf : Faces2Ok p) (hg : 3 ≤ p.ghostWidth)
    (hs : GoodSettings p.settings)
    (hx : p.dx ≠ 0) (hy : p.dy ≠ 0) (dt : ℝ) {U : FldM2 Chk} {u : FldM2 ℝ}
    (hreg : RegularStepM2 p dt u)
    (hU : ∀ i j, interior2 p i j → U i j = (u i j).map ok)
    (i j : Int) (hij : interior2 p i j) :
    fullStepM2 (p.map ok) (ok dt) U i j = (fullStepM2 p dt u i j).map ok := by
  have hF := fillM2_ok hw hf hU
  have hij' : interior2 (p.map ok) i j := hij
  unfold fullStepM2 stepM2
  rw [if_pos hij, if_pos hij']
  obtain ⟨r1, r2⟩ := hreg

  have hin := hij
  obtain ⟨a, b, c, d⟩ := hij
  have T : ∀ a b : Int, (-1 ≤ a ∧ a ≤ 1) → (-1 ≤ b ∧ b ≤ 1) →
      tracesM2 (p.map ok) (ok dt) (fillM2 (p.map ok) U) (i + a) (j + b) =
        (tracesM2 p dt (fillM2 p u) (i + a) (j + b)).map ok := by
    intro a' b' h h'
    refine tracesM2_ok hs hx hy dt ?_
    intro x y h1 h2
    apply hF
    refine ⟨?_, ?_, ?_, ?_⟩ <;> omega
  have P : ∀ i j, (tracesM2 p dt (fillM2 p u) i j).Phys := by
    intro i j
    unfold tracesM2 traceM2
    exact traceMhd2_phys hs _ _ _ _ _ _
  have e1 : (ok dt / (p.map ok).dx : Chk) = ok (dt / p.dx) := ok_div hx
  have e2 : (ok dt / (p.map ok).dy : Chk) = ok (dt / p.dy) := ok_div hy
  rw [e1, e2, hF i j (interior_inGrid2 hw hin)]
  generalize tracesM2 (p.map ok) (ok dt) (fillM2 (p.map ok) U) = TC at *
  generalize tracesM2 p dt (fillM2 p u) = TR at *
  have fx : ∀ a : Int, 0 ≤ a ∧ a ≤ 1 → fluxXM2 (p.map ok) TC (i + a) j =
      (fluxXM2 p TR (i + a) j).map ok := by
    intro a' h
    have t1 := T (a' - 1) 0 (by omega) (by omega)
    have t2 := T a' 0 (by omega) (by omega)
    rw [show i + (a' - 1) = i + a' - 1 by ring, add_zero] at t1
    rw [add_zero] at t2
    unfold fluxXM2
    rw [t1, t2]
    refine riemannMhd_ok hs (P _ _).qmx (P _ _).qpx (r1 _ _ ?_) MS.zero
    by_cases h0 : a' = 0
    · left; rw [h0, add_zero]; exact hin
    · right; rw [show a' = 1 by omega]; simpa using hin
  have fy : ∀ a : Int, 0 ≤ a ∧ a ≤ 1 → fluxYM2 (p.map ok) TC i (j + a) =
      (fluxYM2 p TR i (j + a)).map ok := by
    intro a' h
    have t1 := T 0 (a' - 1) (by omega) (by omega)
    have t2 := T 0 a' (by omega) (by omega)
    rw [show j + (a' - 1) = j + a' - 1 by ring, add_zero] at t1
    rw [add_zero] at t2
    unfold fluxYM2
    rw [t1, t2]
    have hr : RegularFace p (TR i (j + a' - 1)).qmy.swapXY (TR i (j + a')).qpy.swapXY := by
      refine r2 _ _ ?_
      by_cases h0 : a' = 0
      · left; rw [h0, add_zero]; exact hin
      · right; rw [show a' = 1 by omega]; simpa using hin
    exact congrArg MS.swapXY (riemannMhd_ok hs (phys_swapXY (P _ _).qmy) (phys_swapXY (P _ _).qpy) hr MS.zero)
  have fe : ∀ a b : Int, 0 ≤ a ∧ a ≤ 1 → 0 ≤ b ∧ b ≤ 1 → emfM2 (p.map ok) TC (i + a) (j + b) =
      ok (emfM2 p TR (i + a) (j + b)) := by
    intro a' b' h h'
    have t1 := T (a' - 1) (b' - 1) (by omega) (by omega)
    have t2 := T (a' - 1) b' (by omega) (by omega)
    have t3 := T a' (b' - 1) (by omega) (by omega)
    have t4 := T a' b' (by omega) (by omega)
    rw [show j + (b' - 1) = j + b' - 1 by ring] at t1 t3
    rw [show i + (a' - 1) = i + a' - 1 by ring] at t1 t2
    unfold emfM2
    rw [t1, t2, t3, t4]
    exact emf_ok hs .z (e := ⟨(TR (i + a' - 1) (j + b' - 1)).rt, (TR (i + a' - 1) (j + b')).rb,
      (TR (i + a') (j + b' - 1)).lt, (TR (i + a') (j + b')).lb⟩) (P _ _).rt (P _ _).rb (P _ _).lt (P _ _).lb
  have fx0 := fx 0 (by omega)
  have fy0 := fy 0 (by omega)
  have e00 := fe 0 0 (by omega) (by omega)
  have e10 := fe 1 0 (by omega) (by omega)
  have e01 := fe 0 1 (by omega) (by omega)
  rw [add_zero] at fx0 fy0 e10 e01
  rw [add_zero, add_zero] at e00
  unfold ctUpdate2 fluxUpdateM2
  rw [fx0, fy0, fx 1 (by omega), fy 1 (by omega), e00, e10, e01]
  rfl

end EulerKokkos
