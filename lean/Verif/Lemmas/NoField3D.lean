import Verif.Lemmas.NoField2D
import Verif.Lemmas.MhdFull3D

set_option linter.unusedSimpArgs false
set_option linter.unusedSectionVars false
set_option linter.constructorNameAsVariable false

namespace EulerKokkos
open Spec RealOps

/-- the absolute pressure floor of versions 0 and 1 of the 3D MHD solver -/
noncomputable def liftA (s : Settings ℝ) (q : HS ℝ) : HS ℝ := { q with p := max s.smallp q.p }

/-- the MHD field of a hydro field: the grid of the MHD solver has one more ghost layer -/
def embed3 (u : Fld3 ℝ) : FldM3 ℝ := fun i j k => fluid (u (i - 1) (j - 1) (k - 1))

theorem slopeM_fluid3 {s : Settings ℝ} (hsl : s.slope_type = 1 ∨ s.slope_type = 2) (a b c : HS ℝ) (j0 : MS ℝ) :
    slopeM s (fluid a) (fluid b) (fluid c) j0 =
      fluid ⟨slopeScalarDir s.slope_type a.d b.d c.d, slopeScalarDir s.slope_type a.p b.p c.p,
        slopeScalarDir s.slope_type a.u b.u c.u, slopeScalarDir s.slope_type a.v b.v c.v,
        slopeScalarDir s.slope_type a.w b.w c.w⟩ := by
  simp only [slopeM, (beq_slope hsl).1, if_true, fluid, slopeScalarDir_zero]

theorem slopeM7_fluid {s : Settings ℝ} (hsl : s.slope_type = 1 ∨ s.slope_type = 2) (a b c d : HS ℝ) :
    slopeM7 s (fluid a) (fluid b) (fluid c) (fluid d) =
      fluid ⟨slopeScalarDir s.slope_type a.d b.d c.d, slopeScalarDir s.slope_type a.p b.p c.p,
        slopeScalarDir s.slope_type a.u b.u c.u, slopeScalarDir s.slope_type a.v b.v c.v,
        slopeScalarDir s.slope_type a.w b.w c.w⟩ := by
  simp only [slopeM7, (beq_slope hsl).1, if_true, fluid, slopeScalarDir_zero]

theorem slope3_tvd {s : Settings ℝ} (hsl : s.slope_type = 1 ∨ s.slope_type = 2) (q a b c d e f : HS ℝ) (x : Slopes3 ℝ) :
    slope3 s q a b c d e f x =
      (let dir (a b : HS ℝ) : HS ℝ :=
        ⟨slopeScalarDir s.slope_type q.d a.d b.d, slopeScalarDir s.slope_type q.p a.p b.p,
         slopeScalarDir s.slope_type q.u a.u b.u, slopeScalarDir s.slope_type q.v a.v b.v,
         slopeScalarDir s.slope_type q.w a.w b.w⟩
      ⟨dir a b, dir c d, dir e f⟩) := by
  have h0 : RealOps.beq s.slope_type (lit 0 : ℝ) = false := by
    rw [Bool.eq_false_iff]; exact (beq_slope hsl).2
  simp only [slope3, (beq_slope hsl).1, h0, if_true, Bool.false_eq_true, if_false]

/-- no magnetic field in a state -/
def NoB (x : MS ℝ) : Prop := x.a = 0 ∧ x.b = 0 ∧ x.c = 0

theorem NoB.fluid {x : MS ℝ} (h : NoB x) : x = EulerKokkos.fluid ⟨x.d, x.p, x.u, x.v, x.w⟩ := by
  obtain ⟨a, b, c⟩ := h
  exact MS.ext rfl rfl rfl rfl rfl a b c

theorem emf_noB (s : Settings ℝ) (d : EmfDir) {a b c e : MS ℝ} (ha : NoB a) (hb : NoB b) (hc : NoB c) (he : NoB e) :
    computeEmf s d ⟨a, b, c, e⟩ = 0 := by
  rw [ha.fluid, hb.fluid, hc.fluid, he.fluid]
  exact emf_noField _ _ _ _ _ _

/-- no magnetic field in the states reconstructed at the edges -/
def NoBT (T : TraceM3 ℝ) : Prop :=
  (NoB T.ex.rt ∧ NoB T.ex.rb ∧ NoB T.ex.lt ∧ NoB T.ex.lb) ∧ (NoB T.ey.rt ∧ NoB T.ey.rb ∧ NoB T.ey.lt ∧ NoB T.ey.lb) ∧
    (NoB T.ez.rt ∧ NoB T.ez.rb ∧ NoB T.ez.lt ∧ NoB T.ez.lb)

theorem emf_traces_noB (p : Params ℝ) (T : Int → Int → Int → TraceM3 ℝ) (t : ∀ i j k, NoBT (T i j k)) (d : EmfDir) (i j k : Int) :
    (fluxOfTraces p T).e d i j k = 0 := by
  have h : ∀ i j k, NoBT (T i j k) := t
  cases d
  · simp only [fluxOfTraces]
    exact emf_noB _ _ (h _ _ _).1.1 (h _ _ _).1.2.1 (h _ _ _).1.2.2.1 (h _ _ _).1.2.2.2
  · simp only [fluxOfTraces]
    exact emf_noB _ _ (h _ _ _).2.1.1 (h _ _ _).2.1.2.2.1 (h _ _ _).2.1.2.1 (h _ _ _).2.1.2.2.2
  · simp only [fluxOfTraces]
    exact emf_noB _ _ (h _ _ _).2.2.1 (h _ _ _).2.2.2.1 (h _ _ _).2.2.2.2.1 (h _ _ _).2.2.2.2.2

/-- reconstruction in versions 0 and 1 without magnetic field -/
theorem trace_fluid3 {s : Settings ℝ} (hsl : s.slope_type = 1 ∨ s.slope_type = 2) (c xp xm yp ym zp zm : HS ℝ) (d : ℝ)
    (f : Slopes3 ℝ) (hf : f = slope3 s c xp xm yp ym zp zm ⟨HS.zero, HS.zero, HS.zero⟩) :
    let T := traceMhd3 s ⟨fluid c, fluid xp, fluid xm, fluid yp, fluid ym, fluid zp, fluid zm, 0, 0, 0, 0, 0, 0,
      ⟨0, 0, 0, 0, 0, 0, 0, 0, 0, 0, 0, 0⟩, ⟨0, 0, 0, 0⟩, ⟨0, 0, 0, 0⟩, ⟨0, 0, 0, 0⟩⟩ d d d
    (T.qmx = fluid (liftA s (traceAlongDir3 s c f d d d .xmax)) ∧ T.qpx = fluid (liftA s (traceAlongDir3 s c f d d d .xmin)) ∧
     T.qmy = fluid (liftA s (traceAlongDir3 s c f d d d .ymax)) ∧ T.qpy = fluid (liftA s (traceAlongDir3 s c f d d d .ymin)) ∧
     T.qmz = fluid (liftA s (traceAlongDir3 s c f d d d .zmax)) ∧ T.qpz = fluid (liftA s (traceAlongDir3 s c f d d d .zmin))) ∧
    (NoB T.ex.rt ∧ NoB T.ex.rb ∧ NoB T.ex.lt ∧ NoB T.ex.lb) ∧ (NoB T.ey.rt ∧ NoB T.ey.rb ∧ NoB T.ey.lt ∧ NoB T.ey.lb) ∧
    (NoB T.ez.rt ∧ NoB T.ez.rb ∧ NoB T.ez.lt ∧ NoB T.ez.lb) := by
  rw [slope3_tvd hsl] at hf
  subst hf
  intro T
  have hT : T = traceMhd3 s ⟨fluid c, fluid xp, fluid xm, fluid yp, fluid ym, fluid zp, fluid zm, 0, 0, 0, 0, 0, 0,
      ⟨0, 0, 0, 0, 0, 0, 0, 0, 0, 0, 0, 0⟩, ⟨0, 0, 0, 0⟩, ⟨0, 0, 0, 0⟩, ⟨0, 0, 0, 0⟩⟩ d d d := rfl
  clear_value T
  unfold traceMhd3 at hT
  simp only [slopeM7_fluid hsl] at hT
  dsimp only
  generalize slopeScalarDir s.slope_type c.d xp.d xm.d = xd at hT ⊢
  generalize slopeScalarDir s.slope_type c.p xp.p xm.p = xp' at hT ⊢
  generalize slopeScalarDir s.slope_type c.u xp.u xm.u = xu at hT ⊢
  generalize slopeScalarDir s.slope_type c.v xp.v xm.v = xv at hT ⊢
  generalize slopeScalarDir s.slope_type c.w xp.w xm.w = xw at hT ⊢
  generalize slopeScalarDir s.slope_type c.d yp.d ym.d = yd at hT ⊢
  generalize slopeScalarDir s.slope_type c.p yp.p ym.p = yp' at hT ⊢
  generalize slopeScalarDir s.slope_type c.u yp.u ym.u = yu at hT ⊢
  generalize slopeScalarDir s.slope_type c.v yp.v ym.v = yv at hT ⊢
  generalize slopeScalarDir s.slope_type c.w yp.w ym.w = yw at hT ⊢
  generalize slopeScalarDir s.slope_type c.d zp.d zm.d = zd at hT ⊢
  generalize slopeScalarDir s.slope_type c.p zp.p zm.p = zp' at hT ⊢
  generalize slopeScalarDir s.slope_type c.u zp.u zm.u = zu at hT ⊢
  generalize slopeScalarDir s.slope_type c.v zp.v zm.v = zv at hT ⊢
  generalize slopeScalarDir s.slope_type c.w zp.w zm.w = zw at hT ⊢
  simp only [fluid, MS.half, sourceM3, lit_real, MS.flooredP, fmax_real,
    mul_zero, zero_mul, sub_zero, add_zero, zero_add, zero_div, neg_zero, sub_self] at hT
  subst hT
  refine ⟨?_, ?_, ?_, ?_⟩
  · simp only [fluid, liftA, traceAlongDir3, lit_real, fmax_real]
    refine ⟨?_, ?_, ?_, ?_, ?_, ?_⟩ <;> refine MS.ext ?_ ?_ ?_ ?_ ?_ ?_ ?_ ?_ <;> dsimp only <;> ring_nf
  · simp [NoB]
  · simp [NoB]
  · simp [NoB]

section
variable {p q : Params ℝ} (hs : NoField3 p q)
include hs

theorem fillM3_embed (u : Fld3 ℝ) : fillM3 q (embed3 u) = embed3 (fill3 p u) := by
  funext i j k
  have ex := srcCoord_deeper p.boundary_type_xmin p.boundary_type_xmax p.nx p.ghostWidth i
  have ey := srcCoord_deeper p.boundary_type_ymin p.boundary_type_ymax p.ny p.ghostWidth j
  have ez := srcCoord_deeper p.boundary_type_zmin p.boundary_type_zmax p.nz p.ghostWidth k
  have fx := flips_deeper p.boundary_type_xmin p.boundary_type_xmax p.nx p.ghostWidth i
  have fy := flips_deeper p.boundary_type_ymin p.boundary_type_ymax p.ny p.ghostWidth j
  have fz := flips_deeper p.boundary_type_zmin p.boundary_type_zmax p.nz p.ghostWidth k
  simp only [fillM3, ghost3, embed3, fill3, hs.nx, hs.ny, hs.nz, hs.gw, hs.xmin, hs.xmax, hs.ymin, hs.ymax,
    hs.zmin, hs.zmax, ex, ey, ez, add_sub_cancel_right, fluid]
  refine MS.ext ?_ ?_ ?_ ?_ ?_ ?_ ?_ ?_ <;>
    simp [signed, normalVar, fx, fy, fz, MS.get, ID, IP, IU, IV, IW, IA, IB, IC]

theorem primM3_embed (u : Fld3 ℝ) : primM3 q (embed3 u) = embed3 (prim3 p u) := by
  funext i j k
  have hc : gtb p.settings.cIso (lit 0 : ℝ) = false := by
    rw [Bool.eq_false_iff]; simpa [gtb, lt_real] using hs.cIso
  simp only [primM3, embed3, prim3, constoprimMhd, computePrimitives3, hs.settings, fluid, hc,
    Bool.false_eq_true, if_false]
  simp only [lit_real, fmax_real]
  push_cast
  refine MS.ext ?_ ?_ ?_ ?_ ?_ ?_ ?_ ?_ <;> dsimp only <;> simp

theorem interior3_deeper (i j k : Int) : interior3 q i j k ↔ interior3 p (i - 1) (j - 1) (k - 1) := by
  unfold interior3
  rw [hs.nx, hs.ny, hs.nz, hs.gw]
  omega

theorem elecM3_embed (u v : Fld3 ℝ) (d : Dir) (i j k : Int) : elecM3 (embed3 v) (embed3 u) d i j k = 0 := by
  cases d <;> simp [elecM3, embed3, fluid, avg2, avg4]

theorem traceM3_embed (hd : p.dx = p.dy) (hd' : p.dx = p.dz) (dt : ℝ) (v u : Fld3 ℝ) (i j k : Int) :
    let T := traceM3 q dt (embed3 v) (embed3 u) i j k
    let t := fun f => fluid (liftA p.settings (trace3 p dt v f (i - 1) (j - 1) (k - 1)))
    (T.qmx = t .xmax ∧ T.qpx = t .xmin ∧ T.qmy = t .ymax ∧ T.qpy = t .ymin ∧ T.qmz = t .zmax ∧ T.qpz = t .zmin) ∧
    (NoB T.ex.rt ∧ NoB T.ex.rb ∧ NoB T.ex.lt ∧ NoB T.ex.lb) ∧ (NoB T.ey.rt ∧ NoB T.ey.rb ∧ NoB T.ey.lt ∧ NoB T.ey.lb) ∧
    (NoB T.ez.rt ∧ NoB T.ez.rb ∧ NoB T.ez.lt ∧ NoB T.ez.lb) := by
  have h := trace_fluid3 hs.slope (v (i - 1) (j - 1) (k - 1)) (v (i - 1 + 1) (j - 1) (k - 1)) (v (i - 1 - 1) (j - 1) (k - 1))
    (v (i - 1) (j - 1 + 1) (k - 1)) (v (i - 1) (j - 1 - 1) (k - 1)) (v (i - 1) (j - 1) (k - 1 + 1)) (v (i - 1) (j - 1) (k - 1 - 1))
    (dt / p.dx) (slopes3 p v (i - 1) (j - 1) (k - 1)) rfl
  have e : traceM3 q dt (embed3 v) (embed3 u) i j k = traceMhd3 p.settings ⟨fluid (v (i - 1) (j - 1) (k - 1)),
      fluid (v (i - 1 + 1) (j - 1) (k - 1)), fluid (v (i - 1 - 1) (j - 1) (k - 1)), fluid (v (i - 1) (j - 1 + 1) (k - 1)),
      fluid (v (i - 1) (j - 1 - 1) (k - 1)), fluid (v (i - 1) (j - 1) (k - 1 + 1)), fluid (v (i - 1) (j - 1) (k - 1 - 1)), 0, 0, 0, 0, 0, 0,
      ⟨0, 0, 0, 0, 0, 0, 0, 0, 0, 0, 0, 0⟩, ⟨0, 0, 0, 0⟩, ⟨0, 0, 0, 0⟩, ⟨0, 0, 0, 0⟩⟩ (dt / p.dx) (dt / p.dx) (dt / p.dx) := by
    unfold traceM3
    rw [hs.settings, hs.dx, hs.dy, hs.dz, ← hd, ← hd']
    congr 1
    simp only [traceInM3, elecM3_embed hs, faceSlopeM3, embed3, fluid, slopeScalarDir_zero,
      show ∀ a : Int, a + 1 - 1 = a - 1 + 1 by intro a; omega]
  intro T t
  have ht : t = fun f => fluid (liftA p.settings (traceAlongDir3 p.settings (v (i - 1) (j - 1) (k - 1))
      (slopes3 p v (i - 1) (j - 1) (k - 1)) (dt / p.dx) (dt / p.dx) (dt / p.dx) f)) := by
    funext f
    simp only [t, trace3, ← hd, ← hd']
  have hT : T = traceM3 q dt (embed3 v) (embed3 u) i j k := rfl
  clear_value T t
  subst ht
  rw [e] at hT
  subst hT
  exact h

theorem sFaceV2_embed (dt : ℝ) (v u : Fld3 ℝ) (d : Dir) (i j k : Int) : sFaceV2 q dt (embed3 v) (embed3 u) d i j k = 0 := by
  cases d <;> simp [sFaceV2, elecM3_embed hs]

omit hs in
/-- limited differences along `d` -/
noncomputable def dq3 (p : Params ℝ) (v : Fld3 ℝ) (d : Dir) (i j k : Int) : HS ℝ :=
  match d with
  | .x => (slopes3 p v i j k).x
  | .y => (slopes3 p v i j k).y
  | .z => (slopes3 p v i j k).z

theorem slopeV2_embed (v u : Fld3 ℝ) (d : Dir) (i j k : Int) :
    slopeV2 q (embed3 v) (embed3 u) d i j k = fluid (dq3 p v d (i - 1) (j - 1) (k - 1)) := by
  have e : ∀ a : Int, a + 1 - 1 = a - 1 + 1 := by intro a; omega
  unfold slopeV2
  rw [hs.settings]
  simp only [embed3]
  rw [slopeM_fluid3 hs.slope]
  cases d <;> simp only [dq3, slopes3, slope3_tvd hs.slope, Dir.delta, add_zero, sub_zero, e, MS.setMag, MS.mag, fluid]

/-- the two faces across `d` -/
def faceMin : Dir → Face
  | .x => .xmin
  | .y => .ymin
  | .z => .zmin
def faceMax : Dir → Face
  | .x => .xmax
  | .y => .ymax
  | .z => .zmax

omit hs in
theorem floored_fluid3 (s : Settings ℝ) (d p u v w : ℝ) :
    MS.floored s ⟨d, p, u, v, w, 0, 0, 0⟩ = fluid (liftP s ⟨max s.smallr d, p, u, v, w⟩) := by
  simp only [MS.floored, fluid, liftP, fmax_real]

theorem q2V2_embed (hd : p.dx = p.dy) (hd' : p.dx = p.dz) (dt : ℝ) (v u : Fld3 ℝ) (i j k : Int) :
    let c := v (i - 1) (j - 1) (k - 1)
    let x := dq3 p v .x (i - 1) (j - 1) (k - 1)
    let y := dq3 p v .y (i - 1) (j - 1) (k - 1)
    let z := dq3 p v .z (i - 1) (j - 1) (k - 1)
    let h := dt / p.dx * (1 / 2)
    q2V2 q dt (embed3 v) (embed3 u) i j k = fluid
      ⟨c.d + (-c.u * x.d - c.v * y.d - c.w * z.d - (x.u + y.v + z.w) * c.d) * h,
       c.p + (-c.u * x.p - c.v * y.p - c.w * z.p - (x.u + y.v + z.w) * p.settings.gamma0 * c.p) * h,
       c.u + (-c.u * x.u - c.v * y.u - c.w * z.u - x.p / c.d) * h,
       c.v + (-c.u * x.v - c.v * y.v - c.w * z.v - y.p / c.d) * h,
       c.w + (-c.u * x.w - c.v * y.w - c.w * z.w - z.p / c.d) * h⟩ := by
  intro c x y z h
  unfold q2V2
  simp only [slopeV2_embed hs, hs.settings, hs.dx, hs.dy, hs.dz, ← hd, ← hd']
  have hc : embed3 v i j k = fluid c := rfl
  rw [hc]
  show MS.addHalf (fluid c) (sourceM3 p.settings (fluid c) (fluid x) (fluid y) (fluid z) _ _ _ _ _ _) = _
  have h' : h = dt / p.dx * (1 / 2) := rfl
  clear_value c x y z h
  subst h'
  simp only [embed3, fluid, sourceM3, MS.addHalf, lit_real]
  push_cast
  refine MS.ext ?_ ?_ ?_ ?_ ?_ ?_ ?_ ?_ <;> dsimp only <;> ring

/-- difference of direction `d` -/
def Slopes3.along (f : Slopes3 ℝ) : Dir → HS ℝ
  | .x => f.x
  | .y => f.y
  | .z => f.z

omit hs in
theorem dq3_along (v : Fld3 ℝ) (d : Dir) (i j k : Int) : dq3 p v d i j k = (slopes3 p v i j k).along d := by
  cases d <;> rfl

omit hs in
theorem stateR_aux (s : Settings ℝ) (c : HS ℝ) (f : Slopes3 ℝ) (d : Dir) (t : ℝ) :
    MS.floored s (((fluid
      ⟨c.d + (-c.u * f.x.d - c.v * f.y.d - c.w * f.z.d - (f.x.u + f.y.v + f.z.w) * c.d) * (t * (1 / 2)),
       c.p + (-c.u * f.x.p - c.v * f.y.p - c.w * f.z.p - (f.x.u + f.y.v + f.z.w) * s.gamma0 * c.p) * (t * (1 / 2)),
       c.u + (-c.u * f.x.u - c.v * f.y.u - c.w * f.z.u - f.x.p / c.d) * (t * (1 / 2)),
       c.v + (-c.u * f.x.v - c.v * f.y.v - c.w * f.z.v - f.y.p / c.d) * (t * (1 / 2)),
       c.w + (-c.u * f.x.w - c.v * f.y.w - c.w * f.z.w - f.z.p / c.d) * (t * (1 / 2))⟩).subHalf (fluid (f.along d))).setMag d 0)
      = fluid (liftP s (traceAlongDir3 s c f t t t (faceMin d))) := by
  have e : ((1 / 2 : ℚ) : ℝ) = 1 / 2 := by norm_num
  cases d <;> simp only [Slopes3.along, faceMin, traceAlongDir3, fluid, MS.subHalf, MS.setMag, MS.floored, liftP, lit_real, fmax_real, e] <;>
    refine MS.ext ?_ ?_ ?_ ?_ ?_ ?_ ?_ ?_ <;> dsimp only <;> ring_nf

omit hs in
theorem stateL_aux (s : Settings ℝ) (c : HS ℝ) (f : Slopes3 ℝ) (d : Dir) (t : ℝ) :
    MS.floored s (((fluid
      ⟨c.d + (-c.u * f.x.d - c.v * f.y.d - c.w * f.z.d - (f.x.u + f.y.v + f.z.w) * c.d) * (t * (1 / 2)),
       c.p + (-c.u * f.x.p - c.v * f.y.p - c.w * f.z.p - (f.x.u + f.y.v + f.z.w) * s.gamma0 * c.p) * (t * (1 / 2)),
       c.u + (-c.u * f.x.u - c.v * f.y.u - c.w * f.z.u - f.x.p / c.d) * (t * (1 / 2)),
       c.v + (-c.u * f.x.v - c.v * f.y.v - c.w * f.z.v - f.y.p / c.d) * (t * (1 / 2)),
       c.w + (-c.u * f.x.w - c.v * f.y.w - c.w * f.z.w - f.z.p / c.d) * (t * (1 / 2))⟩).addHalf (fluid (f.along d))).setMag d 0)
      = fluid (liftP s (traceAlongDir3 s c f t t t (faceMax d))) := by
  have e : ((1 / 2 : ℚ) : ℝ) = 1 / 2 := by norm_num
  cases d <;> simp only [Slopes3.along, faceMax, traceAlongDir3, fluid, MS.addHalf, MS.setMag, MS.floored, liftP, lit_real, fmax_real, e] <;>
    refine MS.ext ?_ ?_ ?_ ?_ ?_ ?_ ?_ ?_ <;> dsimp only <;> ring_nf

theorem stateR_V2 (hd : p.dx = p.dy) (hd' : p.dx = p.dz) (dt : ℝ) (v u : Fld3 ℝ) (d : Dir) (i j k : Int) :
    MS.floored p.settings (((q2V2 q dt (embed3 v) (embed3 u) i j k).subHalf (slopeV2 q (embed3 v) (embed3 u) d i j k)).setMag d 0)
      = fluid (liftP p.settings (trace3 p dt v (faceMin d) (i - 1) (j - 1) (k - 1))) := by
  have h := stateR_aux p.settings (v (i - 1) (j - 1) (k - 1)) (slopes3 p v (i - 1) (j - 1) (k - 1)) d (dt / p.dx)
  rw [q2V2_embed hs hd hd', slopeV2_embed hs, dq3_along]
  unfold trace3
  rw [← hd, ← hd', ← h]
  rfl

theorem stateL_V2 (hd : p.dx = p.dy) (hd' : p.dx = p.dz) (dt : ℝ) (v u : Fld3 ℝ) (d : Dir) (i j k : Int) :
    MS.floored p.settings (((q2V2 q dt (embed3 v) (embed3 u) i j k).addHalf (slopeV2 q (embed3 v) (embed3 u) d i j k)).setMag d 0)
      = fluid (liftP p.settings (trace3 p dt v (faceMax d) (i - 1) (j - 1) (k - 1))) := by
  have h := stateL_aux p.settings (v (i - 1) (j - 1) (k - 1)) (slopes3 p v (i - 1) (j - 1) (k - 1)) d (dt / p.dx)
  rw [q2V2_embed hs hd hd', slopeV2_embed hs, dq3_along]
  unfold trace3
  rw [← hd, ← hd', ← h]
  rfl

omit hs in
theorem fluid_mag (x : HS ℝ) (d : Dir) : (fluid x).mag d = 0 := by cases d <;> rfl

theorem fluxV2_embed (hd : p.dx = p.dy) (hd' : p.dx = p.dz) (dt : ℝ) (v u : Fld3 ℝ) (d : Dir) (i j k : Int) :
    fluxV2 q dt (embed3 v) (embed3 u) d i j k =
      (riemannMhd p.settings q.riemannSolverType
        ((fluid (liftP p.settings (trace3 p dt v (faceMax d) (i - d.delta.1 - 1) (j - d.delta.2.1 - 1) (k - d.delta.2.2 - 1)))).swapDir d)
        ((fluid (liftP p.settings (trace3 p dt v (faceMin d) (i - 1) (j - 1) (k - 1)))).swapDir d) MS.zero).swapDir d := by
  unfold fluxV2
  simp only [sFaceV2_embed hs, add_zero, hs.settings]
  have e0 : (embed3 u i j k).mag d = 0 := fluid_mag _ _
  simp only [e0, stateR_V2 hs hd hd', fluid_mag, stateL_V2 hs hd hd']

theorem edgeV2_noB (dt : ℝ) (hd : p.dx = p.dy) (hd' : p.dx = p.dz) (v u : Fld3 ℝ) (d0 d1 : Dir) (i j k : Int) (e : EdgeLoc) :
    NoB (edgeV2 q dt (embed3 v) (embed3 u) d0 d1 i j k e) := by
  unfold edgeV2
  simp only [sFaceV2_embed hs, limSlopeV2, slopeV2_embed hs, q2V2_embed hs hd hd']
  have e0 : ∀ (d : Dir) i j k, (embed3 u i j k).mag d = 0 := fun d i j k => fluid_mag _ _
  simp only [e0, slopeScalarDir_zero, MS.floored, fluid, NoB]
  have e1 : ∀ b, sgnMul b (0 : ℝ) = 0 := by intro b; simp [sgnMul]
  simp only [e1, mul_zero, add_zero, ite_self, and_self]

theorem emfV2_embed (dt : ℝ) (hd : p.dx = p.dy) (hd' : p.dx = p.dz) (v u : Fld3 ℝ) (d : EmfDir) (i j k : Int) :
    emfV2 q dt (embed3 v) (embed3 u) d i j k = 0 := by
  have e := fun d0 d1 i j k l => edgeV2_noB hs dt hd hd' v u d0 d1 i j k l
  cases d <;> exact emf_noB _ _ (e _ _ _ _ _ _) (e _ _ _ _ _ _) (e _ _ _ _ _ _) (e _ _ _ _ _ _)

omit hs in
/-- the hydro and the MHD solver compute the same flux -/
theorem flux3_noField {l r : HS ℝ}
    (hR : (p.riemannSolverType = .hllc ∧ q.riemannSolverType = .hlld) ∨
      ((p.riemannSolverType = .llf ∧ q.riemannSolverType = .llf) ∧ AboveFloors p.settings l ∧ AboveFloors p.settings r))
    (hg : GoodSettings p.settings) (hc : p.settings.cIso ≤ 0) (hl : p.settings.smallr ≤ l.d) (h2 : p.settings.smallr ≤ r.d) :
    riemannMhd p.settings q.riemannSolverType (fluid (liftP p.settings l)) (fluid (liftP p.settings r)) MS.zero =
      fluid (riemannHydro3 p.settings p.riemannSolverType l r HS.zero) := by
  rcases hR with ⟨hr, hr'⟩ | ⟨⟨hr, hr'⟩, al, ar⟩
  · rw [hr, hr']
    exact hlld_hllc hg hc hl h2
  · rw [hr, hr', liftP_above al, liftP_above ar]
    exact llf_llf hg hc al ar

omit hs in
theorem trace3_floor (dt : ℝ) (v : Fld3 ℝ) (f : Face) (i j k : Int) : p.settings.smallr ≤ (trace3 p dt v f i j k).d := by
  cases f <;> simp [trace3, traceAlongDir3, fmax_real]

omit hs in
theorem fluid_liftP_swapXZ (s : Settings ℝ) (x : HS ℝ) : (fluid (liftP s x)).swapXZ = fluid (liftP s x.swapUW) := rfl
omit hs in
theorem above_swapUW {s : Settings ℝ} {x : HS ℝ} (h : AboveFloors s x) : AboveFloors s x.swapUW := ⟨h.d, h.p⟩
omit hs in
theorem swapUW_d (x : HS ℝ) : x.swapUW.d = x.d := rfl

/-- the fluxes of the MHD scheme are those of the hydro scheme, and there is no electromotive force -/
structure HydroFluxes (p : Params ℝ) (dt : ℝ) (v : Fld3 ℝ) (F : FluxM3 ℝ) : Prop where
  x : ∀ i j k, near3 p (i - 1) (j - 1) (k - 1) → near3 p (i - 1 - 1) (j - 1) (k - 1) → F.x i j k =
    fluid (riemannHydro3 p.settings p.riemannSolverType (trace3 p dt v .xmax (i - 1 - 1) (j - 1) (k - 1))
      (trace3 p dt v .xmin (i - 1) (j - 1) (k - 1)) HS.zero)
  y : ∀ i j k, near3 p (i - 1) (j - 1) (k - 1) → near3 p (i - 1) (j - 1 - 1) (k - 1) → F.y i j k =
    (fluid (riemannHydro3 p.settings p.riemannSolverType (trace3 p dt v .ymax (i - 1) (j - 1 - 1) (k - 1)).swapUV
      (trace3 p dt v .ymin (i - 1) (j - 1) (k - 1)).swapUV HS.zero)).swapXY
  z : ∀ i j k, near3 p (i - 1) (j - 1) (k - 1) → near3 p (i - 1) (j - 1) (k - 1 - 1) → F.z i j k =
    (fluid (riemannHydro3 p.settings p.riemannSolverType (trace3 p dt v .zmax (i - 1) (j - 1) (k - 1 - 1)).swapUW
      (trace3 p dt v .zmin (i - 1) (j - 1) (k - 1)).swapUW HS.zero)).swapXZ
  e : ∀ d i j k, F.e d i j k = 0

theorem hydroFluxes_V2 (hd : p.dx = p.dy) (hd' : p.dx = p.dz) (dt : ℝ) (v u : Fld3 ℝ)
    (hR : (p.riemannSolverType = .hllc ∧ q.riemannSolverType = .hlld) ∨
      ((p.riemannSolverType = .llf ∧ q.riemannSolverType = .llf) ∧
        ∀ f i j k, near3 p i j k → AboveFloors p.settings (trace3 p dt v f i j k))) :
    HydroFluxes p dt v ⟨fluxV2 q dt (embed3 v) (embed3 u) .x, fluxV2 q dt (embed3 v) (embed3 u) .y,
      fluxV2 q dt (embed3 v) (embed3 u) .z, emfV2 q dt (embed3 v) (embed3 u)⟩ where
  x i j k h1 h2 := by
    show fluxV2 q dt (embed3 v) (embed3 u) .x i j k = _
    rw [fluxV2_embed hs hd hd']
    simp only [Dir.delta, sub_zero, faceMin, faceMax, MS.swapDir]
    exact flux3_noField (hR.imp_right fun h => ⟨h.1, h.2 _ _ _ _ h2, h.2 _ _ _ _ h1⟩) hs.good hs.cIso
      (trace3_floor _ _ _ _ _ _) (trace3_floor _ _ _ _ _ _)
  y i j k h1 h2 := by
    show fluxV2 q dt (embed3 v) (embed3 u) .y i j k = _
    rw [fluxV2_embed hs hd hd']
    simp only [Dir.delta, sub_zero, faceMin, faceMax, MS.swapDir, fluid_liftP_swap]
    rw [flux3_noField (hR.imp_right fun h => ⟨h.1, above_swap (h.2 _ _ _ _ h2), above_swap (h.2 _ _ _ _ h1)⟩) hs.good hs.cIso
      (by rw [swapUV_d]; exact trace3_floor _ _ _ _ _ _) (by rw [swapUV_d]; exact trace3_floor _ _ _ _ _ _)]
  z i j k h1 h2 := by
    show fluxV2 q dt (embed3 v) (embed3 u) .z i j k = _
    rw [fluxV2_embed hs hd hd']
    simp only [Dir.delta, sub_zero, faceMin, faceMax, MS.swapDir, fluid_liftP_swapXZ]
    rw [flux3_noField (hR.imp_right fun h => ⟨h.1, above_swapUW (h.2 _ _ _ _ h2), above_swapUW (h.2 _ _ _ _ h1)⟩) hs.good hs.cIso
      (by rw [swapUW_d]; exact trace3_floor _ _ _ _ _ _) (by rw [swapUW_d]; exact trace3_floor _ _ _ _ _ _)]
  e d i j k := emfV2_embed hs dt hd hd' v u d i j k

omit hs in
theorem liftA_eq {s : Settings ℝ} {x : HS ℝ} (h : AboveFloors s x ∧ s.smallp ≤ x.p) : liftA s x = liftP s x := by
  rw [liftP_above h.1]
  unfold liftA
  rw [max_eq_right h.2]

theorem hydroFluxes_V01 (hd : p.dx = p.dy) (hd' : p.dx = p.dz) (dt : ℝ) (v u : Fld3 ℝ)
    (hR : (p.riemannSolverType = .hllc ∧ q.riemannSolverType = .hlld) ∨
      (p.riemannSolverType = .llf ∧ q.riemannSolverType = .llf))
    (hF : ∀ f i j k, near3 p i j k → AboveFloors p.settings (trace3 p dt v f i j k) ∧
      p.settings.smallp ≤ (trace3 p dt v f i j k).p) :
    HydroFluxes p dt v (fluxOfTraces q (traceM3 q dt (embed3 v) (embed3 u))) where
  x i j k h1 h2 := by
    have t1 := (traceM3_embed hs hd hd' dt v u (i - 1) j k).1.1
    have t2 := (traceM3_embed hs hd hd' dt v u i j k).1.2.1
    simp only [fluxOfTraces, t1, t2, liftA_eq (hF _ _ _ _ h1), liftA_eq (hF _ _ _ _ h2), hs.settings]
    exact flux3_noField (hR.imp_right fun h => ⟨h, (hF _ _ _ _ h2).1, (hF _ _ _ _ h1).1⟩) hs.good hs.cIso
      (trace3_floor _ _ _ _ _ _) (trace3_floor _ _ _ _ _ _)
  y i j k h1 h2 := by
    have t1 := (traceM3_embed hs hd hd' dt v u i (j - 1) k).1.2.2.1
    have t2 := (traceM3_embed hs hd hd' dt v u i j k).1.2.2.2.1
    simp only [fluxOfTraces, t1, t2, liftA_eq (hF _ _ _ _ h1), liftA_eq (hF _ _ _ _ h2), hs.settings, fluid_liftP_swap]
    rw [flux3_noField (hR.imp_right fun h => ⟨h, above_swap (hF _ _ _ _ h2).1, above_swap (hF _ _ _ _ h1).1⟩) hs.good hs.cIso
      (by rw [swapUV_d]; exact trace3_floor _ _ _ _ _ _) (by rw [swapUV_d]; exact trace3_floor _ _ _ _ _ _)]
  z i j k h1 h2 := by
    have t1 := (traceM3_embed hs hd hd' dt v u i j (k - 1)).1.2.2.2.2.1
    have t2 := (traceM3_embed hs hd hd' dt v u i j k).1.2.2.2.2.2
    simp only [fluxOfTraces, t1, t2, liftA_eq (hF _ _ _ _ h1), liftA_eq (hF _ _ _ _ h2), hs.settings, fluid_liftP_swapXZ]
    rw [flux3_noField (hR.imp_right fun h => ⟨h, above_swapUW (hF _ _ _ _ h2).1, above_swapUW (hF _ _ _ _ h1).1⟩) hs.good hs.cIso
      (by rw [swapUW_d]; exact trace3_floor _ _ _ _ _ _) (by rw [swapUW_d]; exact trace3_floor _ _ _ _ _ _)]
  e d i j k := emf_traces_noB q _ (fun i j k => (traceM3_embed hs hd hd' dt v u i j k).2) d i j k

theorem stepOfM3_embed {g : GravityParams} (hg : g.enabled = false) (zk : Bool) (gf : Grav3 ℝ) (dt : ℝ) (u : Fld3 ℝ)
    {F : FluxM3 ℝ} (hF : HydroFluxes p dt (prim3 p u) F) :
    stepOfM3 q dt F (embed3 u) = embed3 (step3 zk p g dt gf u) := by
  funext i j k
  simp only [stepOfM3, embed3, step3, interior3_deeper hs]
  by_cases hi : interior3 p (i - 1) (j - 1) (k - 1)
  · simp only [if_pos hi, hg, Bool.false_eq_true, if_false]
    simp only [ctUpdate3, fluxUpdateM3, hF.e]
    obtain ⟨⟨g1, g2⟩, ⟨g3, g4⟩, g5, g6⟩ := hi
    have n : ∀ a b c, i - 1 - 1 ≤ a → a ≤ i → j - 1 - 1 ≤ b → b ≤ j → k - 1 - 1 ≤ c → c ≤ k → near3 p a b c := by
      intro a b c h1 h2 h3 h4 h5 h6
      exact ⟨⟨by omega, by omega⟩, ⟨by omega, by omega⟩, by omega, by omega⟩
    rw [hF.x i j k (n _ _ _ (by omega) (by omega) (by omega) (by omega) (by omega) (by omega)) (n _ _ _ (by omega) (by omega) (by omega) (by omega) (by omega) (by omega)),
      hF.x (i + 1) j k (n _ _ _ (by omega) (by omega) (by omega) (by omega) (by omega) (by omega)) (n _ _ _ (by omega) (by omega) (by omega) (by omega) (by omega) (by omega)),
      hF.y i j k (n _ _ _ (by omega) (by omega) (by omega) (by omega) (by omega) (by omega)) (n _ _ _ (by omega) (by omega) (by omega) (by omega) (by omega) (by omega)),
      hF.y i (j + 1) k (n _ _ _ (by omega) (by omega) (by omega) (by omega) (by omega) (by omega)) (n _ _ _ (by omega) (by omega) (by omega) (by omega) (by omega) (by omega)),
      hF.z i j k (n _ _ _ (by omega) (by omega) (by omega) (by omega) (by omega) (by omega)) (n _ _ _ (by omega) (by omega) (by omega) (by omega) (by omega) (by omega)),
      hF.z i j (k + 1) (n _ _ _ (by omega) (by omega) (by omega) (by omega) (by omega) (by omega)) (n _ _ _ (by omega) (by omega) (by omega) (by omega) (by omega) (by omega))]
    simp only [fluxUpdate3, fluxX3, fluxY3, fluxZ3, face3, kick3, hg, Bool.false_and, Bool.false_eq_true, if_false, ite_self,
      hs.dx, hs.dy, hs.dz, add_sub_cancel_right, show i - 1 + 1 = i by omega, show j - 1 + 1 = j by omega, show k - 1 + 1 = k by omega]
    generalize riemannHydro3 p.settings p.riemannSolverType (trace3 p dt (prim3 p u) .xmax (i - 1 - 1) (j - 1) (k - 1)) _ _ = A
    generalize riemannHydro3 p.settings p.riemannSolverType (trace3 p dt (prim3 p u) .xmax (i - 1) (j - 1) (k - 1)) _ _ = B
    generalize riemannHydro3 p.settings p.riemannSolverType (trace3 p dt (prim3 p u) .ymax (i - 1) (j - 1 - 1) (k - 1)).swapUV _ _ = C
    generalize riemannHydro3 p.settings p.riemannSolverType (trace3 p dt (prim3 p u) .ymax (i - 1) (j - 1) (k - 1)).swapUV _ _ = D
    generalize riemannHydro3 p.settings p.riemannSolverType (trace3 p dt (prim3 p u) .zmax (i - 1) (j - 1) (k - 1 - 1)).swapUW _ _ = E
    generalize riemannHydro3 p.settings p.riemannSolverType (trace3 p dt (prim3 p u) .zmax (i - 1) (j - 1) (k - 1)).swapUW _ _ = G
    simp only [fluid, MS.plus5, MS.minus5, MS.swapXY, MS.swapXZ, HS.swapUV, HS.swapUW, HS.smul, HS.add, HS.sub]
    refine MS.ext ?_ ?_ ?_ ?_ ?_ ?_ ?_ ?_ <;> dsimp only <;> ring
  · simp only [if_neg hi]

/-- version 2 of the 3D MHD solver -/
theorem fullStepM3_embed_2 (hd : p.dx = p.dy) (hd' : p.dx = p.dz) (h2 : q.implementationVersion = 2) {g : GravityParams}
    (hg : g.enabled = false) (zk : Bool) (gf : Grav3 ℝ) (dt : ℝ) (u : Fld3 ℝ)
    (hR : (p.riemannSolverType = .hllc ∧ q.riemannSolverType = .hlld) ∨
      ((p.riemannSolverType = .llf ∧ q.riemannSolverType = .llf) ∧
        ∀ f i j k, near3 p i j k → AboveFloors p.settings (trace3 p dt (prim3 p (fill3 p u)) f i j k))) :
    fullStepM3 q dt (embed3 u) = embed3 (fullStep3 zk p g dt gf u) := by
  unfold fullStepM3 fullStep3 stepM3 schemeM3
  rw [fillM3_embed hs, if_pos h2]
  refine stepOfM3_embed hs hg zk gf dt _ ?_
  unfold fluxesV2M3
  rw [primM3_embed hs]
  exact hydroFluxes_V2 hs hd hd' dt _ _ hR

/-- versions 0 and 1 of the 3D MHD solver, when the absolute pressure floor has no effect -/
theorem fullStepM3_embed_01 (hd : p.dx = p.dy) (hd' : p.dx = p.dz) (h2 : q.implementationVersion ≠ 2) {g : GravityParams}
    (hg : g.enabled = false) (zk : Bool) (gf : Grav3 ℝ) (dt : ℝ) (u : Fld3 ℝ)
    (hR : (p.riemannSolverType = .hllc ∧ q.riemannSolverType = .hlld) ∨
      (p.riemannSolverType = .llf ∧ q.riemannSolverType = .llf))
    (hF : ∀ f i j k, near3 p i j k → AboveFloors p.settings (trace3 p dt (prim3 p (fill3 p u)) f i j k) ∧
      p.settings.smallp ≤ (trace3 p dt (prim3 p (fill3 p u)) f i j k).p) :
    fullStepM3 q dt (embed3 u) = embed3 (fullStep3 zk p g dt gf u) := by
  unfold fullStepM3 fullStep3 stepM3 schemeM3
  rw [fillM3_embed hs, if_neg h2]
  refine stepOfM3_embed hs hg zk gf dt _ ?_
  unfold fluxesM3
  rw [primM3_embed hs]
  exact hydroFluxes_V01 hs hd hd' dt _ _ hR hF

theorem rate3_embed {g : GravityParams} (hg : g.enabled = false) (gf : Grav3 ℝ) (u : Fld3 ℝ) {i j k : Int}
    (hi : interior3 q i j k) :
    mhdRate3 q.settings.gamma0 q.dx q.dy q.dz (primM3 q (fillM3 q (embed3 u)) i j k) =
      rate3 p g gf u (i - 1) (j - 1) (k - 1) := by
  rw [fillM3_embed hs, primM3_embed hs]
  have hi' := (interior3_deeper hs i j k).1 hi
  have e : prim3 p (fill3 p u) (i - 1) (j - 1) (k - 1) = (computePrimitives3 p.settings (u (i - 1) (j - 1) (k - 1))).1 := by
    unfold prim3
    rw [fill3_on_interior hi']
  simp only [embed3]
  rw [e]
  simp only [rate3, hg, Bool.false_eq_true, if_false, cflRate3, sound]
  have hl : 0 < (computePrimitives3 p.settings (u (i - 1) (j - 1) (k - 1))).1.d := by
    simp only [computePrimitives3, fmax_real]
    exact lt_of_lt_of_le hs.good.smallr (le_max_right _ _)
  have hp : 0 ≤ (computePrimitives3 p.settings (u (i - 1) (j - 1) (k - 1))).1.p := by
    have h1 : 0 < max (u (i - 1) (j - 1) (k - 1)).d p.settings.smallr := lt_of_lt_of_le hs.good.smallr (le_max_right _ _)
    simp only [computePrimitives3, fmax_real]
    exact le_trans (mul_nonneg h1.le hs.good.smallp_pos.le) (le_max_right _ _)
  generalize (computePrimitives3 p.settings (u (i - 1) (j - 1) (k - 1))).1 = c at hl hp
  have hf := fastSpeed_noField hs.good.gamma hl hp
  unfold mhdRate3
  rw [show (fluid c).a = 0 from rfl, show (fluid c).b = 0 from rfl, show (fluid c).c = 0 from rfl, hs.settings, hf, hs.dx,
    hs.dy, hs.dz]
  rfl

theorem cflDtM3_embed {g : GravityParams} (hg : g.enabled = false) (gf : Grav3 ℝ) (u : Fld3 ℝ) :
    cflDtM3 q (embed3 u) = cflDt3 p g gf u := by
  unfold cflDtM3 cflDt3
  rw [hs.settings]
  congr 2
  ext r
  constructor
  · rintro ⟨i, j, k, hi, rfl⟩
    exact ⟨i - 1, j - 1, k - 1, (interior3_deeper hs i j k).1 hi, by rw [← hs.settings]; exact rate3_embed hs hg gf u hi⟩
  · rintro ⟨i, j, k, hi, rfl⟩
    have hi' : interior3 q (i + 1) (j + 1) (k + 1) := (interior3_deeper hs _ _ _).2 (by simpa using hi)
    refine ⟨i + 1, j + 1, k + 1, hi', ?_⟩
    have := rate3_embed hs hg gf u hi'
    simp only [add_sub_cancel_right] at this
    rw [← hs.settings, this]

end
end EulerKokkos
