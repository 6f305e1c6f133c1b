import Verif.Lemmas.MhdPlanar
import Verif.Props.C76
import Verif.Spec.PlanarMhd

/-!
# Slopes, predicted states, face and edge states of the 3D MHD scheme on stacked 2D states
-/

set_option linter.constructorNameAsVariable false
set_option linter.unusedSectionVars false
set_option linter.unusedSimpArgs false
namespace EulerKokkos
open Spec

/-- the 3D field which has in every slice the 2D field `u` -/
def stackM (u : FldM2 ℝ) : FldM3 ℝ := fun i j _ => u i j

/-- the electric field of the 2D scheme, in absolute coordinates -/
noncomputable def ezAt (Q u : FldM2 ℝ) (i j : Int) : ℝ :=
  avg4 (Q (i - 1) (j - 1)).u (Q (i - 1) j).u (Q i (j - 1)).u (Q i j).u *
        avg2 (u (i - 1) j).b (u i j).b -
      avg4 (Q (i - 1) (j - 1)).v (Q (i - 1) j).v (Q i (j - 1)).v (Q i j).v *
        avg2 (u i (j - 1)).a (u i j).a

theorem elecZ2_at (Q u : FldM2 ℝ) (i j x y : Int) :
    elecZ2 (fun o => Q (i + o.1) (j + o.2))
      (fun o => ⟨(u (i + o.1) (j + o.2)).a, (u (i + o.1) (j + o.2)).b, (u (i + o.1) (j + o.2)).c⟩) x y =
    ezAt Q u (i + x) (j + y) := by
  unfold elecZ2 ezAt avg4 avg2
  simp only [add_sub_assoc]

theorem slopeM_flat (s : Settings ℝ) {q qp qm : MS ℝ} (h : q.Flat) (h1 : qp.Flat) (h2 : qm.Flat) :
    (slopeM s q qp qm MS.zero).Flat := by
  unfold slopeM MS.Flat
  split_ifs
  · dsimp only
    rw [h.1, h.2, h1.1, h1.2, h2.1, h2.2]
    simp [slopeScalarDir_const]
  · simp [MS.zero]

theorem slopeM_same (s : Settings ℝ) (q : MS ℝ) : slopeM s q q q MS.zero = MS.zero := by
  unfold slopeM
  split_ifs
  · simp only [slopeScalarDir_const]; simp [MS.zero]
  · rfl

/-- componentwise sum -/
def MS.sumM (c s : MS ℝ) : MS ℝ :=
  ⟨c.d + s.d, c.p + s.p, c.u + s.u, c.v + s.v, c.w + s.w, c.a + s.a, c.b + s.b, c.c + s.c⟩

/-- half a time step of the 3D scheme, on slopes without z part -/
theorem addHalf_source_flat (s : Settings ℝ) {c S S' : MS ℝ} (hc : c.Flat) (hS : S.Flat) (hS' : S'.Flat)
    (a b dA dB x y z : ℝ) :
    c.addHalf (sourceM3 s c (S.setMag .x a) (S'.setMag .y b) MS.zero dA dB 0 x y z) =
      c.sumM (sourceM2 s c S.half S'.half (1/2 * dA) (1/2 * dB) x y) := by
  obtain ⟨c1, c2⟩ := hc
  obtain ⟨s1, s2⟩ := hS
  obtain ⟨t1, t2⟩ := hS'
  refine MS.ext ?_ ?_ ?_ ?_ ?_ ?_ ?_ ?_ <;>
    simp only [MS.sumM, MS.addHalf, sourceM3, sourceM2, MS.setMag, MS.half, MS.zero, c1, c2, s1, s2, t1, t2,
      RealOps.lit_real] <;> push_cast <;> ring

theorem source2_flat (s : Settings ℝ) {c S S' : MS ℝ} (hc : c.Flat) (hS : S.Flat) (hS' : S'.Flat)
    (dA dB x y : ℝ) : (sourceM2 s c S.half S'.half dA dB x y).Flat := by
  obtain ⟨c1, c2⟩ := hc
  obtain ⟨s1, s2⟩ := hS
  obtain ⟨t1, t2⟩ := hS'
  constructor <;> simp [sourceM2, MS.half, c1, c2, s1, s2, t1, t2]

/-- the predicted state of the 2D scheme -/
noncomputable def midM2 (p : Params ℝ) (dt : ℝ) (Q u : FldM2 ℝ) (i j : Int) : MS ℝ :=
  (Q i j).sumM (sourceM2 p.settings (Q i j)
    (slopeM p.settings (Q i j) (Q (i + 1) j) (Q (i - 1) j) MS.zero).half
    (slopeM p.settings (Q i j) (Q i (j + 1)) (Q i (j - 1)) MS.zero).half
    (1/2 * ((u (i + 1) j).a - (u i j).a)) (1/2 * ((u i (j + 1)).b - (u i j).b)) (dt / p.dx) (dt / p.dy))

section
variable {p q : Params ℝ} (hs : SliceOf p q) (dt : ℝ) {Q u : FldM2 ℝ} (hQ : ∀ i j, (Q i j).Flat)
  (hu : ∀ i j, (u i j).Flat)
include hs hQ hu

omit hs in
theorem midM2_flat (i j : Int) : (midM2 q dt Q u i j).Flat := by
  have h := source2_flat q.settings (hQ i j) (slopeM_flat q.settings (hQ i j) (hQ (i + 1) j) (hQ (i - 1) j))
    (slopeM_flat q.settings (hQ i j) (hQ i (j + 1)) (hQ i (j - 1)))
    (1/2 * ((u (i + 1) j).a - (u i j).a)) (1/2 * ((u i (j + 1)).b - (u i j).b)) (dt / q.dx) (dt / q.dy)
  unfold midM2 MS.sumM MS.Flat
  rw [(hQ i j).1, (hQ i j).2, h.1, h.2]
  simp

omit hs hQ in
theorem slopeV2_x (i j k : Int) : slopeV2 p (stackM Q) (stackM u) .x i j k =
    (slopeM p.settings (Q i j) (Q (i + 1) j) (Q (i - 1) j) MS.zero).setMag .x ((u (i + 1) j).a - (u i j).a) := by
  simp [slopeV2, stackM, Dir.delta, MS.mag]

omit hs hQ in
theorem slopeV2_y (i j k : Int) : slopeV2 p (stackM Q) (stackM u) .y i j k =
    (slopeM p.settings (Q i j) (Q i (j + 1)) (Q i (j - 1)) MS.zero).setMag .y ((u i (j + 1)).b - (u i j).b) := by
  simp [slopeV2, stackM, Dir.delta, MS.mag]

omit hs hQ in
theorem slopeV2_z (i j k : Int) : slopeV2 p (stackM Q) (stackM u) .z i j k = MS.zero := by
  have e : slopeV2 p (stackM Q) (stackM u) .z i j k =
      (slopeM p.settings (Q i j) (Q i j) (Q i j) MS.zero).setMag .z ((u i j).c - (u i j).c) := by
    simp [slopeV2, stackM, Dir.delta, MS.mag]
  rw [e, slopeM_same, sub_self]
  simp [MS.setMag, MS.zero]

theorem q2V2_stack (i j k : Int) : q2V2 p dt (stackM Q) (stackM u) i j k = midM2 q dt Q u i j := by
  unfold q2V2
  rw [slopeV2_x hu, slopeV2_y hu, slopeV2_z hu]
  show (Q i j).addHalf (sourceM3 p.settings (Q i j) _ _ _ ((u (i + 1) j).a - (u i j).a)
    ((u i (j + 1)).b - (u i j).b) ((u i j).c - (u i j).c) _ _ _) = _
  rw [sub_self, addHalf_source_flat p.settings (hQ i j) (slopeM_flat _ (hQ _ _) (hQ _ _) (hQ _ _))
    (slopeM_flat _ (hQ _ _) (hQ _ _) (hQ _ _))]
  unfold midM2
  rw [hs.settings, hs.dx, hs.dy]

omit hs in
theorem elecM3_x (i j k : Int) : elecM3 (stackM Q) (stackM u) .x i j k = 0 := by
  simp [elecM3, stackM, avg4, avg2, (hQ _ _).1, (hu _ _).2]
omit hs in
theorem elecM3_y (i j k : Int) : elecM3 (stackM Q) (stackM u) .y i j k = 0 := by
  simp [elecM3, stackM, avg4, avg2, (hQ _ _).1, (hu _ _).2]
omit hs hQ hu in
theorem elecM3_z (i j k : Int) : elecM3 (stackM Q) (stackM u) .z i j k = ezAt Q u i j := rfl

theorem sFaceV2_x (i j k : Int) : sFaceV2 p dt (stackM Q) (stackM u) .x i j k =
    (ezAt Q u i (j + 1) - ezAt Q u i j) * (1/2) * (dt / q.dy) := by
  simp [sFaceV2, elecM3_x hQ hu, elecM3_y hQ hu, elecM3_z, hs.dy]
theorem sFaceV2_y (i j k : Int) : sFaceV2 p dt (stackM Q) (stackM u) .y i j k =
    -(ezAt Q u (i + 1) j - ezAt Q u i j) * (1/2) * (dt / q.dx) := by
  simp [sFaceV2, elecM3_x hQ hu, elecM3_y hQ hu, elecM3_z, hs.dx]
theorem sFaceV2_z (i j k : Int) : sFaceV2 p dt (stackM Q) (stackM u) .z i j k = 0 := by
  simp [sFaceV2, elecM3_x hQ hu, elecM3_y hQ hu]

end

/-- the reconstruction of the 2D scheme in terms of `midM2` and `ezAt` -/
theorem traceM2_mid (p : Params ℝ) (dt : ℝ) (Q u : FldM2 ℝ) (i j : Int) :
    let s := p.settings
    let c := midM2 p dt Q u i j
    let dx := slopeM s (Q i j) (Q (i + 1) j) (Q (i - 1) j) MS.zero
    let dy := slopeM s (Q i j) (Q i (j + 1)) (Q i (j - 1)) MS.zero
    let fA := fun i j => slopeScalarDir s.slope_type (u i j).a (u i (j + 1)).a (u i (j - 1)).a
    let fB := fun i j => slopeScalarDir s.slope_type (u i j).b (u (i + 1) j).b (u (i - 1) j).b
    let A := fun i j => (u i j).a + (ezAt Q u i (j + 1) - ezAt Q u i j) * (1/2) * (dt / p.dy)
    let B := fun i j => (u i j).b + -(ezAt Q u (i + 1) j - ezAt Q u i j) * (1/2) * (dt / p.dx)
    traceM2 p dt Q u i j =
    { qpx := MS.floored s ((c.subHalf dx).setMag .x (A i j))
      qmx := MS.floored s ((c.addHalf dx).setMag .x (A (i + 1) j))
      qpy := MS.floored s ((c.subHalf dy).setMag .y (B i j))
      qmy := MS.floored s ((c.addHalf dy).setMag .y (B i (j + 1)))
      rt := MS.floored s ⟨c.d + 1/2 * (dx.d + dy.d), c.p + 1/2 * (dx.p + dy.p), c.u + 1/2 * (dx.u + dy.u),
        c.v + 1/2 * (dx.v + dy.v), c.w + 1/2 * (dx.w + dy.w), A (i + 1) j + 1/2 * fA (i + 1) j,
        B i (j + 1) + 1/2 * fB i (j + 1), c.c + 1/2 * (dx.c + dy.c)⟩
      rb := MS.floored s ⟨c.d + 1/2 * (dx.d - dy.d), c.p + 1/2 * (dx.p - dy.p), c.u + 1/2 * (dx.u - dy.u),
        c.v + 1/2 * (dx.v - dy.v), c.w + 1/2 * (dx.w - dy.w), A (i + 1) j - 1/2 * fA (i + 1) j,
        B i j + 1/2 * fB i j, c.c + 1/2 * (dx.c - dy.c)⟩
      lt := MS.floored s ⟨c.d + 1/2 * (-dx.d + dy.d), c.p + 1/2 * (-dx.p + dy.p), c.u + 1/2 * (-dx.u + dy.u),
        c.v + 1/2 * (-dx.v + dy.v), c.w + 1/2 * (-dx.w + dy.w), A i j + 1/2 * fA i j,
        B i (j + 1) - 1/2 * fB i (j + 1), c.c + 1/2 * (-dx.c + dy.c)⟩
      lb := MS.floored s ⟨c.d + 1/2 * (-dx.d - dy.d), c.p + 1/2 * (-dx.p - dy.p), c.u + 1/2 * (-dx.u - dy.u),
        c.v + 1/2 * (-dx.v - dy.v), c.w + 1/2 * (-dx.w - dy.w), A i j - 1/2 * fA i j,
        B i j - 1/2 * fB i j, c.c + 1/2 * (-dx.c - dy.c)⟩ } := by
  extract_lets -merge s c dx dy fA fB A B
  unfold traceM2 traceMhd2
  simp only [elecZ2_at]
  simp only [add_zero, Int.reduceNeg, ← sub_eq_add_neg, RealOps.lit_real]
  simp only [A, B, fA, fB, c, midM2, MS.sumM]
  simp only [MS.half, RealOps.lit_real]
  have e : ((1/2 : ℚ) : ℝ) = 1/2 := by norm_num
  simp only [e]
  simp only [add_sub_cancel_right, dx, dy, s]
  rw [TraceM2.mk.injEq]
  refine ⟨?_, ?_, ?_, ?_, ?_, ?_, ?_, ?_⟩ <;> (congr 1; refine MS.ext ?_ ?_ ?_ ?_ ?_ ?_ ?_ ?_) <;>
    simp only [MS.subHalf, MS.addHalf, MS.setMag, RealOps.lit_real, e] <;> ring

theorem MS.zero_w : (MS.zero : MS ℝ).w = 0 := by simp [MS.zero]

theorem flooredP_flat (s : Settings ℝ) {q : MS ℝ} (h : q.Flat) : (MS.flooredP s q).Flat := h
theorem floored_flat (s : Settings ℝ) {q : MS ℝ} (h : q.Flat) : (MS.floored s q).Flat := h

section
variable {p q : Params ℝ} (hs : SliceOf p q) (dt : ℝ) {Q u : FldM2 ℝ} (hQ : ∀ i j, (Q i j).Flat)
  (hu : ∀ i j, (u i j).Flat)
include hs hQ hu

theorem fluxV2_x (i j k : Int) : fluxV2 p dt (stackM Q) (stackM u) .x i j k =
    fluxXM2 q (traceM2 q dt Q u) i j := by
  unfold fluxV2 fluxXM2
  rw [traceM2_mid, traceM2_mid]
  simp only [q2V2_stack hs dt hQ hu, slopeV2_x hu, sFaceV2_x hs dt hQ hu, hs.settings, hs.riemann, Dir.delta,
    sub_zero, sub_add_cancel]
  rfl

theorem fluxV2_y (i j k : Int) : fluxV2 p dt (stackM Q) (stackM u) .y i j k =
    fluxYM2 q (traceM2 q dt Q u) i j := by
  unfold fluxV2 fluxYM2
  rw [traceM2_mid, traceM2_mid]
  simp only [q2V2_stack hs dt hQ hu, slopeV2_y hu, sFaceV2_y hs dt hQ hu, hs.settings, hs.riemann, Dir.delta,
    sub_zero, sub_add_cancel]
  rfl

theorem fluxV2_z (i j k k' : Int) : fluxV2 p dt (stackM Q) (stackM u) .z i j k =
    fluxV2 p dt (stackM Q) (stackM u) .z i j k' := by
  unfold fluxV2
  simp only [q2V2_stack hs dt hQ hu, slopeV2_z hu, sFaceV2_z hs dt hQ hu, Dir.delta]
  rfl

theorem limSlopeV2_ax (i j k : Int) : limSlopeV2 p (fun i j k => (stackM u i j k).mag .x) .y i j k =
    slopeScalarDir q.settings.slope_type (u i j).a (u i (j + 1)).a (u i (j - 1)).a := by
  simp [limSlopeV2, stackM, Dir.delta, MS.mag, hs.settings]

theorem limSlopeV2_by (i j k : Int) : limSlopeV2 p (fun i j k => (stackM u i j k).mag .y) .x i j k =
    slopeScalarDir q.settings.slope_type (u i j).b (u (i + 1) j).b (u (i - 1) j).b := by
  simp [limSlopeV2, stackM, Dir.delta, MS.mag, hs.settings]

theorem edgeV2_xy (i j k : Int) :
    edgeV2 p dt (stackM Q) (stackM u) .x .y i j k .rt = (traceM2 q dt Q u i j).rt ∧
    edgeV2 p dt (stackM Q) (stackM u) .x .y i j k .rb = (traceM2 q dt Q u i j).rb ∧
    edgeV2 p dt (stackM Q) (stackM u) .x .y i j k .lt = (traceM2 q dt Q u i j).lt ∧
    edgeV2 p dt (stackM Q) (stackM u) .x .y i j k .lb = (traceM2 q dt Q u i j).lb := by
  have e : ((1/2 : ℚ) : ℝ) = 1/2 := by norm_num
  rw [traceM2_mid]
  unfold edgeV2
  simp only [q2V2_stack hs dt hQ hu, slopeV2_x hu, slopeV2_y hu, sFaceV2_x hs dt hQ hu, sFaceV2_y hs dt hQ hu,
    limSlopeV2_ax hs hQ hu, limSlopeV2_by hs hQ hu, hs.settings, Dir.delta, EdgeLoc.right, EdgeLoc.top, sgnMul,
    Bool.false_eq_true, if_true, if_false, mul_one, mul_zero, add_zero, MS.setMag, RealOps.lit_real, e]
  refine ⟨?_, ?_, ?_, ?_⟩ <;> (congr 1; refine MS.ext ?_ ?_ ?_ ?_ ?_ ?_ ?_ ?_) <;> simp [stackM, MS.mag] <;> ring

/-- edge states in the planes `(x,z)` and `(y,z)`: flat, the same in all slices and at the top and the
bottom of the cell -/
theorem edgeV2_xz (i j : Int) :
    ∃ X Y : MS ℝ, X.Flat ∧ Y.Flat ∧ (∀ k, edgeV2 p dt (stackM Q) (stackM u) .x .z i j k .rt = X ∧
    edgeV2 p dt (stackM Q) (stackM u) .x .z i j k .rb = X ∧
    edgeV2 p dt (stackM Q) (stackM u) .x .z i j k .lt = Y ∧
    edgeV2 p dt (stackM Q) (stackM u) .x .z i j k .lb = Y) := by
  have zc : ∀ d i j k, limSlopeV2 p (fun i j k => (stackM u i j k).mag .z) d i j k = 0 := by
    intro d i j k
    simp [limSlopeV2, stackM, MS.mag, (hu _ _).2, slopeScalarDir_const]
  have zz : ∀ d i j k, limSlopeV2 p (fun i j k => (stackM u i j k).mag d) .z i j k = 0 := by
    intro d i j k
    simp [limSlopeV2, stackM, Dir.delta, slopeScalarDir_const]
  have hS := fun i j => slopeM_flat p.settings (hQ i j) (hQ (i + 1) j) (hQ (i - 1) j)
  refine ⟨edgeV2 p dt (stackM Q) (stackM u) .x .z i j 0 .rt, edgeV2 p dt (stackM Q) (stackM u) .x .z i j 0 .lt,
    ?_, ?_, fun k => ⟨?_, ?_, ?_, ?_⟩⟩ <;>
  unfold edgeV2 <;>
  simp only [q2V2_stack hs dt hQ hu, slopeV2_x hu, slopeV2_z hu, sFaceV2_x hs dt hQ hu, sFaceV2_z hs dt hQ hu,
    zc, zz, Dir.delta, EdgeLoc.right, EdgeLoc.top, sgnMul,
    Bool.false_eq_true, if_true, if_false, mul_one, mul_zero, add_zero, MS.setMag, RealOps.lit_real]
  · exact floored_flat _ (by simp [MS.Flat, (midM2_flat dt hQ hu i j).1, (hS i j).1, MS.zero_w, stackM, MS.mag, (hu _ _).2])
  · exact floored_flat _ (by simp [MS.Flat, (midM2_flat dt hQ hu i j).1, (hS i j).1, MS.zero_w, stackM, MS.mag, (hu _ _).2])
  all_goals
    congr 1
    try (refine MS.ext ?_ ?_ ?_ ?_ ?_ ?_ ?_ ?_) <;> simp [stackM, MS.mag, MS.zero, (hu _ _).2]

theorem edgeV2_yz (i j : Int) :
    ∃ X Y : MS ℝ, X.Flat ∧ Y.Flat ∧ (∀ k, edgeV2 p dt (stackM Q) (stackM u) .y .z i j k .rt = X ∧
    edgeV2 p dt (stackM Q) (stackM u) .y .z i j k .rb = X ∧
    edgeV2 p dt (stackM Q) (stackM u) .y .z i j k .lt = Y ∧
    edgeV2 p dt (stackM Q) (stackM u) .y .z i j k .lb = Y) := by
  have zc : ∀ d i j k, limSlopeV2 p (fun i j k => (stackM u i j k).mag .z) d i j k = 0 := by
    intro d i j k
    simp [limSlopeV2, stackM, MS.mag, (hu _ _).2, slopeScalarDir_const]
  have zz : ∀ d i j k, limSlopeV2 p (fun i j k => (stackM u i j k).mag d) .z i j k = 0 := by
    intro d i j k
    simp [limSlopeV2, stackM, Dir.delta, slopeScalarDir_const]
  have hS := fun i j => slopeM_flat p.settings (hQ i j) (hQ i (j + 1)) (hQ i (j - 1))
  refine ⟨edgeV2 p dt (stackM Q) (stackM u) .y .z i j 0 .rt, edgeV2 p dt (stackM Q) (stackM u) .y .z i j 0 .lt,
    ?_, ?_, fun k => ⟨?_, ?_, ?_, ?_⟩⟩ <;>
  unfold edgeV2 <;>
  simp only [q2V2_stack hs dt hQ hu, slopeV2_y hu, slopeV2_z hu, sFaceV2_y hs dt hQ hu, sFaceV2_z hs dt hQ hu,
    zc, zz, Dir.delta, EdgeLoc.right, EdgeLoc.top, sgnMul,
    Bool.false_eq_true, if_true, if_false, mul_one, mul_zero, add_zero, MS.setMag, RealOps.lit_real]
  · exact floored_flat _ (by simp [MS.Flat, (midM2_flat dt hQ hu i j).1, (hS i j).1, MS.zero_w, stackM, MS.mag, (hu _ _).2])
  · exact floored_flat _ (by simp [MS.Flat, (midM2_flat dt hQ hu i j).1, (hS i j).1, MS.zero_w, stackM, MS.mag, (hu _ _).2])
  all_goals
    congr 1
    try (refine MS.ext ?_ ?_ ?_ ?_ ?_ ?_ ?_ ?_) <;> simp [stackM, MS.mag, MS.zero, (hu _ _).2]

theorem emfV2_stack (i j k : Int) :
    emfV2 p dt (stackM Q) (stackM u) .z i j k = emfM2 q (traceM2 q dt Q u) i j ∧
    emfV2 p dt (stackM Q) (stackM u) .y i j k = 0 ∧ emfV2 p dt (stackM Q) (stackM u) .x i j k = 0 := by
  refine ⟨?_, ?_, ?_⟩
  · unfold emfV2 emfM2
    dsimp only
    rw [(edgeV2_xy hs dt hQ hu (i - 1) (j - 1) k).1, (edgeV2_xy hs dt hQ hu (i - 1) j k).2.1,
      (edgeV2_xy hs dt hQ hu i (j - 1) k).2.2.1, (edgeV2_xy hs dt hQ hu i j k).2.2.2, hs.settings]
  · obtain ⟨X, _, hX, _, h⟩ := edgeV2_xz hs dt hQ hu (i - 1) j
    obtain ⟨_, Y, _, hY, h'⟩ := edgeV2_xz hs dt hQ hu i j
    unfold emfV2
    dsimp only
    rw [(h (k - 1)).1, (h k).2.1, (h' (k - 1)).2.2.1, (h' k).2.2.2]
    exact emfY_flat _ hX hY
  · obtain ⟨X, _, hX, _, h⟩ := edgeV2_yz hs dt hQ hu i (j - 1)
    obtain ⟨_, Y, _, hY, h'⟩ := edgeV2_yz hs dt hQ hu i j
    unfold emfV2
    dsimp only
    rw [(h (k - 1)).1, (h k).2.1, (h' (k - 1)).2.2.1, (h' k).2.2.2]
    exact emfX_flat _ hX hY

end

/-! ## Versions 0 and 1 -/

theorem flooredP_of {s : Settings ℝ} {X Y : MS ℝ} (e : X = Y) (h : PressureClear s (MS.floored s Y)) :
    MS.flooredP s X = MS.floored s Y := by
  subst e
  obtain ⟨h1, h2⟩ := h
  simp only [MS.floored, RealOps.fmax_real] at h1 h2
  have h3 : max (s.smallp * max s.smallr X.d) X.p = X.p := by
    rcases max_choice (s.smallp * max s.smallr X.d) X.p with h | h
    · rw [h] at h1; exact absurd h1 (lt_irrefl _)
    · exact h
  have h4 : max s.smallp X.p = X.p := by rw [h3] at h2; exact max_eq_right h2
  simp only [MS.flooredP, MS.floored, RealOps.fmax_real, h3, h4]

section
variable {p q : Params ℝ} (hs : SliceOf p q) (dt : ℝ) {Q u : FldM2 ℝ} (hQ : ∀ i j, (Q i j).Flat)
  (hu : ∀ i j, (u i j).Flat) 
  (hsl : fmin p.settings.slope_type (lit 2) = p.settings.slope_type)
include hs hQ hu hsl

theorem traceM3_stack (i j : Int) (hf : TraceClear q.settings (traceM2 q dt Q u i j)) : ∃ (T : TraceM3 ℝ) (X Y X' Y' : MS ℝ),
    (X.Flat ∧ Y.Flat ∧ X'.Flat ∧ Y'.Flat) ∧ (∀ k, traceM3 p dt (stackM Q) (stackM u) i j k = T) ∧
    T.qmx = (traceM2 q dt Q u i j).qmx ∧ T.qpx = (traceM2 q dt Q u i j).qpx ∧
    T.qmy = (traceM2 q dt Q u i j).qmy ∧ T.qpy = (traceM2 q dt Q u i j).qpy ∧
    T.ez = ⟨(traceM2 q dt Q u i j).rt, (traceM2 q dt Q u i j).rb, (traceM2 q dt Q u i j).lt,
      (traceM2 q dt Q u i j).lb⟩ ∧ T.ey = ⟨X, X, Y, Y⟩ ∧ T.ex = ⟨X', X', Y', Y'⟩ := by
  have e : ((1/2 : ℚ) : ℝ) = 1/2 := by norm_num
  have s7 : ∀ a b c : MS ℝ, slopeM7 p.settings a b c c = slopeM p.settings a b c MS.zero := fun _ _ _ => rfl
  have z7 : slopeM7 p.settings (Q i j) (Q i j) (Q i j) (Q i (j - 1)) = MS.zero := by
    unfold slopeM7
    split_ifs
    · simp only [slopeScalarDir_const, (hQ _ _).2]; simp [MS.zero]
    · rfl
  have cs : ∀ d i j k, faceSlopeM3 p (fun i j k => (stackM u i j k).c) d i j k = 0 := by
    intro d i j k
    simp [faceSlopeM3, stackM, (hu _ _).2, slopeScalarDir_const]
  have az : ∀ i j k, faceSlopeM3 p (fun i j k => (stackM u i j k).a) .z i j k = 0 := by
    intro i j k
    simp [faceSlopeM3, stackM, Dir.delta, slopeScalarDir_const]
  have bz : ∀ i j k, faceSlopeM3 p (fun i j k => (stackM u i j k).b) .z i j k = 0 := by
    intro i j k
    simp [faceSlopeM3, stackM, Dir.delta, slopeScalarDir_const]
  have ay : ∀ i j k, faceSlopeM3 p (fun i j k => (stackM u i j k).a) .y i j k =
      slopeScalarDir q.settings.slope_type (u i j).a (u i (j + 1)).a (u i (j - 1)).a := by
    intro i j k
    simp only [faceSlopeM3, hsl, stackM, Dir.delta, hs.settings, add_zero, sub_zero]
  have bx : ∀ i j k, faceSlopeM3 p (fun i j k => (stackM u i j k).b) .x i j k =
      slopeScalarDir q.settings.slope_type (u i j).b (u (i + 1) j).b (u (i - 1) j).b := by
    intro i j k
    simp only [faceSlopeM3, hsl, stackM, Dir.delta, hs.settings, add_zero, sub_zero]
  have hS := slopeM_flat p.settings (hQ i j) (hQ (i + 1) j) (hQ (i - 1) j)
  have hS' := slopeM_flat p.settings (hQ i j) (hQ i (j + 1)) (hQ i (j - 1))
  have zh : (MS.zero : MS ℝ).half = MS.zero := by simp [MS.half, MS.zero]
  have hT : ∀ k, traceM3 p dt (stackM Q) (stackM u) i j k = traceM3 p dt (stackM Q) (stackM u) i j 0 := by
    intro k
    unfold traceM3 traceInM3
    dsimp only
    simp only [cs, az, bz, ay, bx, elecM3_x hQ hu, elecM3_y hQ hu, elecM3_z]
    rfl
  have hm : ∀ (S S' : MS ℝ), S.Flat → S'.Flat → ∀ dA dB : ℝ, 
      sourceM3 p.settings (Q i j) S.half S'.half MS.zero dA dB 0 (dt / p.dx) (dt / p.dy) (dt / p.dz) =
      sourceM2 p.settings (Q i j) S.half S'.half dA dB (dt / p.dx) (dt / p.dy) := by
    intro S S' h h' dA dB
    refine MS.ext ?_ ?_ ?_ ?_ ?_ ?_ ?_ ?_ <;>
    simp only [sourceM3, sourceM2, MS.half, MS.zero, h.1, h.2, h'.1, h'.2, (hQ _ _).1, (hQ _ _).2,
      RealOps.lit_real] <;> push_cast <;> ring
  have main : ∃ X Y X' Y' : MS ℝ, (X.Flat ∧ Y.Flat ∧ X'.Flat ∧ Y'.Flat) ∧ 
      traceM3 p dt (stackM Q) (stackM u) i j 0 =
      { qmx := (traceM2 q dt Q u i j).qmx, qpx := (traceM2 q dt Q u i j).qpx
        qmy := (traceM2 q dt Q u i j).qmy, qpy := (traceM2 q dt Q u i j).qpy
        qmz := (traceM3 p dt (stackM Q) (stackM u) i j 0).qmz
        qpz := (traceM3 p dt (stackM Q) (stackM u) i j 0).qpz
        ez := ⟨(traceM2 q dt Q u i j).rt, (traceM2 q dt Q u i j).rb, (traceM2 q dt Q u i j).lt,
          (traceM2 q dt Q u i j).lb⟩
        ey := ⟨X, X, Y, Y⟩, ex := ⟨X', X', Y', Y'⟩ } := by
    refine ⟨(traceM3 p dt (stackM Q) (stackM u) i j 0).ey.rt, (traceM3 p dt (stackM Q) (stackM u) i j 0).ey.lt,
      (traceM3 p dt (stackM Q) (stackM u) i j 0).ex.rt, (traceM3 p dt (stackM Q) (stackM u) i j 0).ex.lt, ?_⟩
    rw [traceM2_mid] at hf ⊢
    unfold midM2 at hf ⊢
    unfold traceM3 traceInM3 traceMhd3
    dsimp only
    simp only [cs, az, bz, ay, bx, elecM3_x hQ hu, elecM3_y hQ hu, elecM3_z, s7]
    simp only [stackM, z7, zh, sub_self, mul_zero, RealOps.lit_real, e]
    simp only [hm _ _ hS hS', hs.settings, hs.dx, hs.dy] at hf ⊢
    obtain ⟨f1, f2, f3, f4, f5, f6, f7, f8⟩ := hf
    dsimp only at f1 f2 f3 f4 f5 f6 f7 f8
    have hso := source2_flat p.settings (hQ i j) hS hS' (1/2 * ((u (i + 1) j).a - (u i j).a))
      (1/2 * ((u i (j + 1)).b - (u i j).b)) (dt / p.dx) (dt / p.dy)
    generalize sourceM2 p.settings (Q i j) _ _ _ _ (dt / p.dx) (dt / p.dy) = so at hso f1 f2 f3 f4 f5 f6 f7 f8 ⊢
    generalize slopeM p.settings (Q i j) (Q (i + 1) j) (Q (i - 1) j) MS.zero = S at hS f1 f2 f3 f4 f5 f6 f7 f8 ⊢
    generalize slopeM p.settings (Q i j) (Q i (j + 1)) (Q i (j - 1)) MS.zero = S' at hS' f1 f2 f3 f4 f5 f6 f7 f8 ⊢
    constructor
    · refine ⟨?_, ?_, ?_, ?_⟩ <;> refine flooredP_flat _ ?_ <;>
        simp [MS.Flat, MS.half, MS.zero, hS.1, hS'.1, hso.1, (hQ _ _).1, (hu _ _).2]
    · simp only [TraceM3.mk.injEq, Edge4.mk.injEq, true_and, and_true]
      refine ⟨flooredP_of ?_ f1, flooredP_of ?_ f2, flooredP_of ?_ f3, flooredP_of ?_ f4,
          ⟨congrArg (MS.flooredP p.settings) ?_, congrArg (MS.flooredP p.settings) ?_⟩,
          ⟨congrArg (MS.flooredP p.settings) ?_, congrArg (MS.flooredP p.settings) ?_⟩,
          flooredP_of ?_ f5, flooredP_of ?_ f6, flooredP_of ?_ f7, flooredP_of ?_ f8⟩ <;>
        refine MS.ext ?_ ?_ ?_ ?_ ?_ ?_ ?_ ?_ <;>
        simp only [MS.half, MS.sumM, MS.addHalf, MS.subHalf, MS.setMag, MS.zero, RealOps.lit_real, e] <;> push_cast <;> ring
  obtain ⟨X, Y, X', Y', hf, h⟩ := main
  exact ⟨_, X, Y, X', Y', hf, hT, by rw [h], by rw [h], by rw [h], by rw [h], by rw [h], by rw [h], by rw [h]⟩

end

end EulerKokkos
