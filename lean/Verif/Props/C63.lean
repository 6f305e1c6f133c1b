import Verif.Lemmas.MhdPDE
import Verif.Spec.MhdScheme3D
import Verif.Props.C18

/-!
# C63 — the MHD predictor is the Taylor expansion of the ideal MHD equations

The face and edge states computed by the MHD reconstruction (`trace_unsplit_mhd_2d`,
`trace_unsplit_mhd_3d_simpler`): if the primitive variables at cell centres and the normal field at face
centres are the values of a field that is affine in space and satisfies the ideal MHD equations, then every
face state and every edge state is the first-order expansion of that field at the face (edge) centre half a
time step later, with floored density and pressure.  The time derivative is the one at the cell centre, except
for the field components normal to a face of the state, where it is the one at the centre of that face.
Unlike the hydro predictor (C50), this holds for cells of any aspect ratio.
-/

set_option linter.unusedSectionVars false
set_option linter.unusedSimpArgs false

namespace EulerKokkos.Spec

open RealOps

/-- limited slopes are exact on affine data -/
theorem slopeScalarDir_affine {θ : ℝ} (h : θ = 1 ∨ θ = 2) {q qp qm g : ℝ} (h1 : qp - q = g)
    (h2 : q - qm = g) : slopeScalarDir θ q qp qm = g := by
  have h3 : qp - qm = 2 * g := by linarith
  rw [slopeScalarDir_real, h1, h2, h3]
  have e : (1/2 : ℝ) * (2 * g) = g := by ring
  rw [e]
  rcases eq_or_ne g 0 with rfl | hg
  · simp
  have hpos : ¬ θ * g * (θ * g) ≤ 0 := by
    have hθ : θ ≠ 0 := by rcases h with rfl | rfl <;> norm_num
    have := mul_self_pos.mpr (mul_ne_zero hθ hg)
    linarith
  rw [if_neg hpos, min_self, min_eq_right]
  · split_ifs with hs
    · rw [one_mul, abs_of_nonneg hs]
    · rw [abs_of_neg (lt_of_not_ge hs)]; ring
  · rw [abs_mul]
    have : 1 ≤ |θ| := by rcases h with rfl | rfl <;> norm_num
    nlinarith [abs_nonneg g]

theorem slopeM_affine {s : Settings ℝ} (h : s.slope_type = 1 ∨ s.slope_type = 2) (q g j : MS ℝ) {k l : ℝ}
    (hk : l = -k) : slopeM s q (q + k • g) (q + l • g) j = k • g := by
  subst hk
  unfold slopeM
  rw [if_pos (by rcases h with h | h <;> simp [h])]
  simp only [ms_add, ms_smul]
  congr 1 <;> exact slopeScalarDir_affine h (by ring) (by ring)

theorem slopeM7_affine {s : Settings ℝ} (h : s.slope_type = 1 ∨ s.slope_type = 2) (q g m : MS ℝ) {k l : ℝ}
    (hk : l = -k) : ∃ κ, slopeM7 s q (q + k • g) (q + l • g) m = { k • g with c := κ } ∧
      (m = q + l • g → κ = k * g.c) := by
  subst hk
  unfold slopeM7
  rw [if_pos (by rcases h with h | h <;> simp [h])]
  simp only [ms_add, ms_smul, MS.mk.injEq]
  refine ⟨_, ⟨?_, ?_, ?_, ?_, ?_, ?_, ?_, rfl⟩, ?_⟩ <;>
    try exact slopeScalarDir_affine h (by ring) (by ring)
  rintro rfl
  exact slopeScalarDir_affine h (by ring) (by ring)

/-- the rate of change of the eight variables in the code -/
theorem sourceM3_rate {s : Settings ℝ} {q gx gy gz : MS ℝ} {hx hy hz dt κ : ℝ} (hx0 : hx ≠ 0)
    (hy0 : hy ≠ 0) (hz0 : hz ≠ 0) (hd : q.d ≠ 0) :
    sourceM3 s q (hx • gx).half (hy • gy).half ({ hz • gz with c := κ } : MS ℝ).half (1/2 * (hx * gx.a)) (1/2 * (hy * gy.b))
      (1/2 * (hz * gz.c)) (dt / hx) (dt / hy) (dt / hz) =
      (dt / 2) • mhdRate s.gamma0 q gx gy gz := by
  unfold sourceM3 mhdRate MS.half
  simp only [ms_smul, lit_real, MS.mk.injEq]
  refine ⟨?_, ?_, ?_, ?_, ?_, ?_, ?_, ?_⟩ <;> push_cast <;> field_simp <;> ring

theorem sourceM2_rate {s : Settings ℝ} {q gx gy : MS ℝ} {hx hy dt : ℝ} (hx0 : hx ≠ 0)
    (hy0 : hy ≠ 0) (hd : q.d ≠ 0) :
    sourceM2 s q (hx • gx).half (hy • gy).half (1/2 * (hx * gx.a)) (1/2 * (hy * gy.b))
      (dt / hx) (dt / hy) =
      (dt / 2) • mhdRate s.gamma0 q gx gy ⟨0, 0, 0, 0, 0, 0, 0, 0⟩ := by
  unfold sourceM2 mhdRate MS.half
  simp only [ms_smul, lit_real, MS.mk.injEq]
  refine ⟨?_, ?_, ?_, ?_, ?_, ?_, ?_, ?_⟩ <;> push_cast <;> field_simp <;> ring

/-- floors of the 2D code -/
noncomputable def floor2 (s : Settings ℝ) : MS ℝ → MS ℝ := raised s.smallr (fun d => s.smallp * d)
/-- floors of the 3D code -/
noncomputable def floor3 (s : Settings ℝ) : MS ℝ → MS ℝ := raised s.smallr (fun _ => s.smallp)

theorem floor2_eq (s : Settings ℝ) (q : MS ℝ) : MS.floored s q = floor2 s q := by
  simp [MS.floored, floor2, raised]
theorem floor3_eq (s : Settings ℝ) (q : MS ℝ) : MS.flooredP s q = floor3 s q := by
  simp [MS.flooredP, floor3, raised]

/-- **C63 (2D).** -/
theorem C63_predictor_2d {p : Params ℝ} (hs : p.settings.slope_type = 1 ∨ p.settings.slope_type = 2)
    (hγ : 1 < p.settings.gamma0) (hx0 : 0 < p.dx) (hy0 : 0 < p.dy)
    {W : ℝ → ℝ → ℝ → ℝ → MS ℝ} {x y z t dt : ℝ} {gx gy gt L R B T : MS ℝ} {q u : FldM2 ℝ} {i j : Int}
    (hA : AffineAt W x y z t gx gy ⟨0, 0, 0, 0, 0, 0, 0, 0⟩)
    (hS : Samples2 (fun ξ η => W ξ η z t) p.dx p.dy q u i j x y) (hd : 0 < (W x y z t).d)
    (hC : MhdAt p.settings.gamma0 W x y z t gx gy ⟨0, 0, 0, 0, 0, 0, 0, 0⟩ gt)
    (hL : MhdAt p.settings.gamma0 W (x - p.dx/2) y z t gx gy ⟨0, 0, 0, 0, 0, 0, 0, 0⟩ L)
    (hR : MhdAt p.settings.gamma0 W (x + p.dx/2) y z t gx gy ⟨0, 0, 0, 0, 0, 0, 0, 0⟩ R)
    (hB : MhdAt p.settings.gamma0 W x (y - p.dy/2) z t gx gy ⟨0, 0, 0, 0, 0, 0, 0, 0⟩ B)
    (hT : MhdAt p.settings.gamma0 W x (y + p.dy/2) z t gx gy ⟨0, 0, 0, 0, 0, 0, 0, 0⟩ T) :
    let r := traceM2 p dt q u i j
    let at' := fun ξ η => W (x + ξ * p.dx) (y + η * p.dy) z t
    let flo := floor2 p.settings
    let h := dt / 2
    -- faces
    r.qpx = flo { at' (-1/2) 0 + h • gt with a := (at' (-1/2) 0 + h • L).a } ∧
    r.qmx = flo { at' (1/2) 0 + h • gt with a := (at' (1/2) 0 + h • R).a } ∧
    r.qpy = flo { at' 0 (-1/2) + h • gt with b := (at' 0 (-1/2) + h • B).b } ∧
    r.qmy = flo { at' 0 (1/2) + h • gt with b := (at' 0 (1/2) + h • T).b } ∧
    -- edges
    r.lb = flo { at' (-1/2) (-1/2) + h • gt with
      a := (at' (-1/2) (-1/2) + h • L).a, b := (at' (-1/2) (-1/2) + h • B).b } ∧
    r.lt = flo { at' (-1/2) (1/2) + h • gt with
      a := (at' (-1/2) (1/2) + h • L).a, b := (at' (-1/2) (1/2) + h • T).b } ∧
    r.rb = flo { at' (1/2) (-1/2) + h • gt with
      a := (at' (1/2) (-1/2) + h • R).a, b := (at' (1/2) (-1/2) + h • B).b } ∧
    r.rt = flo { at' (1/2) (1/2) + h • gt with
      a := (at' (1/2) (1/2) + h • R).a, b := (at' (1/2) (1/2) + h • T).b } := by
  have hx' : p.dx ≠ 0 := ne_of_gt hx0
  have hy' : p.dy ≠ 0 := ne_of_gt hy0
  have hd' := ne_of_gt hd
  have eg := hC.primitive (ne_of_gt hγ) hd'
  have eL := hL.induction.1
  have eR := hR.induction.1
  have eB := hB.induction.2.1
  have eT := hT.induction.2.1
  clear hC hL hR hB hT
  unfold AffineAt at hA
  have hq := hS.centre
  have hfx := hS.faceX
  have hfy := hS.faceY
  clear hS
  generalize hc : W x y z t = c at *
  dsimp only
  simp only [hA] at hq hfx hfy eL eR eB eT ⊢
  clear hA hc
  have hz : ∀ s : MS ℝ, s + (z - z) • (⟨0, 0, 0, 0, 0, 0, 0, 0⟩ : MS ℝ) = s := fun s => by
    simp [ms_add, ms_smul]
  simp only [hz] at *
  have c0 : q (i + 0) (j + 0) = c := by rw [hq]; simp [ms_add, ms_smul]
  have xp : q (i + 1) (j + 0) = c + p.dx • gx := by rw [hq]; simp [ms_add, ms_smul]
  have xm : q (i + -1) (j + 0) = c + (-p.dx) • gx := by rw [hq]; simp [ms_add, ms_smul]
  have yp : q (i + 0) (j + 1) = c + p.dy • gy := by rw [hq]; simp [ms_add, ms_smul]
  have ym : q (i + 0) (j + -1) = c + (-p.dy) • gy := by rw [hq]; simp [ms_add, ms_smul]
  unfold traceM2 traceMhd2
  simp only [c0, xp, xm, yp, ym, slopeM_affine hs c _ _ rfl]
  have fs : ∀ {b0 bp bm g : ℝ}, bp - b0 = g → b0 - bm = g →
      slopeScalarDir p.settings.slope_type b0 bp bm = g := fun h1 h2 => slopeScalarDir_affine hs h1 h2
  have sA : ∀ a : Int, slopeScalarDir p.settings.slope_type (u (i + a) (j + 0)).a (u (i + a) (j + 1)).a
      (u (i + a) (j + -1)).a = p.dy * gy.a := fun a => fs
    (by rw [hfx, hfx]; simp only [ms_add, ms_smul]; push_cast; ring)
    (by rw [hfx, hfx]; simp only [ms_add, ms_smul]; push_cast; ring)
  have sB : ∀ b : Int, slopeScalarDir p.settings.slope_type (u (i + 0) (j + b)).b (u (i + 1) (j + b)).b
      (u (i + -1) (j + b)).b = p.dx * gx.b := fun b => fs
    (by rw [hfy, hfy]; simp only [ms_add, ms_smul]; push_cast; ring)
    (by rw [hfy, hfy]; simp only [ms_add, ms_smul]; push_cast; ring)
  simp only [sA, sB]
  have hAx : (lit (1/2) : ℝ) * ((u (i + 1) (j + 0)).a - (u (i + 0) (j + 0)).a) = 1/2 * (p.dx * gx.a) := by
    rw [hfx, hfx]; simp only [ms_add, ms_smul, lit_real]; push_cast; ring
  have hBy : (lit (1/2) : ℝ) * ((u (i + 0) (j + 1)).b - (u (i + 0) (j + 0)).b) = 1/2 * (p.dy * gy.b) := by
    rw [hfy, hfy]; simp only [ms_add, ms_smul, lit_real]; push_cast; ring
  rw [hAx, hBy, sourceM2_rate hx' hy' hd', ← eg]
  simp only [mhdRate, ms_add, ms_smul] at eL eR eB eT
  have E : ∀ a b : Int, elecZ2 (fun o => q (i + o.1) (j + o.2))
      (fun o => ⟨(u (i + o.1) (j + o.2)).a, (u (i + o.1) (j + o.2)).b, (u (i + o.1) (j + o.2)).c⟩) a b =
      (c.u + (a - 1/2) * p.dx * gx.u + (b - 1/2) * p.dy * gy.u) *
        (c.b + (a - 1/2) * p.dx * gx.b + (b - 1/2) * p.dy * gy.b) -
      (c.v + (a - 1/2) * p.dx * gx.v + (b - 1/2) * p.dy * gy.v) *
        (c.a + (a - 1/2) * p.dx * gx.a + (b - 1/2) * p.dy * gy.a) := by
    intro a b
    unfold elecZ2
    simp only [hq, hfx, hfy, ms_add, ms_smul, lit_real]
    push_cast
    ring
  simp only [E]
  simp only [floor2_eq, hfx, hfy, ms_add, ms_smul, lit_real, MS.half, eL, eR, eB, eT]
  clear eL eR eB eT E sA sB hAx hBy hq hfx hfy c0 xp xm yp ym fs hz
  refine ⟨?_, ?_, ?_, ?_, ?_, ?_, ?_, ?_⟩ <;> congr 1 <;> simp only [MS.mk.injEq] <;>
    refine ⟨?_, ?_, ?_, ?_, ?_, ?_, ?_, ?_⟩ <;> push_cast <;> first | ring1 | (field_simp; ring1)

set_option maxHeartbeats 2000000 in
/-- **C63 (3D, implementation versions 0 and 1).**  `L, R` (`B, T`; `K, F`) are the time derivatives at the
centres of the two faces normal to `x` (`y`; `z`). -/
theorem C63_predictor_3d {p : Params ℝ} (hs : p.settings.slope_type = 1 ∨ p.settings.slope_type = 2)
    (hγ : 1 < p.settings.gamma0) (hx0 : 0 < p.dx) (hy0 : 0 < p.dy) (hz0 : 0 < p.dz)
    {W : ℝ → ℝ → ℝ → ℝ → MS ℝ} {x y z t dt : ℝ} {gx gy gz gt L R B T K F : MS ℝ} {q u : FldM3 ℝ}
    {i j k : Int} (hA : AffineAt W x y z t gx gy gz)
    (hS : Samples3 (fun ξ η ζ => W ξ η ζ t) p.dx p.dy p.dz q u i j k x y z) (hd : 0 < (W x y z t).d)
    (hC : MhdAt p.settings.gamma0 W x y z t gx gy gz gt)
    (hL : MhdAt p.settings.gamma0 W (x - p.dx/2) y z t gx gy gz L)
    (hR : MhdAt p.settings.gamma0 W (x + p.dx/2) y z t gx gy gz R)
    (hB : MhdAt p.settings.gamma0 W x (y - p.dy/2) z t gx gy gz B)
    (hT : MhdAt p.settings.gamma0 W x (y + p.dy/2) z t gx gy gz T)
    (hK : MhdAt p.settings.gamma0 W x y (z - p.dz/2) t gx gy gz K)
    (hF : MhdAt p.settings.gamma0 W x y (z + p.dz/2) t gx gy gz F) :
    let r := traceM3 p dt q u i j k
    let at' := fun ξ η ζ => W (x + ξ * p.dx) (y + η * p.dy) (z + ζ * p.dz) t
    let flo := floor3 p.settings
    let h := dt / 2
    let l : ℝ := -1/2
    let m : ℝ := 1/2
    -- faces
    (r.qpx = flo { at' l 0 0 + h • gt with a := (at' l 0 0 + h • L).a } ∧
     r.qmx = flo { at' m 0 0 + h • gt with a := (at' m 0 0 + h • R).a } ∧
     r.qpy = flo { at' 0 l 0 + h • gt with b := (at' 0 l 0 + h • B).b } ∧
     r.qmy = flo { at' 0 m 0 + h • gt with b := (at' 0 m 0 + h • T).b } ∧
     r.qpz = flo { at' 0 0 l + h • gt with c := (at' 0 0 l + h • K).c } ∧
     r.qmz = flo { at' 0 0 m + h • gt with c := (at' 0 0 m + h • F).c }) ∧
    -- edges along z
    (r.ez.lb = flo { at' l l 0 + h • gt with a := (at' l l 0 + h • L).a, b := (at' l l 0 + h • B).b } ∧
     r.ez.lt = flo { at' l m 0 + h • gt with a := (at' l m 0 + h • L).a, b := (at' l m 0 + h • T).b } ∧
     r.ez.rb = flo { at' m l 0 + h • gt with a := (at' m l 0 + h • R).a, b := (at' m l 0 + h • B).b } ∧
     r.ez.rt = flo { at' m m 0 + h • gt with a := (at' m m 0 + h • R).a, b := (at' m m 0 + h • T).b }) ∧
    -- edges along y
    (r.ey.lb = flo { at' l 0 l + h • gt with a := (at' l 0 l + h • L).a, c := (at' l 0 l + h • K).c } ∧
     r.ey.lt = flo { at' l 0 m + h • gt with a := (at' l 0 m + h • L).a, c := (at' l 0 m + h • F).c } ∧
     r.ey.rb = flo { at' m 0 l + h • gt with a := (at' m 0 l + h • R).a, c := (at' m 0 l + h • K).c } ∧
     r.ey.rt = flo { at' m 0 m + h • gt with a := (at' m 0 m + h • R).a, c := (at' m 0 m + h • F).c }) ∧
    -- edges along x
    (r.ex.lb = flo { at' 0 l l + h • gt with b := (at' 0 l l + h • B).b, c := (at' 0 l l + h • K).c } ∧
     r.ex.lt = flo { at' 0 l m + h • gt with b := (at' 0 l m + h • B).b, c := (at' 0 l m + h • F).c } ∧
     r.ex.rb = flo { at' 0 m l + h • gt with b := (at' 0 m l + h • T).b, c := (at' 0 m l + h • K).c } ∧
     r.ex.rt = flo { at' 0 m m + h • gt with b := (at' 0 m m + h • T).b, c := (at' 0 m m + h • F).c }) := by
  have hx' : p.dx ≠ 0 := ne_of_gt hx0
  have hy' : p.dy ≠ 0 := ne_of_gt hy0
  have hz' : p.dz ≠ 0 := ne_of_gt hz0
  have hd' := ne_of_gt hd
  have eg := hC.primitive (ne_of_gt hγ) hd'
  have eL := hL.induction.1
  have eR := hR.induction.1
  have eB := hB.induction.2.1
  have eT := hT.induction.2.1
  have eK := hK.induction.2.2
  have eF := hF.induction.2.2
  clear hC hL hR hB hT hK hF
  unfold AffineAt at hA
  have hq := hS.centre
  have hfx := hS.faceX
  have hfy := hS.faceY
  have hfz := hS.faceZ
  clear hS
  generalize hc : W x y z t = c at *
  dsimp only
  simp only [hA] at hq hfx hfy hfz eL eR eB eT eK eF ⊢
  clear hA hc
  -- values of the two fields at the neighbours used
  have q' : ∀ a b e : Int, q (i + a) (j + b) (k + e) =
      c + (a * p.dx) • gx + (b * p.dy) • gy + (e * p.dz) • gz := fun a b e => by
    rw [hq]; simp only [add_sub_cancel_left]
  have ua : ∀ a b e : Int, (u (i + a) (j + b) (k + e)).a =
      c.a + ((a - 1/2) * p.dx) * gx.a + (b * p.dy) * gy.a + (e * p.dz) * gz.a := fun a b e => by
    rw [hfx]; simp only [add_sub_cancel_left, ms_add, ms_smul]
  have ub : ∀ a b e : Int, (u (i + a) (j + b) (k + e)).b =
      c.b + (a * p.dx) * gx.b + ((b - 1/2) * p.dy) * gy.b + (e * p.dz) * gz.b := fun a b e => by
    rw [hfy]; simp only [add_sub_cancel_left, ms_add, ms_smul]
  have uc : ∀ a b e : Int, (u (i + a) (j + b) (k + e)).c =
      c.c + (a * p.dx) * gx.c + (b * p.dy) * gy.c + ((e - 1/2) * p.dz) * gz.c := fun a b e => by
    rw [hfz]; simp only [add_sub_cancel_left, ms_add, ms_smul]
  clear hq hfx hfy hfz
  have fs : ∀ {b0 bp bm g : ℝ}, bp - b0 = g → b0 - bm = g →
      slopeScalarDir (fmin p.settings.slope_type (lit 2)) b0 bp bm = g := fun h1 h2 => by
    refine slopeScalarDir_affine ?_ h1 h2
    rcases hs with h | h <;> simp [h]
  -- the inputs of the reconstruction
  have z3 : ∀ n : Int, n = n + 0 := fun n => (add_zero n).symm
  have c0 : q i j k = c := by rw [z3 i, z3 j, z3 k, q']; simp [ms_add, ms_smul]
  have xp : q (i + 1) j k = c + p.dx • gx := by rw [z3 j, z3 k, q']; simp [ms_add, ms_smul]
  have xm : q (i - 1) j k = c + (-p.dx) • gx := by
    rw [sub_eq_add_neg, z3 j, z3 k, q']; simp [ms_add, ms_smul]
  have yp : q i (j + 1) k = c + p.dy • gy := by rw [z3 i, z3 k, q']; simp [ms_add, ms_smul]
  have ym : q i (j - 1) k = c + (-p.dy) • gy := by
    rw [sub_eq_add_neg, z3 i, z3 k, q']; simp [ms_add, ms_smul]
  have zp : q i j (k + 1) = c + p.dz • gz := by rw [z3 i, z3 j, q']; simp [ms_add, ms_smul]
  have zm : q i j (k - 1) = c + (-p.dz) • gz := by
    rw [sub_eq_add_neg, z3 i, z3 j, q']; simp [ms_add, ms_smul]
  have Ex : ∀ a b e : Int, elecM3 q u .x (i + a) (j + b) (k + e) =
      (c.v + (a) * p.dx * gx.v + (b - 1/2) * p.dy * gy.v + (e - 1/2) * p.dz * gz.v) *
        (c.c + (a) * p.dx * gx.c + (b - 1/2) * p.dy * gy.c + (e - 1/2) * p.dz * gz.c) -
      (c.w + (a) * p.dx * gx.w + (b - 1/2) * p.dy * gy.w + (e - 1/2) * p.dz * gz.w) *
        (c.b + (a) * p.dx * gx.b + (b - 1/2) * p.dy * gy.b + (e - 1/2) * p.dz * gz.b) := by
    intro a b e
    simp only [elecM3, avg4, avg2, add_sub_assoc, q', ua, ub, uc, ms_add, ms_smul, lit_real]
    push_cast
    ring
  have Ey : ∀ a b e : Int, elecM3 q u .y (i + a) (j + b) (k + e) =
      (c.w + (a - 1/2) * p.dx * gx.w + (b) * p.dy * gy.w + (e - 1/2) * p.dz * gz.w) *
        (c.a + (a - 1/2) * p.dx * gx.a + (b) * p.dy * gy.a + (e - 1/2) * p.dz * gz.a) -
      (c.u + (a - 1/2) * p.dx * gx.u + (b) * p.dy * gy.u + (e - 1/2) * p.dz * gz.u) *
        (c.c + (a - 1/2) * p.dx * gx.c + (b) * p.dy * gy.c + (e - 1/2) * p.dz * gz.c) := by
    intro a b e
    simp only [elecM3, avg4, avg2, add_sub_assoc, q', ua, ub, uc, ms_add, ms_smul, lit_real]
    push_cast
    ring
  have Ez : ∀ a b e : Int, elecM3 q u .z (i + a) (j + b) (k + e) =
      (c.u + (a - 1/2) * p.dx * gx.u + (b - 1/2) * p.dy * gy.u + (e) * p.dz * gz.u) *
        (c.b + (a - 1/2) * p.dx * gx.b + (b - 1/2) * p.dy * gy.b + (e) * p.dz * gz.b) -
      (c.v + (a - 1/2) * p.dx * gx.v + (b - 1/2) * p.dy * gy.v + (e) * p.dz * gz.v) *
        (c.a + (a - 1/2) * p.dx * gx.a + (b - 1/2) * p.dy * gy.a + (e) * p.dz * gz.a) := by
    intro a b e
    simp only [elecM3, avg4, avg2, add_sub_assoc, q', ua, ub, uc, ms_add, ms_smul, lit_real]
    push_cast
    ring
  have Say : ∀ a b e : Int, faceSlopeM3 p (fun i j k => (u i j k).a) .y (i + a) (j + b) (k + e) =
      p.dy * gy.a := fun a b e => by
    unfold faceSlopeM3
    simp only [Dir.delta, add_assoc, add_sub_assoc, ua]
    exact fs (by push_cast; ring) (by push_cast; ring)
  have Saz : ∀ a b e : Int, faceSlopeM3 p (fun i j k => (u i j k).a) .z (i + a) (j + b) (k + e) =
      p.dz * gz.a := fun a b e => by
    unfold faceSlopeM3
    simp only [Dir.delta, add_assoc, add_sub_assoc, ua]
    exact fs (by push_cast; ring) (by push_cast; ring)
  have Sbx : ∀ a b e : Int, faceSlopeM3 p (fun i j k => (u i j k).b) .x (i + a) (j + b) (k + e) =
      p.dx * gx.b := fun a b e => by
    unfold faceSlopeM3
    simp only [Dir.delta, add_assoc, add_sub_assoc, ub]
    exact fs (by push_cast; ring) (by push_cast; ring)
  have Sbz : ∀ a b e : Int, faceSlopeM3 p (fun i j k => (u i j k).b) .z (i + a) (j + b) (k + e) =
      p.dz * gz.b := fun a b e => by
    unfold faceSlopeM3
    simp only [Dir.delta, add_assoc, add_sub_assoc, ub]
    exact fs (by push_cast; ring) (by push_cast; ring)
  have Scx : ∀ a b e : Int, faceSlopeM3 p (fun i j k => (u i j k).c) .x (i + a) (j + b) (k + e) =
      p.dx * gx.c := fun a b e => by
    unfold faceSlopeM3
    simp only [Dir.delta, add_assoc, add_sub_assoc, uc]
    exact fs (by push_cast; ring) (by push_cast; ring)
  have Scy : ∀ a b e : Int, faceSlopeM3 p (fun i j k => (u i j k).c) .y (i + a) (j + b) (k + e) =
      p.dy * gy.c := fun a b e => by
    unfold faceSlopeM3
    simp only [Dir.delta, add_assoc, add_sub_assoc, uc]
    exact fs (by push_cast; ring) (by push_cast; ring)
  have Ex000 := Ex 0 0 0
  simp only [add_zero] at Ex000
  have Ex001 := Ex 0 0 1
  simp only [add_zero] at Ex001
  have Ex010 := Ex 0 1 0
  simp only [add_zero] at Ex010
  have Ex011 := Ex 0 1 1
  simp only [add_zero] at Ex011
  have Ey000 := Ey 0 0 0
  simp only [add_zero] at Ey000
  have Ey001 := Ey 0 0 1
  simp only [add_zero] at Ey001
  have Ey100 := Ey 1 0 0
  simp only [add_zero] at Ey100
  have Ey101 := Ey 1 0 1
  simp only [add_zero] at Ey101
  have Ez000 := Ez 0 0 0
  simp only [add_zero] at Ez000
  have Ez010 := Ez 0 1 0
  simp only [add_zero] at Ez010
  have Ez100 := Ez 1 0 0
  simp only [add_zero] at Ez100
  have Ez110 := Ez 1 1 0
  simp only [add_zero] at Ez110
  have Say000 := Say 0 0 0
  simp only [add_zero] at Say000
  have Say100 := Say 1 0 0
  simp only [add_zero] at Say100
  have Saz000 := Saz 0 0 0
  simp only [add_zero] at Saz000
  have Saz100 := Saz 1 0 0
  simp only [add_zero] at Saz100
  have Sbx000 := Sbx 0 0 0
  simp only [add_zero] at Sbx000
  have Sbx010 := Sbx 0 1 0
  simp only [add_zero] at Sbx010
  have Sbz000 := Sbz 0 0 0
  simp only [add_zero] at Sbz000
  have Sbz010 := Sbz 0 1 0
  simp only [add_zero] at Sbz010
  have Scx000 := Scx 0 0 0
  simp only [add_zero] at Scx000
  have Scx001 := Scx 0 0 1
  simp only [add_zero] at Scx001
  have Scy000 := Scy 0 0 0
  simp only [add_zero] at Scy000
  have Scy001 := Scy 0 0 1
  simp only [add_zero] at Scy001
  have ua000 := ua 0 0 0
  simp only [add_zero] at ua000
  have ua100 := ua 1 0 0
  simp only [add_zero] at ua100
  have ub000 := ub 0 0 0
  simp only [add_zero] at ub000
  have ub010 := ub 0 1 0
  simp only [add_zero] at ub010
  have uc000 := uc 0 0 0
  simp only [add_zero] at uc000
  have uc001 := uc 0 0 1
  simp only [add_zero] at uc001
  obtain ⟨κx, sx, hκx⟩ := slopeM7_affine hs c gx (c + (-p.dx) • gx) (k := p.dx) rfl
  obtain ⟨κy, sy, hκy⟩ := slopeM7_affine hs c gy (c + (-p.dy) • gy) (k := p.dy) rfl
  obtain ⟨κz, sz, -⟩ := slopeM7_affine hs c gz (c + (-p.dy) • gy) (k := p.dz) rfl
  rw [hκx rfl] at sx
  rw [hκy rfl] at sy
  have sx' : slopeM7 p.settings c (c + p.dx • gx) (c + -p.dx • gx) (c + -p.dx • gx) = p.dx • gx := sx
  have sy' : slopeM7 p.settings c (c + p.dy • gy) (c + -p.dy • gy) (c + -p.dy • gy) = p.dy • gy := sy
  have hAx : (lit (1/2) : ℝ) * ((u (i + 1) j k).a - (u i j k).a) = 1/2 * (p.dx * gx.a) := by
    rw [ua100, ua000]; simp only [lit_real]; push_cast; ring
  have hBy : (lit (1/2) : ℝ) * ((u i (j + 1) k).b - (u i j k).b) = 1/2 * (p.dy * gy.b) := by
    rw [ub010, ub000]; simp only [lit_real]; push_cast; ring
  have hCz : (lit (1/2) : ℝ) * ((u i j (k + 1)).c - (u i j k).c) = 1/2 * (p.dz * gz.c) := by
    rw [uc001, uc000]; simp only [lit_real]; push_cast; ring
  unfold traceM3 traceMhd3 traceInM3
  simp only [c0, xp, xm, yp, ym, zp, zm, sx', sy', sz, hAx, hBy, hCz, sourceM3_rate hx' hy' hz' hd', ← eg]
  simp only [mhdRate, ms_add, ms_smul] at eL eR eB eT eK eF
  simp only [floor3_eq, ms_add, ms_smul, lit_real, MS.half, eL, eR, eB, eT, eK, eF,
    Ex000, Ex001, Ex010, Ex011, Ey000, Ey001, Ey100, Ey101, Ez000, Ez010, Ez100, Ez110,
    Say000, Say100, Saz000, Saz100, Sbx000, Sbx010, Sbz000, Sbz010, Scx000, Scx001,
    Scy000, Scy001, ua000, ua100, ub000, ub010, uc000, uc001]
  clear Ex000 Ex001 Ex010 Ex011 Ey000 Ey001 Ey100 Ey101 Ez000 Ez010 Ez100 Ez110 Say000 Say100 Saz000 Saz100 Sbx000 Sbx010 Sbz000 Sbz010
  clear Scx000 Scx001 Scy000 Scy001 ua000 ua100 ub000 ub010 uc000 uc001
  clear Ex Ey Ez Say Saz Sbx Sbz Scx Scy ua ub uc q' hAx hBy hCz sx' sy' sx sy sz hκx hκy c0 xp xm yp ym zp zm fs
  clear eL eR eB eT eK eF eg
  refine ⟨⟨?_, ?_, ?_, ?_, ?_, ?_⟩, ⟨?_, ?_, ?_, ?_⟩, ⟨?_, ?_, ?_, ?_⟩, ⟨?_, ?_, ?_, ?_⟩⟩ <;> congr 1 <;>
    simp only [MS.mk.injEq] <;>
    refine ⟨?_, ?_, ?_, ?_, ?_, ?_, ?_, ?_⟩ <;> push_cast <;> first | ring1 | (field_simp; ring1)

/-- samples of a field on the mesh of `p`, centred on cell `(0, 0, 0)` -/
noncomputable def sampleQ (f : ℝ → ℝ → ℝ → MS ℝ) (dx dy dz : ℝ) : FldM3 ℝ :=
  fun i j k => f (i * dx) (j * dy) (k * dz)
/-- the same for the face-centred field -/
noncomputable def sampleU (f : ℝ → ℝ → ℝ → MS ℝ) (dx dy dz : ℝ) : FldM3 ℝ := fun i j k =>
  { f (i * dx) (j * dy) (k * dz) with
    a := (f ((i - 1/2) * dx) (j * dy) (k * dz)).a
    b := (f (i * dx) ((j - 1/2) * dy) (k * dz)).b
    c := (f (i * dx) (j * dy) ((k - 1/2) * dz)).c }

/-- The hypotheses of `C63_predictor_3d` can be met for every state and all divergence-free gradients, as long
as the density does not vanish at the face centres. -/
theorem C63_hypotheses_met {γ dx dy dz : ℝ} (hγ : 1 < γ) (q gx gy gz : MS ℝ)
    (hdiv : gx.a + gy.b + gz.c = 0) (hd : 0 < q.d) (hx : |gx.d| * dx < q.d) (hy : |gy.d| * dy < q.d)
    (hz : |gz.d| * dz < q.d) (hx0 : 0 < dx) (hy0 : 0 < dy) (hz0 : 0 < dz) :
    ∃ W Q U gt L R B T K F, W 0 0 0 0 = q ∧ AffineAt W 0 0 0 0 gx gy gz ∧
      Samples3 (fun ξ η ζ => W ξ η ζ 0) dx dy dz Q U 0 0 0 0 0 0 ∧
      MhdAt γ W 0 0 0 0 gx gy gz gt ∧
      MhdAt γ W (0 - dx/2) 0 0 0 gx gy gz L ∧ MhdAt γ W (0 + dx/2) 0 0 0 gx gy gz R ∧
      MhdAt γ W 0 (0 - dy/2) 0 0 gx gy gz B ∧ MhdAt γ W 0 (0 + dy/2) 0 0 gx gy gz T ∧
      MhdAt γ W 0 0 (0 - dz/2) 0 gx gy gz K ∧ MhdAt γ W 0 0 (0 + dz/2) 0 gx gy gz F := by
  have key : ∀ x y z, (affineM q gx gy gz x y z).d = q.d + x * gx.d + y * gy.d + z * gz.d := fun x y z => by
    simp only [affineM, ms_add, ms_smul]
  have pos : ∀ g h : ℝ, |g| * h < q.d → 0 < h → q.d + (0 - h/2) * g ≠ 0 ∧ q.d + (0 + h/2) * g ≠ 0 := by
    intro g h hg hh
    have h1 := mul_le_mul_of_nonneg_right (le_abs_self g) hh.le
    have h2 := mul_le_mul_of_nonneg_right (neg_abs_le g) hh.le
    constructor <;> apply ne_of_gt <;> nlinarith
  have ev := fun x y z hd => evolvingM_mhd (ne_of_gt hγ) q gx gy gz hdiv x y z hd
  refine ⟨evolvingM γ q gx gy gz, sampleQ (fun ξ η ζ => evolvingM γ q gx gy gz ξ η ζ 0) dx dy dz,
    sampleU (fun ξ η ζ => evolvingM γ q gx gy gz ξ η ζ 0) dx dy dz, _, _, _, _, _, _, _, ?_,
    evolvingM_affine _ _ _ _ _, ?_, ev _ _ _ ?_, ev _ _ _ ?_, ev _ _ _ ?_, ev _ _ _ ?_, ev _ _ _ ?_,
    ev _ _ _ ?_, ev _ _ _ ?_⟩
  · rw [evolvingM_zero]
    simp [affineM, ms_add, ms_smul]
  · constructor <;> intro a b c <;> simp only [sampleQ, sampleU, zero_add]
  · rw [key]; simpa using ne_of_gt hd
  · rw [key]; simpa using (pos _ _ hx hx0).1
  · rw [key]; simpa using (pos _ _ hx hx0).2
  · rw [key]; simpa using (pos _ _ hy hy0).1
  · rw [key]; simpa using (pos _ _ hy hy0).2
  · rw [key]; simpa using (pos _ _ hz hz0).1
  · rw [key]; simpa using (pos _ _ hz hz0).2

/-- The hypotheses of `C63_predictor_2d` can be met in the same way. -/
theorem C63_hypotheses_met_2d {γ dx dy : ℝ} (hγ : 1 < γ) (q gx gy : MS ℝ)
    (hdiv : gx.a + gy.b = 0) (hd : 0 < q.d) (hx : |gx.d| * dx < q.d) (hy : |gy.d| * dy < q.d)
    (hx0 : 0 < dx) (hy0 : 0 < dy) :
    ∃ W Q U gt L R B T, W 0 0 0 0 = q ∧ AffineAt W 0 0 0 0 gx gy ⟨0, 0, 0, 0, 0, 0, 0, 0⟩ ∧
      Samples2 (fun ξ η => W ξ η 0 0) dx dy Q U 0 0 0 0 ∧
      MhdAt γ W 0 0 0 0 gx gy ⟨0, 0, 0, 0, 0, 0, 0, 0⟩ gt ∧
      MhdAt γ W (0 - dx/2) 0 0 0 gx gy ⟨0, 0, 0, 0, 0, 0, 0, 0⟩ L ∧
      MhdAt γ W (0 + dx/2) 0 0 0 gx gy ⟨0, 0, 0, 0, 0, 0, 0, 0⟩ R ∧
      MhdAt γ W 0 (0 - dy/2) 0 0 gx gy ⟨0, 0, 0, 0, 0, 0, 0, 0⟩ B ∧
      MhdAt γ W 0 (0 + dy/2) 0 0 gx gy ⟨0, 0, 0, 0, 0, 0, 0, 0⟩ T := by
  obtain ⟨W, Q, U, gt, L, R, B, T, K, F, h0, hA, hS, hC, hL, hR, hB, hT, -, -⟩ :=
    C63_hypotheses_met (dz := 1) hγ q gx gy ⟨0, 0, 0, 0, 0, 0, 0, 0⟩ (by simpa using hdiv) hd hx hy
      (by simpa using hd) hx0 hy0 one_pos
  refine ⟨W, fun i j => Q i j 0, fun i j => U i j 0, gt, L, R, B, T, h0, hA, ?_, hC, hL, hR, hB, hT⟩
  constructor
  · intro a b; simpa using hS.centre a b 0
  · intro a b; simpa using hS.faceX a b 0
  · intro a b; simpa using hS.faceY a b 0

/-- non-vacuity: gradients in all variables, cells of different sizes in the three directions -/
example : ∃ W Q U gt L R, W 0 0 0 0 = ⟨5, 1, 2, 3, 4, 5, 6, 7⟩ ∧
    AffineAt W 0 0 0 0 ⟨1, 2, 3, 4, 5, 6, 7, 8⟩ ⟨-1, 2, -3, 4, 1, 2, -3, 4⟩ ⟨2, 1, 1, 2, 4, 5, 1, -3⟩ ∧
    Samples3 (fun ξ η ζ => W ξ η ζ 0) 1 2 (1/2) Q U 0 0 0 0 0 0 ∧
    MhdAt (5/3) W 0 0 0 0 ⟨1, 2, 3, 4, 5, 6, 7, 8⟩ ⟨-1, 2, -3, 4, 1, 2, -3, 4⟩ ⟨2, 1, 1, 2, 4, 5, 1, -3⟩ gt ∧
    L ≠ R ∧
    MhdAt (5/3) W (0 - 1/2) 0 0 0 ⟨1, 2, 3, 4, 5, 6, 7, 8⟩ ⟨-1, 2, -3, 4, 1, 2, -3, 4⟩ ⟨2, 1, 1, 2, 4, 5, 1, -3⟩ L ∧
    MhdAt (5/3) W (0 + 1/2) 0 0 0 ⟨1, 2, 3, 4, 5, 6, 7, 8⟩ ⟨-1, 2, -3, 4, 1, 2, -3, 4⟩ ⟨2, 1, 1, 2, 4, 5, 1, -3⟩ R := by
  obtain ⟨W, Q, U, gt, L, R, B, T, K, F, h0, hA, hS, hC, hL, hR, hB, hT, hK, hF⟩ :=
    C63_hypotheses_met (γ := 5/3) (dx := 1) (dy := 2) (dz := 1/2) (by norm_num) ⟨5, 1, 2, 3, 4, 5, 6, 7⟩
      ⟨1, 2, 3, 4, 5, 6, 7, 8⟩ ⟨-1, 2, -3, 4, 1, 2, -3, 4⟩ ⟨2, 1, 1, 2, 4, 5, 1, -3⟩ (by norm_num) (by norm_num)
      (by norm_num) (by norm_num) (by norm_num) (by norm_num) (by norm_num) (by norm_num)
  refine ⟨W, Q, U, gt, L, R, h0, hA, hS, hC, ?_, hL, hR⟩
  intro e
  have := hL.induction.1.symm.trans ((congrArg MS.a e).trans hR.induction.1)
  rw [hA, hA (0 + 1/2), h0] at this
  simp only [mhdRate, ms_add, ms_smul] at this
  norm_num at this

end EulerKokkos.Spec
