import Verif.Lemmas.MhdUnits2D
import Verif.Lemmas.MhdFull3D

/-!
# Change of units: the 3D MHD scheme
-/

set_option linter.constructorNameAsVariable false
set_option linter.unusedSectionVars false
set_option linter.unusedSimpArgs false

namespace EulerKokkos
open Spec

variable (U : MhdUnits)

theorem slopeM7_units (s : Settings ℝ) (q a b c : MS ℝ) :
    slopeM7 (U.settings s) (U.prim q) (U.prim a) (U.prim b) (U.prim c) = U.prim (slopeM7 s q a b c) := by
  have hr := U.hr
  have hV := U.hV
  have hB := U.B_pos
  have hD : 0 < U.r ^ 2 := by positivity
  have hP : 0 < U.r ^ 2 * U.V ^ 2 := by positivity
  have e : (U.settings s).slope_type = s.slope_type := rfl
  unfold slopeM7
  rw [e]
  split_ifs
  · simp only [MhdUnits.prim, slopeScalarDir_scale hD, slopeScalarDir_scale hV, slopeScalarDir_scale hP,
      slopeScalarDir_scale hB]
  · rw [primM_zero_units]

/-- the floors of versions 0 and 1 use an absolute pressure: they follow when the density unit does not change -/
theorem flooredP_units (h1 : U.r = 1) (s : Settings ℝ) (q : MS ℝ) :
    MS.flooredP (U.settings s) (U.prim q) = U.prim (MS.flooredP s q) := by
  have hV := U.hV
  unfold MS.flooredP
  refine MS.ext ?_ ?_ rfl rfl rfl rfl rfl rfl
  · exact max_sc (by rw [h1]; norm_num) rfl rfl
  · refine max_sc (by rw [h1]; positivity) ?_ rfl
    simp only [MhdUnits.settings, MhdUnits.units, Units.settings, h1]; ring

theorem sourceM3_units (s : Settings ℝ) (q dx dy dz : MS ℝ) (dA dB dC k l n : ℝ) :
    sourceM3 (U.settings s) (U.prim q) (U.prim dx) (U.prim dy) (U.prim dz) (U.B * dA) (U.B * dB) (U.B * dC)
      (k / U.V) (l / U.V) (n / U.V) = U.prim (sourceM3 s q dx dy dz dA dB dC k l n) := by
  have hr := U.hr
  have hV := U.hV
  have hD : 0 < U.r ^ 2 := by positivity
  have hP : 0 < U.r ^ 2 * U.V ^ 2 := by positivity
  have eB : U.B = U.r * U.V := rfl
  have hdp : ∀ x y z w v d : ℝ, (U.r ^ 2 * U.V ^ 2 * x + U.B * y * (U.B * z) + U.B * w * (U.B * v)) / (U.r ^ 2 * d) =
      U.V ^ 2 * ((x + y * z + w * v) / d) := fun x y z w v d => div_sc hP hD (by rw [eB]; ring) rfl (by ring)
  have hdb : ∀ x y d : ℝ, U.B * x * (U.B * y) / (U.r ^ 2 * d) = U.V ^ 2 * (x * y / d) := fun x y d =>
    div_sc hP hD (by rw [eB]; ring) rfl (by ring)
  unfold sourceM3
  dsimp only [MhdUnits.prim]
  simp only [hdp, hdb, show (U.settings s).gamma0 = s.gamma0 from rfl]
  have e : ∀ x : ℝ, U.V * (x / U.V) = x := fun x => by field_simp
  generalize (dx.p + q.b * dx.b + q.c * dx.c) / q.d = t1
  generalize (dy.p + q.a * dy.a + q.c * dy.c) / q.d = t2
  generalize (dz.p + q.a * dz.a + q.b * dz.b) / q.d = t3
  generalize q.b * dy.a / q.d = t4
  generalize q.c * dz.a / q.d = t5
  generalize q.a * dx.b / q.d = t6
  generalize q.c * dz.b / q.d = t7
  generalize q.a * dx.c / q.d = t8
  generalize q.b * dy.c / q.d = t9
  obtain ⟨k', hk⟩ : ∃ x, x = k / U.V := ⟨_, rfl⟩
  obtain ⟨l', hl⟩ : ∃ x, x = l / U.V := ⟨_, rfl⟩
  obtain ⟨n', hn⟩ : ∃ x, x = n / U.V := ⟨_, rfl⟩
  rw [← hk, ← hl, ← hn]
  have ek : k = U.V * k' := by rw [hk, e]
  have el : l = U.V * l' := by rw [hl, e]
  have en : n = U.V * n' := by rw [hn, e]
  rw [ek, el, en]
  refine MS.ext ?_ ?_ ?_ ?_ ?_ ?_ ?_ ?_ <;> dsimp only <;> ring

noncomputable def Spec.MhdUnits.quad (e : Quad ℝ) : Quad ℝ :=
  ⟨U.B * U.V * e.ll, U.B * U.V * e.lr, U.B * U.V * e.rl, U.B * U.V * e.rr⟩

noncomputable def Spec.MhdUnits.dbf (d : Dbf3 ℝ) : Dbf3 ℝ :=
  ⟨U.B * d.aly, U.B * d.alz, U.B * d.blx, U.B * d.blz, U.B * d.clx, U.B * d.cly, U.B * d.ary, U.B * d.arz,
    U.B * d.brx, U.B * d.brz, U.B * d.crx, U.B * d.cry⟩

noncomputable def Spec.MhdUnits.traceIn (n : TraceIn3 ℝ) : TraceIn3 ℝ :=
  { q := U.prim n.q, xp := U.prim n.xp, xm := U.prim n.xm, yp := U.prim n.yp, ym := U.prim n.ym,
    zp := U.prim n.zp, zm := U.prim n.zm, al := U.B * n.al, ar := U.B * n.ar, bl := U.B * n.bl, br := U.B * n.br,
    cl := U.B * n.cl, cr := U.B * n.cr, dbf := U.dbf n.dbf, ex := U.quad n.ex, ey := U.quad n.ey,
    ez := U.quad n.ez }

noncomputable def Spec.MhdUnits.trace3 (t : TraceM3 ℝ) : TraceM3 ℝ :=
  { qmx := U.prim t.qmx, qpx := U.prim t.qpx, qmy := U.prim t.qmy, qpy := U.prim t.qpy, qmz := U.prim t.qmz,
    qpz := U.prim t.qpz, ex := U.edge t.ex, ey := U.edge t.ey, ez := U.edge t.ez }

theorem emfStep3_units (x y k : ℝ) :
    (U.B * U.V * x - U.B * U.V * y) * (k / U.V) * (lit (1/2) : ℝ) = U.B * ((x - y) * k * lit (1/2)) := by
  have hV := U.hV
  field_simp

theorem emfStep3n_units (x y k : ℝ) :
    -(U.B * U.V * x - U.B * U.V * y) * (k / U.V) * (lit (1/2) : ℝ) = U.B * (-(x - y) * k * lit (1/2)) := by
  have hV := U.hV
  field_simp

theorem traceMhd3_units (h1 : U.r = 1) (s : Settings ℝ) (n : TraceIn3 ℝ) (k l m : ℝ) :
    traceMhd3 (U.settings s) (U.traceIn n) (k / U.V) (l / U.V) (m / U.V) = U.trace3 (traceMhd3 s n k l m) := by
  unfold traceMhd3
  dsimp only [MhdUnits.traceIn, MhdUnits.dbf, MhdUnits.quad]
  have hd : ∀ x y : ℝ, lit (1/2) * (U.B * x - U.B * y) = U.B * (lit (1/2) * (x - y)) := by intro x y; ring
  simp only [slopeM7_units, half_units, hd, sourceM3_units, emfStep3_units, emfStep3n_units]
  generalize (slopeM7 s n.q n.xp n.xm n.xm).half = dx
  generalize (slopeM7 s n.q n.yp n.ym n.ym).half = dy
  generalize (slopeM7 s n.q n.zp n.zm n.ym).half = dz
  generalize sourceM3 s n.q dx dy dz _ _ _ k l m = so
  unfold MhdUnits.trace3 MhdUnits.edge
  refine (TraceM3.mk.injEq ..).mpr ⟨?_, ?_, ?_, ?_, ?_, ?_, (Edge4.mk.injEq ..).mpr ⟨?_, ?_, ?_, ?_⟩,
    (Edge4.mk.injEq ..).mpr ⟨?_, ?_, ?_, ?_⟩, (Edge4.mk.injEq ..).mpr ⟨?_, ?_, ?_, ?_⟩⟩ <;>
    (rw [← flooredP_units U h1]; refine congrArg _ ?_
     dsimp only [MhdUnits.prim]
     refine MS.ext ?_ ?_ ?_ ?_ ?_ ?_ ?_ ?_ <;> dsimp only <;> ring)

theorem primM3_units (p : Params ℝ) (u : FldM3 ℝ) :
    primM3 (U.params p) (fun i j k => U.cons (u i j k)) = fun i j k => U.prim (primM3 p u i j k) := by
  funext i j k
  exact congrArg Prod.fst (constoprimMhd_units U p.settings (u i j k)
    ⟨(u (i + 1) j k).a, (u i (j + 1) k).b, (u i j (k + 1)).c⟩)

theorem elecM3_units (q u : FldM3 ℝ) (d : Dir) (i j k : Int) :
    elecM3 (fun i j k => U.prim (q i j k)) (fun i j k => U.cons (u i j k)) d i j k =
      U.B * U.V * elecM3 q u d i j k := by
  cases d <;> simp only [elecM3, avg4, avg2, MhdUnits.prim, MhdUnits.cons] <;> ring

theorem faceSlopeM3_units (p : Params ℝ) (u : Int → Int → Int → ℝ) (d : Dir) (i j k : Int) :
    faceSlopeM3 (U.params p) (fun i j k => U.B * u i j k) d i j k = U.B * faceSlopeM3 p u d i j k :=
  slopeScalarDir_scale U.B_pos ..

theorem limSlopeV2_units (p : Params ℝ) (u : Int → Int → Int → ℝ) (d : Dir) (i j k : Int) :
    limSlopeV2 (U.params p) (fun i j k => U.B * u i j k) d i j k = U.B * limSlopeV2 p u d i j k :=
  slopeScalarDir_scale U.B_pos ..

theorem traceInM3_units (p : Params ℝ) (q u : FldM3 ℝ) (i j k : Int) :
    traceInM3 (U.params p) (fun i j k => U.prim (q i j k)) (fun i j k => U.cons (u i j k)) i j k =
      U.traceIn (traceInM3 p q u i j k) := by
  unfold traceInM3 MhdUnits.traceIn MhdUnits.dbf MhdUnits.quad
  simp only [elecM3_units]
  dsimp only [MhdUnits.cons]
  simp only [faceSlopeM3_units]

theorem courM_units (p : Params ℝ) (dt : ℝ) :
    U.T * dt / (U.params p).dx = dt / p.dx / U.V ∧ U.T * dt / (U.params p).dy = dt / p.dy / U.V ∧
    U.T * dt / (U.params p).dz = dt / p.dz / U.V :=
  ⟨courant_units U.units dt p.dx, courant_units U.units dt p.dy, courant_units U.units dt p.dz⟩

theorem traceM3_units (h1 : U.r = 1) (p : Params ℝ) (dt : ℝ) (q u : FldM3 ℝ) (i j k : Int) :
    traceM3 (U.params p) (U.T * dt) (fun i j k => U.prim (q i j k)) (fun i j k => U.cons (u i j k)) i j k =
      U.trace3 (traceM3 p dt q u i j k) := by
  unfold traceM3
  obtain ⟨e1, e2, e3⟩ := courM_units U p dt
  rw [traceInM3_units, e1, e2, e3]
  exact traceMhd3_units U h1 _ _ _ _ _

/-- fluxes and electromotive forces in the new units -/
noncomputable def Spec.MhdUnits.fluxes (F : FluxM3 ℝ) : FluxM3 ℝ :=
  ⟨fun i j k => U.flux (F.x i j k), fun i j k => U.flux (F.y i j k), fun i j k => U.flux (F.z i j k),
    fun d i j k => U.B * U.V * F.e d i j k⟩

theorem fluxOfTraces_units (p : Params ℝ) (T : Int → Int → Int → TraceM3 ℝ) :
    fluxOfTraces (U.params p) (fun i j k => U.trace3 (T i j k)) = U.fluxes (fluxOfTraces p T) := by
  unfold MhdUnits.fluxes fluxOfTraces
  refine (FluxM3.mk.injEq ..).mpr ⟨?_, ?_, ?_, ?_⟩
  · funext i j k
    exact riemannMhd_units U p.settings p.riemannSolverType (T (i - 1) j k).qmx (T i j k).qpx
  · funext i j k
    exact congrArg MS.swapXY (riemannMhd_units U p.settings p.riemannSolverType (T i (j - 1) k).qmy.swapXY
      (T i j k).qpy.swapXY)
  · funext i j k
    exact congrArg MS.swapXZ (riemannMhd_units U p.settings p.riemannSolverType (T i j (k - 1)).qmz.swapXZ
      (T i j k).qpz.swapXZ)
  · funext d i j k
    dsimp only
    rw [← computeEmf_units]
    show computeEmf (U.settings p.settings) d _ = _
    cases d <;> rfl

theorem fluxesM3_units (h1 : U.r = 1) (p : Params ℝ) (dt : ℝ) (u : FldM3 ℝ) :
    fluxesM3 (U.params p) (U.T * dt) (fun i j k => U.cons (u i j k)) = U.fluxes (fluxesM3 p dt u) := by
  unfold fluxesM3
  rw [primM3_units, ← fluxOfTraces_units]
  congr 1
  funext i j k
  exact traceM3_units U h1 p dt _ u i j k

/-! ## Version 2 -/

theorem mag_cons (d : Dir) (q : MS ℝ) : (U.cons q).mag d = U.B * q.mag d := by cases d <;> rfl
theorem mag_prim (d : Dir) (q : MS ℝ) : (U.prim q).mag d = U.B * q.mag d := by cases d <;> rfl
theorem setMag_prim (d : Dir) (q : MS ℝ) (b : ℝ) : (U.prim q).setMag d (U.B * b) = U.prim (q.setMag d b) := by
  cases d <;> rfl
theorem swapDir_prim (d : Dir) (q : MS ℝ) : (U.prim q).swapDir d = U.prim (q.swapDir d) := by cases d <;> rfl
theorem swapDir_flux (d : Dir) (q : MS ℝ) : (U.flux q).swapDir d = U.flux (q.swapDir d) := by cases d <;> rfl

theorem addHalf_units (q s : MS ℝ) : (U.prim q).addHalf (U.prim s) = U.prim (q.addHalf s) := by
  unfold MS.addHalf
  refine MS.ext ?_ ?_ ?_ ?_ ?_ ?_ ?_ ?_ <;> dsimp only [MhdUnits.prim] <;> ring

theorem subHalf_units (q s : MS ℝ) : (U.prim q).subHalf (U.prim s) = U.prim (q.subHalf s) := by
  unfold MS.subHalf
  refine MS.ext ?_ ?_ ?_ ?_ ?_ ?_ ?_ ?_ <;> dsimp only [MhdUnits.prim] <;> ring

section
variable (p : Params ℝ) (dt : ℝ) (q u : FldM3 ℝ)

theorem slopeV2_units (d : Dir) (i j k : Int) :
    slopeV2 (U.params p) (fun i j k => U.prim (q i j k)) (fun i j k => U.cons (u i j k)) d i j k =
      U.prim (slopeV2 p q u d i j k) := by
  unfold slopeV2
  rw [← setMag_prim, ← slopeM_units, mul_sub, mag_cons, mag_cons]
  rfl

theorem q2V2_units : q2V2 (U.params p) (U.T * dt) (fun i j k => U.prim (q i j k)) (fun i j k => U.cons (u i j k)) =
    fun i j k => U.prim (q2V2 p dt q u i j k) := by
  funext i j k
  obtain ⟨e1, e2, e3⟩ := courM_units U p dt
  unfold q2V2
  rw [slopeV2_units, slopeV2_units, slopeV2_units, e1, e2, e3, ← addHalf_units, ← sourceM3_units, mul_sub, mul_sub,
    mul_sub]
  rfl

theorem sFaceV2_units (d : Dir) (i j k : Int) :
    sFaceV2 (U.params p) (U.T * dt) (fun i j k => U.prim (q i j k)) (fun i j k => U.cons (u i j k)) d i j k =
      U.B * sFaceV2 p dt q u d i j k := by
  obtain ⟨e1, e2, e3⟩ := courM_units U p dt
  have hV := U.hV
  unfold sFaceV2
  simp only [e1, e2, e3, elecM3_units]
  cases d <;> dsimp only <;> field_simp

theorem fluxV2_units (d : Dir) (i j k : Int) :
    fluxV2 (U.params p) (U.T * dt) (fun i j k => U.prim (q i j k)) (fun i j k => U.cons (u i j k)) d i j k =
      U.flux (fluxV2 p dt q u d i j k) := by
  unfold fluxV2
  dsimp only
  rw [q2V2_units]
  simp only [slopeV2_units, sFaceV2_units, mag_cons, ← mul_add, addHalf_units, subHalf_units, setMag_prim,
    show (U.params p).settings = U.settings p.settings from rfl, floored_units, mag_prim, swapDir_prim]
  rw [← swapDir_flux, ← riemannMhd_units]
  rfl

theorem sgnMul_scale (b : Bool) (c x : ℝ) : sgnMul b (c * x) = c * sgnMul b x := by
  unfold sgnMul; ring

theorem edgeV2_units (d0 d1 : Dir) (i j k : Int) (e : EdgeLoc) :
    edgeV2 (U.params p) (U.T * dt) (fun i j k => U.prim (q i j k)) (fun i j k => U.cons (u i j k)) d0 d1 i j k e =
      U.prim (edgeV2 p dt q u d0 d1 i j k e) := by
  unfold edgeV2
  dsimp only
  rw [q2V2_units]
  simp only [slopeV2_units, sFaceV2_units, mag_cons, ← mul_add, limSlopeV2_units]
  show MS.floored (U.settings p.settings) _ = _
  rw [← floored_units]
  refine congrArg _ ?_
  dsimp only [MhdUnits.prim]
  simp only [sgnMul_scale]
  refine MS.ext ?_ ?_ ?_ ?_ ?_ ?_ ?_ ?_ <;> dsimp only <;> (try split_ifs) <;> ring

theorem emfV2_units (d : EmfDir) (i j k : Int) :
    emfV2 (U.params p) (U.T * dt) (fun i j k => U.prim (q i j k)) (fun i j k => U.cons (u i j k)) d i j k =
      U.B * U.V * emfV2 p dt q u d i j k := by
  unfold emfV2
  simp only [edgeV2_units]
  cases d
  · exact computeEmf_units U _ _ ⟨_, _, _, _⟩
  · exact computeEmf_units U _ _ ⟨_, _, _, _⟩
  · exact computeEmf_units U _ _ ⟨_, _, _, _⟩

end

theorem fluxesV2M3_units (p : Params ℝ) (dt : ℝ) (u : FldM3 ℝ) :
    fluxesV2M3 (U.params p) (U.T * dt) (fun i j k => U.cons (u i j k)) = U.fluxes (fluxesV2M3 p dt u) := by
  unfold fluxesV2M3 MhdUnits.fluxes
  rw [primM3_units]
  refine (FluxM3.mk.injEq ..).mpr ⟨?_, ?_, ?_, ?_⟩
  · funext i j k; exact fluxV2_units U p dt _ u _ i j k
  · funext i j k; exact fluxV2_units U p dt _ u _ i j k
  · funext i j k; exact fluxV2_units U p dt _ u _ i j k
  · funext d i j k; exact emfV2_units U p dt _ u d i j k

theorem stepOfM3_units (p : Params ℝ) (dt : ℝ) (F : FluxM3 ℝ) (u : FldM3 ℝ) (i j k : Int) :
    stepOfM3 (U.params p) (U.T * dt) (U.fluxes F) (fun i j k => U.cons (u i j k)) i j k =
      U.cons (stepOfM3 p dt F u i j k) := by
  have hV := U.hV
  unfold stepOfM3
  by_cases h : interior3 p i j k
  · rw [if_pos h, if_pos (show interior3 (U.params p) i j k from h)]
    obtain ⟨e1, e2, e3⟩ := courM_units U p dt
    rw [e1, e2, e3]
    generalize dt / p.dx = x
    generalize dt / p.dy = y
    generalize dt / p.dz = z
    unfold ctUpdate3 fluxUpdateM3 MS.plus5 MS.minus5
    dsimp only [MhdUnits.fluxes, MhdUnits.flux, MhdUnits.cons]
    refine MS.ext ?_ ?_ ?_ ?_ ?_ ?_ ?_ ?_ <;> dsimp only <;> field_simp
  · rw [if_neg h, if_neg (show ¬ interior3 (U.params p) i j k from h)]

theorem stepM3_units (p : Params ℝ) (hv : p.implementationVersion = 2 ∨ U.r = 1) (dt : ℝ) (u : FldM3 ℝ) (i j k : Int) :
    stepM3 (U.params p) (U.T * dt) (fun i j k => U.cons (u i j k)) i j k = U.cons (stepM3 p dt u i j k) := by
  unfold stepM3 schemeM3
  by_cases h : p.implementationVersion = 2
  · rw [if_pos h, if_pos (show (U.params p).implementationVersion = 2 from h), fluxesV2M3_units, stepOfM3_units]
  · rw [if_neg h, if_neg (show ¬ (U.params p).implementationVersion = 2 from h),
      fluxesM3_units U (hv.resolve_left h), stepOfM3_units]

theorem fillM3_units (p : Params ℝ) (u : FldM3 ℝ) :
    fillM3 (U.params p) (fun i j k => U.cons (u i j k)) = fun i j k => U.cons (fillM3 p u i j k) := by
  funext i j k
  unfold fillM3 ghost3
  simp only [MhdUnits.cons, MS.get, ID, IP, IU, IV, IW, IA, IB, IC, signed_scale]
  rfl

theorem fullStepM3_units (p : Params ℝ) (hv : p.implementationVersion = 2 ∨ U.r = 1) (dt : ℝ) (u : FldM3 ℝ)
    (i j k : Int) :
    fullStepM3 (U.params p) (U.T * dt) (fun i j k => U.cons (u i j k)) i j k = U.cons (fullStepM3 p dt u i j k) := by
  unfold fullStepM3
  rw [fillM3_units, stepM3_units U p hv]

theorem cflDtM3_units (p : Params ℝ) (u : FldM3 ℝ) :
    cflDtM3 (U.params p) (fun i j k => U.cons (u i j k)) = U.T * cflDtM3 p u := by
  have hT : 0 < U.T := U.units.T_pos
  have hrate : ∀ q : MS ℝ, mhdRate3 p.settings.gamma0 (U.L * p.dx) (U.L * p.dy) (U.L * p.dz) (U.prim q) =
      U.T⁻¹ * mhdRate3 p.settings.gamma0 p.dx p.dy p.dz q := by
    intro q
    unfold mhdRate3
    have e1 := speedM_units U q.u p.settings.gamma0 q.a q
    have e2 := speedM_units U q.v p.settings.gamma0 q.b q
    have e3 := speedM_units U q.w p.settings.gamma0 q.c q
    dsimp only [MhdUnits.prim] at e1 e2 e3 ⊢
    rw [e1, e2, e3, show U.T⁻¹ = U.units.T⁻¹ from rfl]
    have := rate_div U.units
    dsimp only [MhdUnits.units] at this
    rw [this, this, this, ← mul_add, ← mul_add]; rfl
  unfold cflDtM3
  rw [fillM3_units, primM3_units]
  rw [sSup_scale (c := U.T⁻¹) (inv_pos.2 hT) (S := {r | ∃ i j k, interior3 p i j k ∧
    r = mhdRate3 p.settings.gamma0 p.dx p.dy p.dz (primM3 p (fillM3 p u) i j k)})]
  · show p.settings.cfl / _ = _
    rw [div_mul_eq_div_div, div_inv_eq_mul]
    ring
  · intro r
    constructor
    · rintro ⟨i, j, k, hij, rfl⟩
      exact ⟨_, ⟨i, j, k, hij, rfl⟩, hrate _⟩
    · rintro ⟨_, ⟨i, j, k, hij, rfl⟩, rfl⟩
      exact ⟨i, j, k, hij, (hrate _).symm⟩

end EulerKokkos
