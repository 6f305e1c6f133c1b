import Verif.Lemmas.MhdReverse2D
import Verif.Lemmas.MhdFull3D

/-!
# Reversal of the magnetic field: the 3D MHD scheme
-/

set_option linter.constructorNameAsVariable false
set_option linter.unusedSectionVars false
set_option linter.unusedSimpArgs false

namespace EulerKokkos
open Spec

theorem slopeM7_rev (s : Settings ℝ) (q a b c : MS ℝ) :
    slopeM7 s (reverseB q) (reverseB a) (reverseB b) (reverseB c) = reverseB (slopeM7 s q a b c) := by
  unfold slopeM7
  split_ifs
  · simp only [reverseB, slopeScalarDir_neg]
  · rw [revB_zero]

theorem flooredP_rev (s : Settings ℝ) (q : MS ℝ) : MS.flooredP s (reverseB q) = reverseB (MS.flooredP s q) := rfl

theorem sourceM3_rev (s : Settings ℝ) (q dx dy dz : MS ℝ) (dA dB dC k l n : ℝ) :
    sourceM3 s (reverseB q) (reverseB dx) (reverseB dy) (reverseB dz) (-dA) (-dB) (-dC) k l n =
      reverseB (sourceM3 s q dx dy dz dA dB dC k l n) := by
  unfold sourceM3
  dsimp only [reverseB]
  refine MS.ext ?_ ?_ ?_ ?_ ?_ ?_ ?_ ?_ <;> dsimp only <;> ring

def revQuad (e : Quad ℝ) : Quad ℝ := ⟨-e.ll, -e.lr, -e.rl, -e.rr⟩

def revDbf (d : Dbf3 ℝ) : Dbf3 ℝ :=
  ⟨-d.aly, -d.alz, -d.blx, -d.blz, -d.clx, -d.cly, -d.ary, -d.arz, -d.brx, -d.brz, -d.crx, -d.cry⟩

def revTraceIn (n : TraceIn3 ℝ) : TraceIn3 ℝ :=
  { q := reverseB n.q, xp := reverseB n.xp, xm := reverseB n.xm, yp := reverseB n.yp, ym := reverseB n.ym,
    zp := reverseB n.zp, zm := reverseB n.zm, al := -n.al, ar := -n.ar, bl := -n.bl, br := -n.br,
    cl := -n.cl, cr := -n.cr, dbf := revDbf n.dbf, ex := revQuad n.ex, ey := revQuad n.ey, ez := revQuad n.ez }

def revTrace3 (t : TraceM3 ℝ) : TraceM3 ℝ :=
  { qmx := reverseB t.qmx, qpx := reverseB t.qpx, qmy := reverseB t.qmy, qpy := reverseB t.qpy,
    qmz := reverseB t.qmz, qpz := reverseB t.qpz, ex := revEdge t.ex, ey := revEdge t.ey, ez := revEdge t.ez }

theorem traceMhd3_rev (s : Settings ℝ) (n : TraceIn3 ℝ) (k l m : ℝ) :
    traceMhd3 s (revTraceIn n) k l m = revTrace3 (traceMhd3 s n k l m) := by
  unfold traceMhd3
  dsimp only [revTraceIn, revDbf, revQuad]
  have hd : ∀ x y : ℝ, lit (1/2) * (-x - -y) = -(lit (1/2) * (x - y)) := by intro x y; ring
  simp only [slopeM7_rev, half_rev, hd, sourceM3_rev]
  generalize (slopeM7 s n.q n.xp n.xm n.xm).half = dx
  generalize (slopeM7 s n.q n.yp n.ym n.ym).half = dy
  generalize (slopeM7 s n.q n.zp n.zm n.ym).half = dz
  generalize sourceM3 s n.q dx dy dz _ _ _ k l m = so
  unfold revTrace3 revEdge
  refine (TraceM3.mk.injEq ..).mpr ⟨?_, ?_, ?_, ?_, ?_, ?_, (Edge4.mk.injEq ..).mpr ⟨?_, ?_, ?_, ?_⟩,
    (Edge4.mk.injEq ..).mpr ⟨?_, ?_, ?_, ?_⟩, (Edge4.mk.injEq ..).mpr ⟨?_, ?_, ?_, ?_⟩⟩ <;>
    (rw [← flooredP_rev]; refine congrArg _ ?_
     dsimp only [reverseB]
     refine MS.ext ?_ ?_ ?_ ?_ ?_ ?_ ?_ ?_ <;> dsimp only <;> ring)

theorem primM3_rev (p : Params ℝ) (u : FldM3 ℝ) :
    primM3 p (fun i j k => reverseB (u i j k)) = fun i j k => reverseB (primM3 p u i j k) := by
  funext i j k
  exact congrArg Prod.fst (constoprimMhd_rev p.settings (u i j k)
    ⟨(u (i + 1) j k).a, (u i (j + 1) k).b, (u i j (k + 1)).c⟩)

theorem elecM3_rev (q u : FldM3 ℝ) (d : Dir) (i j k : Int) :
    elecM3 (fun i j k => reverseB (q i j k)) (fun i j k => reverseB (u i j k)) d i j k = -elecM3 q u d i j k := by
  cases d <;> simp only [elecM3, avg4, avg2, reverseB] <;> ring

theorem faceSlopeM3_rev (p : Params ℝ) (u : Int → Int → Int → ℝ) (d : Dir) (i j k : Int) :
    faceSlopeM3 p (fun i j k => -u i j k) d i j k = -faceSlopeM3 p u d i j k :=
  slopeScalarDir_neg ..

theorem limSlopeV2_rev (p : Params ℝ) (u : Int → Int → Int → ℝ) (d : Dir) (i j k : Int) :
    limSlopeV2 p (fun i j k => -u i j k) d i j k = -limSlopeV2 p u d i j k :=
  slopeScalarDir_neg ..

theorem traceInM3_rev (p : Params ℝ) (q u : FldM3 ℝ) (i j k : Int) :
    traceInM3 p (fun i j k => reverseB (q i j k)) (fun i j k => reverseB (u i j k)) i j k =
      revTraceIn (traceInM3 p q u i j k) := by
  unfold traceInM3 revTraceIn revDbf revQuad
  simp only [elecM3_rev]
  dsimp only [reverseB]
  simp only [faceSlopeM3_rev]

theorem traceM3_rev (p : Params ℝ) (dt : ℝ) (q u : FldM3 ℝ) (i j k : Int) :
    traceM3 p dt (fun i j k => reverseB (q i j k)) (fun i j k => reverseB (u i j k)) i j k =
      revTrace3 (traceM3 p dt q u i j k) := by
  unfold traceM3
  rw [traceInM3_rev]
  exact traceMhd3_rev _ _ _ _ _

/-- fluxes and electromotive forces with the opposite field -/
def revFluxes (F : FluxM3 ℝ) : FluxM3 ℝ :=
  ⟨fun i j k => reverseB (F.x i j k), fun i j k => reverseB (F.y i j k), fun i j k => reverseB (F.z i j k),
    fun d i j k => -F.e d i j k⟩

theorem fluxOfTraces_rev (p : Params ℝ) (T : Int → Int → Int → TraceM3 ℝ) :
    fluxOfTraces p (fun i j k => revTrace3 (T i j k)) = revFluxes (fluxOfTraces p T) := by
  unfold revFluxes fluxOfTraces
  refine (FluxM3.mk.injEq ..).mpr ⟨?_, ?_, ?_, ?_⟩
  · funext i j k
    exact riemannMhd_rev p.settings p.riemannSolverType (T (i - 1) j k).qmx (T i j k).qpx
  · funext i j k
    exact congrArg MS.swapXY (riemannMhd_rev p.settings p.riemannSolverType (T i (j - 1) k).qmy.swapXY
      (T i j k).qpy.swapXY)
  · funext i j k
    exact congrArg MS.swapXZ (riemannMhd_rev p.settings p.riemannSolverType (T i j (k - 1)).qmz.swapXZ
      (T i j k).qpz.swapXZ)
  · funext d i j k
    dsimp only
    rw [← computeEmf_rev]
    cases d <;> rfl

theorem fluxesM3_rev (p : Params ℝ) (dt : ℝ) (u : FldM3 ℝ) :
    fluxesM3 p dt (fun i j k => reverseB (u i j k)) = revFluxes (fluxesM3 p dt u) := by
  unfold fluxesM3
  rw [primM3_rev, ← fluxOfTraces_rev]
  congr 1
  funext i j k
  exact traceM3_rev p dt _ u i j k

/-! ## Version 2 -/

theorem mag_rev (d : Dir) (q : MS ℝ) : (reverseB q).mag d = -q.mag d := by cases d <;> rfl
theorem setMag_rev (d : Dir) (q : MS ℝ) (b : ℝ) : (reverseB q).setMag d (-b) = reverseB (q.setMag d b) := by
  cases d <;> rfl
theorem swapDir_rev (d : Dir) (q : MS ℝ) : (reverseB q).swapDir d = reverseB (q.swapDir d) := by cases d <;> rfl

theorem addHalf_rev (q s : MS ℝ) : (reverseB q).addHalf (reverseB s) = reverseB (q.addHalf s) := by
  unfold MS.addHalf
  refine MS.ext ?_ ?_ ?_ ?_ ?_ ?_ ?_ ?_ <;> dsimp only [reverseB] <;> ring

theorem subHalf_rev (q s : MS ℝ) : (reverseB q).subHalf (reverseB s) = reverseB (q.subHalf s) := by
  unfold MS.subHalf
  refine MS.ext ?_ ?_ ?_ ?_ ?_ ?_ ?_ ?_ <;> dsimp only [reverseB] <;> ring

section
variable (p : Params ℝ) (dt : ℝ) (q u : FldM3 ℝ)

theorem slopeV2_rev (d : Dir) (i j k : Int) :
    slopeV2 p (fun i j k => reverseB (q i j k)) (fun i j k => reverseB (u i j k)) d i j k =
      reverseB (slopeV2 p q u d i j k) := by
  unfold slopeV2
  rw [← setMag_rev, ← slopeM_rev, mag_rev, mag_rev, neg_sub, neg_sub_neg]

theorem q2V2_rev : q2V2 p dt (fun i j k => reverseB (q i j k)) (fun i j k => reverseB (u i j k)) =
    fun i j k => reverseB (q2V2 p dt q u i j k) := by
  funext i j k
  unfold q2V2
  rw [slopeV2_rev, slopeV2_rev, slopeV2_rev, ← addHalf_rev, ← sourceM3_rev]
  dsimp only [reverseB]
  simp only [neg_sub, neg_sub_neg]

theorem sFaceV2_rev (d : Dir) (i j k : Int) :
    sFaceV2 p dt (fun i j k => reverseB (q i j k)) (fun i j k => reverseB (u i j k)) d i j k =
      -sFaceV2 p dt q u d i j k := by
  unfold sFaceV2
  simp only [elecM3_rev]
  cases d <;> dsimp only <;> ring

theorem neg_add_neg' (x y : ℝ) : -x + -y = -(x + y) := by ring

theorem fluxV2_rev (d : Dir) (i j k : Int) :
    fluxV2 p dt (fun i j k => reverseB (q i j k)) (fun i j k => reverseB (u i j k)) d i j k =
      reverseB (fluxV2 p dt q u d i j k) := by
  unfold fluxV2
  dsimp only
  rw [q2V2_rev]
  simp only [slopeV2_rev, sFaceV2_rev, mag_rev, neg_add_neg', addHalf_rev, subHalf_rev, setMag_rev,
    floored_rev, swapDir_rev]
  rw [riemannMhd_rev, swapDir_rev]

theorem sgnMul_rev (b : Bool) (x : ℝ) : sgnMul b (-x) = -sgnMul b x := by
  unfold sgnMul; ring

theorem edgeV2_rev (d0 d1 : Dir) (i j k : Int) (e : EdgeLoc) :
    edgeV2 p dt (fun i j k => reverseB (q i j k)) (fun i j k => reverseB (u i j k)) d0 d1 i j k e =
      reverseB (edgeV2 p dt q u d0 d1 i j k e) := by
  unfold edgeV2
  dsimp only
  rw [q2V2_rev]
  simp only [slopeV2_rev, sFaceV2_rev, mag_rev, neg_add_neg', limSlopeV2_rev]
  rw [← floored_rev]
  refine congrArg _ ?_
  dsimp only [reverseB]
  simp only [sgnMul_rev]
  refine MS.ext ?_ ?_ ?_ ?_ ?_ ?_ ?_ ?_ <;> dsimp only <;> (try split_ifs) <;> ring

theorem emfV2_rev (d : EmfDir) (i j k : Int) :
    emfV2 p dt (fun i j k => reverseB (q i j k)) (fun i j k => reverseB (u i j k)) d i j k =
      -emfV2 p dt q u d i j k := by
  unfold emfV2
  simp only [edgeV2_rev]
  cases d
  · exact computeEmf_rev _ _ ⟨_, _, _, _⟩
  · exact computeEmf_rev _ _ ⟨_, _, _, _⟩
  · exact computeEmf_rev _ _ ⟨_, _, _, _⟩

end

theorem fluxesV2M3_rev (p : Params ℝ) (dt : ℝ) (u : FldM3 ℝ) :
    fluxesV2M3 p dt (fun i j k => reverseB (u i j k)) = revFluxes (fluxesV2M3 p dt u) := by
  unfold fluxesV2M3 revFluxes
  rw [primM3_rev]
  refine (FluxM3.mk.injEq ..).mpr ⟨?_, ?_, ?_, ?_⟩
  · funext i j k; exact fluxV2_rev p dt _ u _ i j k
  · funext i j k; exact fluxV2_rev p dt _ u _ i j k
  · funext i j k; exact fluxV2_rev p dt _ u _ i j k
  · funext d i j k; exact emfV2_rev p dt _ u d i j k

theorem stepOfM3_rev (p : Params ℝ) (dt : ℝ) (F : FluxM3 ℝ) (u : FldM3 ℝ) (i j k : Int) :
    stepOfM3 p dt (revFluxes F) (fun i j k => reverseB (u i j k)) i j k =
      reverseB (stepOfM3 p dt F u i j k) := by
  unfold stepOfM3
  by_cases h : interior3 p i j k
  · rw [if_pos h, if_pos h]
    unfold ctUpdate3 fluxUpdateM3 MS.plus5 MS.minus5
    dsimp only [revFluxes, reverseB]
    refine MS.ext ?_ ?_ ?_ ?_ ?_ ?_ ?_ ?_ <;> dsimp only <;> ring
  · rw [if_neg h, if_neg h]

theorem stepM3_rev (p : Params ℝ) (dt : ℝ) (u : FldM3 ℝ) (i j k : Int) :
    stepM3 p dt (fun i j k => reverseB (u i j k)) i j k = reverseB (stepM3 p dt u i j k) := by
  unfold stepM3 schemeM3
  by_cases h : p.implementationVersion = 2
  · rw [if_pos h, if_pos h, fluxesV2M3_rev, stepOfM3_rev]
  · rw [if_neg h, if_neg h, fluxesM3_rev, stepOfM3_rev]

theorem fillM3_rev (p : Params ℝ) (u : FldM3 ℝ) :
    fillM3 p (fun i j k => reverseB (u i j k)) = fun i j k => reverseB (fillM3 p u i j k) := by
  funext i j k
  unfold fillM3 ghost3
  simp only [reverseB, MS.get, ID, IP, IU, IV, IW, IA, IB, IC, signed_rev]

theorem fullStepM3_rev (p : Params ℝ) (dt : ℝ) (u : FldM3 ℝ) (i j k : Int) :
    fullStepM3 p dt (fun i j k => reverseB (u i j k)) i j k = reverseB (fullStepM3 p dt u i j k) := by
  unfold fullStepM3
  rw [fillM3_rev, stepM3_rev]

theorem mhdRate3_rev (γ x y z : ℝ) (q : MS ℝ) : mhdRate3 γ x y z (reverseB q) = mhdRate3 γ x y z q := by
  unfold mhdRate3
  have h1 := fastSpeed_rev γ q.a q
  have h2 := fastSpeed_rev γ q.b q
  have h3 := fastSpeed_rev γ q.c q
  dsimp only [reverseB] at h1 h2 h3 ⊢
  rw [h1, h2, h3]

theorem cflDtM3_rev (p : Params ℝ) (u : FldM3 ℝ) : cflDtM3 p (fun i j k => reverseB (u i j k)) = cflDtM3 p u := by
  unfold cflDtM3
  rw [fillM3_rev, primM3_rev]
  simp only [mhdRate3_rev]

end EulerKokkos
