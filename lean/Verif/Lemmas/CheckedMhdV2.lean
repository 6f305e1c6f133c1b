import Verif.Lemmas.CheckedMhdStep3
import Verif.Lemmas.MhdFull3D

/-!
# Checked arithmetic: version 2 of the 3D MHD step
-/

set_option linter.unusedSimpArgs false
set_option linter.constructorNameAsVariable false
set_option linter.unusedSectionVars false

namespace EulerKokkos

open Chk Spec

namespace Spec

section
variable {R : Type} [RealOps R]

/-- version 2: state on the right of the left face along `d` of cell `(i,j,k)` -/
def faceRV2 (p : Params R) (dt : R) (q u : FldM3 R) (d : Dir) (i j k : Int) : MS R :=
  MS.floored p.settings (((q2V2 p dt q u i j k).subHalf (slopeV2 p q u d i j k)).setMag d
    ((u i j k).mag d + sFaceV2 p dt q u d i j k))

/-- version 2: state on the left of the left face along `d` of cell `(i,j,k)` -/
def faceLV2 (p : Params R) (dt : R) (q u : FldM3 R) (d : Dir) (i j k : Int) : MS R :=
  let i' := i - d.delta.1
  let j' := j - d.delta.2.1
  let k' := k - d.delta.2.2
  MS.floored p.settings (((q2V2 p dt q u i' j' k').addHalf (slopeV2 p q u d i' j' k')).setMag d
    ((faceRV2 p dt q u d i j k).mag d))

end

/-- The faces of the interior cells of a 3D field are regular (version 2). -/
def RegularStepV2M3 (p : Params ℝ) (dt : ℝ) (u : FldM3 ℝ) : Prop :=
  let v := fillM3 p u
  ∀ (d : Dir) (i j k : Int), interior3 p i j k ∨ interior3 p (i - d.delta.1) (j - d.delta.2.1) (k - d.delta.2.2) →
    RegularFace p ((faceLV2 p dt (primM3 p v) v d i j k).swapDir d)
      ((faceRV2 p dt (primM3 p v) v d i j k).swapDir d)

/-- The faces of the interior cells are regular, for the version selected. -/
def RegularStep3 (p : Params ℝ) (dt : ℝ) (u : FldM3 ℝ) : Prop :=
  if p.implementationVersion = 2 then RegularStepV2M3 p dt u else RegularStepM3 p dt u

end Spec

theorem fluxV2_faces {R : Type} [RealOps R] (p : Params R) (dt : R) (q u : FldM3 R) (d : Dir) (i j k : Int) :
    fluxV2 p dt q u d i j k = (riemannMhd p.settings p.riemannSolverType ((faceLV2 p dt q u d i j k).swapDir d)
      ((faceRV2 p dt q u d i j k).swapDir d) MS.zero).swapDir d := rfl

theorem map_setMag (d : Dir) (q : MS ℝ) (b : ℝ) : (q.map ok).setMag d (ok b) = (q.setMag d b).map ok := by
  cases d <;> rfl
theorem map_mag (d : Dir) (q : MS ℝ) : (q.map ok).mag d = ok (q.mag d) := by cases d <;> rfl
theorem map_swapDir (d : Dir) (q : MS ℝ) : (q.map ok).swapDir d = (q.swapDir d).map ok := by cases d <;> rfl
theorem map_addHalf (q s : MS ℝ) : (q.map ok).addHalf (s.map ok) = (q.addHalf s).map ok := rfl
theorem map_subHalf (q s : MS ℝ) : (q.map ok).subHalf (s.map ok) = (q.subHalf s).map ok := rfl
theorem sgnMul_ok (b : Bool) (x : ℝ) : sgnMul b (ok x) = ok (sgnMul b x) := rfl
theorem phys_swapDir {q : MS ℝ} (d : Dir) (h : PhysM q) : PhysM (q.swapDir d) := by
  cases d
  · exact h
  · exact phys_swapXY h
  · exact phys_swapXZ h

/-- a field of numbers -/
def okF (u : FldM3 ℝ) : FldM3 Chk := fun i j k => (u i j k).map ok

section
variable {p : Params ℝ} (hs : GoodSettings p.settings) (hx : p.dx ≠ 0) (hy : p.dy ≠ 0) (hz : p.dz ≠ 0) (dt : ℝ)
  (q u : FldM3 ℝ) (hq : ∀ i j k, PhysM (q i j k))

include hs in
theorem primM3_okF : primM3 (p.map ok) (okF u) = okF (primM3 p u) := by
  funext i j k
  have := primM3_ok hs (U := okF u) (u := u) (i := i) (j := j) (k := k) (n := 0) (m := 1)
    (fun _ _ _ _ _ _ => rfl) 0 0 0 (by omega) (by omega) (by omega)
  simp only [add_zero] at this
  exact this

theorem slopeV2_ok (d : Dir) (i j k : Int) :
    slopeV2 (p.map ok) (okF q) (okF u) d i j k = (slopeV2 p q u d i j k).map ok := by
  unfold slopeV2
  simp only [okF, map_mag, zeroM_ok, ok_sub]
  rw [show (p.map ok).settings = p.settings.map ok from rfl, slopeM_ok, map_setMag]

include hx hy hz hq in
theorem q2V2_ok (i j k : Int) :
    q2V2 (p.map ok) (ok dt) (okF q) (okF u) i j k = (q2V2 p dt q u i j k).map ok := by
  have e1 : (ok dt / (p.map ok).dx : Chk) = ok (dt / p.dx) := ok_div hx
  have e2 : (ok dt / (p.map ok).dy : Chk) = ok (dt / p.dy) := ok_div hy
  have e3 : (ok dt / (p.map ok).dz : Chk) = ok (dt / p.dz) := ok_div hz
  unfold q2V2
  rw [e1, e2, e3]
  simp only [slopeV2_ok]
  rw [show (p.map ok).settings = p.settings.map ok from rfl]
  have := sourceM3_ok p.settings (q i j k) (slopeV2 p q u .x i j k) (slopeV2 p q u .y i j k)
    (slopeV2 p q u .z i j k) ((u (i + 1) j k).a - (u i j k).a) ((u i (j + 1) k).b - (u i j k).b)
    ((u i j (k + 1)).c - (u i j k).c) (dt / p.dx) (dt / p.dy) (dt / p.dz) (hq i j k).d.ne'
  simp only [okF]
  rw [show ((u (i + 1) j k).map ok).a - ((u i j k).map ok).a = ok ((u (i + 1) j k).a - (u i j k).a) from rfl,
    show ((u i (j + 1) k).map ok).b - ((u i j k).map ok).b = ok ((u i (j + 1) k).b - (u i j k).b) from rfl,
    show ((u i j (k + 1)).map ok).c - ((u i j k).map ok).c = ok ((u i j (k + 1)).c - (u i j k).c) from rfl,
    this]
  rfl

include hx hy hz in
theorem sFaceV2_ok (d : Dir) (i j k : Int) :
    sFaceV2 (p.map ok) (ok dt) (okF q) (okF u) d i j k = ok (sFaceV2 p dt q u d i j k) := by
  have e1 : (ok dt / (p.map ok).dx : Chk) = ok (dt / p.dx) := ok_div hx
  have e2 : (ok dt / (p.map ok).dy : Chk) = ok (dt / p.dy) := ok_div hy
  have e3 : (ok dt / (p.map ok).dz : Chk) = ok (dt / p.dz) := ok_div hz
  have hE : ∀ (d : Dir) (i j k : Int), elecM3 (okF q) (okF u) d i j k = ok (elecM3 q u d i j k) :=
    fun d i j k => elecM3_ok (fun _ _ _ _ _ _ => rfl) (fun _ _ _ _ _ _ => rfl) d
  unfold sFaceV2
  simp only [e1, e2, e3, hE]
  cases d <;> rfl

include hx hy hz hq in
theorem faceRV2_ok (d : Dir) (i j k : Int) :
    faceRV2 (p.map ok) (ok dt) (okF q) (okF u) d i j k = (faceRV2 p dt q u d i j k).map ok := by
  unfold faceRV2
  rw [q2V2_ok hx hy hz dt q u hq, slopeV2_ok, sFaceV2_ok hx hy hz dt q u, map_subHalf, okF, map_mag,
    show ok ((u i j k).mag d) + ok (sFaceV2 p dt q u d i j k) = ok ((u i j k).mag d + sFaceV2 p dt q u d i j k)
      from rfl, map_setMag]
  exact floored_ok _ _

include hx hy hz hq in
theorem faceLV2_ok (d : Dir) (i j k : Int) :
    faceLV2 (p.map ok) (ok dt) (okF q) (okF u) d i j k = (faceLV2 p dt q u d i j k).map ok := by
  unfold faceLV2
  simp only
  rw [q2V2_ok hx hy hz dt q u hq, slopeV2_ok, faceRV2_ok hx hy hz dt q u hq, map_addHalf, map_mag, map_setMag]
  exact floored_ok _ _

include hs hx hy hz hq in
theorem fluxV2_ok (d : Dir) (i j k : Int)
    (hr : RegularFace p ((faceLV2 p dt q u d i j k).swapDir d) ((faceRV2 p dt q u d i j k).swapDir d)) :
    fluxV2 (p.map ok) (ok dt) (okF q) (okF u) d i j k = (fluxV2 p dt q u d i j k).map ok := by
  rw [fluxV2_faces, fluxV2_faces, faceLV2_ok hx hy hz dt q u hq, faceRV2_ok hx hy hz dt q u hq, ← map_swapDir d
    (riemannMhd _ _ _ _ _), map_swapDir, map_swapDir]
  refine congrArg (MS.swapDir d) ?_
  exact riemannMhd_ok hs (phys_swapDir d (floored_phys hs _)) (phys_swapDir d (floored_phys hs _)) hr MS.zero

theorem limSlopeV2_ok (d d' : Dir) (i j k : Int) :
    limSlopeV2 (p.map ok) (fun i j k => (okF u i j k).mag d') d i j k =
      ok (limSlopeV2 p (fun i j k => (u i j k).mag d') d i j k) := by
  unfold limSlopeV2
  simp only [okF, map_mag]
  exact slopeScalarDir_ok _ _ _ _

include hx hy hz hq in
theorem edgeV2_ok (d0 d1 : Dir) (i j k : Int) (e : EdgeLoc) :
    edgeV2 (p.map ok) (ok dt) (okF q) (okF u) d0 d1 i j k e = (edgeV2 p dt q u d0 d1 i j k e).map ok := by
  unfold edgeV2
  simp only
  rw [q2V2_ok hx hy hz dt q u hq, slopeV2_ok, slopeV2_ok, sFaceV2_ok hx hy hz dt q u, sFaceV2_ok hx hy hz dt q u,
    limSlopeV2_ok, limSlopeV2_ok]
  simp only [okF, map_mag, sgnMul_ok]
  generalize q2V2 p dt q u i j k = c
  generalize slopeV2 p q u d0 i j k = s0
  generalize slopeV2 p q u d1 i j k = s1
  rw [← floored_ok]
  refine congrArg (MS.floored (p.settings.map ok)) ?_
  cases d0 <;> cases d1 <;> rfl

theorem edgeV2_phys (hs : GoodSettings p.settings) (d0 d1 : Dir) (i j k : Int) (e : EdgeLoc) :
    PhysM (edgeV2 p dt q u d0 d1 i j k e) := floored_phys hs _

include hs hx hy hz hq in
theorem emfV2_ok (d : EmfDir) (i j k : Int) :
    emfV2 (p.map ok) (ok dt) (okF q) (okF u) d i j k = ok (emfV2 p dt q u d i j k) := by
  have P := edgeV2_phys (p := p) dt q u hs
  cases d <;> simp only [emfV2, edgeV2_ok hx hy hz dt q u hq]
  · exact emf_ok hs .x (e := ⟨_, _, _, _⟩) (P _ _ _ _ _ _) (P _ _ _ _ _ _) (P _ _ _ _ _ _) (P _ _ _ _ _ _)
  · exact emf_ok hs .y (e := ⟨_, _, _, _⟩) (P _ _ _ _ _ _) (P _ _ _ _ _ _) (P _ _ _ _ _ _) (P _ _ _ _ _ _)
  · exact emf_ok hs .z (e := ⟨_, _, _, _⟩) (P _ _ _ _ _ _) (P _ _ _ _ _ _) (P _ _ _ _ _ _) (P _ _ _ _ _ _)

end

/-- One 3D MHD step of version 2, checked. -/
theorem fullStepV2M3_ok {p : Params ℝ} (hp : Mhd3 p) (hp' : Mhd3 (p.map ok)) (hi : p.implementationVersion = 2)
    (hs : GoodSettings p.settings) (hx : p.dx ≠ 0) (hy : p.dy ≠ 0) (hz : p.dz ≠ 0) (dt : ℝ)
    {U : FldM3 Chk} {u : FldM3 ℝ} (hreg : RegularStepV2M3 p dt u)
    (hU : ∀ i j k, interior3 p i j k → U i j k = (u i j k).map ok)
    (i j k : Int) (hin : interior3 p i j k) :
    fullStepM3 (p.map ok) (ok dt) U i j k = (fullStepM3 p dt u i j k).map ok := by
  have hF := fillM3_ok hp.wf hp.faces hU
  have e0 : fullStepM3 (p.map ok) (ok dt) U i j k =
      stepM3 (p.map ok) (ok dt) (okF (fillM3 p u)) i j k :=
    stepM3_interior_congr hp' (fun i j k h => hF i j k h) i j k hin
  rw [e0]
  have hi' : (p.map ok).implementationVersion = 2 := hi
  unfold fullStepM3 stepM3 schemeM3
  rw [if_pos hi, if_pos hi']
  generalize hv : fillM3 p u = v at *
  have hq : ∀ i j k, PhysM (primM3 p v i j k) := primM3_phys hs v
  have hreg' : ∀ (d : Dir) (i j k : Int),
      interior3 p i j k ∨ interior3 p (i - d.delta.1) (j - d.delta.2.1) (k - d.delta.2.2) →
      RegularFace p ((faceLV2 p dt (primM3 p v) v d i j k).swapDir d)
        ((faceRV2 p dt (primM3 p v) v d i j k).swapDir d) := by
    subst hv; exact hreg
  unfold fluxesV2M3
  rw [primM3_okF hs v]
  refine stepOfM3_ok hx hy hz dt hin rfl ?_ ?_ ?_ ?_
  · intro a ha
    refine fluxV2_ok hs hx hy hz dt _ _ hq .x _ _ _ (hreg' .x _ _ _ ?_)
    by_cases h0 : a = 0
    · left; rw [h0, add_zero]; exact hin
    · right; rw [show a = 1 by omega]; simpa [Dir.delta] using hin
  · intro a ha
    refine fluxV2_ok hs hx hy hz dt _ _ hq .y _ _ _ (hreg' .y _ _ _ ?_)
    by_cases h0 : a = 0
    · left; rw [h0, add_zero]; exact hin
    · right; rw [show a = 1 by omega]; simpa [Dir.delta] using hin
  · intro a ha
    refine fluxV2_ok hs hx hy hz dt _ _ hq .z _ _ _ (hreg' .z _ _ _ ?_)
    by_cases h0 : a = 0
    · left; rw [h0, add_zero]; exact hin
    · right; rw [show a = 1 by omega]; simpa [Dir.delta] using hin
  · intro d a b c _ _ _
    exact emfV2_ok hs hx hy hz dt _ _ hq d _ _ _

end EulerKokkos
