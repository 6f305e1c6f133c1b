import Verif.Lemmas.MhdReverse3D
import Verif.Lemmas.MhdUnitsRun
import Verif.Props.C53
import Verif.Props.C75
import Verif.Props.Sample

/-!
# C91: reversing the magnetic field

The equations of ideal MHD do not change when the magnetic field changes sign everywhere.  Two runs of the same
program with the same parameters, one from a state and one from the state with the opposite field, take the same
time steps and write files that differ by the sign of the field only.
-/

set_option linter.constructorNameAsVariable false
set_option linter.unusedSectionVars false
set_option linter.unusedSimpArgs false

namespace EulerKokkos
open Spec

/-- **C91 (Riemann solvers).** The three solvers of the interface, including HLLD with its sign of the normal field,
give fluxes of mass, energy and momentum that do not depend on the sign of the field, and opposite fluxes of the
field; the electric field of the edge solver changes sign. -/
theorem C91_solvers (s : Settings ℝ) (t : RiemannType) (ht : t = .hlld ∨ t = .hll ∨ t = .llf) (l r junk junk' : MS ℝ)
    (dir : EmfDir) (rt rb lt lb : MS ℝ) :
    riemannMhd s t (reverseB l) (reverseB r) junk' = reverseB (riemannMhd s t l r junk) ∧
    computeEmf s dir ⟨reverseB rt, reverseB rb, reverseB lt, reverseB lb⟩ = -computeEmf s dir ⟨rt, rb, lt, lb⟩ := by
  refine ⟨?_, computeEmf_rev s dir ⟨rt, rb, lt, lb⟩⟩
  rcases ht with rfl | rfl | rfl
  · exact riemannMhdHlld_rev s l r
  · exact riemannMhdHll_rev s l r
  · exact riemannMhdLlf_rev s l r

theorem reversed_mhd2 {p : Params ℝ} (hp : Mhd2 p) :
    Related p p (mhd2 p) (mhd2 p) (fun x y => ∀ i j, interior2 p i j → y i j = reverseB (x i j)) where
  tEnd := rfl
  nOutput := rfl
  nStepmax := rfl
  dt x y h := ((cflDtM2_congr hp h).trans (cflDtM2_rev p x)).symm
  adv d x y h i j hij := by
    show fullStepM2 p d y i j = reverseB (fullStepM2 p d x i j)
    rw [← fullStepM2_rev]
    exact fullStepM2_congr hp h i j hij

/-- **C91 (2D).** Two runs with the same parameters, from interior states that differ by the sign of the magnetic
field: same number of steps, same final time, the same files (number, time) with the same density, energy and
momentum and the opposite field, and so for the final state.  Every implementation version, Riemann solver and
boundary condition; uninitialised locals may differ. -/
theorem C91_reversed_2d {p : Params ℝ} (hp : Mhd2 p)
    (hi : p.implementationVersion = 0 ∨ p.implementationVersion = 1 ∨ p.implementationVersion = 2)
    (hg : GoodGrid p) (he : p.enableOutput = decide (p.nOutput ≠ 0))
    {ident ident' : ℝ} (hid : ident ≤ 0) (hid' : ident' ≤ 0) (jk jk' : JunkM ℝ) {m m' : Mem Arr ℝ}
    (h0 : ∀ i j, interior2 p i j → ms2 m' .U i j = reverseB (ms2 m .U i j))
    {t : ℝ} {sv : Int} {a b : RunState ℝ} (ha : runMain p (mhdOps2 p ident jk) m t sv a)
    (hb : runMain p (mhdOps2 p ident' jk') m' t sv b) :
    b.iteration = a.iteration ∧ b.t = a.t ∧
    List.Forall₂ (fun o o' : Output ℝ => o'.number = o.number ∧ o'.time = o.time ∧
      ∀ i j, interior2 p i j → shownM o'.data i j 0 = reverseB (shownM o.data i j 0)) a.outputs b.outputs ∧
    ∀ i j, interior2 p i j →
      ms2 b.mem (pingIn b.iteration) i j = reverseB (ms2 a.mem (pingIn a.iteration) i j) := by
  obtain ⟨a1, a2, a3, a4⟩ := C54_mhd_run_is_algorithm_2d hp hi hg he hid jk ha
  obtain ⟨b1, b2, b3, b4⟩ := C54_mhd_run_is_algorithm_2d hp hi hg he hid' jk' hb
  have hR := reversed_mhd2 hp
  have hk : b.iteration = a.iteration := b1.unique (SimRel.length hR h0 a1)
  have hres := SimRel.result hR h0 t sv a.iteration
  rw [hk] at b2 b3 b4
  refine ⟨hk, ?_, ?_, ?_⟩
  · rw [a2, b2]; exact hres.t.symm
  · refine forall₂_join ?_ a3 b3 hres.files
    rintro o f o' f' ⟨n1, t1, s1⟩ ⟨n2, t2, s2⟩ ⟨n3, t3, s3⟩
    refine ⟨by rw [n1, n2, n3], by rw [t1, t2, t3], fun i j hij => ?_⟩
    have e1 : shownM o'.data i j 0 = f'.2.2 i j := s2 i j hij
    have e2 : shownM o.data i j 0 = f.2.2 i j := s1 i j hij
    rw [e1, e2]
    exact s3 i j hij
  · intro i j hij
    rw [hk, a4 i j hij, b4 i j hij]
    exact hres.x i j hij

theorem reversed_mhd3 {p : Params ℝ} (hp : Mhd3 p) :
    Related p p (mhd3 p) (mhd3 p) (fun x y => ∀ i j k, interior3 p i j k → y i j k = reverseB (x i j k)) where
  tEnd := rfl
  nOutput := rfl
  nStepmax := rfl
  dt x y h := ((cflDtM3_congr hp h).trans (cflDtM3_rev p x)).symm
  adv d x y h i j k hij := by
    show fullStepM3 p d y i j k = reverseB (fullStepM3 p d x i j k)
    rw [← fullStepM3_rev]
    exact fullStepM3_congr hp h i j k hij

/-- **C91 (3D).** Two runs with the same parameters, from interior states that differ by the sign of the magnetic
field: same number of steps, same final time, the same files (number, time) with the same density, energy and
momentum and the opposite field, and so for the final state.  Every implementation version, Riemann solver and
boundary condition; uninitialised locals may differ. -/
theorem C91_reversed_3d {p : Params ℝ} (hp : Mhd3 p)
    (hi : p.implementationVersion = 0 ∨ p.implementationVersion = 1 ∨ p.implementationVersion = 2)
    (hg : GoodGrid p) (he : p.enableOutput = decide (p.nOutput ≠ 0))
    {ident ident' : ℝ} (hid : ident ≤ 0) (hid' : ident' ≤ 0) (jk jk' : JunkM ℝ) {m m' : Mem Arr ℝ}
    (h0 : ∀ i j k, interior3 p i j k → ms m' .U i j k = reverseB (ms m .U i j k))
    {t : ℝ} {sv : Int} {a b : RunState ℝ} (ha : runMain p (mhdOps3 p ident jk) m t sv a)
    (hb : runMain p (mhdOps3 p ident' jk') m' t sv b) :
    b.iteration = a.iteration ∧ b.t = a.t ∧
    List.Forall₂ (fun o o' : Output ℝ => o'.number = o.number ∧ o'.time = o.time ∧
      ∀ i j k, interior3 p i j k → shownM o'.data i j k = reverseB (shownM o.data i j k)) a.outputs b.outputs ∧
    ∀ i j k, interior3 p i j k →
      ms b.mem (pingIn b.iteration) i j k = reverseB (ms a.mem (pingIn a.iteration) i j k) := by
  obtain ⟨a1, a2, a3, a4⟩ := C54_mhd_run_is_algorithm_3d hp hi hg he hid jk ha
  obtain ⟨b1, b2, b3, b4⟩ := C54_mhd_run_is_algorithm_3d hp hi hg he hid' jk' hb
  have hR := reversed_mhd3 hp
  have hk : b.iteration = a.iteration := b1.unique (SimRel.length hR h0 a1)
  have hres := SimRel.result hR h0 t sv a.iteration
  rw [hk] at b2 b3 b4
  refine ⟨hk, ?_, ?_, ?_⟩
  · rw [a2, b2]; exact hres.t.symm
  · refine forall₂_join ?_ a3 b3 hres.files
    rintro o f o' f' ⟨n1, t1, s1⟩ ⟨n2, t2, s2⟩ ⟨n3, t3, s3⟩
    refine ⟨by rw [n1, n2, n3], by rw [t1, t2, t3], fun i j k hij => ?_⟩
    have e1 : shownM o'.data i j k = f'.2.2 i j k := s2 i j k hij
    have e2 : shownM o.data i j k = f.2.2 i j k := s1 i j k hij
    rw [e1, e2]
    exact s3 i j k hij
  · intro i j k hij
    rw [hk, a4 i j k hij, b4 i j k hij]
    exact hres.x i j k hij

/-- Non-vacuity: from any memory and the memory with the opposite field both runs of the sample exist, in 2D and
in 3D, for the three versions. -/
example (m : Mem Arr ℝ) (jk : JunkM ℝ) (v : Int) :
    let p := sampleM .dirichlet .periodic v
    Mhd2 p ∧ Mhd3 p ∧ GoodGrid p ∧ ∃ m',
      (∀ i j k, ms m' .U i j k = reverseB (ms m .U i j k)) ∧
      (∃ a b, runMain p (mhdOps2 p (-1) jk) m 0 0 a ∧ runMain p (mhdOps2 p (-1) jk) m' 0 0 b) ∧
      ∃ a b, runMain p (mhdOps3 p (-1) jk) m 0 0 a ∧ runMain p (mhdOps3 p (-1) jk) m' 0 0 b := by
  intro p
  refine ⟨sampleM_mhd2 _ _ _, sampleM_mhd3 _ _ _, sampleM_goodGrid _ _ _, ?_⟩
  let m' : Mem Arr ℝ := fun l => if l.v < IA then m l else -m l
  have H := fun m => C54_mhd_completes (sampleM_wf .dirichlet .periodic v) (sampleM_mhd3 _ _ _).faces
    (-1) jk (by simp [sampleM, sampleMHD, rawSample, Params.init]) m 0 0
  obtain ⟨⟨a, ha⟩, ⟨c, hc⟩⟩ := H m
  obtain ⟨⟨b, hb⟩, ⟨d, hd⟩⟩ := H m'
  refine ⟨m', ?_, ⟨a, b, ha, hb⟩, ⟨c, d, hc, hd⟩⟩
  intro i j k
  simp [m', ms, reverseB, ID, IP, IU, IV, IW, IA, IB, IC]

end EulerKokkos
