import Verif.Lemmas.MhdUnitsRun
import Verif.Props.C53
import Verif.Props.C75
import Verif.Props.Sample

/-!
# C89: change of units with a magnetic field

The analogue of C75 for the MHD solvers.  The unit of the magnetic field follows from those of density and
velocity (`Spec.MhdUnits`: the square of the field is a pressure).
-/

set_option linter.constructorNameAsVariable false
set_option linter.unusedSectionVars false
set_option linter.unusedSimpArgs false

namespace EulerKokkos
open Spec

/-- **C89 (2D).**  -/
theorem C89_units_2d (U : MhdUnits) {p : Params ℝ} (hp : Mhd2 p)
    (hi : p.implementationVersion = 0 ∨ p.implementationVersion = 1 ∨ p.implementationVersion = 2)
    (hg : GoodGrid p) (he : p.enableOutput = decide (p.nOutput ≠ 0))
    {ident ident' : ℝ} (hid : ident ≤ 0) (hid' : ident' ≤ 0) (jk jk' : JunkM ℝ) {m m' : Mem Arr ℝ}
    (h0 : ∀ i j, interior2 p i j → ms2 m' .U i j = U.cons (ms2 m .U i j))
    {t : ℝ} {sv : Int} {a b : RunState ℝ} (ha : runMain p (mhdOps2 p ident jk) m t sv a)
    (hb : runMain (U.params p) (mhdOps2 (U.params p) ident' jk') m' (U.T * t) sv b)
    (hT : U.T = 1 ∨ (1 ≤ U.T ∧ p.nOutput ≤ 0 ∧ (a.t = p.tEnd ∨ p.nStepmax ≤ (a.iteration : Int)))) :
    b.iteration = a.iteration ∧ b.t = U.T * a.t ∧
    List.Forall₂ (fun o o' : Output ℝ => o'.number = o.number ∧ o'.time = U.T * o.time ∧
      ∀ i j, interior2 p i j → shownM o'.data i j 0 = U.cons (shownM o.data i j 0)) a.outputs b.outputs ∧
    ∀ i j, interior2 p i j →
      ms2 b.mem (pingIn b.iteration) i j = U.cons (ms2 a.mem (pingIn a.iteration) i j) := by
  obtain ⟨a1, a2, a3, a4⟩ := C54_mhd_run_is_algorithm_2d hp hi hg he hid jk ha
  obtain ⟨b1, b2, b3, b4⟩ := C54_mhd_run_is_algorithm_2d (hp.units U) hi (hg.mhdUnits U) he hid' jk' hb
  have hR := scaled_mhd2 U hp (hT.elim Or.inr (fun h => Or.inl h.2.1))
  have hk : b.iteration = a.iteration := by
    refine b1.unique (SimScaled.length hR h0 a1 ?_)
    rw [Sim.turns_n, ← a2]
    exact hT.imp id (fun h => ⟨h.1, h.2.2⟩)
  have hres := SimScaled.result hR h0 t sv a.iteration
  rw [hk] at b2 b3 b4
  refine ⟨hk, ?_, ?_, ?_⟩
  · rw [a2, b2]; exact hres.t
  · refine forall₂_join ?_ a3 b3 hres.files
    rintro o f o' f' ⟨n1, t1, s1⟩ ⟨n2, t2, s2⟩ ⟨n3, t3, s3⟩
    refine ⟨by rw [n1, n2, n3], by rw [t1, t2, t3], fun i j hij => ?_⟩
    have e1 : shownM o'.data i j 0 = f'.2.2 i j := s2 i j hij
    have e2 : shownM o.data i j 0 = f.2.2 i j := s1 i j hij
    rw [e1, e2]
    exact s3 i j hij
  · intro i j hij
    rw [hk, a4 i j hij, b4 i j hij]
    exact hres.x i j hij

/-- **C89 (3D).** Version 2: any change of units.  Versions 0 and 1: changes that keep the unit of density, because they use `smallp` as a pressure in one place and as a pressure over a density in another (`C89_pressure_floor_3d`). -/
theorem C89_units_3d (U : MhdUnits) {p : Params ℝ} (hp : Mhd3 p)
    (hi : p.implementationVersion = 0 ∨ p.implementationVersion = 1 ∨ p.implementationVersion = 2)
    (hu : p.implementationVersion = 2 ∨ U.r = 1)
    (hg : GoodGrid p) (he : p.enableOutput = decide (p.nOutput ≠ 0))
    {ident ident' : ℝ} (hid : ident ≤ 0) (hid' : ident' ≤ 0) (jk jk' : JunkM ℝ) {m m' : Mem Arr ℝ}
    (h0 : ∀ i j k, interior3 p i j k → ms m' .U i j k = U.cons (ms m .U i j k))
    {t : ℝ} {sv : Int} {a b : RunState ℝ} (ha : runMain p (mhdOps3 p ident jk) m t sv a)
    (hb : runMain (U.params p) (mhdOps3 (U.params p) ident' jk') m' (U.T * t) sv b)
    (hT : U.T = 1 ∨ (1 ≤ U.T ∧ p.nOutput ≤ 0 ∧ (a.t = p.tEnd ∨ p.nStepmax ≤ (a.iteration : Int)))) :
    b.iteration = a.iteration ∧ b.t = U.T * a.t ∧
    List.Forall₂ (fun o o' : Output ℝ => o'.number = o.number ∧ o'.time = U.T * o.time ∧
      ∀ i j k, interior3 p i j k → shownM o'.data i j k = U.cons (shownM o.data i j k)) a.outputs b.outputs ∧
    ∀ i j k, interior3 p i j k →
      ms b.mem (pingIn b.iteration) i j k = U.cons (ms a.mem (pingIn a.iteration) i j k) := by
  obtain ⟨a1, a2, a3, a4⟩ := C54_mhd_run_is_algorithm_3d hp hi hg he hid jk ha
  obtain ⟨b1, b2, b3, b4⟩ := C54_mhd_run_is_algorithm_3d (hp.units U) hi (hg.mhdUnits U) he hid' jk' hb
  have hR := scaled_mhd3 U hp hu (hT.elim Or.inr (fun h => Or.inl h.2.1))
  have hk : b.iteration = a.iteration := by
    refine b1.unique (SimScaled.length hR h0 a1 ?_)
    rw [Sim.turns_n, ← a2]
    exact hT.imp id (fun h => ⟨h.1, h.2.2⟩)
  have hres := SimScaled.result hR h0 t sv a.iteration
  rw [hk] at b2 b3 b4
  refine ⟨hk, ?_, ?_, ?_⟩
  · rw [a2, b2]; exact hres.t
  · refine forall₂_join ?_ a3 b3 hres.files
    rintro o f o' f' ⟨n1, t1, s1⟩ ⟨n2, t2, s2⟩ ⟨n3, t3, s3⟩
    refine ⟨by rw [n1, n2, n3], by rw [t1, t2, t3], fun i j k hij => ?_⟩
    have e1 : shownM o'.data i j k = f'.2.2 i j k := s2 i j k hij
    have e2 : shownM o.data i j k = f.2.2 i j k := s1 i j k hij
    rw [e1, e2]
    exact s3 i j k hij
  · intro i j k hij
    rw [hk, a4 i j k hij, b4 i j k hij]
    exact hres.x i j k hij

/-- **C89 (the pressure floor of 3D versions 0 and 1).** The floor these versions put under reconstructed states
does not follow a change of the unit of density: whenever the pressure floor is positive, states exist whose
floored value in the new units is not the floored value. -/
theorem C89_pressure_floor_3d (U : MhdUnits) (h1 : U.r ≠ 1) (s : Settings ℝ) (hs : 0 < s.smallp) :
    ∃ q : MS ℝ, MS.flooredP (U.settings s) (U.prim q) ≠ U.prim (MS.flooredP s q) := by
  have hr := U.hr
  have hV := U.hV
  refine ⟨⟨s.smallr, 0, 0, 0, 0, 0, 0, 0⟩, fun h => ?_⟩
  have h2 := congrArg MS.p h
  have hp : 0 < U.V ^ 2 * s.smallp := by positivity
  simp only [MS.flooredP, MhdUnits.prim, MhdUnits.settings, MhdUnits.units, Units.settings, mul_zero,
    RealOps.fmax_real] at h2
  rw [max_eq_left hp.le, max_eq_left hs.le, mul_assoc] at h2
  have h3 : U.r ^ 2 = 1 := by nlinarith
  exact h1 (by nlinarith)

/-- Non-vacuity: lengths in kilometres, velocities in kilometres per second, densities in grams per 100 cubic
metres.  From any memory both runs of the sample (HLLD, 2D) exist; the time unit is unchanged. -/
example (m : Mem Arr ℝ) (jk : JunkM ℝ) :
    let U : MhdUnits := ⟨10, 1/1000, 1/1000, by norm_num, by norm_num, by norm_num⟩
    let p := sampleM .dirichlet .periodic 0
    U.T = 1 ∧ Mhd2 p ∧ GoodGrid p ∧ ∃ m' a b,
      (∀ i j, interior2 p i j → ms2 m' .U i j = U.cons (ms2 m .U i j)) ∧
      runMain p (mhdOps2 p (-1) jk) m 0 0 a ∧
      runMain (U.params p) (mhdOps2 (U.params p) (-1) jk) m' (U.T * 0) 0 b := by
  intro U p
  refine ⟨by norm_num [U, MhdUnits.T], sampleM_mhd2 _ _ _, sampleM_goodGrid _ _ _, ?_⟩
  let m' : Mem Arr ℝ := fun l => (if l.v = ID then U.r ^ 2 else if l.v = IP then U.r ^ 2 * U.V ^ 2 else
    if l.v < IA then U.r ^ 2 * U.V else U.B) * m l
  obtain ⟨a, ha⟩ := (C54_mhd_completes (sampleM_wf .dirichlet .periodic 0) (sampleM_mhd3 _ _ _).faces
    (-1) jk (by simp [sampleM, sampleMHD, rawSample, Params.init]) m 0 0).1
  obtain ⟨b, hb⟩ := (C54_mhd_completes (p := U.params p)
    ((sampleM_mhd2 .dirichlet .periodic 0).units U).wf (sampleM_mhd3 .dirichlet .periodic 0).faces
    (-1) jk (by simp [sampleM, sampleMHD, rawSample, Params.init, p, MhdUnits.params, Units.params]) m' (U.T * 0) 0).1
  refine ⟨m', a, b, ?_, ha, hb⟩
  intro i j _
  simp [m', ms2, ms, MhdUnits.cons, ID, IP, IU, IV, IW, IA, IB, IC]

/-- Non-vacuity in 3D: the hypotheses hold for version 2 with any change of units, for version 0 with one that
keeps densities; both runs exist from any memory. -/
example (m m' : Mem Arr ℝ) (jk : JunkM ℝ) :
    let U : MhdUnits := ⟨10, 1/1000, 1/1000, by norm_num, by norm_num, by norm_num⟩
    let W : MhdUnits := ⟨1, 1/1000, 1/1000, by norm_num, by norm_num, by norm_num⟩
    let p := sampleM .dirichlet .periodic 2
    let q := sampleM .dirichlet .periodic 0
    Mhd3 p ∧ Mhd3 q ∧ (p.implementationVersion = 2 ∨ U.r = 1) ∧ (q.implementationVersion = 2 ∨ W.r = 1) ∧
    (∃ a, runMain p (mhdOps3 p (-1) jk) m 0 0 a) ∧
    ∃ b, runMain (U.params p) (mhdOps3 (U.params p) (-1) jk) m' (U.T * 0) 0 b := by
  intro U W p q
  refine ⟨sampleM_mhd3 _ _ _, sampleM_mhd3 _ _ _, Or.inl rfl, Or.inr rfl, ?_, ?_⟩
  · exact (C54_mhd_completes (sampleM_wf .dirichlet .periodic 2) (sampleM_mhd3 _ _ _).faces
      (-1) jk (by simp [sampleM, sampleMHD, rawSample, Params.init]) m 0 0).2
  · exact (C54_mhd_completes (p := U.params p)
      ((sampleM_mhd2 .dirichlet .periodic 2).units U).wf (sampleM_mhd3 .dirichlet .periodic 2).faces
      (-1) jk (by simp [sampleM, sampleMHD, rawSample, Params.init, p, MhdUnits.params, Units.params]) m' (U.T * 0) 0).2

end EulerKokkos
