import Verif.Lemmas.UnitsRun
import Verif.Props.Sample

/-!
# C75: change of units

Changing the units of density, velocity and length in the parameters and in the initial state changes the
units of the result and nothing else: the run makes the same iterations, at times that scale like length
over velocity, and every file shows the same solution in the new units.  This holds for every solver and
every implementation version, with gravity.  The end-of-run test of the program compares times with an
absolute tolerance (`1e-14`), and so does the output test (`1e-12`): unless the time unit is unchanged
the statement therefore asks that the run ends exactly at `tEnd` (or at `nStepmax`), that the new time unit is
not larger, and that output does not depend on the time.
-/

set_option linter.constructorNameAsVariable false
set_option linter.unusedSectionVars false
set_option linter.unusedSimpArgs false

namespace EulerKokkos
open Spec

theorem Spec.Sim.turns_n {X : Type} (p : Params ℝ) (M : Method X) (x : X) (t : ℝ) (sv : Int) (k : Nat) :
    ((Sim.turn p M)^[k] (Sim.start p x t sv)).n = k := by
  induction k with
  | zero => unfold Sim.start; split_ifs <;> rfl
  | succ k ih =>
    rw [Function.iterate_succ_apply']
    have : ∀ a : Sim X, (Sim.turn p M a).n = a.n + 1 := by
      intro a; unfold Sim.turn; split_ifs <;> rfl
    rw [this, ih]

theorem Spec.Sim.result_n {X : Type} (p : Params ℝ) (M : Method X) (x : X) (t : ℝ) (sv : Int) (k : Nat) :
    (Sim.result p M x t sv k).n = k := by
  rw [← Sim.turns_n p M x t sv k]
  unfold Sim.result
  dsimp only
  split_ifs <;> rw [Sim.turns_n] <;> exact Sim.turns_n _ _ _ _ _ _

/-- **C75 (parameters).** The derived parameters follow: rescaling the end time, the domain, the density and
sound-speed floors before initialisation is rescaling all parameters after it. -/
theorem C75_parameters (U : Units) (p : Params ℝ) :
    Params.init { p with
      tEnd := U.T * p.tEnd
      xmin := U.L * p.xmin, xmax := U.L * p.xmax, ymin := U.L * p.ymin, ymax := U.L * p.ymax
      zmin := U.L * p.zmin, zmax := U.L * p.zmax
      settings := { p.settings with
        smallr := U.D * p.settings.smallr, smallc := U.V * p.settings.smallc,
        cIso := U.V * p.settings.cIso } } = U.params p.init := by
  unfold Params.init Units.params Units.settings
  simp only [Params.mk.injEq, Settings.mk.injEq, true_and, and_true]
  refine ⟨by ring, by ring, by ring, by ring, by ring⟩

/-- **C75 (2D).** -/
theorem C75_units_2d (U : Units) {p : Params ℝ} (hp : Hydro2 p)
    (hi : p.implementationVersion = 0 ∨ p.implementationVersion = 1 ∨ p.implementationVersion = 2)
    (hg : GoodGrid p) (he : p.enableOutput = decide (p.nOutput ≠ 0)) (g : GravityParams)
    {ident ident' : ℝ} (hid : ident ≤ 0) (hid' : ident' ≤ 0) (jk jk' : Junk ℝ) {m m' : Mem Arr ℝ}
    (h0 : ∀ i j, interior2 p i j → hs2 m' .U i j = U.cons (hs2 m .U i j))
    (hG : g.enabled = true → ∀ i j, inGrid2 p i j →
      m' ⟨.grav, i, j, 0, IX⟩ = U.G * m ⟨.grav, i, j, 0, IX⟩ ∧
      m' ⟨.grav, i, j, 0, IY⟩ = U.G * m ⟨.grav, i, j, 0, IY⟩)
    {t : ℝ} {sv : Int} {a b : RunState ℝ} (ha : runMain p (hydroOps2 p g ident jk) m t sv a)
    (hb : runMain (U.params p) (hydroOps2 (U.params p) g ident' jk') m' (U.T * t) sv b)
    (hT : U.T = 1 ∨ (1 ≤ U.T ∧ p.nOutput ≤ 0 ∧ (a.t = p.tEnd ∨ p.nStepmax ≤ (a.iteration : Int)))) :
    b.iteration = a.iteration ∧ b.t = U.T * a.t ∧
    List.Forall₂ (fun o o' : Output ℝ => o'.number = o.number ∧ o'.time = U.T * o.time ∧
      ∀ i j, interior2 p i j → shown2 o'.data i j = U.cons (shown2 o.data i j)) a.outputs b.outputs ∧
    ∀ i j, interior2 p i j →
      hs2 b.mem (pingIn b.iteration) i j = U.cons (hs2 a.mem (pingIn a.iteration) i j) := by
  obtain ⟨a1, a2, a3, a4⟩ := C15_run_is_algorithm_2d hp hi hg he g hid jk ha
  obtain ⟨b1, b2, b3, b4⟩ := C15_run_is_algorithm_2d (hp.units U) hi (hg.units U) he g hid' jk' hb
  have hR := scaled_hydro2 U hp (g := g) (gf := gravOf m .grav) (gf' := gravOf m' .grav)
    (hT.elim Or.inr (fun h => Or.inl h.2.1))
    (fun hen i j hij => by
      obtain ⟨x, y⟩ := hG hen i j hij
      show (_, _) = (_, _)
      rw [x, y]; rfl)
  have hE : ∀ i j, interior2 p i j →
      fill2 (U.params p) (hs2 m' .U) i j = U.cons (fill2 p (hs2 m .U) i j) := by
    intro i j hij
    rw [fill2_on_interior (p := U.params p) hij (by simp [hs2]), fill2_on_interior hij (by simp [hs2])]
    exact h0 i j hij
  have hk : b.iteration = a.iteration := by
    refine b1.unique (SimScaled.length hR hE a1 ?_)
    rw [Sim.turns_n, ← a2]
    exact hT.imp id (fun h => ⟨h.1, h.2.2⟩)
  have hres := SimScaled.result hR hE t sv a.iteration
  rw [hk] at b2 b3 b4
  refine ⟨hk, ?_, ?_, ?_⟩
  · rw [a2, b2]; exact hres.t
  · refine forall₂_join ?_ a3 b3 hres.files
    rintro o f o' f' ⟨n1, t1, s1⟩ ⟨n2, t2, s2⟩ ⟨n3, t3, s3⟩
    refine ⟨by rw [n1, n2, n3], by rw [t1, t2, t3], fun i j hij => ?_⟩
    have e1 : shown2 o'.data i j = f'.2.2 i j := s2 i j (interior_inGrid2 hp.wf hij)
    have e2 : shown2 o.data i j = f.2.2 i j := s1 i j (interior_inGrid2 hp.wf hij)
    rw [e1, e2]
    exact s3 i j hij
  · intro i j hij
    rw [hk, a4 i j (interior_inGrid2 hp.wf hij), b4 i j (interior_inGrid2 hp.wf hij)]
    exact hres.x i j hij

/-- **C75 (3D).** -/
theorem C75_units_3d (U : Units) {p : Params ℝ} (hp : Hydro3 p)
    (hi : p.implementationVersion = 0 ∨ p.implementationVersion = 1 ∨ p.implementationVersion = 2)
    (hg : GoodGrid p) (he : p.enableOutput = decide (p.nOutput ≠ 0)) (g : GravityParams)
    {ident ident' : ℝ} (hid : ident ≤ 0) (hid' : ident' ≤ 0) (jk jk' : Junk ℝ) {m m' : Mem Arr ℝ}
    (h0 : ∀ i j k, interior3 p i j k → hs3 m' .U i j k = U.cons (hs3 m .U i j k))
    (hG : g.enabled = true → ∀ i j k, inGrid3 p i j k →
      m' ⟨.grav, i, j, k, IX⟩ = U.G * m ⟨.grav, i, j, k, IX⟩ ∧
      m' ⟨.grav, i, j, k, IY⟩ = U.G * m ⟨.grav, i, j, k, IY⟩ ∧
      m' ⟨.grav, i, j, k, IZ⟩ = U.G * m ⟨.grav, i, j, k, IZ⟩)
    {t : ℝ} {sv : Int} {a b : RunState ℝ} (ha : runMain p (hydroOps3 p g ident jk) m t sv a)
    (hb : runMain (U.params p) (hydroOps3 (U.params p) g ident' jk') m' (U.T * t) sv b)
    (hT : U.T = 1 ∨ (1 ≤ U.T ∧ p.nOutput ≤ 0 ∧ (a.t = p.tEnd ∨ p.nStepmax ≤ (a.iteration : Int)))) :
    b.iteration = a.iteration ∧ b.t = U.T * a.t ∧
    List.Forall₂ (fun o o' : Output ℝ => o'.number = o.number ∧ o'.time = U.T * o.time ∧
      ∀ i j k, interior3 p i j k → shown3 o'.data i j k = U.cons (shown3 o.data i j k)) a.outputs b.outputs ∧
    ∀ i j k, interior3 p i j k →
      hs3 b.mem (pingIn b.iteration) i j k = U.cons (hs3 a.mem (pingIn a.iteration) i j k) := by
  obtain ⟨a1, a2, a3, a4⟩ := C15_run_is_algorithm_3d hp hi hg he g hid jk ha
  obtain ⟨b1, b2, b3, b4⟩ := C15_run_is_algorithm_3d (hp.units U) hi (hg.units U) he g hid' jk' hb
  have hR := scaled_hydro3 U (zk := zKick p.implementationVersion) hp (g := g) (gf := gravOf3 m .grav)
    (gf' := gravOf3 m' .grav)
    (hT.elim Or.inr (fun h => Or.inl h.2.1))
    (fun hen i j k hij => by
      obtain ⟨x, y, z⟩ := hG hen i j k hij
      show (_, _, _) = (_, _, _)
      rw [x, y, z]; rfl)
  have hE : ∀ i j k, interior3 p i j k →
      fill3 (U.params p) (hs3 m' .U) i j k = U.cons (fill3 p (hs3 m .U) i j k) := by
    intro i j k hij
    rw [fill3_on_interior (p := U.params p) hij, fill3_on_interior hij]
    exact h0 i j k hij
  have hk : b.iteration = a.iteration := by
    refine b1.unique (SimScaled.length hR hE a1 ?_)
    rw [Sim.turns_n, ← a2]
    exact hT.imp id (fun h => ⟨h.1, h.2.2⟩)
  have hres := SimScaled.result hR hE t sv a.iteration
  rw [hk] at b2 b3 b4
  refine ⟨hk, ?_, ?_, ?_⟩
  · rw [a2, b2]; exact hres.t
  · refine forall₂_join ?_ a3 b3 hres.files
    rintro o f o' f' ⟨n1, t1, s1⟩ ⟨n2, t2, s2⟩ ⟨n3, t3, s3⟩
    refine ⟨by rw [n1, n2, n3], by rw [t1, t2, t3], fun i j k hij => ?_⟩
    have e1 : shown3 o'.data i j k = f'.2.2 i j k := s2 i j k (interior_inGrid3 hp.wf hij)
    have e2 : shown3 o.data i j k = f.2.2 i j k := s1 i j k (interior_inGrid3 hp.wf hij)
    rw [e1, e2]
    exact s3 i j k hij
  · intro i j k hij
    rw [hk, a4 i j k (interior_inGrid3 hp.wf hij), b4 i j k (interior_inGrid3 hp.wf hij)]
    exact hres.x i j k hij

/-- Non-vacuity: grams and kilometres instead of kilograms and metres.  Starting from any memory, both runs of
the sample (4 × 3 cells, HLLC, output at times) exist, velocities and lengths rescaled alike so that the time unit
is unchanged. -/
example (m : Mem Arr ℝ) (jk : Junk ℝ) :
    let U : Units := ⟨1000, 1/1000, 1/1000, by norm_num, by norm_num, by norm_num⟩
    let p := sample .dirichlet .periodic
    U.T = 1 ∧ ∃ m' a b, (∀ i j, interior2 p i j → hs2 m' .U i j = U.cons (hs2 m .U i j)) ∧
      runMain p (hydroOps2 p ⟨false, false⟩ (-1) jk) m 0 0 a ∧
      runMain (U.params p) (hydroOps2 (U.params p) ⟨false, false⟩ (-1) jk) m' (U.T * 0) 0 b := by
  intro U p
  refine ⟨by norm_num [U, Units.T], ?_⟩
  let m' : Mem Arr ℝ := fun l =>
    (if l.v = ID then U.D else if l.v = IP then U.D * U.V ^ 2 else U.D * U.V) * m l
  obtain ⟨a, ha⟩ := (C14_hydro_completes (sample_wf .dirichlet .periodic) (sample_faces3 _ _) ⟨false, false⟩
    (-1) jk (by simp [sample, rawSample, Params.init]) m 0 0).1
  obtain ⟨b, hb⟩ := (C14_hydro_completes (p := U.params p)
    ((sample_hydro2 .dirichlet .periodic).units U).wf (sample_faces3 _ _) ⟨false, false⟩
    (-1) jk (by simp [sample, rawSample, Params.init, p, Units.params]) m' (U.T * 0) 0).1
  refine ⟨m', a, b, ?_, ha, hb⟩
  intro i j _
  simp [m', hs2, Units.cons, ID, IP, IU, IV, RealOps.lit_real]

/-- Non-vacuity in 3D (4 × 3 × 5 cells), same units. -/
example (m : Mem Arr ℝ) (jk : Junk ℝ) :
    let U : Units := ⟨1000, 1/1000, 1/1000, by norm_num, by norm_num, by norm_num⟩
    let p := sample3 .neumann .dirichlet
    U.T = 1 ∧ Hydro3 p ∧ ∃ m' a b, (∀ i j k, interior3 p i j k → hs3 m' .U i j k = U.cons (hs3 m .U i j k)) ∧
      runMain p (hydroOps3 p ⟨false, false⟩ (-1) jk) m 0 0 a ∧
      runMain (U.params p) (hydroOps3 (U.params p) ⟨false, false⟩ (-1) jk) m' (U.T * 0) 0 b := by
  intro U p
  have hp : Hydro3 p := sample_hydro3 _ _
  refine ⟨by norm_num [U, Units.T], hp, ?_⟩
  let m' : Mem Arr ℝ := fun l =>
    (if l.v = ID then U.D else if l.v = IP then U.D * U.V ^ 2 else U.D * U.V) * m l
  obtain ⟨a, ha⟩ := (C14_hydro_completes hp.wf hp.faces ⟨false, false⟩
    (-1) jk (by simp [sample3, rawSample, Params.init, p]) m 0 0).2
  obtain ⟨b, hb⟩ := (C14_hydro_completes (p := U.params p) (hp.units U).wf (hp.units U).faces ⟨false, false⟩
    (-1) jk (by simp [sample3, rawSample, Params.init, p, Units.params]) m' (U.T * 0) 0).2
  refine ⟨m', a, b, ?_, ha, hb⟩
  intro i j k _
  simp [m', hs3, Units.cons, ID, IP, IU, IV, IW]

end EulerKokkos
