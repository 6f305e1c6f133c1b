import Verif.Props.C28
import Verif.Props.C30

/-!
# C47, C48 — 3D MHD: conservation and uniform states
-/

set_option linter.constructorNameAsVariable false
set_option linter.unusedSectionVars false
set_option linter.unusedSimpArgs false

namespace EulerKokkos
open Spec

theorem ms_get (m : Mem Arr ℝ) (a : Arr) (i j k : Int) {v : Nat} (hv : v < 8) :
    (ms m a i j k).get v = m ⟨a, i, j, k, v⟩ := by
  match v with
  | 0 | 1 | 2 | 3 | 4 | 5 | 6 | 7 => rfl
  | n + 8 => omega

theorem stepM3_get {p : Params ℝ} (dt : ℝ) (u : FldM3 ℝ) {i j k : Int} (h : interior3 p i j k) {v : Nat}
    (hv : v < 5) :
    let F := schemeM3 p dt u
    (stepM3 p dt u i j k).get v = (u i j k).get v
      + (F.x i j k).get v * (dt / p.dx) - (F.x (i + 1) j k).get v * (dt / p.dx)
      + (F.y i j k).get v * (dt / p.dy) - (F.y i (j + 1) k).get v * (dt / p.dy)
      + (F.z i j k).get v * (dt / p.dz) - (F.z i j (k + 1)).get v * (dt / p.dz) := by
  intro F
  unfold stepM3 stepOfM3
  rw [if_pos h]
  match v with
  | 0 | 1 | 2 | 3 | 4 => rfl
  | n + 5 => omega

/-- **C47 (balance).** In one 3D MHD step the total of each cell-centred conserved variable (density,
energy, three momenta) changes by the fluxes through the six sides only; the total of each component of
the face-centred magnetic field by the differences of the electromotive forces between opposite sides. -/
theorem C47_mhd_balance_3d {p : Params ℝ} (hp : Mhd3 p)
    (hi : p.implementationVersion = 0 ∨ p.implementationVersion = 1 ∨
      p.implementationVersion = 2)
    (dt : ℝ) (jk : JunkM ℝ) {inA outA : Arr} (hpp : PingPong inA outA) {m m' : Mem Arr ℝ}
    (hm : godunovMhd3 p dt jk inA outA m m') :
    let F := schemeM3 p dt (fillM3 p (ms m inA))
    let new := fun v => total3 p (fun i j k => m' ⟨outA, i, j, k, v⟩)
    let old := fun v => total3 p (fun i j k => m ⟨inA, i, j, k, v⟩)
    (∀ v, v < 5 → new v = old v + sides3 p (fun i j k => (F.x i j k).get v * (dt / p.dx))
      (fun i j k => (F.y i j k).get v * (dt / p.dy)) (fun i j k => (F.z i j k).get v * (dt / p.dz))) ∧
    new IA = old IA + sides3 p (fun _ _ _ => 0) (fun i j k => -(F.e .z i j k * (dt / p.dy)))
      (fun i j k => F.e .y i j k * (dt / p.dz)) ∧
    new IB = old IB + sides3 p (fun i j k => F.e .z i j k * (dt / p.dx)) (fun _ _ _ => 0)
      (fun i j k => -(F.e .x i j k * (dt / p.dz))) ∧
    new IC = old IC + sides3 p (fun i j k => -(F.e .y i j k * (dt / p.dx)))
      (fun i j k => F.e .x i j k * (dt / p.dy)) (fun _ _ _ => 0) := by
  intro F new old
  have h := (godunovMhd3_result hp signLaws_real (mhdOK3_real hp hi) hpp hm).2
  have key : ∀ v, v < 8 → ∀ g : Int → Int → Int → ℝ,
      (∀ i j k, interior3 p i j k → (stepM3 p dt (fillM3 p (ms m inA)) i j k).get v = g i j k) →
      new v = total3 p g := by
    intro v hv g hg
    refine Finset.sum_congr rfl (fun i hi' => Finset.sum_congr rfl (fun j hj' =>
      Finset.sum_congr rfl (fun k hk' => ?_)))
    simp only [Finset.mem_Ico] at hi' hj' hk'
    have hint : interior3 p i j k := ⟨⟨by omega, by omega⟩, ⟨by omega, by omega⟩, by omega, by omega⟩
    beta_reduce
    rw [← hg i j k hint, ← ms_get m' outA i j k hv, h i j k hint]
    rfl
  have prev : ∀ v, v < 8 → ∀ i j k, interior3 p i j k →
      (fillM3 p (ms m inA) i j k).get v = m ⟨inA, i, j, k, v⟩ := by
    intro v hv i j k hint
    rw [fillM3_interior p _ hint, ms_get m inA i j k hv]
  have mag : ∀ i j k, interior3 p i j k →
      (stepM3 p dt (fillM3 p (ms m inA)) i j k).get IA = m ⟨inA, i, j, k, IA⟩ +
        (F.e .z i (j + 1) k - F.e .z i j k) * (dt / p.dy) -
        (F.e .y i j (k + 1) - F.e .y i j k) * (dt / p.dz) ∧
      (stepM3 p dt (fillM3 p (ms m inA)) i j k).get IB = m ⟨inA, i, j, k, IB⟩ -
        (F.e .z (i + 1) j k - F.e .z i j k) * (dt / p.dx) +
        (F.e .x i j (k + 1) - F.e .x i j k) * (dt / p.dz) ∧
      (stepM3 p dt (fillM3 p (ms m inA)) i j k).get IC = m ⟨inA, i, j, k, IC⟩ +
        (F.e .y (i + 1) j k - F.e .y i j k) * (dt / p.dx) -
        (F.e .x i (j + 1) k - F.e .x i j k) * (dt / p.dy) := by
    intro i j k hint
    rw [← prev IA (by decide) i j k hint, ← prev IB (by decide) i j k hint,
      ← prev IC (by decide) i j k hint]
    obtain ⟨a, b, c⟩ := stepM3_abc (dt := dt) (u := fillM3 p (ms m inA)) hint
    exact ⟨a, b, c⟩
  refine ⟨fun v hv => ?_, ?_, ?_, ?_⟩
  · rw [← total3_fluxUpdate p hp.wf]
    refine key v (by omega) _ (fun i j k hint => ?_)
    rw [stepM3_get dt _ hint hv, prev v (by omega) i j k hint]
  · rw [← total3_fluxUpdate p hp.wf]
    refine key IA (by decide) _ (fun i j k hint => ?_)
    rw [(mag i j k hint).1]; ring
  · rw [← total3_fluxUpdate p hp.wf]
    refine key IB (by decide) _ (fun i j k hint => ?_)
    rw [(mag i j k hint).2.1]; ring
  · rw [← total3_fluxUpdate p hp.wf]
    refine key IC (by decide) _ (fun i j k hint => ?_)
    rw [(mag i j k hint).2.2]; ring

/-- **C47 (one step).** Periodic domain: the totals of all eight variables (mass, energy, momentum and the
three components of the magnetic field) are unchanged, for every solver, version, schedule, state, `dt`. -/
theorem C47_mhd_conservation_step_3d {p : Params ℝ} (hp : Mhd3 p) (hP : PeriodicBox3 p)
    (hi : p.implementationVersion = 0 ∨ p.implementationVersion = 1 ∨
      p.implementationVersion = 2)
    (dt : ℝ) (jk : JunkM ℝ) {inA outA : Arr} (hpp : PingPong inA outA) {m m' : Mem Arr ℝ}
    (hm : godunovMhd3 p dt jk inA outA m m') {v : Nat} (hv : v < 8) :
    total3 p (fun i j k => m' ⟨outA, i, j, k, v⟩) = total3 p (fun i j k => m ⟨inA, i, j, k, v⟩) := by
  obtain ⟨h1, h2, h3, h4⟩ := C47_mhd_balance_3d hp hi dt jk hpp hm
  beta_reduce at h1 h2 h3 h4
  have px := fun j k => periodic3_x hp hP dt (ms m inA) j k
  have py := fun i k => periodic3_y hp hP dt (ms m inA) i k
  have pz := fun i j => periodic3_z hp hP dt (ms m inA) i j
  have hc : v < 5 ∨ v = IA ∨ v = IB ∨ v = IC := by
    simp only [IA, IB, IC]; omega
  rcases hc with hc | rfl | rfl | rfl
  · rw [h1 v hc]
    simp only [sides3, fun j k => (px j k).1, fun i k => (py i k).1, fun i j => (pz i j).1, sub_self,
      Finset.sum_const_zero, add_zero]
  · rw [h2]
    simp only [sides3, fun i k => (py i k).2, fun i j => (pz i j).2, sub_self,
      Finset.sum_const_zero, add_zero]
  · rw [h3]
    simp only [sides3, fun i k => (px i k).2, fun i j => (pz i j).2, sub_self,
      Finset.sum_const_zero, add_zero]
  · rw [h4]
    simp only [sides3, fun i k => (px i k).2, fun i j => (py i j).2, sub_self,
      Finset.sum_const_zero, add_zero]

/-- **C47 (runs).** -/
theorem C47_mhd_conservation_run_3d {p : Params ℝ} (hp : Mhd3 p) (hP : PeriodicBox3 p)
    (hi : p.implementationVersion = 0 ∨ p.implementationVersion = 1 ∨
      p.implementationVersion = 2)
    (jk : JunkM ℝ) (dts : List ℝ) (n : Nat) {m m' : Mem Arr ℝ} (hm : mhdRun3 p jk n dts m m')
    {v : Nat} (hv : v < 8) :
    total3 p (fun i j k => m' ⟨pingIn (n + dts.length), i, j, k, v⟩) =
      total3 p (fun i j k => m ⟨pingIn n, i, j, k, v⟩) := by
  induction dts generalizing n m with
  | nil => cases hm; rfl
  | cons dt dts ih =>
    obtain ⟨mid, h1, h2⟩ := hm
    have := ih (n + 1) h2
    rw [show n + (dt :: dts).length = n + 1 + dts.length by simp; omega, this, ← pingOut_succ]
    exact C47_mhd_conservation_step_3d hp hP hi dt jk (pingPong n) h1 hv

example : Mhd3 (sampleM .periodic .periodic 1) ∧ PeriodicBox3 (sampleM .periodic .periodic 1) ∧
    ∃ m', godunovMhd3 (sampleM .periodic .periodic 1) (1/100) (fun _ _ _ _ => MS.zero) .U .U2
      (fun l => l.i + l.v) m' :=
  ⟨sampleM_mhd3 _ _ _, ⟨rfl, rfl, rfl, rfl, rfl, rfl⟩, sampleM_step3 _ _ _ _⟩

/-! ## C48 -/

/-- no reflecting side -/
def Spec.NoWall3 {α : Type} (p : Params α) : Prop :=
  NoWall2 p ∧ p.boundary_type_zmin ≠ .dirichlet ∧ p.boundary_type_zmax ≠ .dirichlet

/-- **C48 (one step).** A uniform MHD state (any density, pressure, velocity, magnetic field: no positivity
is needed) with periodic or absorbing sides is not changed by a step. -/
theorem C48_mhd_uniform_step_3d {p : Params ℝ} (hp : Mhd3 p) (hN : NoWall3 p)
    (hi : p.implementationVersion = 0 ∨ p.implementationVersion = 1 ∨
      p.implementationVersion = 2)
    (dt : ℝ) (jk : JunkM ℝ) {inA outA : Arr} (hpp : PingPong inA outA) {m m' : Mem Arr ℝ}
    (hm : godunovMhd3 p dt jk inA outA m m') (s : Nat → ℝ)
    (h0 : ∀ i j k v, interior3 p i j k → v < 8 → m ⟨inA, i, j, k, v⟩ = s v)
    (i j k : Int) (hij : interior3 p i j k) (v : Nat) (hv : v < 8) : m' ⟨outA, i, j, k, v⟩ = s v := by
  have h := (godunovMhd3_result hp signLaws_real (mhdOK3_real hp hi) hpp hm).2 i j k hij
  let S : MS ℝ := ⟨s ID, s IP, s IU, s IV, s IW, s IA, s IB, s IC⟩
  have hS : ∀ v, v < 8 → S.get v = s v := by
    intro v hv
    match v with
    | 0 | 1 | 2 | 3 | 4 | 5 | 6 | 7 => rfl
    | n + 8 => omega
  have hu : ∀ i j k, interior3 p i j k → ms m inA i j k = S := by
    intro i j k hij
    apply MS.ext <;> exact h0 i j k _ hij (by decide)
  rw [← ms_get m' outA i j k hv, h, ← hS v hv]
  congr 1
  rw [fullStepM3_congr hp (u' := fun _ _ _ => S) (fun i j k h => hu i j k h) i j k hij]
  have e := stepM3_interior_congr hp (dt := dt) (u' := fun _ _ _ => S)
    (fillM3_uniform hp hN.1 hN.2 (u := fun _ _ _ => S) (s := S) (fun _ _ _ _ => rfl)) i j k hij
  refine e.trans ?_
  have T : ∀ a b c,
      (schemeM3 p dt (fun _ _ _ => S)).x a b c = (schemeM3 p dt (fun _ _ _ => S)).x 0 0 0 ∧
      (schemeM3 p dt (fun _ _ _ => S)).y a b c = (schemeM3 p dt (fun _ _ _ => S)).y 0 0 0 ∧
      (schemeM3 p dt (fun _ _ _ => S)).z a b c = (schemeM3 p dt (fun _ _ _ => S)).z 0 0 0 ∧
      ∀ d, (schemeM3 p dt (fun _ _ _ => S)).e d a b c = (schemeM3 p dt (fun _ _ _ => S)).e d 0 0 0 := by
    intro a b c
    have := schemeM3_shift p dt (fun _ _ _ => S) a b c 0 0 0
    simp only [zero_add] at this
    exact ⟨this.1.symm, this.2.1.symm, this.2.2.1.symm, fun d => (this.2.2.2 d).symm⟩
  unfold stepM3 stepOfM3
  rw [if_pos hij]
  simp only [ctUpdate3, fluxUpdateM3, MS.plus5, MS.minus5]
  rw [(T (i + 1) j k).1, (T i j k).1, (T i (j + 1) k).2.1, (T i j k).2.1, (T i j (k + 1)).2.2.1,
    (T i j k).2.2.1]
  simp only [(T (i + 1) j k).2.2.2, (T i (j + 1) k).2.2.2, (T i j (k + 1)).2.2.2, (T i j k).2.2.2]
  apply MS.ext <;> simp

/-- **C48 (runs).** -/
theorem C48_mhd_uniform_run_3d {p : Params ℝ} (hp : Mhd3 p) (hN : NoWall3 p)
    (hi : p.implementationVersion = 0 ∨ p.implementationVersion = 1 ∨
      p.implementationVersion = 2)
    (jk : JunkM ℝ) (dts : List ℝ) (n : Nat) {m m' : Mem Arr ℝ} (hm : mhdRun3 p jk n dts m m')
    (s : Nat → ℝ) (h0 : ∀ i j k v, interior3 p i j k → v < 8 → m ⟨pingIn n, i, j, k, v⟩ = s v)
    (i j k : Int) (hij : interior3 p i j k) (v : Nat) (hv : v < 8) :
    m' ⟨pingIn (n + dts.length), i, j, k, v⟩ = s v := by
  induction dts generalizing n m with
  | nil => cases hm; exact h0 i j k v hij hv
  | cons dt dts ih =>
    obtain ⟨mid, h1, h2⟩ := hm
    rw [show n + (dt :: dts).length = n + 1 + dts.length by simp; omega]
    refine ih (n + 1) h2 (fun i j k v hij hv => ?_)
    rw [← pingOut_succ]
    exact C48_mhd_uniform_step_3d hp hN hi dt jk (pingPong n) h1 s h0 i j k hij v hv

example : NoWall3 (sampleM .periodic .neumann 2) ∧ Mhd3 (sampleM .periodic .neumann 2) ∧
    ∃ m', godunovMhd3 (sampleM .periodic .neumann 2) (1/100) (fun _ _ _ _ => MS.zero) .U .U2
      (fun l => l.v + 1) m' :=
  ⟨⟨⟨by decide, by decide, by decide, by decide⟩, by decide, by decide⟩, sampleM_mhd3 _ _ _,
    sampleM_step3 _ _ _ _⟩

end EulerKokkos
