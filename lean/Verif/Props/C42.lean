import Verif.Props.C39
import Verif.Props.C05

/-!
# C42, C43 — 2D MHD: conservation and uniform states
-/

set_option linter.constructorNameAsVariable false
set_option linter.unusedSectionVars false
set_option linter.unusedSimpArgs false

namespace EulerKokkos
open Spec

theorem ms2_get (m : Mem Arr ℝ) (a : Arr) (i j : Int) {v : Nat} (hv : v < 8) :
    (ms2 m a i j).get v = m ⟨a, i, j, 0, v⟩ := by
  match v with
  | 0 | 1 | 2 | 3 | 4 | 5 | 6 | 7 => rfl
  | n + 8 => omega

/-- the six cell-centred variables: density, energy, momentum, z component of the magnetic field -/
def Spec.cellCentred (v : Nat) : Prop := v = ID ∨ v = IP ∨ v = IU ∨ v = IV ∨ v = IW ∨ v = IC

theorem stepM2_get {p : Params ℝ} (dt : ℝ) (u : FldM2 ℝ) {i j : Int} (h : interior2 p i j) {v : Nat}
    (hv : cellCentred v) :
    let T := tracesM2 p dt u
    (stepM2 p dt u i j).get v = (u i j).get v
      + (fluxXM2 p T i j).get v * (dt / p.dx) - (fluxXM2 p T (i + 1) j).get v * (dt / p.dx)
      + (fluxYM2 p T i j).get v * (dt / p.dy) - (fluxYM2 p T i (j + 1)).get v * (dt / p.dy) := by
  intro T
  unfold stepM2
  rw [if_pos h]
  rcases hv with rfl | rfl | rfl | rfl | rfl | rfl <;> rfl

/-- **C42 (balance).** In one 2D MHD step the total of each cell-centred conserved variable changes by the
fluxes through the four sides only; the total x (y) field on the faces by the difference of the emf
between the lower and upper (left and right) sides. -/
theorem C42_mhd_balance_2d {p : Params ℝ} (hp : Mhd2 p)
    (hi : p.implementationVersion = 0 ∨ p.implementationVersion = 1 ∨
      p.implementationVersion = 2)
    (dt : ℝ) (jk : JunkM ℝ) {inA outA : Arr} (hpp : PingPong inA outA) {m m' : Mem Arr ℝ}
    (hm : godunovMhd2 p dt jk inA outA m m') :
    let T := tracesM2 p dt (fillM2 p (ms2 m inA))
    (∀ v, cellCentred v → total2 p (fun i j => m' ⟨outA, i, j, 0, v⟩) =
      total2 p (fun i j => m ⟨inA, i, j, 0, v⟩)
      + ∑ j ∈ Finset.Ico p.ghostWidth (p.ghostWidth + p.ny),
          ((fluxXM2 p T p.ghostWidth j).get v - (fluxXM2 p T (p.ghostWidth + p.nx) j).get v) * (dt / p.dx)
      + ∑ i ∈ Finset.Ico p.ghostWidth (p.ghostWidth + p.nx),
          ((fluxYM2 p T i p.ghostWidth).get v - (fluxYM2 p T i (p.ghostWidth + p.ny)).get v) * (dt / p.dy)) ∧
    total2 p (fun i j => m' ⟨outA, i, j, 0, IA⟩) = total2 p (fun i j => m ⟨inA, i, j, 0, IA⟩)
      + ∑ i ∈ Finset.Ico p.ghostWidth (p.ghostWidth + p.nx),
          (emfM2 p T i (p.ghostWidth + p.ny) - emfM2 p T i p.ghostWidth) * (dt / p.dy) ∧
    total2 p (fun i j => m' ⟨outA, i, j, 0, IB⟩) = total2 p (fun i j => m ⟨inA, i, j, 0, IB⟩)
      - ∑ j ∈ Finset.Ico p.ghostWidth (p.ghostWidth + p.ny),
          (emfM2 p T (p.ghostWidth + p.nx) j - emfM2 p T p.ghostWidth j) * (dt / p.dx) := by
  intro T
  have h := (godunovMhd2_result hp signLaws_real (mhdOK2_real hp hi) hpp hm).2
  have key : ∀ v, v < 8 → ∀ g : Int → Int → ℝ,
      (∀ i j, interior2 p i j → (stepM2 p dt (fillM2 p (ms2 m inA)) i j).get v = g i j) →
      total2 p (fun i j => m' ⟨outA, i, j, 0, v⟩) = total2 p g := by
    intro v hv g hg
    refine Finset.sum_congr rfl (fun i hi' => Finset.sum_congr rfl (fun j hj' => ?_))
    simp only [Finset.mem_Ico] at hi' hj'
    have hint : interior2 p i j := ⟨by omega, by omega, by omega, by omega⟩
    beta_reduce
    rw [← hg i j hint, ← ms2_get m' outA i j hv, h i j hint]
    rfl
  have old : ∀ v, v < 8 → ∀ i j, interior2 p i j →
      (fillM2 p (ms2 m inA) i j).get v = m ⟨inA, i, j, 0, v⟩ := by
    intro v hv i j hint
    rw [fillM2_interior p _ hint, ms2_get m inA i j hv]
  refine ⟨fun v hv => ?_, ?_, ?_⟩
  · have hv8 : v < 8 := by rcases hv with rfl | rfl | rfl | rfl | rfl | rfl <;> decide
    rw [key v hv8 (fun i j => m ⟨inA, i, j, 0, v⟩
      + (fluxXM2 p T i j).get v * (dt / p.dx) - (fluxXM2 p T (i + 1) j).get v * (dt / p.dx)
      + (fluxYM2 p T i j).get v * (dt / p.dy) - (fluxYM2 p T i (j + 1)).get v * (dt / p.dy))]
    · rw [total2_fluxUpdate p hp.wf (fun i j => m ⟨inA, i, j, 0, v⟩)
        (fun i j => (fluxXM2 p T i j).get v * (dt / p.dx))
        (fun i j => (fluxYM2 p T i j).get v * (dt / p.dy))]
      simp only [sub_mul]
    · intro i j hint
      rw [stepM2_get dt _ hint hv, old v hv8 i j hint]
  · rw [key IA (by decide) (fun i j => m ⟨inA, i, j, 0, IA⟩ + 0 - 0
      + (-(emfM2 p T i j * (dt / p.dy))) - (-(emfM2 p T i (j + 1) * (dt / p.dy))))]
    · rw [total2_fluxUpdate p hp.wf (fun i j => m ⟨inA, i, j, 0, IA⟩) (fun _ _ => 0)
        (fun i j => -(emfM2 p T i j * (dt / p.dy)))]
      simp only [sub_self, Finset.sum_const_zero, add_zero, sub_mul, neg_sub_neg]
    · intro i j hint
      have := old IA (by decide) i j hint
      unfold stepM2
      rw [if_pos hint, ← this]
      show _ + _ = _
      simp only [T]
      have e : ∀ (s : MS ℝ), s.get IA = s.a := fun s => rfl
      rw [e]
      simp only [fluxUpdateM2, MS.plus6, MS.minus6]
      ring
  · rw [key IB (by decide) (fun i j => m ⟨inA, i, j, 0, IB⟩ +
      emfM2 p T i j * (dt / p.dx) - emfM2 p T (i + 1) j * (dt / p.dx) + 0 - 0)]
    · rw [total2_fluxUpdate p hp.wf (fun i j => m ⟨inA, i, j, 0, IB⟩)
        (fun i j => emfM2 p T i j * (dt / p.dx)) (fun _ _ => 0)]
      simp only [sub_self, Finset.sum_const_zero, add_zero, sub_mul, sub_eq_add_neg, ← Finset.sum_neg_distrib]
      congr 1
      exact Finset.sum_congr rfl (fun _ _ => by ring)
    · intro i j hint
      have := old IB (by decide) i j hint
      unfold stepM2
      rw [if_pos hint, ← this]
      show _ - _ = _
      simp only [T]
      have e : ∀ (s : MS ℝ), s.get IB = s.b := fun s => rfl
      rw [e]
      simp only [fluxUpdateM2, MS.plus6, MS.minus6]
      ring

/-- **C42 (one step).** Periodic domain: the totals of all eight variables (mass, energy, momentum and the three
components of the magnetic field) are unchanged, for every solver, version, schedule, state and `dt`. -/
theorem C42_mhd_conservation_step_2d {p : Params ℝ} (hp : Mhd2 p) (hP : PeriodicBox2 p)
    (hi : p.implementationVersion = 0 ∨ p.implementationVersion = 1 ∨
      p.implementationVersion = 2)
    (dt : ℝ) (jk : JunkM ℝ) {inA outA : Arr} (hpp : PingPong inA outA) {m m' : Mem Arr ℝ}
    (hm : godunovMhd2 p dt jk inA outA m m') {v : Nat} (hv : v < 8) :
    total2 p (fun i j => m' ⟨outA, i, j, 0, v⟩) = total2 p (fun i j => m ⟨inA, i, j, 0, v⟩) := by
  obtain ⟨h1, h2, h3⟩ := C42_mhd_balance_2d hp hi dt jk hpp hm
  have px := periodic_x hp hP dt (ms2 m inA)
  have py := periodic_y hp hP dt (ms2 m inA)
  have hc : cellCentred v ∨ v = IA ∨ v = IB := by
    unfold cellCentred; simp only [ID, IP, IU, IV, IW, IA, IB, IC]; omega
  rcases hc with hc | rfl | rfl
  · rw [h1 v hc]
    simp only [fun j => (px j).1, fun i => (py i).1, sub_self, zero_mul, Finset.sum_const_zero, add_zero]
  · rw [h2]
    simp only [fun i => (py i).2, sub_self, zero_mul, Finset.sum_const_zero, add_zero]
  · rw [h3]
    simp only [fun j => (px j).2, sub_self, zero_mul, Finset.sum_const_zero, sub_zero]

/-- **C42 (runs).** -/
theorem C42_mhd_conservation_run_2d {p : Params ℝ} (hp : Mhd2 p) (hP : PeriodicBox2 p)
    (hi : p.implementationVersion = 0 ∨ p.implementationVersion = 1 ∨
      p.implementationVersion = 2)
    (jk : JunkM ℝ) (dts : List ℝ) (n : Nat) {m m' : Mem Arr ℝ} (hm : mhdRun2 p jk n dts m m')
    {v : Nat} (hv : v < 8) :
    total2 p (fun i j => m' ⟨pingIn (n + dts.length), i, j, 0, v⟩) =
      total2 p (fun i j => m ⟨pingIn n, i, j, 0, v⟩) := by
  induction dts generalizing n m with
  | nil => cases hm; rfl
  | cons dt dts ih =>
    obtain ⟨mid, h1, h2⟩ := hm
    have := ih (n + 1) h2
    rw [show n + (dt :: dts).length = n + 1 + dts.length by simp; omega, this, ← pingOut_succ]
    exact C42_mhd_conservation_step_2d hp hP hi dt jk (pingPong n) h1 hv

/-- non-vacuity -/
theorem sampleM_step (a b : BC) (v : Int) (m : Mem Arr ℝ) :
    ∃ m', godunovMhd2 (sampleM a b v) (1/100) (fun _ _ _ _ => MS.zero) .U .U2 m m' :=
  (C39_mhd_atomic_step_deterministic_2d (sampleM_wf _ _ _)
    (sampleM_mhd2 _ _ _).faces _ _ (Or.inl ⟨rfl, rfl⟩) _).exists

example : Mhd2 (sampleM .periodic .periodic 1) ∧ PeriodicBox2 (sampleM .periodic .periodic 1) ∧
    ∃ m', godunovMhd2 (sampleM .periodic .periodic 1) (1/100) (fun _ _ _ _ => MS.zero) .U .U2
      (fun l => l.i + l.v) m' :=
  ⟨sampleM_mhd2 _ _ _, ⟨rfl, rfl, rfl, rfl⟩, sampleM_step _ _ _ _⟩

/-! ## C43 -/

/-- no reflecting side -/
def Spec.NoWall2 {α : Type} (p : Params α) : Prop :=
  p.boundary_type_xmin ≠ .dirichlet ∧ p.boundary_type_xmax ≠ .dirichlet ∧
  p.boundary_type_ymin ≠ .dirichlet ∧ p.boundary_type_ymax ≠ .dirichlet

theorem fillM2_uniform {p : Params ℝ} (hp : Mhd2 p) (hN : NoWall2 p) {u : FldM2 ℝ} {s : MS ℝ}
    (h : ∀ i j, interior2 p i j → u i j = s) (i j : Int) (hij : inGrid2 p i j) : fillM2 p u i j = s := by
  rw [fillM2_congr hp.wf hp.faces (u' := fun _ _ => s) h i j hij]
  obtain ⟨a, b, c, d⟩ := hN
  have f : ∀ v, ¬ flips p.boundary_type_xmin p.boundary_type_xmax p.nx p.ghostWidth v := by
    intro v hv; unfold flips at hv
    rcases hv with ⟨_, h⟩ | ⟨_, h⟩ <;> contradiction
  have f' : ∀ v, ¬ flips p.boundary_type_ymin p.boundary_type_ymax p.ny p.ghostWidth v := by
    intro v hv; unfold flips at hv
    rcases hv with ⟨_, h⟩ | ⟨_, h⟩ <;> contradiction
  unfold fillM2 ghost2
  simp only [signed, f, f', and_false, false_and, if_false]
  rfl

/-- **C43 (one step).** A uniform MHD state (any density, pressure, velocity, magnetic field: no positivity is
needed) with periodic or absorbing sides is not changed by a step. -/
theorem C43_mhd_uniform_step_2d {p : Params ℝ} (hp : Mhd2 p) (hN : NoWall2 p)
    (hi : p.implementationVersion = 0 ∨ p.implementationVersion = 1 ∨
      p.implementationVersion = 2)
    (dt : ℝ) (jk : JunkM ℝ) {inA outA : Arr} (hpp : PingPong inA outA) {m m' : Mem Arr ℝ}
    (hm : godunovMhd2 p dt jk inA outA m m') (s : Nat → ℝ)
    (h0 : ∀ i j v, interior2 p i j → v < 8 → m ⟨inA, i, j, 0, v⟩ = s v)
    (i j : Int) (hij : interior2 p i j) (v : Nat) (hv : v < 8) : m' ⟨outA, i, j, 0, v⟩ = s v := by
  have h := (godunovMhd2_result hp signLaws_real (mhdOK2_real hp hi) hpp hm).2 i j hij
  let S : MS ℝ := ⟨s ID, s IP, s IU, s IV, s IW, s IA, s IB, s IC⟩
  have hS : ∀ v, v < 8 → S.get v = s v := by
    intro v hv
    match v with
    | 0 | 1 | 2 | 3 | 4 | 5 | 6 | 7 => rfl
    | n + 8 => omega
  have hu : ∀ i j, interior2 p i j → ms2 m inA i j = S := by
    intro i j hij
    apply MS.ext <;> exact h0 i j _ hij (by decide)
  rw [← ms2_get m' outA i j hv, h, ← hS v hv]
  congr 1
  rw [fullStepM2_congr hp (u' := fun _ _ => S) (fun i j h => hu i j h) i j hij]
  have e := stepM2_interior_congr hp (dt := dt) (u' := fun _ _ => S)
    (fillM2_uniform hp hN (u := fun _ _ => S) (s := S) (fun _ _ _ => rfl)) i j hij
  refine e.trans ?_
  have T : ∀ a b, tracesM2 p dt (fun _ _ => S) a b = tracesM2 p dt (fun _ _ => S) 0 0 := by
    intro a b
    have := tracesM2_shift p dt (fun _ _ => S) a b 0 0
    rw [zero_add, zero_add] at this
    exact this.symm
  have F : ∀ a b, fluxXM2 p (tracesM2 p dt (fun _ _ => S)) a b =
      fluxXM2 p (tracesM2 p dt (fun _ _ => S)) 0 0 := by
    intro a b; unfold fluxXM2; rw [T a b, T (a - 1) b, T (0 - 1) 0]
  have G : ∀ a b, fluxYM2 p (tracesM2 p dt (fun _ _ => S)) a b =
      fluxYM2 p (tracesM2 p dt (fun _ _ => S)) 0 0 := by
    intro a b; unfold fluxYM2; rw [T a b, T a (b - 1), T 0 (0 - 1)]
  have E : ∀ a b, emfM2 p (tracesM2 p dt (fun _ _ => S)) a b =
      emfM2 p (tracesM2 p dt (fun _ _ => S)) 0 0 := by
    intro a b; unfold emfM2
    rw [T a b, T a (b - 1), T (a - 1) b, T (a - 1) (b - 1), T (0 - 1) 0, T 0 (0 - 1), T (0 - 1) (0 - 1)]
  unfold stepM2
  rw [if_pos hij]
  simp only [ctUpdate2, fluxUpdateM2, MS.plus6, MS.minus6]
  rw [F (i + 1) j, F i j, G i j, G i (j + 1), E i (j + 1), E i j, E (i + 1) j]
  apply MS.ext <;> simp

/-- **C43 (runs).** -/
theorem C43_mhd_uniform_run_2d {p : Params ℝ} (hp : Mhd2 p) (hN : NoWall2 p)
    (hi : p.implementationVersion = 0 ∨ p.implementationVersion = 1 ∨
      p.implementationVersion = 2)
    (jk : JunkM ℝ) (dts : List ℝ) (n : Nat) {m m' : Mem Arr ℝ} (hm : mhdRun2 p jk n dts m m')
    (s : Nat → ℝ) (h0 : ∀ i j v, interior2 p i j → v < 8 → m ⟨pingIn n, i, j, 0, v⟩ = s v)
    (i j : Int) (hij : interior2 p i j) (v : Nat) (hv : v < 8) :
    m' ⟨pingIn (n + dts.length), i, j, 0, v⟩ = s v := by
  induction dts generalizing n m with
  | nil => cases hm; exact h0 i j v hij hv
  | cons dt dts ih =>
    obtain ⟨mid, h1, h2⟩ := hm
    rw [show n + (dt :: dts).length = n + 1 + dts.length by simp; omega]
    refine ih (n + 1) h2 (fun i j v hij hv => ?_)
    rw [← pingOut_succ]
    exact C43_mhd_uniform_step_2d hp hN hi dt jk (pingPong n) h1 s h0 i j hij v hv

example : NoWall2 (sampleM .periodic .neumann 2) ∧ Mhd2 (sampleM .periodic .neumann 2) ∧
    ∃ m', godunovMhd2 (sampleM .periodic .neumann 2) (1/100) (fun _ _ _ _ => MS.zero) .U .U2
      (fun l => l.v + 1) m' :=
  ⟨⟨by decide, by decide, by decide, by decide⟩, sampleM_mhd2 _ _ _, sampleM_step _ _ _ _⟩

end EulerKokkos
