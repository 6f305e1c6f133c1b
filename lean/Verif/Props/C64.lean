import Verif.Props.C58
import Verif.Props.C59
import Verif.Props.C61
import Verif.Spec.MhdProblems

/-!
# C64: the MHD initial conditions set up the states the problems prescribe
-/

set_option linter.constructorNameAsVariable false
set_option linter.unusedSectionVars false
set_option linter.unusedSimpArgs false
set_option linter.unnecessarySeqFocus false

namespace EulerKokkos

open Spec Spmd

/-- the state described by a list of stores over zeroed memory -/
def storedMS (l : List (Nat × ℝ)) : MS ℝ :=
  ⟨(stored l ID).getD 0, (stored l IP).getD 0, (stored l IU).getD 0, (stored l IV).getD 0, (stored l IW).getD 0,
   (stored l IA).getD 0, (stored l IB).getD 0, (stored l IC).getD 0⟩

theorem storedMS_allVars (s : MS ℝ) : storedMS (allVars s) = s := by
  simp [storedMS, allVars, stored, ID, IP, IU, IV, IW, IA, IB, IC]

theorem blastM_eq (p : Params ℝ) (q : BlastParams ℝ) {d2 : ℝ} {P : Prop} [Decidable P]
    (h : P ↔ d2 < q.radius * q.radius) :
    blastM p q d2 = mhdCons p.settings.gamma0 (blastStateM q (decide P)) := by
  unfold blastM blastStateM
  simp only [RealOps.lt_real, RealOps.lit_real, decide_eq_true_eq, h]
  split_ifs <;> simp only [mhdCons, mhdEnergy, magPressure, sq, MS.mk.injEq] <;> push_cast <;>
    refine ⟨?_, ?_, ?_, ?_, ?_, ?_, ?_, ?_⟩ <;> first | trivial | ring

theorem sqrt_lt_radius {a r : ℝ} (ha : 0 ≤ a) (hr : 0 ≤ r) : Real.sqrt a < r ↔ a < r * r := by
  rw [Real.sqrt_lt ha hr, pow_two]

theorem implodeState_eq (g : ℝ) {ρ pr u v w : ℝ} (bx by' bz : ℝ) (h : StillOrUnit ρ u v w) :
    implodeState g ρ pr u v w bx by' bz = mhdCons g ⟨ρ, pr, u, v, w, bx, by', bz⟩ := by
  unfold implodeState
  rcases h with h | ⟨h1, h2, h3⟩
  · subst h
    simp only [mhdCons, mhdEnergy, magPressure, RealOps.lit_real, MS.mk.injEq] <;> push_cast <;>
      refine ⟨?_, ?_, ?_, ?_, ?_, ?_, ?_, ?_⟩ <;> first | trivial | ring
  · subst h1 h2 h3
    simp only [mhdCons, mhdEnergy, magPressure, RealOps.lit_real, MS.mk.injEq] <;> push_cast <;>
      refine ⟨?_, ?_, ?_, ?_, ?_, ?_, ?_, ?_⟩ <;> first | trivial | ring

theorem out_iff (a : ℝ) : (RealOps.lt a (lit (1 / 4)) || RealOps.lt (lit (3 / 4)) a) =
    !decide (1 / 4 ≤ a ∧ a ≤ 3 / 4) := by
  rw [Bool.eq_iff_iff]
  simp only [RealOps.lt_real, RealOps.lit_real, Bool.or_eq_true, decide_eq_true_eq, Bool.not_eq_true',
    decide_eq_false_iff_not, not_and_or, not_le]
  push_cast
  rfl

theorem in_iff (a : ℝ) : (RealOps.le (lit (1 / 4)) a && RealOps.le a (lit (3 / 4))) =
    decide (1 / 4 ≤ a ∧ a ≤ 3 / 4) := by
  rw [Bool.eq_iff_iff]
  simp only [RealOps.le_real, RealOps.lit_real, Bool.and_eq_true, decide_eq_true_eq]
  push_cast
  rfl

theorem khStored2 (g pr d u v : ℝ) :
    storedMS (let s := khState g d pr u v (lit 0) (u * u + v * v)
      [(ID, s.d), (IU, s.u), (IV, s.v), (IA, s.a), (IB, s.b), (IC, s.c), (IP, s.p)]) =
      mhdCons g ⟨d, pr, u, v, 0, 1 / 2, 0, 0⟩ := by
  simp [storedMS, stored, khState, mhdCons, mhdEnergy, magPressure, ID, IP, IU, IV, IW, IA, IB, IC]
  ring

theorem khStored3 (g pr d u v w : ℝ) :
    storedMS (let s := khState g d pr u v w (u * u + v * v + w * w)
      [(ID, s.d), (IU, s.u), (IV, s.v), (IW, s.w), (IA, s.a), (IB, s.b), (IC, s.c), (IP, s.p)]) =
      mhdCons g ⟨d, pr, u, v, w, 1 / 2, 0, 0⟩ := by
  simp [storedMS, stored, khState, mhdCons, mhdEnergy, magPressure, ID, IP, IU, IV, IW, IA, IB, IC]
  ring

theorem cellM2_prescribed {M : MathLib ℝ} (hM : ExactMath M) (p : Params ℝ) (n : Nat → ℝ) (x y : ℝ)
    {q : MhdProblem ℝ} (hq : FaithfulM2 p x y q) :
    storedMS (mhdCell2 M p n x y q) = mhdCons p.settings.gamma0 (prescribedM2 p n x y q) := by
  classical
  cases q with
  | blast q =>
    have hr : 0 ≤ q.radius := hq
    simp only [mhdCell2, storedMS_allVars, prescribedM2]
    refine blastM_eq p q ?_
    rw [sqrt_lt_radius (by positivity) hr, blastD2]
    ring_nf
  | implode q =>
    obtain ⟨h1, h2⟩ := hq
    simp only [mhdCell2, storedMS_allVars, prescribedM2]
    have key : implodeM2 p q x y = (if (if q.shape = 1 then 1 / 2 < x + y ∧ x + y < 5 / 2
        else (p.xmin + p.xmax) / 2 + p.ymin < x + y) then
        implodeState p.settings.gamma0 q.rho_out q.p_out q.u_out q.v_out 0 q.Bx_out q.By_out 0
      else implodeState p.settings.gamma0 q.rho_in q.p_in q.u_in q.v_in 0 q.Bx_in q.By_in 0) := by
      unfold implodeM2 implodeState
      simp only [RealOps.lt_real, RealOps.lit_real]
      split_ifs <;> simp_all <;> linarith
    rw [key, implodeState_eq _ _ _ _ h1, implodeState_eq _ _ _ _ h2]
    unfold implodeStateM
    simp only [decide_eq_true_eq]
    split_ifs <;> rfl
  | brioWu q =>
    rcases hq with h | h <;>
    · simp only [mhdCell2, brioWuM2, prescribedM2, brioWuState, h, storedMS, stored, RealOps.le_real,
        RealOps.lit_real, mhdCons, mhdEnergy, magPressure]
      simp only [ID, IP, IU, IV, IW, IA, IB, IC]
      norm_num
      try (split_ifs <;> ring)
  | orszagTang q => exact hq.elim
  | kelvinHelmholtz q =>
    have hst := khStored2 p.settings.gamma0 q.pressure
    simp only [mhdCell2, khM2, prescribedM2]
    by_cases h1 : q.p_rand = true
    · simp only [h1, if_true]
      refine (hst _ _ _).trans (congrArg _ ?_)
      rw [out_iff]
      simp only [RealOps.lit_real, MS.mk.injEq]
      push_cast
      generalize (y - p.ymin) / (p.ymax - p.ymin) = s
      by_cases h : 1 / 4 ≤ s ∧ s ≤ 3 / 4
      · simp only [h, and_self, decide_true, Bool.not_true, Bool.false_eq_true, if_false, if_true, zero_add]
      · simp only [h, decide_false, Bool.not_false, if_false, if_true, zero_add, and_self]
    · by_cases h2 : q.p_sine_rob = true
      · simp only [h1, h2, if_true, if_false, Bool.false_eq_true]
        refine (hst _ _ _).trans (congrArg _ ?_)
        simp only [khRamp_eq hM, hM.sin, hM.pi, intLit, RealOps.lit_real, MS.mk.injEq]
        push_cast
        refine ⟨?_, ?_, ?_, ?_, ?_, ?_, ?_, ?_⟩ <;> first | trivial | ring
      · have h3 : q.p_sine = true := by
          rcases hq with h | h | h
          · exact absurd h h1
          · exact absurd h h2
          · exact h
        simp only [h1, h2, h3, if_true, if_false, Bool.false_eq_true]
        refine (hst _ _ _).trans (congrArg _ ?_)
        rw [in_iff]
        simp only [hM.sin, hM.pi, intLit, RealOps.lit_real, MS.mk.injEq, decide_eq_true_eq]
        push_cast
        refine ⟨?_, ?_, ?_, ?_, ?_, ?_, ?_, ?_⟩ <;> trivial
  | rotor q =>
    obtain ⟨h1, h2⟩ := hq
    simp only [mhdCell2, storedMS_allVars, prescribedM2, rotorM2, rotorState, RealOps.le_real, RealOps.lit_real,
      RealOps.sqrt_real, decide_eq_true_eq]
    rw [add_comm p.xmax p.xmin, add_comm p.ymax p.ymin]
    simp only [← pow_two]
    push_cast
    revert h2
    generalize x - (p.xmin + p.xmax) / 2 = a
    generalize y - (p.ymin + p.ymax) / 2 = b
    generalize hr : Real.sqrt (a ^ 2 + b ^ 2) = r
    intro h2
    have hd : q.r1 - q.r0 ≠ 0 := by linarith
    split_ifs with h3 h4
    · obtain rfl : r = q.r0 := le_antisymm h3 h2
      simp only [div_self hd, mhdCons, mhdEnergy, magPressure, MS.mk.injEq]
      refine ⟨?_, ?_, ?_, ?_, ?_, ?_, ?_, ?_⟩ <;> first | trivial | ring
    · have h5 : 0 ≤ (q.r1 - r) / (q.r1 - q.r0) := div_nonneg (by linarith) (by linarith)
      revert h5
      generalize (q.r1 - r) / (q.r1 - q.r0) = f
      intro h5
      have h6 : 1 + 9 * f ≠ 0 := by positivity
      simp only [mhdCons, mhdEnergy, magPressure, MS.mk.injEq]
      refine ⟨trivial, ?_, ?_, ?_, ?_, trivial, trivial, trivial⟩
      · field_simp
        ring
      all_goals ring
    · simp only [mhdCons, mhdEnergy, magPressure, MS.mk.injEq]
      refine ⟨?_, ?_, ?_, ?_, ?_, ?_, ?_, ?_⟩ <;> first | trivial | ring
  | fieldLoop q => exact hq.elim

theorem cellM3_prescribed {M : MathLib ℝ} (hM : ExactMath M) (p : Params ℝ) (n : Nat → ℝ) (x y z : ℝ)
    {q : MhdProblem ℝ} (hq : FaithfulM3 p x y q) :
    storedMS (mhdCell3 M p n x y z z q) = mhdCons p.settings.gamma0 (prescribedM3 p x y z q) := by
  classical
  cases q with
  | blast q =>
    have hr : 0 ≤ q.radius := hq
    simp only [mhdCell3, storedMS_allVars, prescribedM3]
    refine blastM_eq p q ?_
    rw [sqrt_lt_radius (by positivity) hr, blastD3]
    ring_nf
  | implode q =>
    obtain ⟨h1, h2⟩ := hq
    simp only [mhdCell3, storedMS_allVars, prescribedM3, implodeM3, implodeCell]
    rw [implodeState_eq _ _ _ _ h1, implodeState_eq _ _ _ _ h2]
    unfold implodeStateM
    have e : (if q.shape = 1 then RealOps.lt (lit (1 / 2)) (x + y + z) && RealOps.lt (x + y + z) (lit (5 / 2))
        else RealOps.lt ((p.xmin + p.xmax) / lit 2 + p.ymin + p.zmin) (x + y + z)) =
        decide (if q.shape = 1 then 1 / 2 < x + y + z ∧ x + y + z < 5 / 2
          else (p.xmin + p.xmax) / 2 + p.ymin + p.zmin < x + y + z) := by
      rw [Bool.eq_iff_iff]
      split_ifs <;> simp
    rw [e]
    split_ifs <;> rfl
  | brioWu q =>
    rcases hq with h | h | h
    · by_cases hl : x ≤ q.xd <;>
      simp [mhdCell3, brioWuM3, prescribedM3, brioWuState, h, storedMS, stored, hl,
        mhdCons, mhdEnergy, magPressure, ID, IP, IU, IV, IW, IA, IB, IC] <;> ring
    · by_cases hl : y ≤ q.xd <;>
      simp [mhdCell3, brioWuM3, prescribedM3, brioWuState, h, storedMS, stored, hl,
        mhdCons, mhdEnergy, magPressure, ID, IP, IU, IV, IW, IA, IB, IC] <;> ring
    · by_cases hl : z ≤ q.xd <;>
      simp [mhdCell3, brioWuM3, prescribedM3, brioWuState, h, storedMS, stored, hl,
        mhdCons, mhdEnergy, magPressure, ID, IP, IU, IV, IW, IA, IB, IC] <;> ring
  | orszagTang q => exact hq.elim
  | kelvinHelmholtz q =>
    obtain ⟨h1, hq⟩ := hq
    have hst := khStored3 p.settings.gamma0 q.pressure
    simp only [mhdCell3, khM3, prescribedM3]
    by_cases h2 : q.p_sine_rob = true
    · simp only [h1, h2, if_true, if_false, Bool.false_eq_true]
      refine (hst _ _ _ _).trans (congrArg _ ?_)
      simp only [khRamp_eq hM, hM.sin, hM.pi, intLit, RealOps.lit_real, MS.mk.injEq]
      push_cast
      refine ⟨?_, ?_, ?_, ?_, ?_, ?_, ?_, ?_⟩ <;> first | trivial | ring
    · have h3 : q.p_sine = true := hq.resolve_left h2
      simp only [h1, h2, h3, if_true, if_false, Bool.false_eq_true]
      refine (hst _ _ _ _).trans (congrArg _ ?_)
      rw [in_iff]
      simp only [hM.sin, hM.pi, intLit, RealOps.lit_real, MS.mk.injEq, decide_eq_true_eq]
      push_cast
      refine ⟨?_, ?_, ?_, ?_, ?_, ?_, ?_, ?_⟩ <;> trivial
  | rotor q =>
    simp only [mhdCell3, storedMS_allVars, prescribedM3, rotorM3, rotorState, RealOps.le_real, RealOps.lit_real,
      RealOps.sqrt_real, decide_eq_true_eq]
    rw [add_comm p.xmax p.xmin, add_comm p.ymax p.ymin]
    simp only [← pow_two]
    push_cast
    revert hq
    simp only [FaithfulM3]
    generalize x - (p.xmin + p.xmax) / 2 = a
    generalize y - (p.ymin + p.ymax) / 2 = b
    generalize hr : Real.sqrt (a ^ 2 + b ^ 2) = r
    intro hq
    rcases hq with ⟨h0, h1⟩ | h
    · split_ifs <;> simp only [h0, mhdCons, mhdEnergy, magPressure, MS.mk.injEq] <;>
        refine ⟨?_, ?_, ?_, ?_, ?_, ?_, ?_, ?_⟩ <;> first | trivial | ring
    · obtain ⟨h1, h2⟩ := max_lt_iff.1 h
      rw [if_neg (not_le.2 h1), if_neg (not_le.2 h2), if_neg (not_le.2 h1), if_neg (not_le.2 h2)]
      simp only [mhdCons, mhdEnergy, magPressure, MS.mk.injEq]
      refine ⟨?_, ?_, ?_, ?_, ?_, ?_, ?_, ?_⟩ <;> first | trivial | ring
  | fieldLoop q => exact hq.elim

/-! ### The stored state -/

theorem brioWuZ_centre (p : Params ℝ) (k : Int) :
    brioWuZ p (0, 0, 0) k = centre p.zmin p.dz p.ghostWidth k := by
  simp [brioWuZ, intLit, centre]; ring

/-- a problem set up by one kernel -/
def OneKernel : MhdProblem ℝ → Prop
  | .orszagTang _ | .fieldLoop _ => False
  | _ => True

theorem initMhd2_stored (M : MathLib ℝ) {p : Params ℝ} {pos : Int × Int × Int}
    {rnd : Int → Int → Int → Nat → ℝ} {q : MhdProblem ℝ} (hq : DirectionOk2 q) (h1 : OneKernel q)
    {m : Mem Arr ℝ} (hm : runLaunches (initMhd2 M p pos rnd q) freshMem m) {i j : Int}
    (hin : (i, j) ∈ range2 p.isize p.jsize) :
    ms2 m .U i j = storedMS (mhdCell2 M p (rnd i j 0) (cellX p pos i) (cellY p pos j) q) := by
  have hm : Prog.forRange (range2 p.isize p.jsize) (mhdInit2 M p pos rnd q) freshMem m := by
    cases q <;> first
      | exact h1.elim
      | simpa [initMhd2, runLaunches, Kern.seqs, Kern.seq_skip, Launch.kern] using hm
  rw [mhdInitK2_iff M p pos rnd hq] at hm
  subst hm
  simp [ms2, ms, storedMS, hin, freshMem]

theorem initMhd3_stored (M : MathLib ℝ) {p : Params ℝ} {pos : Int × Int × Int}
    {rnd : Int → Int → Int → Nat → ℝ} {q : MhdProblem ℝ} (hq : DirectionOk3 q) (h1 : OneKernel q)
    {m : Mem Arr ℝ} (hm : runLaunches (initMhd3 M p pos rnd q) freshMem m) {i j k : Int}
    (hin : (i, j, k) ∈ range3 p.isize p.jsize p.ksize) :
    ms m .U i j k = storedMS (mhdCell3 M p (rnd i j k) (cellX p pos i) (cellY p pos j) (cellZ p pos k)
      (brioWuZ p pos k) q) := by
  have hm : Prog.forRange (range3 p.isize p.jsize p.ksize) (mhdInit3 M p pos rnd q) freshMem m := by
    cases q <;> first
      | exact h1.elim
      | simpa [initMhd3, runLaunches, Kern.seqs, Kern.seq_skip, Launch.kern] using hm
  rw [mhdInitK3_iff M p pos rnd hq] at hm
  subst hm
  simp [ms, storedMS, hin, freshMem]

theorem faithfulM2_ok {p : Params ℝ} {x y : ℝ} {q : MhdProblem ℝ} (h : FaithfulM2 p x y q) :
    DirectionOk2 q ∧ OneKernel q := by
  cases q <;> first | exact h.elim | exact ⟨trivial, trivial⟩ | exact ⟨h, trivial⟩

theorem faithfulM3_ok {p : Params ℝ} {x y : ℝ} {q : MhdProblem ℝ} (h : FaithfulM3 p x y q) :
    DirectionOk3 q ∧ OneKernel q := by
  cases q <;> first | exact h.elim | exact ⟨trivial, trivial⟩ | exact ⟨h, trivial⟩

/-- **C64 (2D).** Every cell of the initial state (ghost cells included) holds the conservative variables of the
state the problem prescribes at the centre of the cell. -/
theorem C64_initial_state_2d {M : MathLib ℝ} (hM : ExactMath M) {p : Params ℝ} (hp : Mhd2 p)
    {rnd : Int → Int → Int → Nat → ℝ} {q : MhdProblem ℝ} {m : Mem Arr ℝ}
    (hm : runLaunches (initMhd2 M p (0, 0, 0) rnd q) freshMem m) {i j : Int} (hij : inGrid2 p i j)
    (hq : FaithfulM2 p (centre p.xmin p.dx p.ghostWidth i) (centre p.ymin p.dy p.ghostWidth j) q) :
    ms2 m .U i j = mhdCons p.settings.gamma0 (prescribedM2 p (rnd i j 0)
      (centre p.xmin p.dx p.ghostWidth i) (centre p.ymin p.dy p.ghostWidth j) q) := by
  have hok := faithfulM2_ok hq
  rw [initMhd2_stored M hok.1 hok.2 hm (mem_range2_of_inGrid hp.wf hij), cellX_centre, cellY_centre]
  exact cellM2_prescribed hM p _ _ _ hq

/-- **C64 (3D).** -/
theorem C64_initial_state_3d {M : MathLib ℝ} (hM : ExactMath M) {p : Params ℝ} (hp : Mhd3 p)
    {rnd : Int → Int → Int → Nat → ℝ} {q : MhdProblem ℝ} {m : Mem Arr ℝ}
    (hm : runLaunches (initMhd3 M p (0, 0, 0) rnd q) freshMem m) {i j k : Int} (hij : inGrid3 p i j k)
    (hq : FaithfulM3 p (centre p.xmin p.dx p.ghostWidth i) (centre p.ymin p.dy p.ghostWidth j) q) :
    ms m .U i j k = mhdCons p.settings.gamma0 (prescribedM3 p (centre p.xmin p.dx p.ghostWidth i)
      (centre p.ymin p.dy p.ghostWidth j) (centre p.zmin p.dz p.ghostWidth k) q) := by
  have hok := faithfulM3_ok hq
  rw [initMhd3_stored M hok.1 hok.2 hm (mem_range3_of_inGrid hp.wf hij), cellX_centre, cellY_centre,
    cellZ_centre, brioWuZ_centre]
  exact cellM3_prescribed hM p _ _ _ _ hq

/-! ### Orszag-Tang -/

theorem sq_mul_div (d u : ℝ) : sq (d * u) / d = d * u ^ 2 := by
  unfold sq
  by_cases h : d = 0
  · simp [h]
  · field_simp

theorem orszagM2_stored {M : MathLib ℝ} (hM : ExactMath M) (p : Params ℝ) (x y : ℝ) :
    storedMS (orszagM2 M p x y) = { mhdCons p.settings.gamma0 (orszagState p.settings.gamma0 x y) with p := 0 } := by
  simp only [orszagM2, twoPi, hM.pi, hM.sin, RealOps.lit_real, RealOps.sqrt_real, orszagState, storedMS, stored,
    mhdCons]
  push_cast
  rw [show (2 : ℝ) * (2 * Real.pi) = 4 * Real.pi by ring]
  generalize 1 / Real.sqrt (4 * Real.pi) = B0
  simp only [ID, IP, IU, IV, IW, IA, IB, IC, MS.mk.injEq]
  norm_num
  rw [show y * (2 * Real.pi) = 2 * Real.pi * y by ring, show x * (2 * Real.pi) = 2 * Real.pi * x by ring,
    show 2 * x * (2 * Real.pi) = 4 * Real.pi * x by ring]
  refine ⟨?_, ?_, ?_, Or.inl rfl, Or.inl rfl⟩ <;> ring

/-- **C64, Orszag-Tang (2D).** Outside the last row and column (ghost cells) the initial state is the Orszag-Tang
vortex: uniform density and pressure, also after the energy has been computed from face-averaged fields. -/
theorem C64_orszag_tang_2d {M : MathLib ℝ} (hM : ExactMath M) {p : Params ℝ} (hp : Mhd2 p)
    {rnd : Int → Int → Int → Nat → ℝ} {q : OrszagTangParams ℝ} {m : Mem Arr ℝ}
    (hm : runLaunches (initMhd2 M p (0, 0, 0) rnd (.orszagTang q)) freshMem m) {i j : Int}
    (hij : inGrid2 p i j) :
    let W := orszagState p.settings.gamma0 (centre p.xmin p.dx p.ghostWidth i) (centre p.ymin p.dy p.ghostWidth j)
    ms2 m .U i j = if i < p.isize - 1 ∧ j < p.jsize - 1 then mhdCons p.settings.gamma0 W
      else { mhdCons p.settings.gamma0 W with p := 0 } := by
  intro W
  obtain ⟨m₁, h1, h2⟩ := hm
  have h2 : Prog.forRange (range2 p.isize p.jsize) (orszagEnergyM2 M p) m₁ m := by
    simpa [Kern.seqs, Kern.seq_skip, Launch.kern] using h2
  have h1 : Prog.forRange (range2 p.isize p.jsize) (mhdInit2 M p (0, 0, 0) rnd (.orszagTang q)) freshMem m₁ := h1
  rw [mhdInitK2_iff M p (0, 0, 0) rnd (q := .orszagTang q) trivial] at h1
  rw [orszagK2_iff] at h2
  have hin := mem_range2_of_inGrid hp.wf hij
  have key : ∀ i j, (i, j) ∈ range2 p.isize p.jsize → ms2 m₁ .U i j =
      { mhdCons p.settings.gamma0 (orszagState p.settings.gamma0 (centre p.xmin p.dx p.ghostWidth i)
        (centre p.ymin p.dy p.ghostWidth j)) with p := 0 } := by
    intro i j hin
    rw [← orszagM2_stored hM, h1]
    simp only [ms2, ms, storedMS, hin, and_self, if_true, freshMem, cellX_centre, cellY_centre, mhdCell2,
      RealOps.lit_real, Rat.cast_zero]
  have k0 := key i j hin
  have hv : ∀ v, v ≠ IP → m ⟨.U, i, j, 0, v⟩ = m₁ ⟨.U, i, j, 0, v⟩ := by
    intro v hv
    rw [h2]
    beta_reduce
    rw [if_neg (by rintro ⟨⟨_, h, _⟩, _⟩; exact hv h)]
  have hP : m ⟨.U, i, j, 0, IP⟩ = if i < p.isize - 1 ∧ j < p.jsize - 1 then orszagE2 M p m₁ i j
      else m₁ ⟨.U, i, j, 0, IP⟩ := by
    rw [h2]
    beta_reduce
    by_cases hc : i < p.isize - 1 ∧ j < p.jsize - 1
    · rw [if_pos ⟨⟨rfl, rfl, rfl⟩, hin, hc⟩, if_pos hc]
    · rw [if_neg (fun h => hc h.2.2), if_neg hc]
  have hms : ms2 m .U i j = { ms2 m₁ .U i j with p := m ⟨.U, i, j, 0, IP⟩ } := by
    simp only [ms2, ms]
    rw [hv ID (by decide), hv IU (by decide), hv IV (by decide), hv IW (by decide), hv IA (by decide),
      hv IB (by decide), hv IC (by decide)]
  rw [hms, hP]
  by_cases hc : i < p.isize - 1 ∧ j < p.jsize - 1
  · rw [if_pos hc, if_pos hc, k0]
    have r := mem_range2.1 hin
    simp only at r
    have ki := key (i + 1) j (mem_range2.2 (by simp only; omega))
    have kj := key i (j + 1) (mem_range2.2 (by simp only; omega))
    have e0 := MS.mk.inj k0
    have ei := MS.mk.inj ki
    have ej := MS.mk.inj kj
    have hE : orszagE2 M p m₁ i j = mhdEnergy p.settings.gamma0 W := by
      unfold orszagE2
      rw [e0.2.2.1, e0.1, e0.2.2.2.1, e0.2.2.2.2.2.1, ei.2.2.2.2.2.1, e0.2.2.2.2.2.2.1, ej.2.2.2.2.2.2.1, hM.asin]
      simp only [mhdCons, RealOps.lit_real]
      rw [sq_mul_div, sq_mul_div]
      simp only [W, orszagState, mhdEnergy, magPressure, sq]
      push_cast
      rw [Real.arcsin_one]
      ring
    rw [hE]
    rfl
  · rw [if_neg hc, if_neg hc, k0]
    have e0 := MS.mk.inj k0
    rw [e0.2.1]

theorem orszagM3_stored {M : MathLib ℝ} (hM : ExactMath M) (p : Params ℝ) {q : OrszagTangParams ℝ}
    (hq : q.vortex_dir = 0 ∨ q.vortex_dir = 1 ∨ q.vortex_dir = 2) (x y z : ℝ) :
    storedMS (orszagM3 M p q x y z) =
      { mhdCons p.settings.gamma0 (orszagState3 p q x y z) with p := 0 } := by
  have e1 : ∀ x, x * (2 * Real.pi) = 2 * Real.pi * x := fun x => by ring
  have e2 : ∀ x, 2 * x * (2 * Real.pi) = 4 * Real.pi * x := fun x => by ring
  have e3 : (2 : ℝ) * (2 * Real.pi) = 4 * Real.pi := by ring
  rcases hq with h | h | h <;>
  · simp only [orszagM3, orszagState3, h, twoPi, hM.pi, hM.sin, hM.cos, RealOps.lit_real, RealOps.sqrt_real,
      orszagState, storedMS, mhdCons, rotate, withField]
    norm_num only [if_true, if_false]
    simp only [stored]
    generalize 1 / Real.sqrt (4 * Real.pi) = B0
    simp only [ID, IP, IU, IV, IW, IA, IB, IC, MS.mk.injEq]
    norm_num
    simp only [e1, e2, e3]
    refine ⟨?_, ?_, ?_, ?_, ?_⟩ <;> ring_nf

/-- **C64, Orszag-Tang (3D).** -/
theorem C64_orszag_tang_3d {M : MathLib ℝ} (hM : ExactMath M) {p : Params ℝ} (hp : Mhd3 p)
    {rnd : Int → Int → Int → Nat → ℝ} {q : OrszagTangParams ℝ}
    (hq : q.vortex_dir = 0 ∨ q.vortex_dir = 1 ∨ q.vortex_dir = 2) {m : Mem Arr ℝ}
    (hm : runLaunches (initMhd3 M p (0, 0, 0) rnd (.orszagTang q)) freshMem m) {i j k : Int}
    (hij : inGrid3 p i j k) :
    let W := orszagState3 p q (centre p.xmin p.dx p.ghostWidth i) (centre p.ymin p.dy p.ghostWidth j)
      (centre p.zmin p.dz p.ghostWidth k)
    ms m .U i j k = if i < p.isize - 1 ∧ j < p.jsize - 1 ∧ k < p.ksize - 1 then mhdCons p.settings.gamma0 W
      else { mhdCons p.settings.gamma0 W with p := 0 } := by
  intro W
  obtain ⟨m₁, h1, h2⟩ := hm
  have h2 : Prog.forRange (range3 p.isize p.jsize p.ksize) (orszagEnergyM3 M p) m₁ m := by
    simpa [Kern.seqs, Kern.seq_skip, Launch.kern] using h2
  have h1 : Prog.forRange (range3 p.isize p.jsize p.ksize) (mhdInit3 M p (0, 0, 0) rnd (.orszagTang q))
    freshMem m₁ := h1
  rw [mhdInitK3_iff M p (0, 0, 0) rnd (q := .orszagTang q) trivial] at h1
  rw [orszagK3_iff] at h2
  have hin := mem_range3_of_inGrid hp.wf hij
  have key : ∀ i j k, (i, j, k) ∈ range3 p.isize p.jsize p.ksize → ms m₁ .U i j k =
      { mhdCons p.settings.gamma0 (orszagState3 p q (centre p.xmin p.dx p.ghostWidth i)
        (centre p.ymin p.dy p.ghostWidth j) (centre p.zmin p.dz p.ghostWidth k)) with p := 0 } := by
    intro i j k hin
    rw [← orszagM3_stored hM p hq, h1]
    simp only [ms, storedMS, hin, and_self, if_true, freshMem, cellX_centre, cellY_centre, cellZ_centre, mhdCell3,
      RealOps.lit_real, Rat.cast_zero]
  have k0 := key i j k hin
  have hv : ∀ v, v ≠ IP → m ⟨.U, i, j, k, v⟩ = m₁ ⟨.U, i, j, k, v⟩ := by
    intro v hv
    rw [h2]
    beta_reduce
    rw [if_neg (by rintro ⟨⟨_, h⟩, _⟩; exact hv h)]
  have hP : m ⟨.U, i, j, k, IP⟩ = if i < p.isize - 1 ∧ j < p.jsize - 1 ∧ k < p.ksize - 1 then
      orszagE3 M p m₁ i j k else m₁ ⟨.U, i, j, k, IP⟩ := by
    rw [h2]
    beta_reduce
    by_cases hc : i < p.isize - 1 ∧ j < p.jsize - 1 ∧ k < p.ksize - 1
    · rw [if_pos ⟨⟨rfl, rfl⟩, hin, hc⟩, if_pos hc]
    · rw [if_neg (fun h => hc h.2.2), if_neg hc]
  have hms : ms m .U i j k = { ms m₁ .U i j k with p := m ⟨.U, i, j, k, IP⟩ } := by
    simp only [ms]
    rw [hv ID (by decide), hv IU (by decide), hv IV (by decide), hv IW (by decide), hv IA (by decide),
      hv IB (by decide), hv IC (by decide)]
  rw [hms, hP]
  by_cases hc : i < p.isize - 1 ∧ j < p.jsize - 1 ∧ k < p.ksize - 1
  · rw [if_pos hc, if_pos hc, k0]
    have r := mem_range3.1 hin
    simp only at r
    have ki := key (i + 1) j k (mem_range3.2 (by simp only; omega))
    have kj := key i (j + 1) k (mem_range3.2 (by simp only; omega))
    have kk := key i j (k + 1) (mem_range3.2 (by simp only; omega))
    have e0 := MS.mk.inj k0
    have ei := (MS.mk.inj ki).2.2.2.2.2.1
    have ej := (MS.mk.inj kj).2.2.2.2.2.2.1
    have ek := (MS.mk.inj kk).2.2.2.2.2.2.2
    have sa : (orszagState3 p q (centre p.xmin p.dx p.ghostWidth (i + 1)) (centre p.ymin p.dy p.ghostWidth j)
        (centre p.zmin p.dz p.ghostWidth k)).a = W.a := by
      rcases hq with h | h | h <;> simp [W, orszagState3, h, rotate, withField, orszagState]
    have sb : (orszagState3 p q (centre p.xmin p.dx p.ghostWidth i) (centre p.ymin p.dy p.ghostWidth (j + 1))
        (centre p.zmin p.dz p.ghostWidth k)).b = W.b := by
      rcases hq with h | h | h <;> simp [W, orszagState3, h, rotate, withField, orszagState]
    have sc : (orszagState3 p q (centre p.xmin p.dx p.ghostWidth i) (centre p.ymin p.dy p.ghostWidth j)
        (centre p.zmin p.dz p.ghostWidth (k + 1))).c = W.c := by
      rcases hq with h | h | h <;> simp [W, orszagState3, h, rotate, withField, orszagState]
    have sp : W.p = p.settings.gamma0 / (4 * Real.pi) := by
      rcases hq with h | h | h <;> simp [W, orszagState3, h, rotate, withField, orszagState]
    have hE : orszagE3 M p m₁ i j k = mhdEnergy p.settings.gamma0 W := by
      unfold orszagE3
      rw [e0.2.2.1, e0.1, e0.2.2.2.1, e0.2.2.2.2.1, e0.2.2.2.2.2.1, ei, e0.2.2.2.2.2.2.1, ej, e0.2.2.2.2.2.2.2, ek]
      simp only [mhdCons, RealOps.lit_real, sa, sb, sc, hM.pi]
      rw [sq_mul_div, sq_mul_div, sq_mul_div]
      simp only [mhdEnergy, magPressure, sq, sp]
      push_cast
      ring
    rw [hE]
    rfl
  · rw [if_neg hc, if_neg hc, k0]
    have e0 := MS.mk.inj k0
    rw [e0.2.1]

/-! ### Field loop -/

theorem loopPotential_eq (q : FieldLoopParams ℝ) (x y : ℝ) : loopPotential q x y = loopA q x y := by
  unfold loopPotential loopA
  simp only [RealOps.lt_real, RealOps.sqrt_real, RealOps.lit_real, decide_eq_true_eq, ← pow_two]
  split_ifs with h
  · rw [max_eq_left (by linarith)]
  · rw [max_eq_right (by linarith)]; simp

theorem cos_sin_theta : (2 : ℝ) / Real.sqrt 5 = 2 / Real.sqrt 5 ∧
    Real.sqrt (1 - 2 / Real.sqrt 5 * (2 / Real.sqrt 5)) = 1 / Real.sqrt 5 := by
  refine ⟨rfl, ?_⟩
  have h : (1 : ℝ) - 2 / Real.sqrt 5 * (2 / Real.sqrt 5) = 1 / 5 := by
    rw [div_mul_div_comm, Real.mul_self_sqrt (by norm_num)]; norm_num
  rw [h, Real.sqrt_div (by norm_num), Real.sqrt_one]

theorem mul_self_div' (d u v w : ℝ) : (d * u * (d * u) + d * v * (d * v) + d * w * (d * w)) / d =
    d * (u ^ 2 + v ^ 2 + w ^ 2) := by
  by_cases h : d = 0
  · simp [h]
  · field_simp

/-- **C64, field loop (3D).** The field is the discrete curl of the potential; density, velocity
`v (2/√5, 1/√5, 1)` and pressure 1 are as prescribed, the energy being that of the face fields averaged over the
cell. -/
theorem C64_field_loop_3d (M : MathLib ℝ) {p : Params ℝ} (hp : Mhd3 p) (hc : p.settings.cIso ≤ 0)
    {rnd : Int → Int → Int → Nat → ℝ} {q : FieldLoopParams ℝ} {m : Mem Arr ℝ}
    (hm : runLaunches (initMhd3 M p (0, 0, 0) rnd (.fieldLoop q)) freshMem m) {i j k : Int}
    (hij : interior3 p i j k) :
    let X := centre p.xmin p.dx p.ghostWidth
    let Y := centre p.ymin p.dy p.ghostWidth
    let A := fun i j => loopA q (X i) (Y j)
    let ρ := loopDensity q (X i) (Y j)
    let u := q.vflow * (2 / Real.sqrt 5)
    let v := q.vflow * (1 / Real.sqrt 5)
    ms m .U i j k = ⟨ρ, mhdEnergy p.settings.gamma0 ⟨ρ, 1, u, v, q.vflow,
        ((ms m .U i j k).a + (ms m .U (i + 1) j k).a) / 2, ((ms m .U i j k).b + (ms m .U i (j + 1) k).b) / 2,
        ((ms m .U i j k).c + (ms m .U i j (k + 1)).c) / 2⟩, ρ * u, ρ * v, ρ * q.vflow,
      (A i (j + 1) - A i j) / p.dy, -((A (i + 1) j - A i j) / p.dx), 0⟩ := by
  intro X Y A ρ u v
  have hw := hp.wf
  have hf := loop3_field M hw hm hij
  have hin := mem_range3_of_interior hw hij
  have e1 := hw.isize_eq
  have e2 := hw.jsize_eq
  have e3 := hw.ksize_eq
  obtain ⟨m₁, h1, m₂, h2, m₃, h3, h4⟩ := hm
  cases h4
  have h1 := (loopPotK3_iff p q (0, 0, 0) _ _).1 h1
  have h2 := (loopCondK3_iff p q (0, 0, 0) _ _).1 h2
  have h3 := (loopEK3_iff p _ _).1 h3
  have hgd : loopGuard3 p (i, j, k) = true := by
    obtain ⟨⟨a, b⟩, ⟨c, d⟩, e, f⟩ := hij
    simp only [loopGuard3, decide_eq_true_eq]
    omega
  have hv : ∀ v, v ≠ IP → ∀ i j k, m ⟨.U, i, j, k, v⟩ = m₂ ⟨.U, i, j, k, v⟩ := by
    intro v hv i j k
    rw [h3]
    beta_reduce
    rw [if_neg (by rintro ⟨⟨_, h⟩, _⟩; exact hv h)]
  have hP : m ⟨.U, i, j, k, IP⟩ = loopE3 p m₂ i j k := by
    rw [h3]
    beta_reduce
    rw [if_pos ⟨⟨rfl, rfl⟩, hin, hgd⟩]
  have hv2 : ∀ v, v ≠ IP → m₂ ⟨.U, i, j, k, v⟩ = (stored (loopVals3 p q (cellX p (0, 0, 0) i) (cellY p (0, 0, 0) j)
      (fun v i j k => m₁ ⟨.vecPot, i, j, k, v⟩) i j k) v).getD (m₁ ⟨.U, i, j, k, v⟩) := by
    intro v hv
    rw [h2]
    beta_reduce
    rw [if_pos ⟨rfl, hin, hgd⟩]
  have hρ : (if RealOps.lt (RealOps.sqrt (cellX p (0, 0, 0) i * cellX p (0, 0, 0) i +
      cellY p (0, 0, 0) j * cellY p (0, 0, 0) j)) q.radius then q.density_in else lit 1) = ρ := by
    simp only [cellX_centre, cellY_centre, RealOps.lt_real, RealOps.sqrt_real, RealOps.lit_real,
      decide_eq_true_eq, ← pow_two]
    simp [ρ, loopDensity, X, Y]
  have d1 : m₂ ⟨.U, i, j, k, ID⟩ = ρ := by
    rw [hv2 ID (by decide), ← hρ]
    rfl
  have d2 : m₂ ⟨.U, i, j, k, IU⟩ = ρ * u := by
    rw [hv2 IU (by decide), ← hρ]
    show _ * q.vflow * (lit 2 / RealOps.sqrt (lit 5)) = _
    simp [u, mul_assoc]
  have d3 : m₂ ⟨.U, i, j, k, IV⟩ = ρ * v := by
    rw [hv2 IV (by decide), ← hρ]
    show _ * q.vflow * RealOps.sqrt (lit 1 - lit 2 / RealOps.sqrt (lit 5) * (lit 2 / RealOps.sqrt (lit 5))) = _
    have := cos_sin_theta.2
    simp only [RealOps.sqrt_real, RealOps.lit_real]
    push_cast
    rw [this, mul_assoc]
  have d4 : m₂ ⟨.U, i, j, k, IW⟩ = ρ * q.vflow := by
    rw [hv2 IW (by decide), ← hρ]
    rfl
  simp only [loopPotential_eq, cellX_centre, cellY_centre] at hf
  have hE : loopE3 p m₂ i j k = mhdEnergy p.settings.gamma0 ⟨ρ, 1, u, v, q.vflow,
        ((ms m .U i j k).a + (ms m .U (i + 1) j k).a) / 2, ((ms m .U i j k).b + (ms m .U i (j + 1) k).b) / 2,
        ((ms m .U i j k).c + (ms m .U i j (k + 1)).c) / 2⟩ := by
    unfold loopE3
    rw [if_neg (by simpa using hc), d1, d2, d3, d4]
    simp only [ms]
    rw [← hv IA (by decide), ← hv IA (by decide), ← hv IB (by decide), ← hv IB (by decide), ← hv IC (by decide),
      ← hv IC (by decide), mul_div_assoc, mul_self_div']
    simp only [mhdEnergy, magPressure, sq, RealOps.lit_real]
    push_cast
    ring
  rw [← hE]
  simp only [ms]
  rw [hv ID (by decide), hv IU (by decide), hv IV (by decide), hv IW (by decide), d1, d2, d3, d4, hP]
  have f1 := hf.1
  have f2 := hf.2.1
  have f3 := hf.2.2
  rw [f1, f2, f3, neg_div]

theorem mul_self_div2 (d u v : ℝ) : (d * u * (d * u) + d * v * (d * v)) / d = d * (u ^ 2 + v ^ 2) := by
  by_cases h : d = 0
  · simp [h]
  · field_simp

/-- **C64, field loop (2D).** As in 3D, with `w = v nz / √(nx²+ny²+nz²)`; but the energy is that of the state
*without* that third velocity component. -/
theorem C64_field_loop_2d (M : MathLib ℝ) {p : Params ℝ} (hp : Mhd2 p) (hc : p.settings.cIso ≤ 0)
    {rnd : Int → Int → Int → Nat → ℝ} {q : FieldLoopParams ℝ} {m : Mem Arr ℝ}
    (hm : runLaunches (initMhd2 M p (0, 0, 0) rnd (.fieldLoop q)) freshMem m) {i j : Int}
    (hij : interior2 p i j) :
    let X := centre p.xmin p.dx p.ghostWidth
    let Y := centre p.ymin p.dy p.ghostWidth
    let A := fun i j => loopA q (X i) (Y j)
    let ρ := loopDensity q (X i) (Y j)
    let u := q.vflow * (2 / Real.sqrt 5)
    let v := q.vflow * (1 / Real.sqrt 5)
    let w := q.vflow * (p.nz / Real.sqrt (p.nx ^ 2 + p.ny ^ 2 + p.nz ^ 2))
    ms2 m .U i j = ⟨ρ, mhdEnergy p.settings.gamma0 ⟨ρ, 1, u, v, 0,
        ((ms2 m .U i j).a + (ms2 m .U (i + 1) j).a) / 2, ((ms2 m .U i j).b + (ms2 m .U i (j + 1)).b) / 2, 0⟩,
      ρ * u, ρ * v, ρ * w,
      (A i (j + 1) - A i j) / p.dy, -((A (i + 1) j - A i j) / p.dx), 0⟩ := by
  intro X Y A ρ u v w
  have hw := hp.wf
  have hf := loop2_field M hw hm hij
  have hin := mem_range2_of_interior hw hij
  have e1 := hw.isize_eq
  have e2 := hw.jsize_eq
  obtain ⟨m₁, h1, m₂, h2, m₃, h3, h4⟩ := hm
  cases h4
  have h1 := (loopPotK2_iff p q (0, 0, 0) _ _).1 h1
  have h2 := (loopCondK2_iff p q (0, 0, 0) _ _).1 h2
  have h3 := (loopEK2_iff p _ _).1 h3
  have hgd : loopGuard2 p (i, j) = true := by
    obtain ⟨a, b, c, d⟩ := hij
    simp only [loopGuard2, decide_eq_true_eq]
    omega
  have hv : ∀ v, v ≠ IP → ∀ i j, m ⟨.U, i, j, 0, v⟩ = m₂ ⟨.U, i, j, 0, v⟩ := by
    intro v hv i j
    rw [h3]
    beta_reduce
    rw [if_neg (by rintro ⟨⟨_, h, _⟩, _⟩; exact hv h)]
  have hP : m ⟨.U, i, j, 0, IP⟩ = loopE2 p m₂ i j := by
    rw [h3]
    beta_reduce
    rw [if_pos ⟨⟨rfl, rfl, rfl⟩, hin, hgd⟩]
  have hv2 : ∀ v, v ≠ IP → m₂ ⟨.U, i, j, 0, v⟩ = (stored (loopVals2 p q (cellX p (0, 0, 0) i) (cellY p (0, 0, 0) j)
      (fun i j => m₁ ⟨.vecPot, i, j, 0, 0⟩) i j) v).getD (m₁ ⟨.U, i, j, 0, v⟩) := by
    intro v hv
    rw [h2]
    beta_reduce
    rw [if_pos ⟨⟨rfl, rfl⟩, hin, hgd⟩]
  have hρ : (if RealOps.lt (RealOps.sqrt (cellX p (0, 0, 0) i * cellX p (0, 0, 0) i +
      cellY p (0, 0, 0) j * cellY p (0, 0, 0) j)) q.radius then q.density_in else lit 1) = ρ := by
    simp only [cellX_centre, cellY_centre, RealOps.lt_real, RealOps.sqrt_real, RealOps.lit_real,
      decide_eq_true_eq, ← pow_two]
    simp [ρ, loopDensity, X, Y]
  have d1 : m₂ ⟨.U, i, j, 0, ID⟩ = ρ := by
    rw [hv2 ID (by decide), ← hρ]
    rfl
  have d2 : m₂ ⟨.U, i, j, 0, IU⟩ = ρ * u := by
    rw [hv2 IU (by decide), ← hρ]
    show _ * q.vflow * (lit 2 / RealOps.sqrt (lit 5)) = _
    simp [u, mul_assoc]
  have d3 : m₂ ⟨.U, i, j, 0, IV⟩ = ρ * v := by
    rw [hv2 IV (by decide), ← hρ]
    show _ * q.vflow * RealOps.sqrt (lit 1 - lit 2 / RealOps.sqrt (lit 5) * (lit 2 / RealOps.sqrt (lit 5))) = _
    have := cos_sin_theta.2
    simp only [RealOps.sqrt_real, RealOps.lit_real]
    push_cast
    rw [this, mul_assoc]
  have d4 : m₂ ⟨.U, i, j, 0, IW⟩ = ρ * w := by
    rw [hv2 IW (by decide), ← hρ]
    show _ * q.vflow * intLit p.nz /
      RealOps.sqrt (lit 1 * intLit (p.nx * p.nx + p.ny * p.ny + p.nz * p.nz)) = _
    simp only [w, intLit, RealOps.lit_real, RealOps.sqrt_real, one_mul]
    push_cast
    rw [one_mul, pow_two, pow_two, pow_two]
    ring
  have d5 : m₂ ⟨.U, i, j, 0, IC⟩ = 0 := by
    rw [hv2 IC (by decide)]
    show ((lit 0 : ℝ)) = 0
    simp
  simp only [loopPotential_eq, cellX_centre, cellY_centre] at hf
  have hE : loopE2 p m₂ i j = mhdEnergy p.settings.gamma0 ⟨ρ, 1, u, v, 0,
        ((ms2 m .U i j).a + (ms2 m .U (i + 1) j).a) / 2,
        ((ms2 m .U i j).b + (ms2 m .U i (j + 1)).b) / 2, 0⟩ := by
    unfold loopE2
    rw [if_neg (by simpa using hc), d1, d2, d3]
    simp only [ms2, ms]
    rw [← hv IA (by decide), ← hv IA (by decide), ← hv IB (by decide), ← hv IB (by decide), mul_div_assoc,
      mul_self_div2]
    simp only [mhdEnergy, magPressure, sq, RealOps.lit_real]
    push_cast
    ring
  rw [← hE]
  simp only [ms2, ms]
  rw [hv ID (by decide), hv IU (by decide), hv IV (by decide), hv IW (by decide), hv IC (by decide), d1, d2, d3, d4,
    d5, hP]
  have f1 := hf.1
  have f2 := hf.2
  rw [f1, f2, neg_div]

/-- so the thermal pressure of the 2D field loop is not the uniform 1: the total energy falls short of that of
the prescribed state by the kinetic energy of the third component -/
theorem C64_field_loop_2d_deficit (M : MathLib ℝ) {p : Params ℝ} (hp : Mhd2 p) (hc : p.settings.cIso ≤ 0)
    {rnd : Int → Int → Int → Nat → ℝ} {q : FieldLoopParams ℝ} {m : Mem Arr ℝ}
    (hm : runLaunches (initMhd2 M p (0, 0, 0) rnd (.fieldLoop q)) freshMem m) {i j : Int}
    (hij : interior2 p i j) :
    let ρ := loopDensity q (centre p.xmin p.dx p.ghostWidth i) (centre p.ymin p.dy p.ghostWidth j)
    let w := q.vflow * (p.nz / Real.sqrt (p.nx ^ 2 + p.ny ^ 2 + p.nz ^ 2))
    let s := ms2 m .U i j
    s.p + ρ * w ^ 2 / 2 = mhdEnergy p.settings.gamma0 ⟨ρ, 1, q.vflow * (2 / Real.sqrt 5),
      q.vflow * (1 / Real.sqrt 5), w, (s.a + (ms2 m .U (i + 1) j).a) / 2, (s.b + (ms2 m .U i (j + 1)).b) / 2, 0⟩ := by
  intro ρ w s
  have h := C64_field_loop_2d M hp hc hm hij
  have hp' := congrArg MS.p h
  simp only at hp'
  show (ms2 m .U i j).p + _ = _
  rw [hp']
  simp only [mhdEnergy, magPressure, s, ρ]
  ring

/-! ### Where the code departs from the prescribed states -/

/-- **C64, implosion.** The configured velocities are stored as momenta while the energy is computed from them as
velocities: the state set up has the velocity divided by the density and another pressure. -/
theorem C64_implode_velocity_as_momentum (M : MathLib ℝ) {p : Params ℝ} (hp : Mhd3 p) (hγ : p.settings.gamma0 ≠ 1)
    {rnd : Int → Int → Int → Nat → ℝ} {q : ImplodeParams ℝ} (h0 : q.rho_out ≠ 0) (h0' : q.rho_in ≠ 0)
    {m : Mem Arr ℝ} (hm : runLaunches (initMhd3 M p (0, 0, 0) rnd (.implode q)) freshMem m) {i j k : Int}
    (hij : inGrid3 p i j k) :
    let s := prescribedM3 p (centre p.xmin p.dx p.ghostWidth i)
      (centre p.ymin p.dy p.ghostWidth j) (centre p.zmin p.dz p.ghostWidth k) (.implode q)
    ms m .U i j k = mhdCons p.settings.gamma0 { s with
      p := s.p + (p.settings.gamma0 - 1) / 2 * (s.d - 1 / s.d) * (s.u ^ 2 + s.v ^ 2 + s.w ^ 2)
      u := s.u / s.d, v := s.v / s.d, w := s.w / s.d } := by
  classical
  intro s
  have hγ' : p.settings.gamma0 - 1 ≠ 0 := sub_ne_zero.2 hγ
  rw [initMhd3_stored M (q := .implode q) trivial trivial hm (mem_range3_of_inGrid hp.wf hij), cellX_centre,
    cellY_centre, cellZ_centre]
  simp only [mhdCell3, storedMS_allVars, implodeM3, implodeCell, s, prescribedM3, implodeStateM]
  generalize centre p.xmin p.dx p.ghostWidth i = x
  generalize centre p.ymin p.dy p.ghostWidth j = y
  generalize centre p.zmin p.dz p.ghostWidth k = z
  have e : (if q.shape = 1 then RealOps.lt (lit (1 / 2)) (x + y + z) && RealOps.lt (x + y + z) (lit (5 / 2))
      else RealOps.lt ((p.xmin + p.xmax) / lit 2 + p.ymin + p.zmin) (x + y + z)) =
      decide (if q.shape = 1 then 1 / 2 < x + y + z ∧ x + y + z < 5 / 2
        else (p.xmin + p.xmax) / 2 + p.ymin + p.zmin < x + y + z) := by
    rw [Bool.eq_iff_iff]
    split_ifs <;> simp
  rw [e]
  split_ifs
  all_goals
    simp only [implodeState, mhdCons, mhdEnergy, magPressure, RealOps.lit_real, MS.mk.injEq, true_and, and_true]
    push_cast
    refine ⟨?_, ?_, ?_, ?_⟩ <;> field_simp <;> ring

/-- **C64, rotor (3D).** Here the energy is that of the momenta, so the pressure is right, but the velocity is the
prescribed one divided by the density (ten times too slow in the disk). -/
theorem C64_rotor_velocity_as_momentum (M : MathLib ℝ) {p : Params ℝ} (hp : Mhd3 p)
    {rnd : Int → Int → Int → Nat → ℝ} {q : RotorParams ℝ} (h01 : q.r0 < q.r1)
    {m : Mem Arr ℝ} (hm : runLaunches (initMhd3 M p (0, 0, 0) rnd (.rotor q)) freshMem m) {i j k : Int}
    (hij : inGrid3 p i j k) :
    let s := rotorState p q (centre p.xmin p.dx p.ghostWidth i) (centre p.ymin p.dy p.ghostWidth j)
    ms m .U i j k = mhdCons p.settings.gamma0 { s with u := s.u / s.d, v := s.v / s.d } := by
  intro s
  rw [initMhd3_stored M (q := .rotor q) trivial trivial hm (mem_range3_of_inGrid hp.wf hij), cellX_centre,
    cellY_centre]
  simp only [mhdCell3, storedMS_allVars, s]
  generalize centre p.xmin p.dx p.ghostWidth i = x
  generalize centre p.ymin p.dy p.ghostWidth j = y
  simp only [rotorM3, rotorState, RealOps.le_real, RealOps.lit_real, RealOps.sqrt_real, decide_eq_true_eq]
  rw [add_comm p.xmax p.xmin, add_comm p.ymax p.ymin]
  simp only [← pow_two]
  push_cast
  generalize x - (p.xmin + p.xmax) / 2 = a
  generalize y - (p.ymin + p.ymax) / 2 = b
  generalize hr : Real.sqrt (a ^ 2 + b ^ 2) = r
  split_ifs with h3 h4
  · simp only [mhdCons, mhdEnergy, magPressure, MS.mk.injEq, true_and, and_true]
    refine ⟨?_, ?_, ?_, ?_⟩ <;> ring
  · have h5 : 0 ≤ (q.r1 - r) / (q.r1 - q.r0) := div_nonneg (by linarith) (by linarith)
    revert h5
    generalize (q.r1 - r) / (q.r1 - q.r0) = f
    intro h5
    have h6 : 1 + 9 * f ≠ 0 := by positivity
    simp only [mhdCons, mhdEnergy, magPressure, MS.mk.injEq, true_and, and_true]
    refine ⟨?_, ?_, ?_, ?_⟩
    · field_simp
      ring
    · field_simp
    · field_simp
    · ring
  · simp only [mhdCons, mhdEnergy, magPressure, MS.mk.injEq, true_and, and_true]
    refine ⟨?_, ?_, ?_, ?_⟩ <;> ring

/-- **C64, rotor (2D).** Inside the disk the prescribed velocity is multiplied by the taper
`f = (r1 - r)/(r1 - r0) ≥ 1`, which is meant for the transition layer only: the disk is not in solid rotation. -/
theorem C64_rotor_2d_disk (M : MathLib ℝ) {p : Params ℝ} (hp : Mhd2 p)
    {rnd : Int → Int → Int → Nat → ℝ} {q : RotorParams ℝ} (h01 : q.r0 < q.r1)
    {m : Mem Arr ℝ} (hm : runLaunches (initMhd2 M p (0, 0, 0) rnd (.rotor q)) freshMem m) {i j : Int}
    (hij : inGrid2 p i j) :
    let x := centre p.xmin p.dx p.ghostWidth i
    let y := centre p.ymin p.dy p.ghostWidth j
    let r := Real.sqrt ((x - (p.xmin + p.xmax) / 2) ^ 2 + (y - (p.ymin + p.ymax) / 2) ^ 2)
    let f := (q.r1 - r) / (q.r1 - q.r0)
    let s := rotorState p q x y
    r ≤ q.r0 → 1 ≤ f ∧ ms2 m .U i j = mhdCons p.settings.gamma0 { s with u := f * s.u, v := f * s.v } := by
  intro x y r f s h
  have hd : 0 < q.r1 - q.r0 := by linarith
  refine ⟨?_, ?_⟩
  · rw [one_le_div hd]
    linarith
  rw [initMhd2_stored M (q := .rotor q) trivial trivial hm (mem_range2_of_inGrid hp.wf hij), cellX_centre,
    cellY_centre]
  simp only [mhdCell2, storedMS_allVars, s, rotorM2, rotorState, RealOps.le_real, RealOps.lit_real,
    RealOps.sqrt_real, decide_eq_true_eq]
  rw [add_comm p.xmax p.xmin, add_comm p.ymax p.ymin]
  simp only [← pow_two]
  push_cast
  have h' : Real.sqrt ((centre p.xmin p.dx p.ghostWidth i - (p.xmin + p.xmax) / 2) ^ 2 +
    (centre p.ymin p.dy p.ghostWidth j - (p.ymin + p.ymax) / 2) ^ 2) ≤ q.r0 := h
  simp only [if_pos h', mhdCons, mhdEnergy, magPressure, MS.mk.injEq, true_and, and_true, f, r, x, y]
  refine ⟨?_, ?_, ?_, ?_⟩ <;> ring

/-- **C64, Kelvin-Helmholtz (3D, random perturbation)**: there is no magnetic field at all, although the other
perturbations start from `(1/2, 0, 0)`. -/
theorem C64_random_kh_unmagnetised (M : MathLib ℝ) {p : Params ℝ} (hp : Mhd3 p)
    {rnd : Int → Int → Int → Nat → ℝ} {q : KHParams ℝ} (h : q.p_rand = true)
    {m : Mem Arr ℝ} (hm : runLaunches (initMhd3 M p (0, 0, 0) rnd (.kelvinHelmholtz q)) freshMem m) {i j k : Int}
    (hij : inGrid3 p i j k) : (ms m .U i j k).a = 0 ∧ (ms m .U i j k).b = 0 ∧ (ms m .U i j k).c = 0 := by
  rw [initMhd3_stored M (q := .kelvinHelmholtz q) trivial trivial hm (mem_range3_of_inGrid hp.wf hij)]
  simp [mhdCell3, khM3, h, storedMS, stored, ID, IP, IU, IV, IW, IA, IB, IC]

/-- **C64, blast**: the second field component is the configured `bz`, the third one an uninitialised value; the
configured `by` is ignored. -/
theorem C64_blast_field_keys (F : FloatLib ℝ) (M : MathLib ℝ) (c : Ini.Reader) (junk : ℝ × ℝ)
    (hn : problemName c = "blast".toList) {p : Params ℝ} (hp : Mhd2 p) {rnd : Int → Int → Int → Nat → ℝ}
    {m : Mem Arr ℝ} (hm : runLaunches (initMhd2 M p (0, 0, 0) rnd (mhdProblem F M c junk)) freshMem m)
    {i j : Int} (hij : inGrid2 p i j) :
    (ms2 m .U i j).b = cfgFloat F c "blast" "bz_in" (1 / 2) ∧ (ms2 m .U i j).c = junk.1 ∨
    (ms2 m .U i j).b = cfgFloat F c "blast" "bz_out" (1 / 2) ∧ (ms2 m .U i j).c = junk.2 := by
  have e : mhdProblem F M c junk = .blast (blastParams F M c junk) := by simp [mhdProblem, hn]
  rw [e] at hm
  rw [initMhd2_stored M (q := .blast _) trivial trivial hm (mem_range2_of_inGrid hp.wf hij)]
  simp only [mhdCell2, storedMS_allVars, blastM]
  split_ifs
  · exact Or.inl ⟨rfl, rfl⟩
  · exact Or.inr ⟨rfl, rfl⟩

/-- Non-vacuity: the Brio-Wu shock tube along the second axis, on the sample grid, starts from the prescribed
left and right states. -/
example : ∃ m : Mem Arr ℝ,
    let p := sampleM .periodic .periodic 1
    let q : MhdProblem ℝ := .brioWu ⟨1, 1, 0, 1, 1 / 8, 1 / 10, 0, -1, 3 / 4, 1, 1 / 2⟩
    runLaunches (initMhd2 exactMath p (0, 0, 0) (fun _ _ _ _ => 0) q) freshMem m ∧
    ms2 m .U 3 3 = mhdCons p.settings.gamma0 (prescribedM2 p (fun _ => 0)
      (centre p.xmin p.dx p.ghostWidth 3) (centre p.ymin p.dy p.ghostWidth 3) q) := by
  have hrun : runLaunches (initMhd2 exactMath (sampleM .periodic .periodic 1) (0, 0, 0) (fun _ _ _ _ => 0)
      (.brioWu ⟨1, 1, 0, 1, 1 / 8, 1 / 10, 0, -1, 3 / 4, 1, 1 / 2⟩)) freshMem _ :=
    ⟨_, (mhdInitK2_iff exactMath (sampleM .periodic .periodic 1) (0, 0, 0) (fun _ _ _ _ => 0)
      (q := .brioWu ⟨1, 1, 0, 1, 1 / 8, 1 / 10, 0, -1, 3 / 4, 1, 1 / 2⟩) (Or.inr rfl) freshMem _).2 rfl, rfl⟩
  refine ⟨_, hrun, ?_⟩
  refine C64_initial_state_2d exactMath_exact (sampleM_mhd2 _ _ _) hrun ?_ (Or.inr rfl)
  have hn : (sampleM .periodic .periodic 1).nx = 4 := rfl
  have hn' : (sampleM .periodic .periodic 1).ny = 3 := rfl
  have hg : (sampleM .periodic .periodic 1).ghostWidth = 3 := rfl
  refine ⟨by norm_num, ?_, by norm_num, ?_⟩ <;> simp only [hn, hn', hg] <;> norm_num

/-- Non-vacuity: the default rotor (`r0 = 0.1`, `r1 = 0.115`, `u0 = 2`) is faithful in 2D exactly outside the open
disk, and its parameters meet the hypothesis of the departure theorems. -/
example : ((1 / 10 : ℝ)) < 115 / 1000 := by norm_num

end EulerKokkos
