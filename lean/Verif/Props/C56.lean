import Verif.Lemmas.InitMhd
import Verif.Props.C11
import Verif.Model.Config

/-!
# C56: the distributed initial state is the serial initial state, cut into blocks

Every process of the MPI build runs the initial-condition kernel of the configured problem on its own block
(its parameters, its position in the process grid); the serial build runs it once on the whole grid.  Both
start from freshly allocated (zero) views.
-/

set_option linter.constructorNameAsVariable false
set_option linter.unusedSectionVars false

namespace EulerKokkos

open Spec Spmd
open Prog (rd wr upd pif forRange)
variable {R : Type} [RealOps R]

namespace Spec

/-- the initial condition does not draw random numbers -/
def Seedless : HydroProblem R → Prop
  | .kelvinHelmholtz q => q.p_rand = false
  | _ => True

/-- the same problem on two processes, up to the parameters the hydro functors do not use -/
inductive SameProblem : HydroProblem R → HydroProblem R → Prop
  | refl (q : HydroProblem R) : SameProblem q q
  | blast (q : BlastParams R) (b b' c c' : R) :
    SameProblem (.blast { q with bz_in := b, bz_out := b' }) (.blast { q with bz_in := c, bz_out := c' })

end Spec

theorem cellX_block {T : Topo} (p : Params R) (r : T.Rank) (i j k : Int) :
    cellX (localParams T p) (T.coords r) i = cellX (globalParams T p) (0, 0, 0) (globalCell T p r i j k).1 := by
  have h : i + p.nx * (T.coords r).1 - p.ghostWidth =
      ((T.coords r).1 * p.nx + i) + p.nx * T.mx * 0 - p.ghostWidth := by ring
  show p.xmin + _ / lit 2 + intLit (i + p.nx * (T.coords r).1 - p.ghostWidth) * _ = _
  rw [h]
  rfl

theorem cellY_block {T : Topo} (p : Params R) (r : T.Rank) (i j k : Int) :
    cellY (localParams T p) (T.coords r) j =
      cellY (globalParams T p) (0, 0, 0) (globalCell T p r i j k).2.1 := by
  have h : j + p.ny * (T.coords r).2.1 - p.ghostWidth =
      ((T.coords r).2.1 * p.ny + j) + p.ny * T.my * 0 - p.ghostWidth := by ring
  show p.ymin + _ / lit 2 + intLit (j + p.ny * (T.coords r).2.1 - p.ghostWidth) * _ = _
  rw [h]
  rfl

theorem cellZ_block {T : Topo} (p : Params R) (r : T.Rank) (i j k : Int) :
    cellZ (localParams T p) (T.coords r) k =
      cellZ (globalParams T p) (0, 0, 0) (globalCell T p r i j k).2.2 := by
  have h : k + p.nz * (T.coords r).2.2 - p.ghostWidth =
      ((T.coords r).2.2 * p.nz + k) + p.nz * T.mz * 0 - p.ghostWidth := by ring
  show p.zmin + _ / lit 2 + intLit (k + p.nz * (T.coords r).2.2 - p.ghostWidth) * _ = _
  rw [h]
  rfl

theorem hydroCell2_block {T : Topo} (M : MathLib R) (p : Params R) {q q' : HydroProblem R}
    (hq : SameProblem q q') (hs : Seedless q) (rnd rnd' : Nat → R) (x y : R) :
    hydroCell2 M (localParams T p) rnd x y q = hydroCell2 M (globalParams T p) rnd' x y q' := by
  cases hq with
  | refl q =>
    cases q with
    | kelvinHelmholtz q =>
      have hs : q.p_rand = false := hs
      simp only [hydroCell2, kh2, hs]
      rfl
    | _ => rfl
  | blast q b b' c c' => rfl

theorem hydroCell3_block {T : Topo} (M : MathLib R) (p : Params R) {q q' : HydroProblem R}
    (hq : SameProblem q q') (hs : Seedless q) (rnd rnd' : Nat → R) (x y z : R) :
    hydroCell3 M (localParams T p) rnd x y z q = hydroCell3 M (globalParams T p) rnd' x y z q' := by
  cases hq with
  | refl q =>
    cases q with
    | kelvinHelmholtz q =>
      have hs : q.p_rand = false := hs
      simp only [hydroCell3, kh3, hs]
      rfl
    | _ => rfl
  | blast q b b' c c' => rfl

theorem inGrid2_block {T : Topo} {p : Params R} (hw : (localParams T p).WF) (r : T.Rank) {i j : Int}
    (h : inGrid2 (localParams T p) i j) :
    inGrid2 (globalParams T p) (globalCell T p r i j 0).1 (globalCell T p r i j 0).2.1 := by
  obtain ⟨⟨x1, x2⟩, ⟨y1, y2⟩, _⟩ := T.coords_range r
  obtain ⟨h1, h2, h3, h4⟩ := h
  have hx : 1 ≤ p.nx := hw.nx_pos
  have hy : 1 ≤ p.ny := hw.ny_pos
  have e1 : i < p.nx + 2 * p.ghostWidth := h2
  have e2 : j < p.ny + 2 * p.ghostWidth := h4
  have a1 : 0 ≤ (T.coords r).1 * p.nx := Int.mul_nonneg x1 (by omega)
  have a2 : (T.coords r).1 * p.nx ≤ (T.mx - 1) * p.nx :=
    Int.mul_le_mul_of_nonneg_right (by omega) (by omega)
  have b1 : 0 ≤ (T.coords r).2.1 * p.ny := Int.mul_nonneg y1 (by omega)
  have b2 : (T.coords r).2.1 * p.ny ≤ (T.my - 1) * p.ny :=
    Int.mul_le_mul_of_nonneg_right (by omega) (by omega)
  have a3 : ((T.mx : Int) - 1) * p.nx = p.nx * T.mx - p.nx := by ring
  have b3 : ((T.my : Int) - 1) * p.ny = p.ny * T.my - p.ny := by ring
  refine ⟨?_, ?_, ?_, ?_⟩
  · show 0 ≤ (T.coords r).1 * p.nx + i
    omega
  · show (T.coords r).1 * p.nx + i < p.nx * T.mx + 2 * p.ghostWidth
    omega
  · show 0 ≤ (T.coords r).2.1 * p.ny + j
    omega
  · show (T.coords r).2.1 * p.ny + j < p.ny * T.my + 2 * p.ghostWidth
    omega

theorem inGrid3_block {T : Topo} {p : Params R} (hw : (localParams T p).WF) (r : T.Rank) {i j k : Int}
    (h : inGrid3 (localParams T p) i j k) :
    inGrid3 (globalParams T p) (globalCell T p r i j k).1 (globalCell T p r i j k).2.1
      (globalCell T p r i j k).2.2 := by
  obtain ⟨⟨x1, x2⟩, ⟨y1, y2⟩, z1, z2⟩ := T.coords_range r
  obtain ⟨⟨h1, h2⟩, ⟨h3, h4⟩, h5, h6⟩ := h
  have hx : 1 ≤ p.nx := hw.nx_pos
  have hy : 1 ≤ p.ny := hw.ny_pos
  have hz : 1 ≤ p.nz := hw.nz_pos
  have e1 : i < p.nx + 2 * p.ghostWidth := h2
  have e2 : j < p.ny + 2 * p.ghostWidth := h4
  have e3 : k < p.nz + 2 * p.ghostWidth := h6
  have a1 : 0 ≤ (T.coords r).1 * p.nx := Int.mul_nonneg x1 (by omega)
  have a2 : (T.coords r).1 * p.nx ≤ (T.mx - 1) * p.nx :=
    Int.mul_le_mul_of_nonneg_right (by omega) (by omega)
  have b1 : 0 ≤ (T.coords r).2.1 * p.ny := Int.mul_nonneg y1 (by omega)
  have b2 : (T.coords r).2.1 * p.ny ≤ (T.my - 1) * p.ny :=
    Int.mul_le_mul_of_nonneg_right (by omega) (by omega)
  have c1 : 0 ≤ (T.coords r).2.2 * p.nz := Int.mul_nonneg z1 (by omega)
  have c2 : (T.coords r).2.2 * p.nz ≤ (T.mz - 1) * p.nz :=
    Int.mul_le_mul_of_nonneg_right (by omega) (by omega)
  have a3 : ((T.mx : Int) - 1) * p.nx = p.nx * T.mx - p.nx := by ring
  have b3 : ((T.my : Int) - 1) * p.ny = p.ny * T.my - p.ny := by ring
  have c3 : ((T.mz : Int) - 1) * p.nz = p.nz * T.mz - p.nz := by ring
  refine ⟨⟨?_, ?_⟩, ⟨?_, ?_⟩, ?_, ?_⟩
  · show 0 ≤ (T.coords r).1 * p.nx + i
    omega
  · show (T.coords r).1 * p.nx + i < p.nx * T.mx + 2 * p.ghostWidth
    omega
  · show 0 ≤ (T.coords r).2.1 * p.ny + j
    omega
  · show (T.coords r).2.1 * p.ny + j < p.ny * T.my + 2 * p.ghostWidth
    omega
  · show 0 ≤ (T.coords r).2.2 * p.nz + k
    omega
  · show (T.coords r).2.2 * p.nz + k < p.nz * T.mz + 2 * p.ghostWidth
    omega

/-- **C56, 2D hydro** (any arithmetic): whatever the problem — except the randomly perturbed shear layer —
the process grid and the schedules, after `init` every process holds exactly the block of the serial initial
state, ghost cells and gravity field included. -/
theorem C56_initial_block_2d {T : Topo} {p : Params R} (hp : Hydro2 (localParams T p)) (M : MathLib R)
    {q : T.Rank → HydroProblem R} {q' : HydroProblem R} (hq : ∀ r, SameProblem (q r) q')
    (hs : ∀ r, Seedless (q r)) {rnd : T.Rank → Int → Int → Int → Nat → R}
    {rnd' : Int → Int → Int → Nat → R} {m : T.Rank → Mem Arr R} {G : Mem Arr R}
    (hm : ∀ r, runLaunches (initHydro2 M (localParams T p) (T.coords r) (rnd r) (q r)) freshMem (m r))
    (hG : runLaunches (initHydro2 M (globalParams T p) (0, 0, 0) rnd' q') freshMem G) :
    HoldsBlock2 T p .U (inGrid2 (localParams T p)) m G ∧ HoldsGravity2 T p m G := by
  have hn : p.nbvar = 4 := hp.nbvar
  rw [initHydro2_iff] at hG
  refine ⟨fun r i j v hij hv => ?_, fun r i j v hij hv => ?_⟩
  all_goals
    have e := (initHydro2_iff _ _ _ _ _ _ _).1 (hm r)
    have h1 : (i, j) ∈ range2 (localParams T p).isize (localParams T p).jsize := by
      obtain ⟨a, b, c, d⟩ := hij
      have hWF := hp.wf
      exact mem_range2.2 ⟨⟨a, hWF.isize_eq ▸ b⟩, c, hWF.jsize_eq ▸ d⟩
    have h2 : ((globalCell T p r i j 0).1, (globalCell T p r i j 0).2.1) ∈
        range2 (globalParams T p).isize (globalParams T p).jsize := by
      obtain ⟨a, b, c, d⟩ := inGrid2_block hp.wf r hij
      have hWF := globalParams_wf hp.wf T
      exact mem_range2.2 ⟨⟨a, hWF.isize_eq ▸ b⟩, c, hWF.jsize_eq ▸ d⟩
    rw [e, hG]
    beta_reduce
  · rw [if_pos ⟨Or.inl rfl, h1⟩, if_pos ⟨Or.inl rfl, h2⟩]
    rw [run_hydroInit2_U _ _ _ _ _ _ _ _ _ (by omega), run_hydroInit2_U _ _ _ _ _ _ _ _ _ (by omega),
      cellX_block p r i j 0, cellY_block p r i j 0,
      hydroCell2_block M p (hq r) (hs r) (rnd r i j 0) (rnd' _ _ 0)]
    rfl
  · rw [if_pos ⟨Or.inr rfl, h1⟩, if_pos ⟨Or.inr rfl, h2⟩]
    rw [run_hydroInit2_grav _ _ _ _ _ _ _ _ _ hv, run_hydroInit2_grav _ _ _ _ _ _ _ _ _ hv]
    have hqr := hq r
    generalize q r = qr at hqr ⊢
    cases hqr <;> rfl

/-- **C56, 3D hydro** (any arithmetic). -/
theorem C56_initial_block_3d {T : Topo} {p : Params R} (hp : Hydro3 (localParams T p)) (M : MathLib R)
    {q : T.Rank → HydroProblem R} {q' : HydroProblem R} (hq : ∀ r, SameProblem (q r) q')
    (hs : ∀ r, Seedless (q r)) {rnd : T.Rank → Int → Int → Int → Nat → R}
    {rnd' : Int → Int → Int → Nat → R} {m : T.Rank → Mem Arr R} {G : Mem Arr R}
    (hm : ∀ r, runLaunches (initHydro3 M (localParams T p) (T.coords r) (rnd r) (q r)) freshMem (m r))
    (hG : runLaunches (initHydro3 M (globalParams T p) (0, 0, 0) rnd' q') freshMem G) :
    HoldsBlock T p .U (inGrid3 (localParams T p)) m G ∧ HoldsGravity3 T p m G := by
  have hn : p.nbvar = 5 := hp.nbvar
  rw [initHydro3_iff] at hG
  refine ⟨fun r i j k v hij hv => ?_, fun r i j k v hij hv => ?_⟩
  all_goals
    have e := (initHydro3_iff _ _ _ _ _ _ _).1 (hm r)
    have h1 : (i, j, k) ∈ range3 (localParams T p).isize (localParams T p).jsize (localParams T p).ksize := by
      obtain ⟨⟨a, b⟩, ⟨c, d⟩, e, f⟩ := hij
      have hWF := hp.wf
      exact mem_range3.2 ⟨⟨a, hWF.isize_eq ▸ b⟩, ⟨c, hWF.jsize_eq ▸ d⟩, e, hWF.ksize_eq ▸ f⟩
    have h2 : ((globalCell T p r i j k).1, (globalCell T p r i j k).2.1, (globalCell T p r i j k).2.2) ∈
        range3 (globalParams T p).isize (globalParams T p).jsize (globalParams T p).ksize := by
      obtain ⟨⟨a, b⟩, ⟨c, d⟩, e, f⟩ := inGrid3_block hp.wf r hij
      have hWF := globalParams_wf hp.wf T
      exact mem_range3.2 ⟨⟨a, hWF.isize_eq ▸ b⟩, ⟨c, hWF.jsize_eq ▸ d⟩, e, hWF.ksize_eq ▸ f⟩
    rw [e, hG]
    beta_reduce
  · rw [if_pos ⟨Or.inl rfl, h1⟩, if_pos ⟨Or.inl rfl, h2⟩]
    rw [run_hydroInit3_U _ _ _ _ _ _ _ _ _ _ (by omega), run_hydroInit3_U _ _ _ _ _ _ _ _ _ _ (by omega),
      cellX_block p r i j k, cellY_block p r i j k, cellZ_block p r i j k,
      hydroCell3_block M p (hq r) (hs r) (rnd r i j k) (rnd' _ _ _)]
    rfl
  · rw [if_pos ⟨Or.inr rfl, h1⟩, if_pos ⟨Or.inr rfl, h2⟩]
    rw [run_hydroInit3_grav _ _ _ _ _ _ _ _ _ _ hv, run_hydroInit3_grav _ _ _ _ _ _ _ _ _ _ hv]
    have hqr := hq r
    generalize q r = qr at hqr ⊢
    cases hqr <;> rfl

/-- the problem each process reads from the configuration file is the same, whatever the values of the
uninitialised members of its parameters -/
theorem sameProblem_config2 (F : FloatLib R) (M : MathLib R) (c : Ini.Reader) (jk jk' : R × R) :
    SameProblem (hydroProblem2 F M c jk) (hydroProblem2 F M c jk') := by
  simp only [hydroProblem2]
  split_ifs
  all_goals first
    | exact .refl _
    | exact .blast (blastParams F M c jk) jk.1 jk.2 jk'.1 jk'.2

theorem sameProblem_config3 (F : FloatLib R) (M : MathLib R) (c : Ini.Reader) (jk jk' : R × R) :
    SameProblem (hydroProblem3 F M c jk) (hydroProblem3 F M c jk') := by
  simp only [hydroProblem3]
  split_ifs
  all_goals first
    | exact .refl _
    | exact .blast (blastParams F M c jk) jk.1 jk.2 jk'.1 jk'.2

/-- **C56, whole hydro runs, 2D**, from the configuration file on (exact arithmetic, all implementation
versions, with or without gravity): the serial run starts from the initial condition of the configured problem
on the whole grid, the distributed run starts with every process computing the initial condition of its own
block; every execution of the latter ends with the blocks and the files of the former. -/
theorem C56_run_2d {lay : Layout} {T : Topo} {p : Params ℝ} (hp : Hydro2 (localParams T p))
    (hwide : Wide2 (localParams T p)) (hbc : NamedBC2 T (localParams T p))
    (hi : p.implementationVersion = 0 ∨ p.implementationVersion = 1 ∨ p.implementationVersion = 2)
    (hg : GoodGrid (localParams T p)) (he : p.enableOutput = decide (p.nOutput ≠ 0))
    (hlog : p.nlog ≠ 0) {g : GravityParams} {ident ident' : ℝ} (hid : ident ≤ 0)
    (hid' : ident' ≤ 0) {jk : T.Rank → Junk ℝ} {jk' : Junk ℝ}
    (F : FloatLib ℝ) (M : MathLib ℝ) (c : Ini.Reader) (ju : T.Rank → ℝ × ℝ) (ju' : ℝ × ℝ)
    (hs : ∀ j, Seedless (hydroProblem2 F M c j)) {rnd : T.Rank → Int → Int → Int → Nat → ℝ}
    {rnd' : Int → Int → Int → Nat → ℝ} {G : Mem Arr ℝ} {t : ℝ} {sv : Int} {s' : RunState ℝ}
    (hG : runLaunches (initHydro2 M (globalParams T p) (0, 0, 0) rnd' (hydroProblem2 F M c ju')) freshMem G)
    (hser : runMain (globalParams T p) (hydroOps2 (globalParams T p) g ident' jk') G t sv s')
    {m : T.Rank → Mem Arr ℝ}
    (hm : ∀ r, runLaunches (initHydro2 M (localParams T p) (T.coords r) (rnd r)
      (hydroProblem2 F M c (ju r))) freshMem (m r)) :
    ∃ N, ∀ (buf : Prop) n y,
      FSteps buf (mpiMain (localParams T p) (mpiHydro2 lay T (localParams T p) g ident jk)) n
        (FConfig.init (.pre 0) (fun r => startState (m r) t sv)) y →
      n ≤ N ∧
      (¬ y.Done (mpiMain (localParams T p) (mpiHydro2 lay T (localParams T p) g ident jk)) →
        ∃ z, FStep False (mpiMain (localParams T p) (mpiHydro2 lay T (localParams T p) g ident jk))
          y z) ∧
      (y.Done (mpiMain (localParams T p) (mpiHydro2 lay T (localParams T p) g ident jk)) →
        (∀ a b tag, y.c.chan a b tag = []) ∧
        (∀ r, (y.c.st r).iteration = s'.iteration ∧ (y.c.st r).t = s'.t ∧
          (y.c.st r).times_saved = s'.times_saved ∧
          List.Forall₂ (BlockFile2 T p r) (y.c.st r).outputs s'.outputs) ∧
        HoldsBlock2 T p (pingIn s'.iteration) (interior2 (localParams T p))
          (fun r => (y.c.st r).mem) s'.mem) := by
  obtain ⟨h1, h2⟩ := C56_initial_block_2d hp M (fun r => sameProblem_config2 F M c (ju r) ju')
    (fun r => hs _) hm hG
  exact C11_run_2d hp hwide hbc hi hg he hlog hid hid' hser
    (fun r i j v hij hv => h1 r i j v (interior_inGrid2 hp.wf hij) hv) (fun _ => h2)

/-- **C56, whole hydro runs, 3D**, from the configuration file on. -/
theorem C56_run_3d {lay : Layout} {T : Topo} {p : Params ℝ} (hp : Hydro3 (localParams T p))
    (hwide : Wide3 (localParams T p)) (hbc : NamedBC3 T (localParams T p))
    (hi : p.implementationVersion = 0 ∨ p.implementationVersion = 1 ∨ p.implementationVersion = 2)
    (hg : GoodGrid (localParams T p)) (he : p.enableOutput = decide (p.nOutput ≠ 0))
    (hlog : p.nlog ≠ 0) {g : GravityParams} {ident ident' : ℝ} (hid : ident ≤ 0)
    (hid' : ident' ≤ 0) {jk : T.Rank → Junk ℝ} {jk' : Junk ℝ}
    (F : FloatLib ℝ) (M : MathLib ℝ) (c : Ini.Reader) (ju : T.Rank → ℝ × ℝ) (ju' : ℝ × ℝ)
    (hs : ∀ j, Seedless (hydroProblem3 F M c j)) {rnd : T.Rank → Int → Int → Int → Nat → ℝ}
    {rnd' : Int → Int → Int → Nat → ℝ} {G : Mem Arr ℝ} {t : ℝ} {sv : Int} {s' : RunState ℝ}
    (hG : runLaunches (initHydro3 M (globalParams T p) (0, 0, 0) rnd' (hydroProblem3 F M c ju')) freshMem G)
    (hser : runMain (globalParams T p) (hydroOps3 (globalParams T p) g ident' jk') G t sv s')
    {m : T.Rank → Mem Arr ℝ}
    (hm : ∀ r, runLaunches (initHydro3 M (localParams T p) (T.coords r) (rnd r)
      (hydroProblem3 F M c (ju r))) freshMem (m r)) :
    ∃ N, ∀ (buf : Prop) n y,
      FSteps buf (mpiMain (localParams T p) (mpiHydro3 lay T (localParams T p) g ident jk)) n
        (FConfig.init (.pre 0) (fun r => startState (m r) t sv)) y →
      n ≤ N ∧
      (¬ y.Done (mpiMain (localParams T p) (mpiHydro3 lay T (localParams T p) g ident jk)) →
        ∃ z, FStep False (mpiMain (localParams T p) (mpiHydro3 lay T (localParams T p) g ident jk))
          y z) ∧
      (y.Done (mpiMain (localParams T p) (mpiHydro3 lay T (localParams T p) g ident jk)) →
        (∀ a b tag, y.c.chan a b tag = []) ∧
        (∀ r, (y.c.st r).iteration = s'.iteration ∧ (y.c.st r).t = s'.t ∧
          (y.c.st r).times_saved = s'.times_saved ∧
          List.Forall₂ (BlockFile3 T p r) (y.c.st r).outputs s'.outputs) ∧
        HoldsBlock T p (pingIn s'.iteration) (interior3 (localParams T p))
          (fun r => (y.c.st r).mem) s'.mem) := by
  obtain ⟨h1, h2⟩ := C56_initial_block_3d hp M (fun r => sameProblem_config3 F M c (ju r) ju')
    (fun r => hs _) hm hG
  exact C11_run_3d hp hwide hbc hi hg he hlog hid hid' hser
    (fun r i j k v hij hv => h1 r i j k v (interior_inGrid3 hp.wf hij) hv) (fun _ => h2)

/-- The exclusion is needed: with the random perturbation (the generator states are drawn from a pool, in an
order that depends on the schedule) there are executions of the serial and the distributed initialisation
whose results differ, on every grid. -/
theorem C56_random_perturbation_differs {T : Topo} {p : Params ℝ} (hp : Hydro2 (localParams T p))
    (M : MathLib ℝ) (q : KHParams ℝ) (hr : q.p_rand = true) (ha : q.amplitude ≠ 0) (hd : q.d_in ≠ 0)
    (hd' : q.d_out ≠ 0) (r0 : T.Rank) :
    ∃ (rnd : T.Rank → Int → Int → Int → Nat → ℝ) (rnd' : Int → Int → Int → Nat → ℝ)
      (m : T.Rank → Mem Arr ℝ) (G : Mem Arr ℝ),
      (∀ r i j k n, 0 ≤ rnd r i j k n ∧ rnd r i j k n < 1) ∧ (∀ i j k n, 0 ≤ rnd' i j k n ∧ rnd' i j k n < 1) ∧
      (∀ r, runLaunches (initHydro2 M (localParams T p) (T.coords r) (rnd r) (.kelvinHelmholtz q))
        freshMem (m r)) ∧
      runLaunches (initHydro2 M (globalParams T p) (0, 0, 0) rnd' (.kelvinHelmholtz q)) freshMem G ∧
      ¬ HoldsBlock2 T p .U (interior2 (localParams T p)) m G := by
  have hw := hp.wf
  refine ⟨fun _ _ _ _ _ => 0, fun _ _ _ _ => 1 / 2, _, _, by simp, by norm_num,
    fun r => (initHydro2_iff _ _ _ _ _ _ _).2 rfl, (initHydro2_iff _ _ _ _ _ _ _).2 rfl, fun h => ?_⟩
  have hin : interior2 (localParams T p) (localParams T p).ghostWidth (localParams T p).ghostWidth := by
    have := hw.nx_pos
    have := hw.ny_pos
    refine ⟨?_, ?_, ?_, ?_⟩ <;> omega
  have hgr := interior_inGrid2 hw hin
  have hn : p.nbvar = 4 := hp.nbvar
  have h := h r0 _ _ IU hin (by rw [hn]; decide)
  have h1 : ((localParams T p).ghostWidth, (localParams T p).ghostWidth) ∈
      range2 (localParams T p).isize (localParams T p).jsize := by
    obtain ⟨a, b, c, d⟩ := hgr
    exact mem_range2.2 ⟨⟨a, hw.isize_eq ▸ b⟩, c, hw.jsize_eq ▸ d⟩
  have h2 : ((globalCell T p r0 (localParams T p).ghostWidth (localParams T p).ghostWidth 0).1,
      (globalCell T p r0 (localParams T p).ghostWidth (localParams T p).ghostWidth 0).2.1) ∈
      range2 (globalParams T p).isize (globalParams T p).jsize := by
    obtain ⟨a, b, c, d⟩ := inGrid2_block hw r0 hgr
    have hWF := globalParams_wf hw T
    exact mem_range2.2 ⟨⟨a, hWF.isize_eq ▸ b⟩, c, hWF.jsize_eq ▸ d⟩
  beta_reduce at h
  rw [if_pos ⟨Or.inl rfl, h1⟩, if_pos ⟨Or.inl rfl, h2⟩, run_hydroInit2_U _ _ _ _ _ _ _ _ _ (by decide),
    run_hydroInit2_U _ _ _ _ _ _ _ _ _ (by decide), cellX_block p r0 _ (localParams T p).ghostWidth 0,
    cellY_block p r0 (localParams T p).ghostWidth _ 0] at h
  generalize cellX (globalParams T p) _ _ = x at h
  generalize cellY (globalParams T p) _ _ = y at h
  simp only [hydroCell2, kh2, hr, if_true] at h
  have e : ∀ a b c d f : ℝ, (HS.mk a b c d f).get IU = c := fun _ _ _ _ _ => rfl
  simp only [e] at h
  have e1 : (localParams T p).ymin = (globalParams T p).ymin := rfl
  have e2 : (localParams T p).ymax = (globalParams T p).ymax := rfl
  rw [e1, e2] at h
  simp only [RealOps.lit_real] at h
  split_ifs at h
  · have := mul_left_cancel₀ hd' h
    apply ha
    push_cast at this
    linarith
  · have := mul_left_cancel₀ hd h
    apply ha
    push_cast at this
    linarith

-- the initial states exist, e.g. for the blast problem on a 3 × 2 process grid
example (M : MathLib ℝ) (q : BlastParams ℝ) :
    let p := sample .dirichlet .periodic
    ∃ (m : topo321.Rank → Mem Arr ℝ) (G : Mem Arr ℝ),
      HoldsBlock2 topo321 p .U (inGrid2 (localParams topo321 p)) m G ∧ HoldsGravity2 topo321 p m G := by
  intro p
  have hp : Hydro2 (localParams topo321 p) := by
    obtain ⟨w, nb, ⟨v1, v2⟩, f⟩ := sample_hydro2 .dirichlet .periodic
    have w' : (sample .dirichlet .periodic).init.WF :=
      Params.init_wf _ w.nx_pos w.ny_pos w.nz_pos w.gw_pos
    obtain ⟨w1, w2, w3, w4, w5, w6, w7, w8, w9, w10, w11, w12, w13⟩ := w'
    exact ⟨⟨w1, w2, w3, w4, w5, w6, w7, w8, w9, w10, w11, w12, w13⟩, nb, ⟨v1, v2⟩, f⟩
  exact ⟨_, _, C56_initial_block_2d (rnd := fun _ _ _ _ _ => 0) (rnd' := fun _ _ _ _ => 0) hp M
    (fun _ => SameProblem.refl (.blast q)) (fun _ => trivial)
    (fun r => (initHydro2_iff _ _ _ _ _ _ _).2 rfl) ((initHydro2_iff _ _ _ _ _ _ _).2 rfl)⟩

end EulerKokkos
