import Verif.Props.C97
import Verif.Props.C99

/-!
# C100 — what holds of the files of the serial program holds of the files of the MPI program, put side by side

Whatever can be said of the number of iterations, the final time and the files (numbers, times and the cells of the
domain, over the whole sequence of files) of every execution of the serial program on the whole domain holds of every
execution of the MPI program on any process grid.
-/

set_option linter.constructorNameAsVariable false
set_option linter.unusedSectionVars false
set_option linter.unusedSimpArgs false

namespace EulerKokkos
open Spec Spmd

variable {T : Topo}

namespace Spec

/-- two files show the same: number, time and all variables in all cells of the domain (2D) -/
def SameFile2 (p : Params ℝ) (o g : Output ℝ) : Prop :=
  o.number = g.number ∧ o.time = g.time ∧
  ∀ i j v, interior2 p i j → v < p.nbvar → o.data ⟨(), i, j, 0, v⟩ = g.data ⟨(), i, j, 0, v⟩

/-- the same in 3D -/
def SameFile3 (p : Params ℝ) (o g : Output ℝ) : Prop :=
  o.number = g.number ∧ o.time = g.time ∧
  ∀ i j k v, interior3 p i j k → v < p.nbvar → o.data ⟨(), i, j, k, v⟩ = g.data ⟨(), i, j, k, v⟩

/-- `l` is what one sees when the files of all processes are put side by side, file after file (2D) -/
def SideBySide2 (T : Topo) (p : Params ℝ) (s : T.Rank → RunState ℝ) (l : List (Output ℝ)) : Prop :=
  ∀ r, List.Forall₂ (BlockFile2 T p r) (s r).outputs l

/-- the same in 3D -/
def SideBySide3 (T : Topo) (p : Params ℝ) (s : T.Rank → RunState ℝ) (l : List (Output ℝ)) : Prop :=
  ∀ r, List.Forall₂ (BlockFile3 T p r) (s r).outputs l

/-- `S`, a statement about the number of iterations, the final time and the files, depends on what the files show -/
def OnlyShown (Same : Output ℝ → Output ℝ → Prop) (S : Nat → ℝ → List (Output ℝ) → Prop) : Prop :=
  ∀ n t l l', List.Forall₂ Same l l' → S n t l → S n t l'

/-- every execution of the MPI program ends, its files can be put side by side, and what one then sees satisfies `S` -/
def Shows (Side : (T.Rank → RunState ℝ) → List (Output ℝ) → Prop) (flow : Flow Ctl T.Rank (RunState ℝ) (Msg ℝ))
    (st : T.Rank → RunState ℝ) (S : Nat → ℝ → List (Output ℝ) → Prop) : Prop :=
  AlwaysEnds flow st fun s => (∃ l, Side s l) ∧ ∀ l, Side s l → ∀ r, S (s r).iteration (s r).t l

end Spec

/-! ### Lemmas -/

theorem kern_exists (a : Launch Arr ℝ) (m : Mem Arr ℝ) : ∃ m', a.kern m m' := by
  cases a with
  | par F body => exact Prog.parFor_exists F.finite_toSet body m
  | copy d s => exact ⟨_, rfl⟩

theorem launches_exists (l : List (Launch Arr ℝ)) (m : Mem Arr ℝ) : ∃ m', runLaunches l m m' := by
  unfold runLaunches
  induction l generalizing m with
  | nil => exact ⟨m, rfl⟩
  | cons a l ih =>
    obtain ⟨m₁, h1⟩ := kern_exists a m
    obtain ⟨m₂, h2⟩ := ih m₁
    exact ⟨m₂, m₁, h1, h2⟩

theorem forall2_both {α β γ : Type} {P : α → β → Prop} {Q : α → γ → Prop} {l : List α} {l' : List β} {l'' : List γ}
    (h : List.Forall₂ P l l') (h' : List.Forall₂ Q l l'') : List.Forall₂ (fun b c => ∃ a, P a b ∧ Q a c) l' l'' := by
  induction h generalizing l'' with
  | nil => cases h'; exact .nil
  | cons a _ ih => cases h' with | cons b c => exact .cons ⟨_, a, b⟩ (ih c)

theorem forall2_all {α β ι : Type} [Nonempty ι] {P : ι → α → β → Prop} {l : List α} {l' : List β}
    (h : ∀ i, List.Forall₂ (P i) l l') : List.Forall₂ (fun a b => ∀ i, P i a b) l l' := by
  obtain ⟨i0⟩ := ‹Nonempty ι›
  have h0 := h i0
  induction h0 with
  | nil => exact .nil
  | cons _ _ ih =>
    refine .cons (fun i => ?_) (ih fun i => ?_)
    · have := h i; cases this; assumption
    · have := h i; cases this; assumption

theorem rank_nonempty : Nonempty T.Rank := ⟨T.cartRank 0 0 0⟩

theorem same_of_blocks2 {p : Params ℝ} (hx : 1 ≤ p.nx) (hy : 1 ≤ p.ny) {g g' : Output ℝ}
    (h : ∀ r : T.Rank, ∃ o, BlockFile2 T p r o g ∧ BlockFile2 T p r o g') : SameFile2 (globalParams T p) g g' := by
  obtain ⟨o, a, b⟩ := h (T.cartRank 0 0 0)
  refine ⟨a.1.symm.trans b.1, a.2.1.symm.trans b.2.1, ?_⟩
  rintro x y v ⟨h1, h2, h3, h4⟩ hv
  obtain ⟨X, i, x0, x1, i0, i1, rfl⟩ := block_exists (m := T.mx) hx h1 h2
  obtain ⟨Y, j, y0, y1, j0, j1, rfl⟩ := block_exists (m := T.my) hy h3 h4
  obtain ⟨o, a, b⟩ := h (T.cartRank X Y 0)
  have a3 := (a.2.2 i j v ⟨i0, i1, j0, j1⟩ hv).symm.trans (b.2.2 i j v ⟨i0, i1, j0, j1⟩ hv)
  unfold globalCell at a3
  rw [T.coords_cartRank, Int.emod_eq_of_lt x0 x1, Int.emod_eq_of_lt y0 y1] at a3
  exact a3

theorem same_of_blocks3 {p : Params ℝ} (hx : 1 ≤ p.nx) (hy : 1 ≤ p.ny) (hz : 1 ≤ p.nz) {g g' : Output ℝ}
    (h : ∀ r : T.Rank, ∃ o, BlockFile3 T p r o g ∧ BlockFile3 T p r o g') : SameFile3 (globalParams T p) g g' := by
  obtain ⟨o, a, b⟩ := h (T.cartRank 0 0 0)
  refine ⟨a.1.symm.trans b.1, a.2.1.symm.trans b.2.1, ?_⟩
  rintro x y z v ⟨⟨h1, h2⟩, ⟨h3, h4⟩, h5, h6⟩ hv
  obtain ⟨X, i, x0, x1, i0, i1, rfl⟩ := block_exists (m := T.mx) hx h1 h2
  obtain ⟨Y, j, y0, y1, j0, j1, rfl⟩ := block_exists (m := T.my) hy h3 h4
  obtain ⟨Z, k, z0, z1, k0, k1, rfl⟩ := block_exists (m := T.mz) hz h5 h6
  obtain ⟨o, a, b⟩ := h (T.cartRank X Y Z)
  have a3 := (a.2.2 i j k v ⟨⟨i0, i1⟩, ⟨j0, j1⟩, k0, k1⟩ hv).symm.trans
    (b.2.2 i j k v ⟨⟨i0, i1⟩, ⟨j0, j1⟩, k0, k1⟩ hv)
  unfold globalCell at a3
  rw [T.coords_cartRank, Int.emod_eq_of_lt x0 x1, Int.emod_eq_of_lt y0 y1, Int.emod_eq_of_lt z0 z1] at a3
  exact a3

theorem shows_of {Block : T.Rank → Output ℝ → Output ℝ → Prop} {Same : Output ℝ → Output ℝ → Prop}
    (hB : ∀ g g', (∀ r, ∃ o, Block r o g ∧ Block r o g') → Same g g')
    {flow : Flow Ctl T.Rank (RunState ℝ) (Msg ℝ)} {st : T.Rank → RunState ℝ} {S : Nat → ℝ → List (Output ℝ) → Prop}
    (hS : OnlyShown Same S) {s' : RunState ℝ} (h' : S s'.iteration s'.t s'.outputs)
    (h : Reproduces flow st Block s') :
    Shows (fun s l => ∀ r, List.Forall₂ (Block r) (s r).outputs l) flow st S := by
  refine alwaysEnds_of h fun s hs => ⟨⟨_, fun r => (hs r).2.2⟩, fun l hl r => ?_⟩
  rw [(hs r).1, (hs r).2.1]
  refine hS _ _ _ _ ?_ h'
  haveI : Nonempty T.Rank := rank_nonempty
  exact (forall2_all fun r => forall2_both (hs r).2.2 (hl r)).imp fun g g' h => hB _ _ h

section
variable {p : Params ℝ}

theorem two_le_mul {n : Int} {k : Int} {m : Nat} (h : k ≤ n) (hk : 0 ≤ k) (hm : 0 < m) : k ≤ n * m := by
  have : n * 1 ≤ n * m := Int.mul_le_mul_of_nonneg_left (by omega) (by omega)
  omega

theorem whole_ordinary2 (h : Ordinary2 (localParams T p)) : Ordinary2 (globalParams T p) :=
  { x := h.x, y := h.y, z := h.z, gamma := h.gamma, smallr := h.smallr, smallc := h.smallc, cfl := h.cfl, nlog := h.nlog
    nx := two_le_mul h.nx (by omega) T.hx
    ny := two_le_mul h.ny (by omega) T.hy
    nz := two_le_mul h.nz (by omega) T.hz
    slope := h.slope
    riemann := h.riemann }

theorem whole_ordinary3 (h : Ordinary3 (localParams T p)) : Ordinary3 (globalParams T p) :=
  { x := h.x, y := h.y, z := h.z, gamma := h.gamma, smallr := h.smallr, smallc := h.smallc, cfl := h.cfl, nlog := h.nlog
    nx := two_le_mul h.nx (by omega) T.hx
    ny := two_le_mul h.ny (by omega) T.hy
    nz := two_le_mul h.nz (by omega) T.hz
    slope := h.slope
    riemann := h.riemann }

theorem whole_ordinaryM2 (h : OrdinaryM2 (localParams T p)) : OrdinaryM2 (globalParams T p) :=
  { x := h.x, y := h.y, z := h.z, gamma := h.gamma, smallr := h.smallr, smallc := h.smallc, cfl := h.cfl, nlog := h.nlog
    nx := two_le_mul h.nx (by omega) T.hx
    ny := two_le_mul h.ny (by omega) T.hy
    nz := two_le_mul h.nz (by omega) T.hz
    slope := h.slope
    riemann := h.riemann }

theorem whole_ordinaryM3 (h : OrdinaryM3 (localParams T p)) : OrdinaryM3 (globalParams T p) :=
  { x := h.x, y := h.y, z := h.z, gamma := h.gamma, smallr := h.smallr, smallc := h.smallc, cfl := h.cfl, nlog := h.nlog
    nx := two_le_mul h.nx (by omega) T.hx
    ny := two_le_mul h.ny (by omega) T.hy
    nz := two_le_mul h.nz (by omega) T.hz
    slope := h.slope
    riemann := h.riemann }

end

theorem sets_whole {c c' : Ini.Reader} (hw : WholeDomain T c c') {v : String} (h : Sets c "run" "solver_name" v) :
    Sets c' "run" "solver_name" v := fun d => (hw.same _ _ _ (by decide)).trans (h d)

/-! ### The MPI program shows what the serial program shows -/

/-- **C100 (2D hydro).** -/
theorem C100_hydro_2d (F : FloatLib ℝ) (M : MathLib ℝ) {file file' : Option (List Char)} {e : EnvMpi T ℝ}
    {st : T.Rank → RunState ℝ} {flow : Flow Ctl T.Rank (RunState ℝ) (Msg ℝ)} (S : Nat → ℝ → List (Output ℝ) → Prop) :
    let c := Ini.broadcastMpi file
    let c' := Ini.broadcastSerial file'
    WholeDomain T c c' → Sets c "run" "solver_name" "Hydro_Muscl_2D" →
    Ordinary2 (hydroParamsMpi T F c) → NamedBC2 T (hydroParamsMpi T F c) → (∀ j, Seedless (hydroProblem2 F M c j)) →
    e.ident ≤ 0 → MpiStarts F M e file st flow → OnlyShown (SameFile2 (hydroParams F c')) S →
    (∀ e' s', e'.ident ≤ 0 → serialMain F M e' file' (.finished s') → S s'.iteration s'.t s'.outputs) →
    Shows (SideBySide2 T (rawParams (lit 0) F c)) flow st S := by
  intro c c' hw hs ho hbc hsd hid h hS hser
  have hk : findSolver (mainSolverName c) = some .hydro2 := findSolver_sets (by simp [solverRegistry]) hs
  obtain ⟨hr, m, hm, -, -⟩ := mpiStarts_iff hk h
  have hp' : hydroParams F c' = globalParams T (rawParams (lit 0) F c) := whole_params hw F
  have ho' : Ordinary2 (hydroParams F c') := by rw [hp']; exact whole_ordinary2 ho
  have hk' : findSolver (mainSolverName c') = some .hydro2 := by rw [whole_solver hw]; exact hk
  have hr' : cfgBool c' "run" "restart_enabled" false = false := by
    rw [whole_bool hw (by decide)]; exact hr
  obtain ⟨h1, -⟩ := C36_runnable_2d F c' (sets_whole hw hs _) ho'.nx ho'.ny ho'.nz ho'.x ho'.y ho'.z ho'.slope ho'.riemann
    ho'.gamma ho'.smallr ho'.smallc ho'.cfl
  obtain ⟨e', hid', hju⟩ := env_exists (e.ju (T.cartRank 0 0 0))
  obtain ⟨m', hm'⟩ := launches_exists (initHydro2 M (hydroParams F c') (0, 0, 0) e'.rnd (hydroProblem2 F M c' e'.ju)) freshMem
  have hi : initProblem F M e' c' (hydroParams F c') m' .hydro2 := by
    refine ⟨?_, hm'⟩
    rw [whole_gravity hw, whole_problem2 hw, hju]
    exact (hm (T.cartRank 0 0 0)).1
  have hT := total_hydro2 h1.wf h1.faces (gravityParams c') e'.ident e'.jk
  obtain ⟨s, hs0⟩ := C14_starts (p := hydroParams F c') hT m' (cfgFloat F c' "run" "tCurrent" 0) 0
  obtain ⟨_, s₁, _, _, hrun⟩ := C14_completes hT ho'.nlog hs0
  obtain ⟨s', hfin⟩ : ∃ s', serialMain F M e' file' (.finished s') :=
    ⟨_, (serialMain_fresh hk' hr' _).2 ⟨m', _, rfl, hi, hrun⟩⟩
  refine shows_of (fun g g' hg => ?_) hS (hser e' s' hid' hfin) (C80_hydro_2d F M hw hs ho hbc hsd hid hid' h hfin)
  rw [hp']
  exact same_of_blocks2 (le_trans (by decide) ho.nx) (le_trans (by decide) ho.ny) hg

/-- **C100 (3D hydro).** -/
theorem C100_hydro_3d (F : FloatLib ℝ) (M : MathLib ℝ) {file file' : Option (List Char)} {e : EnvMpi T ℝ}
    {st : T.Rank → RunState ℝ} {flow : Flow Ctl T.Rank (RunState ℝ) (Msg ℝ)} (S : Nat → ℝ → List (Output ℝ) → Prop) :
    let c := Ini.broadcastMpi file
    let c' := Ini.broadcastSerial file'
    WholeDomain T c c' → Sets c "run" "solver_name" "Hydro_Muscl_3D" →
    Ordinary3 (hydroParamsMpi T F c) → NamedBC3 T (hydroParamsMpi T F c) → (∀ j, Seedless (hydroProblem3 F M c j)) →
    e.ident ≤ 0 → MpiStarts F M e file st flow → OnlyShown (SameFile3 (hydroParams F c')) S →
    (∀ e' s', e'.ident ≤ 0 → serialMain F M e' file' (.finished s') → S s'.iteration s'.t s'.outputs) →
    Shows (SideBySide3 T (rawParams (lit 0) F c)) flow st S := by
  intro c c' hw hs ho hbc hsd hid h hS hser
  have hk : findSolver (mainSolverName c) = some .hydro3 := findSolver_sets (by simp [solverRegistry]) hs
  obtain ⟨hr, m, hm, -, -⟩ := mpiStarts_iff hk h
  have hp' : hydroParams F c' = globalParams T (rawParams (lit 0) F c) := whole_params hw F
  have ho' : Ordinary3 (hydroParams F c') := by rw [hp']; exact whole_ordinary3 ho
  have hk' : findSolver (mainSolverName c') = some .hydro3 := by rw [whole_solver hw]; exact hk
  have hr' : cfgBool c' "run" "restart_enabled" false = false := by
    rw [whole_bool hw (by decide)]; exact hr
  obtain ⟨h1, -⟩ := C36_runnable_3d F c' (sets_whole hw hs _) ho'.nx ho'.ny ho'.nz ho'.x ho'.y ho'.z ho'.slope ho'.riemann
    ho'.gamma ho'.smallr ho'.smallc ho'.cfl
  obtain ⟨e', hid', hju⟩ := env_exists (e.ju (T.cartRank 0 0 0))
  obtain ⟨m', hm'⟩ := launches_exists (initHydro3 M (hydroParams F c') (0, 0, 0) e'.rnd (hydroProblem3 F M c' e'.ju)) freshMem
  have hi : initProblem F M e' c' (hydroParams F c') m' .hydro3 := by
    refine ⟨?_, hm'⟩
    rw [whole_gravity hw, whole_problem3 hw, hju]
    exact (hm (T.cartRank 0 0 0)).1
  have hT := total_hydro3 h1.wf h1.faces (gravityParams c') e'.ident e'.jk
  obtain ⟨s, hs0⟩ := C14_starts (p := hydroParams F c') hT m' (cfgFloat F c' "run" "tCurrent" 0) 0
  obtain ⟨_, s₁, _, _, hrun⟩ := C14_completes hT ho'.nlog hs0
  obtain ⟨s', hfin⟩ : ∃ s', serialMain F M e' file' (.finished s') :=
    ⟨_, (serialMain_fresh hk' hr' _).2 ⟨m', _, rfl, hi, hrun⟩⟩
  refine shows_of (fun g g' hg => ?_) hS (hser e' s' hid' hfin) (C80_hydro_3d F M hw hs ho hbc hsd hid hid' h hfin)
  rw [hp']
  exact same_of_blocks3 (le_trans (by decide) ho.nx) (le_trans (by decide) ho.ny) (le_trans (by decide) ho.nz) hg

/-- **C100 (2D MHD).**  `ju` are the two members the blast parameters leave uninitialised. -/
theorem C100_mhd_2d (F : FloatLib ℝ) (M : MathLib ℝ) {file file' : Option (List Char)} {e : EnvMpi T ℝ} (ju : ℝ × ℝ)
    {st : T.Rank → RunState ℝ} {flow : Flow Ctl T.Rank (RunState ℝ) (Msg ℝ)} (S : Nat → ℝ → List (Output ℝ) → Prop) :
    let c := Ini.broadcastMpi file
    let c' := Ini.broadcastSerial file'
    WholeDomain T c c' → Sets c "run" "solver_name" "MHD_Muscl_2D" →
    OrdinaryM2 (hydroParamsMpi T F c) → NamedBC2 T (hydroParamsMpi T F c) → Blockwise2 (mhdProblem F M c ju) →
    (∀ r, problemName c ≠ "blast".toList ∨ e.ju r = ju) →
    e.ident ≤ 0 → MpiStarts F M e file st flow → OnlyShown (SameFile2 (hydroParams F c')) S →
    (∀ e' s', e'.ident ≤ 0 → e'.ju = ju → serialMain F M e' file' (.finished s') → S s'.iteration s'.t s'.outputs) →
    Shows (SideBySide2 T (rawParams (lit 0) F c)) flow st S := by
  intro c c' hw hs ho hbc hq hj hid h hS hser
  have hk : findSolver (mainSolverName c) = some .mhd2 := findSolver_sets (by simp [solverRegistry]) hs
  obtain ⟨hr, m, hm, -, -⟩ := mpiStarts_iff hk h
  have hp' : hydroParams F c' = globalParams T (rawParams (lit 0) F c) := whole_params hw F
  have ho' : OrdinaryM2 (hydroParams F c') := by rw [hp']; exact whole_ordinaryM2 ho
  have hk' : findSolver (mainSolverName c') = some .mhd2 := by rw [whole_solver hw]; exact hk
  have hr' : cfgBool c' "run" "restart_enabled" false = false := by
    rw [whole_bool hw (by decide)]; exact hr
  obtain ⟨h1, -⟩ := C54_mhd_runnable F c' (Or.inl (sets_whole hw hs _)) ho'.nx ho'.ny ho'.nz ho'.x ho'.y ho'.z ho'.slope
    ho'.riemann ho'.gamma ho'.smallr ho'.smallc ho'.cfl
  obtain ⟨e', hid', hju⟩ := env_exists ju
  obtain ⟨m', hm'⟩ := launches_exists (initMhd2 M (hydroParams F c') (0, 0, 0) e'.rnd (mhdProblem F M c' e'.ju)) freshMem
  have hi : initProblem F M e' c' (hydroParams F c') m' .mhd2 := hm'
  have hT := total_mhd2 h1.wf h1.faces e'.ident e'.jkM
  obtain ⟨s, hs0⟩ := C14_starts (p := hydroParams F c') hT m' (cfgFloat F c' "run" "tCurrent" 0) 0
  obtain ⟨_, s₁, _, _, hrun⟩ := C14_completes hT ho'.nlog hs0
  obtain ⟨s', hfin⟩ : ∃ s', serialMain F M e' file' (.finished s') :=
    ⟨_, (serialMain_fresh hk' hr' _).2 ⟨m', _, rfl, hi, hrun⟩⟩
  refine shows_of (fun g g' hg => ?_) hS (hser e' s' hid' hju hfin)
    (C80_mhd_2d F M hw hs ho hbc (by rw [hju]; exact hq) (by rw [hju]; exact hj) hid hid' h hfin)
  rw [hp']
  exact same_of_blocks2 (le_trans (by decide) ho.nx) (le_trans (by decide) ho.ny) hg

/-- **C100 (3D MHD).** -/
theorem C100_mhd_3d (F : FloatLib ℝ) (M : MathLib ℝ) {file file' : Option (List Char)} {e : EnvMpi T ℝ} (ju : ℝ × ℝ)
    {st : T.Rank → RunState ℝ} {flow : Flow Ctl T.Rank (RunState ℝ) (Msg ℝ)} (S : Nat → ℝ → List (Output ℝ) → Prop) :
    let c := Ini.broadcastMpi file
    let c' := Ini.broadcastSerial file'
    WholeDomain T c c' → Sets c "run" "solver_name" "MHD_Muscl_3D" →
    OrdinaryM3 (hydroParamsMpi T F c) → NamedBC3 T (hydroParamsMpi T F c) →
    Blockwise3 T (rawParams (lit 0) F c) (mhdProblem F M c ju) →
    (∀ r, problemName c ≠ "blast".toList ∨ e.ju r = ju) →
    e.ident ≤ 0 → MpiStarts F M e file st flow → OnlyShown (SameFile3 (hydroParams F c')) S →
    (∀ e' s', e'.ident ≤ 0 → e'.ju = ju → serialMain F M e' file' (.finished s') → S s'.iteration s'.t s'.outputs) →
    Shows (SideBySide3 T (rawParams (lit 0) F c)) flow st S := by
  intro c c' hw hs ho hbc hq hj hid h hS hser
  have hk : findSolver (mainSolverName c) = some .mhd3 := findSolver_sets (by simp [solverRegistry]) hs
  obtain ⟨hr, m, hm, -, -⟩ := mpiStarts_iff hk h
  have hp' : hydroParams F c' = globalParams T (rawParams (lit 0) F c) := whole_params hw F
  have ho' : OrdinaryM3 (hydroParams F c') := by rw [hp']; exact whole_ordinaryM3 ho
  have hk' : findSolver (mainSolverName c') = some .mhd3 := by rw [whole_solver hw]; exact hk
  have hr' : cfgBool c' "run" "restart_enabled" false = false := by
    rw [whole_bool hw (by decide)]; exact hr
  obtain ⟨-, h1, -⟩ := C54_mhd_runnable F c' (Or.inr (sets_whole hw hs _)) ho'.nx ho'.ny (le_trans (by decide) ho'.nz)
    ho'.x ho'.y ho'.z ho'.slope ho'.riemann ho'.gamma ho'.smallr ho'.smallc ho'.cfl
  have h1 := h1 ho'.nz
  obtain ⟨e', hid', hju⟩ := env_exists ju
  obtain ⟨m', hm'⟩ := launches_exists (initMhd3 M (hydroParams F c') (0, 0, 0) e'.rnd (mhdProblem F M c' e'.ju)) freshMem
  have hi : initProblem F M e' c' (hydroParams F c') m' .mhd3 := hm'
  have hT := total_mhd3 h1.wf h1.faces e'.ident e'.jkM
  obtain ⟨s, hs0⟩ := C14_starts (p := hydroParams F c') hT m' (cfgFloat F c' "run" "tCurrent" 0) 0
  obtain ⟨_, s₁, _, _, hrun⟩ := C14_completes hT ho'.nlog hs0
  obtain ⟨s', hfin⟩ : ∃ s', serialMain F M e' file' (.finished s') :=
    ⟨_, (serialMain_fresh hk' hr' _).2 ⟨m', _, rfl, hi, hrun⟩⟩
  refine shows_of (fun g g' hg => ?_) hS (hser e' s' hid' hju hfin)
    (C80_mhd_3d F M hw hs ho hbc (by rw [hju]; exact hq) (by rw [hju]; exact hj) hid hid' h hfin)
  rw [hp']
  exact same_of_blocks3 (le_trans (by decide) ho.nx) (le_trans (by decide) ho.ny) (le_trans (by decide) ho.nz) hg

/-! ### Symmetric problems on any process grid

The statements of C99 for the MPI program: the hypotheses are those of C99 on the parameters of the whole domain. -/

namespace Spec

/-- `S` holds of every file -/
def EachFile (S : Output ℝ → Prop) : Nat → ℝ → List (Output ℝ) → Prop := fun _ _ l => ∀ o ∈ l, S o

end Spec

theorem onlyShown_each {Same : Output ℝ → Output ℝ → Prop} {S : Output ℝ → Prop} (h : ∀ o o', Same o o' → S o → S o') :
    OnlyShown Same (EachFile S) := by
  intro _ _ l l' hl
  induction hl with
  | nil => exact fun a => a
  | cons a _ ih =>
    intro b o ho
    rcases List.mem_cons.1 ho with rfl | ho
    · exact h _ _ a (b _ (by simp))
    · exact ih (fun o ho => b o (by simp [ho])) o ho

theorem onlyShown_diagonal {p : Params ℝ} (hn : p.nbvar = 4) (hq : p.nx = p.ny) :
    OnlyShown (SameFile2 p) (EachFile (Diagonal2 p)) := by
  refine onlyShown_each fun o o' h hd i j hij => ?_
  obtain ⟨a, b, c, d⟩ := hij
  have e : ∀ v < 4, o.data ⟨(), i, j, 0, v⟩ = o'.data ⟨(), i, j, 0, v⟩ ∧ o.data ⟨(), j, i, 0, v⟩ = o'.data ⟨(), j, i, 0, v⟩ :=
    fun v hv => ⟨h.2.2 _ _ _ ⟨a, b, c, d⟩ (by omega), h.2.2 _ _ _ ⟨c, by omega, a, by omega⟩ (by omega)⟩
  have := hd i j ⟨a, b, c, d⟩
  rwa [(e ID (by decide)).1, (e ID (by decide)).2, (e IP (by decide)).1, (e IP (by decide)).2, (e IU (by decide)).1,
    (e IU (by decide)).2, (e IV (by decide)).1, (e IV (by decide)).2] at this

theorem onlyShown_leftRight {p : Params ℝ} (hn : p.nbvar = 4) : OnlyShown (SameFile2 p) (EachFile (LeftRight2 p)) := by
  refine onlyShown_each fun o o' h hd i i' j hij hii => ?_
  obtain ⟨a, b, c, d⟩ := hij
  have e : ∀ v < 4, o.data ⟨(), i, j, 0, v⟩ = o'.data ⟨(), i, j, 0, v⟩ ∧ o.data ⟨(), i', j, 0, v⟩ = o'.data ⟨(), i', j, 0, v⟩ :=
    fun v hv => ⟨h.2.2 _ _ _ ⟨a, b, c, d⟩ (by omega), h.2.2 _ _ _ ⟨by omega, by omega, c, d⟩ (by omega)⟩
  have := hd i i' j ⟨a, b, c, d⟩ hii
  rwa [(e ID (by decide)).1, (e ID (by decide)).2, (e IP (by decide)).1, (e IP (by decide)).2, (e IU (by decide)).1,
    (e IU (by decide)).2, (e IV (by decide)).1, (e IV (by decide)).2] at this

theorem onlyShown_upDown {p : Params ℝ} (hn : p.nbvar = 4) : OnlyShown (SameFile2 p) (EachFile (UpDown2 p)) := by
  refine onlyShown_each fun o o' h hd i j j' hij hjj => ?_
  obtain ⟨a, b, c, d⟩ := hij
  have e : ∀ v < 4, o.data ⟨(), i, j, 0, v⟩ = o'.data ⟨(), i, j, 0, v⟩ ∧ o.data ⟨(), i, j', 0, v⟩ = o'.data ⟨(), i, j', 0, v⟩ :=
    fun v hv => ⟨h.2.2 _ _ _ ⟨a, b, c, d⟩ (by omega), h.2.2 _ _ _ ⟨a, b, by omega, by omega⟩ (by omega)⟩
  have := hd i j j' ⟨a, b, c, d⟩ hjj
  rwa [(e ID (by decide)).1, (e ID (by decide)).2, (e IP (by decide)).1, (e IP (by decide)).2, (e IU (by decide)).1,
    (e IU (by decide)).2, (e IV (by decide)).1, (e IV (by decide)).2] at this

theorem onlyShown_halfTurn {p : Params ℝ} (hn : p.nbvar = 4) : OnlyShown (SameFile2 p) (EachFile (HalfTurn2 p)) := by
  refine onlyShown_each fun o o' h hd i j i' j' hij hii hjj => ?_
  obtain ⟨a, b, c, d⟩ := hij
  have e : ∀ v < 4, o.data ⟨(), i, j, 0, v⟩ = o'.data ⟨(), i, j, 0, v⟩ ∧ o.data ⟨(), i', j', 0, v⟩ = o'.data ⟨(), i', j', 0, v⟩ :=
    fun v hv => ⟨h.2.2 _ _ _ ⟨a, b, c, d⟩ (by omega), h.2.2 _ _ _ ⟨by omega, by omega, by omega, by omega⟩ (by omega)⟩
  have := hd i j i' j' ⟨a, b, c, d⟩ hii hjj
  rwa [(e ID (by decide)).1, (e ID (by decide)).2, (e IP (by decide)).1, (e IP (by decide)).2, (e IU (by decide)).1,
    (e IU (by decide)).2, (e IV (by decide)).1, (e IV (by decide)).2] at this

namespace Spec

/-- the processes have started in the 2D hydro solver, with ordinary values, on the parameter text `file` that gives the
numbers of cells of a block; `file'` gives those of the whole domain -/
structure DistributedCase2 (F : FloatLib ℝ) (M : MathLib ℝ) (e : EnvMpi T ℝ) (file file' : Option (List Char))
    (st : T.Rank → RunState ℝ) (flow : Flow Ctl T.Rank (RunState ℝ) (Msg ℝ)) : Prop where
  whole : WholeDomain T (Ini.broadcastMpi file) (Ini.broadcastSerial file')
  solver : Sets (Ini.broadcastMpi file) "run" "solver_name" "Hydro_Muscl_2D"
  ordinary : Ordinary2 (hydroParamsMpi T F (Ini.broadcastMpi file))
  named : NamedBC2 T (hydroParamsMpi T F (Ini.broadcastMpi file))
  ident : e.ident ≤ 0
  starts : MpiStarts F M e file st flow

end Spec

/-- what C99 needs of the whole domain -/
theorem distributed_case {F : FloatLib ℝ} {M : MathLib ℝ} {e : EnvMpi T ℝ} {file file' : Option (List Char)}
    {st : T.Rank → RunState ℝ} {flow : Flow Ctl T.Rank (RunState ℝ) (Msg ℝ)}
    (h : DistributedCase2 F M e file file' st flow) :
    Sets (Ini.broadcastSerial file') "run" "solver_name" "Hydro_Muscl_2D" ∧
    cfgBool (Ini.broadcastSerial file') "run" "restart_enabled" false = false ∧
    Ordinary2 (hydroParams F (Ini.broadcastSerial file')) ∧ (hydroParams F (Ini.broadcastSerial file')).nbvar = 4 := by
  have hs := sets_whole h.whole h.solver
  refine ⟨hs, ?_, ?_, (C36_solver_table F _ (List.mem_cons_self ..) (hs _)).1⟩
  · rw [whole_bool h.whole (by decide)]
    exact h.starts.2.1
  · rw [whole_params h.whole F]
    exact whole_ordinary2 h.ordinary

/-- **C100 (implosion).** On a square grid the implosion stays symmetric about the diagonal on any process grid. -/
theorem C100_implode (F : FloatLib ℝ) (M : MathLib ℝ) {file file' : Option (List Char)} {e : EnvMpi T ℝ}
    {st : T.Rank → RunState ℝ} {flow : Flow Ctl T.Rank (RunState ℝ) (Msg ℝ)} :
    let c := Ini.broadcastMpi file
    let p := hydroParams F (Ini.broadcastSerial file')
    DistributedCase2 F M e file file' st flow →
    Square p → (∀ j, ∃ q, hydroProblem2 F M (Ini.broadcastSerial file') j = .implode q ∧ q.shape ≠ 1 ∧ q.u_in = q.v_in ∧ q.u_out = q.v_out) →
    Shows (SideBySide2 T (rawParams (lit 0) F c)) flow st (EachFile (Diagonal2 p)) := by
  intro c p h hsq hq
  obtain ⟨a1, a2, a3, a4⟩ := distributed_case h
  refine C100_hydro_2d F M _ h.whole h.solver h.ordinary h.named (fun j => ?_) h.ident h.starts (onlyShown_diagonal a4 hsq.n) fun e' s' hid' hf => ?_
  · obtain ⟨q, hq, -⟩ := hq j
    rw [← whole_problem2 h.whole, hq]
    trivial
  · obtain ⟨q, hq, h'⟩ := hq e'.ju
    exact C99_implode F M e' hid' _ a1 a2 a3 hsq q hq h'.1 h'.2.1 h'.2.2 s' hf

/-- **C100 (blast, diagonal).** -/
theorem C100_blast_diagonal (F : FloatLib ℝ) (M : MathLib ℝ) {file file' : Option (List Char)} {e : EnvMpi T ℝ}
    {st : T.Rank → RunState ℝ} {flow : Flow Ctl T.Rank (RunState ℝ) (Msg ℝ)} :
    let c := Ini.broadcastMpi file
    let p := hydroParams F (Ini.broadcastSerial file')
    DistributedCase2 F M e file file' st flow →
    Square p → (∀ j, ∃ q, hydroProblem2 F M (Ini.broadcastSerial file') j = .blast q ∧ q.center_x = q.center_y) →
    Shows (SideBySide2 T (rawParams (lit 0) F c)) flow st (EachFile (Diagonal2 p)) := by
  intro c p h hsq hq
  obtain ⟨a1, a2, a3, a4⟩ := distributed_case h
  refine C100_hydro_2d F M _ h.whole h.solver h.ordinary h.named (fun j => ?_) h.ident h.starts (onlyShown_diagonal a4 hsq.n) fun e' s' hid' hf => ?_
  · obtain ⟨q, hq, -⟩ := hq j
    rw [← whole_problem2 h.whole, hq]
    trivial
  · obtain ⟨q, hq, h'⟩ := hq e'.ju
    exact C99_blast_diagonal F M e' hid' _ a1 a2 a3 hsq q hq h' s' hf

/-- **C100 (blast, left and right).** -/
theorem C100_blast_left_right (F : FloatLib ℝ) (M : MathLib ℝ) {file file' : Option (List Char)} {e : EnvMpi T ℝ}
    {st : T.Rank → RunState ℝ} {flow : Flow Ctl T.Rank (RunState ℝ) (Msg ℝ)} :
    let c := Ini.broadcastMpi file
    let p := hydroParams F (Ini.broadcastSerial file')
    DistributedCase2 F M e file file' st flow →
    MirrorSolver p → p.boundary_type_xmin = p.boundary_type_xmax →
    (∀ j, ∃ q, hydroProblem2 F M (Ini.broadcastSerial file') j = .blast q ∧ q.center_x = (p.xmin + p.xmax) / 2) →
    Shows (SideBySide2 T (rawParams (lit 0) F c)) flow st (EachFile (LeftRight2 p)) := by
  intro c p h hM hb hq
  obtain ⟨a1, a2, a3, a4⟩ := distributed_case h
  refine C100_hydro_2d F M _ h.whole h.solver h.ordinary h.named (fun j => ?_) h.ident h.starts (onlyShown_leftRight a4) fun e' s' hid' hf => ?_
  · obtain ⟨q, hq, -⟩ := hq j
    rw [← whole_problem2 h.whole, hq]
    trivial
  · obtain ⟨q, hq, h'⟩ := hq e'.ju
    exact C99_blast_left_right F M e' hid' _ a1 a2 a3 hM hb q hq h' s' hf

/-- **C100 (blast, below and above).** -/
theorem C100_blast_up_down (F : FloatLib ℝ) (M : MathLib ℝ) {file file' : Option (List Char)} {e : EnvMpi T ℝ}
    {st : T.Rank → RunState ℝ} {flow : Flow Ctl T.Rank (RunState ℝ) (Msg ℝ)} :
    let c := Ini.broadcastMpi file
    let p := hydroParams F (Ini.broadcastSerial file')
    DistributedCase2 F M e file file' st flow →
    MirrorSolver p → p.boundary_type_ymin = p.boundary_type_ymax →
    (∀ j, ∃ q, hydroProblem2 F M (Ini.broadcastSerial file') j = .blast q ∧ q.center_y = (p.ymin + p.ymax) / 2) →
    Shows (SideBySide2 T (rawParams (lit 0) F c)) flow st (EachFile (UpDown2 p)) := by
  intro c p h hM hb hq
  obtain ⟨a1, a2, a3, a4⟩ := distributed_case h
  refine C100_hydro_2d F M _ h.whole h.solver h.ordinary h.named (fun j => ?_) h.ident h.starts (onlyShown_upDown a4) fun e' s' hid' hf => ?_
  · obtain ⟨q, hq, -⟩ := hq j
    rw [← whole_problem2 h.whole, hq]
    trivial
  · obtain ⟨q, hq, h'⟩ := hq e'.ju
    exact C99_blast_up_down F M e' hid' _ a1 a2 a3 hM hb q hq h' s' hf

/-- **C100 (four quadrants).** -/
theorem C100_quadrants (F : FloatLib ℝ) (M : MathLib ℝ) {file file' : Option (List Char)} {e : EnvMpi T ℝ}
    {st : T.Rank → RunState ℝ} {flow : Flow Ctl T.Rank (RunState ℝ) (Msg ℝ)} :
    let c := Ini.broadcastMpi file
    let p := hydroParams F (Ini.broadcastSerial file')
    DistributedCase2 F M e file file' st flow →
    Square p → (∀ j, ∃ n xt yt zt, hydroProblem2 F M (Ini.broadcastSerial file') j = .fourQuadrant n xt yt zt ∧ n ∈ [1, 2, 3, 6, 7, 11] ∧ xt = yt) →
    Shows (SideBySide2 T (rawParams (lit 0) F c)) flow st (EachFile (Diagonal2 p)) := by
  intro c p h hsq hq
  obtain ⟨a1, a2, a3, a4⟩ := distributed_case h
  refine C100_hydro_2d F M _ h.whole h.solver h.ordinary h.named (fun j => ?_) h.ident h.starts (onlyShown_diagonal a4 hsq.n) fun e' s' hid' hf => ?_
  · obtain ⟨n, xt, yt, zt, hq, -⟩ := hq j
    rw [← whole_problem2 h.whole, hq]
    trivial
  · obtain ⟨n, xt, yt, zt, hq, h'⟩ := hq e'.ju
    exact C99_quadrants F M e' hid' _ a1 a2 a3 hsq n xt yt zt hq h'.1 h'.2 s' hf

/-- **C100 (Gresho vortex).** -/
theorem C100_gresho (F : FloatLib ℝ) {M : MathLib ℝ} (hX : ExactMath M) {file file' : Option (List Char)} {e : EnvMpi T ℝ}
    {st : T.Rank → RunState ℝ} {flow : Flow Ctl T.Rank (RunState ℝ) (Msg ℝ)} :
    let c := Ini.broadcastMpi file
    let p := hydroParams F (Ini.broadcastSerial file')
    DistributedCase2 F M e file file' st flow →
    MirrorSolver p → p.boundary_type_xmin = p.boundary_type_xmax → p.boundary_type_ymin = p.boundary_type_ymax →
    p.xmin + p.xmax = 0 → p.ymin + p.ymax = 0 → (∀ j, ∃ q, hydroProblem2 F M (Ini.broadcastSerial file') j = .gresho q ∧ q.rho0 ≠ 0) →
    Shows (SideBySide2 T (rawParams (lit 0) F c)) flow st (EachFile (HalfTurn2 p)) := by
  intro c p h hM hb hb' x0 y0 hq
  obtain ⟨a1, a2, a3, a4⟩ := distributed_case h
  refine C100_hydro_2d F M _ h.whole h.solver h.ordinary h.named (fun j => ?_) h.ident h.starts (onlyShown_halfTurn a4) fun e' s' hid' hf => ?_
  · obtain ⟨q, hq, -⟩ := hq j
    rw [← whole_problem2 h.whole, hq]
    trivial
  · obtain ⟨q, hq, h'⟩ := hq e'.ju
    exact C99_gresho F hX e' hid' _ a1 a2 a3 hM hb hb' x0 y0 q hq h' s' hf

/-- **C100 (isentropic vortex at rest).** -/
theorem C100_vortex (F : FloatLib ℝ) {M : MathLib ℝ} (hX : ExactMath M) {file file' : Option (List Char)} {e : EnvMpi T ℝ}
    {st : T.Rank → RunState ℝ} {flow : Flow Ctl T.Rank (RunState ℝ) (Msg ℝ)} :
    let c := Ini.broadcastMpi file
    let p := hydroParams F (Ini.broadcastSerial file')
    DistributedCase2 F M e file file' st flow →
    MirrorSolver p → p.boundary_type_xmin = p.boundary_type_xmax → p.boundary_type_ymin = p.boundary_type_ymax →
    (∀ j, ∃ q, hydroProblem2 F M (Ini.broadcastSerial file') j = .isentropicVortex q ∧ q.u_a = 0 ∧ q.v_a = 0 ∧
      q.vortex_x = (p.xmin + p.xmax) / 2 ∧ q.vortex_y = (p.ymin + p.ymax) / 2) →
    Shows (SideBySide2 T (rawParams (lit 0) F c)) flow st (EachFile (HalfTurn2 p)) := by
  intro c p h hM hb hb' hq
  obtain ⟨a1, a2, a3, a4⟩ := distributed_case h
  refine C100_hydro_2d F M _ h.whole h.solver h.ordinary h.named (fun j => ?_) h.ident h.starts (onlyShown_halfTurn a4) fun e' s' hid' hf => ?_
  · obtain ⟨q, hq, -⟩ := hq j
    rw [← whole_problem2 h.whole, hq]
    trivial
  · obtain ⟨q, hq, h'⟩ := hq e'.ju
    exact C99_vortex F hX e' hid' _ a1 a2 a3 hM hb hb' q hq h'.1 h'.2.1 h'.2.2.1 h'.2.2.2 s' hf

/-- **C100 (Rayleigh-Taylor).** -/
theorem C100_rayleigh_taylor (F : FloatLib ℝ) {M : MathLib ℝ} (hX : ExactMath M) {file file' : Option (List Char)} {e : EnvMpi T ℝ}
    {st : T.Rank → RunState ℝ} {flow : Flow Ctl T.Rank (RunState ℝ) (Msg ℝ)} :
    let c := Ini.broadcastMpi file
    let p := hydroParams F (Ini.broadcastSerial file')
    DistributedCase2 F M e file file' st flow →
    MirrorSolver p → p.boundary_type_xmin = p.boundary_type_xmax → p.xmin = 0 ∨ p.xmin + p.xmax = 0 →
    (∀ j, ∃ q, hydroProblem2 F M (Ini.broadcastSerial file') j = .rayleighTaylor q ∧ q.gx = 0) →
    Shows (SideBySide2 T (rawParams (lit 0) F c)) flow st (EachFile (LeftRight2 p)) := by
  intro c p h hM hb hx hq
  obtain ⟨a1, a2, a3, a4⟩ := distributed_case h
  refine C100_hydro_2d F M _ h.whole h.solver h.ordinary h.named (fun j => ?_) h.ident h.starts (onlyShown_leftRight a4) fun e' s' hid' hf => ?_
  · obtain ⟨q, hq, -⟩ := hq j
    rw [← whole_problem2 h.whole, hq]
    trivial
  · obtain ⟨q, hq, h'⟩ := hq e'.ju
    exact C99_rayleigh_taylor F hX e' hid' _ a1 a2 a3 hM hb hx q hq h' s' hf

/-! ### A blast wave on four processes -/

/-- the blast wave of C99 on two by two processes -/
def blastBlockIni : List String := blastIni ++ ["[mesh]", "nx=32", "ny=32", "[mpi]", "mx=2", "my=2"]

def topo221 : Topo := ⟨2, 2, 1, by decide, by decide, by decide⟩

def blastState : Ini.PState Ini.Values :=
  Ini.parseLines Ini.valueHandler (blastIni.map fun l => l.toList ++ ['\n']) (Ini.initState fun _ => none)

theorem blastState_eq : blastState.prevName = "riemann".toList := by decide +kernel

theorem blast_parse_more (st : Ini.PState Ini.Values) (h : st.prevName = "riemann".toList) :
    (Ini.parseLines Ini.valueHandler
      (["[mesh]", "nx=32", "ny=32", "[mpi]", "mx=2", "my=2"].map fun l => l.toList ++ ['\n']) st).user =
      (((st.user.set "mesh.nx".toList "32".toList).set "mesh.ny".toList "32".toList).set "mpi.mx".toList
        "2".toList).set "mpi.my".toList "2".toList := by
  obtain ⟨a, b, n, e, u⟩ := st
  cases h
  rfl

def blastBlockCfg : Ini.Reader := Ini.broadcastMpi (some (textOf blastBlockIni))

theorem blastBlock_values : blastBlockCfg.values =
    (((blastCfg.values.set "mesh.nx".toList "32".toList).set "mesh.ny".toList "32".toList).set "mpi.mx".toList
        "2".toList).set "mpi.my".toList "2".toList := by
  have h0 : ∀ l ∈ blastBlockIni, '\n' ∉ l.toList ∧ l.toList.length ≤ 198 := by decide +kernel
  unfold blastBlockCfg
  rw [← Ini.C35_same_configuration (by
    rw [getLines_textOf fun l hl => (h0 l hl).1]
    intro l hl
    obtain ⟨l', hl', rfl⟩ := List.mem_map.1 hl
    exact (h0 l' hl').2)]
  rw [blastCfg_eq, show blastCfg'.values = blastState.user from rfl, serial_values h0, blastBlockIni, List.map_append,
    parseLines_append]
  exact blast_parse_more blastState blastState_eq

theorem getString_blastBlock (s n d : List Char) : blastBlockCfg.getString s n d =
    if Ini.makeKey s n = "mpi.my".toList then "2".toList
    else if Ini.makeKey s n = "mpi.mx".toList then "2".toList
    else if Ini.makeKey s n = "mesh.ny".toList then "32".toList
    else if Ini.makeKey s n = "mesh.nx".toList then "32".toList else blastCfg.getString s n d := by
  unfold Ini.Reader.getString
  rw [blastBlock_values]
  unfold Ini.Values.set
  beta_reduce
  split_ifs <;> rfl

theorem blastBlock_sizes : cfgInt blastBlockCfg "mesh" "nx" 1 = 32 ∧ cfgInt blastBlockCfg "mesh" "ny" 1 = 32 ∧
    cfgInt blastBlockCfg "mesh" "nz" 1 = 1 ∧ cfgInt blastBlockCfg "mpi" "mx" 1 = 2 ∧ cfgInt blastBlockCfg "mpi" "my" 1 = 2 ∧
    cfgInt blastBlockCfg "mpi" "mz" 1 = 1 := by
  unfold cfgInt Ini.Reader.getInteger
  simp only [getString_blastBlock, blastCfg_eq]
  decide +kernel

theorem blast_whole : WholeDomain topo221 blastBlockCfg blastCfg where
  nx := by
    rw [blastBlock_sizes.1, blast_values.2.2.2.1.1]; rfl
  ny := by
    rw [blastBlock_sizes.2.1, blast_values.2.2.2.1.2.1]; rfl
  nz := by
    rw [blastBlock_sizes.2.2.1, blast_values.2.2.2.1.2.2.1]; rfl
  same := fun s n d hk => by
    have h1 := hk ("mpi", "mx") (by simp)
    have h2 := hk ("mesh", "nx") (by simp)
    have h3 := hk ("mpi", "my") (by simp)
    have h4 := hk ("mesh", "ny") (by simp)
    rw [getString_blastBlock, if_neg (fun h => h3 (h.trans (by decide))), if_neg (fun h => h1 (h.trans (by decide))),
      if_neg (fun h => h4 (h.trans (by decide))), if_neg (fun h => h2 (h.trans (by decide)))]

/-- Non-vacuity: four processes start on this blast wave, and whatever happens they end with files that, put side by side,
are symmetric about the diagonal and mirror images of themselves in x and in y. -/
theorem blast_four_processes (e : EnvMpi topo221 ℝ) (he : e.ident ≤ 0) :
    let p := hydroParams exactLib blastCfg
    let side := SideBySide2 topo221 (rawParams (lit 0) exactLib blastBlockCfg)
    ∃ st flow, MpiStarts exactLib exactMath e (some (textOf blastBlockIni)) st flow ∧
      Shows side flow st (EachFile (Diagonal2 p)) ∧ Shows side flow st (EachFile (LeftRight2 p)) ∧
      Shows side flow st (EachFile (UpDown2 p)) := by
  intro p side
  have hw := blast_whole
  obtain ⟨sn, ⟨f1, f2, f3, f4, f5, f6⟩, -, ⟨n1, n2, -⟩, hr, rs, pn, ⟨c1, c2, c3⟩, b1, b2, b3, b4⟩ := blast_values
  have hs' : Sets blastCfg "run" "solver_name" "Hydro_Muscl_2D" := sets_of sn (by decide)
  have hs : Sets blastBlockCfg "run" "solver_name" "Hydro_Muscl_2D" := fun d => by
    rw [← hw.same _ _ _ (by decide)]; exact hs' d
  have hr' : cfgBool blastBlockCfg "run" "restart_enabled" false = false := by
    rw [← whole_bool hw (by decide)]; exact rs
  have hq' : ∀ j, hydroProblem2 exactLib exactMath blastCfg j = .blast (blastParams exactLib exactMath blastCfg j) := by
    intro j
    unfold hydroProblem2
    rw [pn]
    rfl
  have hq : ∀ j, hydroProblem2 exactLib exactMath blastBlockCfg j = .blast (blastParams exactLib exactMath blastCfg j) := by
    intro j
    rw [← whole_problem2 hw]
    exact hq' j
  have hT : TopoOf blastBlockCfg topo221 :=
    ⟨blastBlock_sizes.2.2.2.1, blastBlock_sizes.2.2.2.2.1, blastBlock_sizes.2.2.2.2.2, fun _ => rfl⟩
  obtain ⟨st, flow, hst⟩ := C80_starts exactLib exactMath e (file := some (textOf blastBlockIni)) hT hr'
    (Or.inl ⟨hs, fun r => by
      rw [show hydroProblem2 exactLib exactMath (Ini.broadcastMpi (some (textOf blastBlockIni))) (e.ju r) = _ from hq _]
      trivial⟩)
  have q1 : p.boundary_type_xmin = .dirichlet := congrArg BC.ofInt b1
  have q2 : p.boundary_type_xmax = .dirichlet := congrArg BC.ofInt b2
  have q3 : p.boundary_type_ymin = .dirichlet := congrArg BC.ofInt b3
  have q4 : p.boundary_type_ymax = .dirichlet := congrArg BC.ofInt b4
  have x0 : p.xmin = 0 := (exact_float_default f1).trans (by norm_num)
  have x1 : p.xmax = 1 := (exact_float_default f2).trans (by norm_num)
  have y0 : p.ymin = 0 := (exact_float_default f3).trans (by norm_num)
  have y1 : p.ymax = 1 := (exact_float_default f4).trans (by norm_num)
  have hcase : DistributedCase2 exactLib exactMath e (some (textOf blastBlockIni)) (some (textOf blastIni)) st flow :=
    { whole := hw
      solver := hs
      ordinary := ordinary_block hw blast_ordinary ((by decide : (2 : Int) ≤ 32).trans_eq blastBlock_sizes.1.symm)
        ((by decide : (2 : Int) ≤ 32).trans_eq blastBlock_sizes.2.1.symm)
        ((by decide : (1 : Int) ≤ 1).trans_eq blastBlock_sizes.2.2.1.symm)
      named := by
        have h : ∀ k ∈ ["boundary_type_xmin", "boundary_type_xmax", "boundary_type_ymin", "boundary_type_ymax"],
            BC.ofInt (cfgInt blastBlockCfg "mesh" k 1) = .dirichlet := by
          intro k hk
          have : OtherKey "mesh".toList k.toList := by
            simp only [List.mem_cons, List.not_mem_nil, or_false] at hk
            rcases hk with rfl | rfl | rfl | rfl <;> decide
          rw [← whole_int hw this]
          simp only [List.mem_cons, List.not_mem_nil, or_false] at hk
          rcases hk with rfl | rfl | rfl | rfl
          · exact q1
          · exact q2
          · exact q3
          · exact q4
        exact ⟨Or.inr (Or.inl (h "boundary_type_xmin" (by simp))), Or.inr (Or.inl (h "boundary_type_xmax" (by simp))),
          Or.inr (Or.inl (h "boundary_type_ymin" (by simp))), Or.inr (Or.inl (h "boundary_type_ymax" (by simp)))⟩
      ident := he
      starts := hst }
  have hM : MirrorSolver p := Or.inr (Or.inr hr)
  have k1 : ∀ ju, (blastParams exactLib exactMath blastCfg ju).center_x = (p.xmin + p.xmax) / 2 := by
    intro ju
    show cfgFloatD exactLib exactMath blastCfg "blast" "center_x" ((p.xmin + p.xmax) / lit 2) = _
    rw [exact_floatD_default c1]
    simp only [RealOps.lit_real]
    norm_num
  have k2 : ∀ ju, (blastParams exactLib exactMath blastCfg ju).center_y = (p.ymin + p.ymax) / 2 := by
    intro ju
    show cfgFloatD exactLib exactMath blastCfg "blast" "center_y" ((p.ymin + p.ymax) / lit 2) = _
    rw [exact_floatD_default c2]
    simp only [RealOps.lit_real]
    norm_num
  exact ⟨st, flow, hst,
    C100_blast_diagonal exactLib exactMath hcase
      ⟨n1.trans n2.symm, x0.trans y0.symm, x1.trans y1.symm, q1.trans q3.symm, q2.trans q4.symm⟩
      (fun j => ⟨_, hq' j, by rw [k1, k2, x0, x1, y0, y1]⟩),
    C100_blast_left_right exactLib exactMath hcase hM (q1.trans q2.symm) (fun j => ⟨_, hq' j, k1 j⟩),
    C100_blast_up_down exactLib exactMath hcase hM (q3.trans q4.symm) (fun j => ⟨_, hq' j, k2 j⟩)⟩

end EulerKokkos
