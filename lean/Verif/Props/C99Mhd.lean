import Verif.Props.C100
import Verif.Props.C84
import Verif.Props.C64

/-!
# C99, 2D MHD — the magnetised implosion and blast wave stay symmetric about the diagonal
-/

set_option linter.constructorNameAsVariable false
set_option linter.unusedSectionVars false
set_option linter.unusedSimpArgs false

namespace EulerKokkos
open Spec

namespace Spec

/-- the picture is its own reflection about the diagonal: density, energy, z momentum and z field agree in reflected cells,
the two momenta and the two field components are exchanged -/
def DiagonalM2 (p : Params ℝ) (o : Output ℝ) : Prop := ∀ i j, interior2 p i j →
  (∀ v ∈ [ID, IP, IW, IC], o.data ⟨(), j, i, 0, v⟩ = o.data ⟨(), i, j, 0, v⟩) ∧
  o.data ⟨(), j, i, 0, IU⟩ = o.data ⟨(), i, j, 0, IV⟩ ∧ o.data ⟨(), j, i, 0, IV⟩ = o.data ⟨(), i, j, 0, IU⟩ ∧
  o.data ⟨(), j, i, 0, IA⟩ = o.data ⟨(), i, j, 0, IB⟩ ∧ o.data ⟨(), j, i, 0, IB⟩ = o.data ⟨(), i, j, 0, IA⟩

end Spec

theorem diagonalM_of {F : FloatLib ℝ} {M : MathLib ℝ} {e : Env ℝ} (hid : e.ident ≤ 0) {file : Option (List Char)}
    (hs : Sets (Ini.broadcastSerial file) "run" "solver_name" "MHD_Muscl_2D")
    (hr : cfgBool (Ini.broadcastSerial file) "run" "restart_enabled" false = false)
    (ho : OrdinaryM2 (hydroParams F (Ini.broadcastSerial file)))
    (hsq : Square (hydroParams F (Ini.broadcastSerial file)))
    {q : MhdProblem ℝ} (hq : mhdProblem F M (Ini.broadcastSerial file) e.ju = q) (hE : q.EnumOk2)
    (hone : initMhd2 M (hydroParams F (Ini.broadcastSerial file)) (0, 0, 0) e.rnd q =
      [.par (range2 (hydroParams F (Ini.broadcastSerial file)).isize (hydroParams F (Ini.broadcastSerial file)).jsize)
        (mhdInit2 M (hydroParams F (Ini.broadcastSerial file)) (0, 0, 0) e.rnd q)])
    (f : ℝ → ℝ → MS ℝ) (hf : ∀ n x y, mhdCell2 M (hydroParams F (Ini.broadcastSerial file)) n x y q = allVars (f x y))
    (hsym : ∀ x y, f y x = transposeM (f x y))
    {s' : RunState ℝ} (h : serialMain F M e file (.finished s')) :
    ∀ o ∈ s'.outputs, DiagonalM2 (hydroParams F (Ini.broadcastSerial file)) o := by
  have hk : findSolver (mainSolverName (Ini.broadcastSerial file)) = some .mhd2 :=
    findSolver_sets (by simp [solverRegistry]) hs
  obtain ⟨h1, -, h2, h3, h4⟩ := C54_mhd_runnable F (Ini.broadcastSerial file) (Or.inl (hs _)) ho.nx ho.ny ho.nz ho.x ho.y
    ho.z ho.slope ho.riemann ho.gamma ho.smallr ho.smallc ho.cfl
  obtain ⟨m, s'', e1, hm, hrun⟩ := (serialMain_fresh hk hr _).1 h
  cases e1
  have hm : runLaunches (initMhd2 M (hydroParams F (Ini.broadcastSerial file)) (0, 0, 0) e.rnd
    (mhdProblem F M (Ini.broadcastSerial file) e.ju)) freshMem m := hm
  rw [hq, hone] at hm
  obtain ⟨m₁, hm, rfl⟩ := hm
  have hm := (mhdInitK2_iff M _ _ _ hE _ _).1 hm
  have hd := square_dx hsq (le_trans (by decide) ho.nx)
  have wi := h1.wf.isize_eq
  have wj := h1.wf.jsize_eq
  have hn := hsq.n
  have hU : ∀ i j, interior2 (hydroParams F (Ini.broadcastSerial file)) i j → ms2 m .U i j =
      f (centre (hydroParams F (Ini.broadcastSerial file)).xmin (hydroParams F (Ini.broadcastSerial file)).dx
        (hydroParams F (Ini.broadcastSerial file)).ghostWidth i)
        (centre (hydroParams F (Ini.broadcastSerial file)).ymin (hydroParams F (Ini.broadcastSerial file)).dy
        (hydroParams F (Ini.broadcastSerial file)).ghostWidth j) := by
    intro i j hij
    have hin : (i, j) ∈ range2 (hydroParams F (Ini.broadcastSerial file)).isize
        (hydroParams F (Ini.broadcastSerial file)).jsize := by
      obtain ⟨a, b, c, d⟩ := interior_inGrid h1.wf hij
      exact mem_range2.2 ⟨⟨by omega, by omega⟩, by omega, by omega⟩
    rw [hm]
    unfold ms2 ms
    simp only [hin, and_self, if_true, hf, cellX_centre, cellY_centre]
    simp [allVars, stored, ID, IP, IU, IV, IW, IA, IB, IC]
  have key := C84_diagonal_2d h1 h4 h2 h3 hsq.n hd ⟨hsq.bmin, hsq.bmax⟩ hid e.jkM (m := m)
    (fun i j hij => by
      have hji : interior2 (hydroParams F (Ini.broadcastSerial file)) j i := by
        obtain ⟨a, b, c, d⟩ := hij
        exact ⟨c, hn ▸ d, a, hn ▸ b⟩
      rw [hU i j hij, hU j i hji, ← hsym, hsq.lo, hd]) hrun
  intro o hm i j hij
  have := key o hm i j hij
  unfold shownM transposeM at this
  injection this with t1 t2 t3 t4 t5 t6 t7 t8
  refine ⟨fun v hv => ?_, t3, t4, t6, t7⟩
  simp only [List.mem_cons, List.not_mem_nil, or_false] at hv
  rcases hv with rfl | rfl | rfl | rfl
  · exact t1
  · exact t2
  · exact t5
  · exact t8

/-- **C99 (magnetised implosion).** On a square, with the same boundary conditions in x and y: every file of every
execution is symmetric about the diagonal; both shapes of the region. -/
theorem C99_mhd_implode (F : FloatLib ℝ) (M : MathLib ℝ) (e : Env ℝ) (hid : e.ident ≤ 0) (file : Option (List Char)) :
    let c := Ini.broadcastSerial file
    let p := hydroParams F c
    Sets c "run" "solver_name" "MHD_Muscl_2D" → cfgBool c "run" "restart_enabled" false = false → OrdinaryM2 p →
    Square p → ∀ q, mhdProblem F M c e.ju = .implode q → q.u_in = q.v_in → q.u_out = q.v_out →
    q.Bx_in = q.By_in → q.Bx_out = q.By_out →
    ∀ s', serialMain F M e file (.finished s') → ∀ o ∈ s'.outputs, DiagonalM2 p o := by
  intro c p hs hr ho hsq q hq h1 h2 h3 h4 s' h
  refine diagonalM_of hid hs hr ho hsq hq trivial rfl (implodeM2 p q) (fun _ _ _ => rfl) (fun x y => ?_) h
  unfold implodeM2
  rw [add_comm y x]
  simp only [h1, h2, h3, h4]
  split_ifs <;> rfl

/-- **C99 (magnetised blast wave).** -/
theorem C99_mhd_blast (F : FloatLib ℝ) (M : MathLib ℝ) (e : Env ℝ) (hid : e.ident ≤ 0) (file : Option (List Char)) :
    let c := Ini.broadcastSerial file
    let p := hydroParams F c
    Sets c "run" "solver_name" "MHD_Muscl_2D" → cfgBool c "run" "restart_enabled" false = false → OrdinaryM2 p →
    Square p → ∀ q, mhdProblem F M c e.ju = .blast q → q.center_x = q.center_y →
    q.bx_in = q.by_in → q.bx_out = q.by_out →
    ∀ s', serialMain F M e file (.finished s') → ∀ o ∈ s'.outputs, DiagonalM2 p o := by
  intro c p hs hr ho hsq q hq h1 h2 h3 s' h
  refine diagonalM_of hid hs hr ho hsq hq trivial rfl (fun x y => blastM p q (blastD2 q x y)) (fun _ _ _ => rfl)
    (fun x y => ?_) h
  have e : blastD2 q y x = blastD2 q x y := by unfold blastD2; rw [h1]; ring
  simp only [e]
  unfold blastM
  simp only [h2, h3]
  split_ifs <;> rfl

/-! ### The same on any process grid -/

theorem onlyShown_diagonalM {p : Params ℝ} (hn : p.nbvar = 8) (hq : p.nx = p.ny) :
    OnlyShown (SameFile2 p) (EachFile (DiagonalM2 p)) := by
  refine onlyShown_each fun o o' h hd i j hij => ?_
  obtain ⟨a, b, c, d⟩ := hij
  have e : ∀ v < 8, o'.data ⟨(), i, j, 0, v⟩ = o.data ⟨(), i, j, 0, v⟩ ∧ o'.data ⟨(), j, i, 0, v⟩ = o.data ⟨(), j, i, 0, v⟩ :=
    fun v hv => ⟨(h.2.2 _ _ _ ⟨a, b, c, d⟩ (by omega)).symm, (h.2.2 _ _ _ ⟨c, by omega, a, by omega⟩ (by omega)).symm⟩
  obtain ⟨h1, h2, h3, h4, h5⟩ := hd i j ⟨a, b, c, d⟩
  refine ⟨fun v hv => ?_, ?_, ?_, ?_, ?_⟩
  · have hv' : v < 8 := by
      simp only [List.mem_cons, List.not_mem_nil, or_false] at hv
      rcases hv with rfl | rfl | rfl | rfl <;> decide
    rw [(e v hv').1, (e v hv').2]
    exact h1 v hv
  · rw [(e IU (by decide)).2, (e IV (by decide)).1]; exact h2
  · rw [(e IV (by decide)).2, (e IU (by decide)).1]; exact h3
  · rw [(e IA (by decide)).2, (e IB (by decide)).1]; exact h4
  · rw [(e IB (by decide)).2, (e IA (by decide)).1]; exact h5

namespace Spec

variable {T : Topo}

/-- the processes have started in the 2D MHD solver, with ordinary values, on the parameter text `file` that gives the
numbers of cells of a block; `file'` gives those of the whole domain; the members the blast parameters leave uninitialised
happen to be the same on all processes (`ju`) -/
structure DistributedCaseM2 (F : FloatLib ℝ) (M : MathLib ℝ) (e : EnvMpi T ℝ) (ju : ℝ × ℝ) (file file' : Option (List Char))
    (st : T.Rank → RunState ℝ) (flow : Spmd.Flow Spmd.Ctl T.Rank (RunState ℝ) (Msg ℝ)) : Prop where
  whole : WholeDomain T (Ini.broadcastMpi file) (Ini.broadcastSerial file')
  solver : Sets (Ini.broadcastMpi file) "run" "solver_name" "MHD_Muscl_2D"
  ordinary : OrdinaryM2 (hydroParamsMpi T F (Ini.broadcastMpi file))
  named : NamedBC2 T (hydroParamsMpi T F (Ini.broadcastMpi file))
  ident : e.ident ≤ 0
  starts : MpiStarts F M e file st flow
  junk : ∀ r, problemName (Ini.broadcastMpi file) ≠ "blast".toList ∨ e.ju r = ju

end Spec

variable {T : Topo}

theorem distributed_caseM {F : FloatLib ℝ} {M : MathLib ℝ} {e : EnvMpi T ℝ} {ju : ℝ × ℝ} {file file' : Option (List Char)}
    {st : T.Rank → RunState ℝ} {flow : Spmd.Flow Spmd.Ctl T.Rank (RunState ℝ) (Msg ℝ)}
    (h : DistributedCaseM2 F M e ju file file' st flow) :
    Sets (Ini.broadcastSerial file') "run" "solver_name" "MHD_Muscl_2D" ∧
    cfgBool (Ini.broadcastSerial file') "run" "restart_enabled" false = false ∧
    OrdinaryM2 (hydroParams F (Ini.broadcastSerial file')) ∧ (hydroParams F (Ini.broadcastSerial file')).nbvar = 8 := by
  have hs := sets_whole h.whole h.solver
  refine ⟨hs, ?_, ?_, (C36_solver_table F _
    (List.mem_cons_of_mem _ (List.mem_cons_of_mem _ (List.mem_cons_self ..))) (hs _)).1⟩
  · rw [whole_bool h.whole (by decide)]
    exact h.starts.2.1
  · rw [whole_params h.whole F]
    exact whole_ordinaryM2 h.ordinary

/-- **C100 (magnetised implosion).** -/
theorem C100_mhd_implode (F : FloatLib ℝ) (M : MathLib ℝ) {file file' : Option (List Char)} {e : EnvMpi T ℝ} {ju : ℝ × ℝ}
    {st : T.Rank → RunState ℝ} {flow : Spmd.Flow Spmd.Ctl T.Rank (RunState ℝ) (Msg ℝ)} :
    let c := Ini.broadcastMpi file
    let p := hydroParams F (Ini.broadcastSerial file')
    DistributedCaseM2 F M e ju file file' st flow → Square p →
    ∀ q, mhdProblem F M (Ini.broadcastSerial file') ju = .implode q → q.u_in = q.v_in → q.u_out = q.v_out →
    q.Bx_in = q.By_in → q.Bx_out = q.By_out →
    Shows (SideBySide2 T (rawParams (lit 0) F c)) flow st (EachFile (DiagonalM2 p)) := by
  intro c p h hsq q hq h1 h2 h3 h4
  obtain ⟨a1, a2, a3, a4⟩ := distributed_caseM h
  refine C100_mhd_2d F M ju _ h.whole h.solver h.ordinary h.named ?_ h.junk h.ident h.starts (onlyShown_diagonalM a4 hsq.n)
    fun e' s' hid' hj hf => ?_
  · rw [← whole_problemM h.whole, hq]
    trivial
  · exact C99_mhd_implode F M e' hid' _ a1 a2 a3 hsq q (by rw [hj]; exact hq) h1 h2 h3 h4 s' hf

/-- **C100 (magnetised blast wave).** -/
theorem C100_mhd_blast (F : FloatLib ℝ) (M : MathLib ℝ) {file file' : Option (List Char)} {e : EnvMpi T ℝ} {ju : ℝ × ℝ}
    {st : T.Rank → RunState ℝ} {flow : Spmd.Flow Spmd.Ctl T.Rank (RunState ℝ) (Msg ℝ)} :
    let c := Ini.broadcastMpi file
    let p := hydroParams F (Ini.broadcastSerial file')
    DistributedCaseM2 F M e ju file file' st flow → Square p →
    ∀ q, mhdProblem F M (Ini.broadcastSerial file') ju = .blast q → q.center_x = q.center_y →
    q.bx_in = q.by_in → q.bx_out = q.by_out →
    Shows (SideBySide2 T (rawParams (lit 0) F c)) flow st (EachFile (DiagonalM2 p)) := by
  intro c p h hsq q hq h1 h2 h3
  obtain ⟨a1, a2, a3, a4⟩ := distributed_caseM h
  refine C100_mhd_2d F M ju _ h.whole h.solver h.ordinary h.named ?_ h.junk h.ident h.starts (onlyShown_diagonalM a4 hsq.n)
    fun e' s' hid' hj hf => ?_
  · rw [← whole_problemM h.whole, hq]
    trivial
  · exact C99_mhd_blast F M e' hid' _ a1 a2 a3 hsq q (by rw [hj]; exact hq) h1 h2 h3 s' hf

/-! ### The hypotheses are met -/

/-- a magnetised blast wave in the middle of the unit square, the default field along the diagonal -/
def blastMIni : List String :=
  ["[run]", "solver_name=MHD_Muscl_2D", "tEnd=0.2", "nStepmax=200", "nOutput=4", "",
   "[mesh]", "nx=64", "ny=64", "",
   "[hydro]", "problem=blast", "riemann=hlld", ""]

def blastMCfg : Ini.Reader := Ini.broadcastSerial (some (textOf blastMIni))

def blastMCfg' : Ini.Reader :=
  let st := Ini.parseLines Ini.valueHandler (blastMIni.map fun l => l.toList ++ ['\n'])
    (Ini.initState fun _ => none)
  ⟨st.user, st.error⟩

theorem blastMCfg_eq : blastMCfg = blastMCfg' := by
  unfold blastMCfg blastMCfg' Ini.broadcastSerial Ini.Reader.ofFile Ini.iniParse
  simp only
  rw [fgetsLines_textOf (by decide +kernel)]

theorem blastM_values : let c := blastMCfg
    let s := fun (a b : String) => ratOf (Ini.cstr (c.getString a.toList b.toList []))
    c.getString "run".toList "solver_name".toList "unknown".toList = "MHD_Muscl_2D".toList ∧
    (s "mesh" "xmin" = none ∧ s "mesh" "xmax" = none ∧ s "mesh" "ymin" = none ∧ s "mesh" "ymax" = none ∧
      s "mesh" "zmin" = none ∧ s "mesh" "zmax" = none) ∧
    (s "hydro" "slope_type" = none ∧ s "hydro" "gamma0" = none ∧ s "hydro" "cfl" = none ∧ s "hydro" "smallr" = none ∧
      s "hydro" "smallc" = none) ∧
    (cfgInt c "mesh" "nx" 1 = 64 ∧ cfgInt c "mesh" "ny" 1 = 64 ∧ cfgInt c "mesh" "nz" 1 = 1 ∧
      cfgInt c "run" "nlog" 10 = 10) ∧
    riemannOf (cfgString c "hydro" "riemann" "approx") = .hlld ∧
    cfgBool c "run" "restart_enabled" false = false ∧ problemName c = "blast".toList ∧
    (s "blast" "center_x" = none ∧ s "blast" "center_y" = none ∧ s "blast" "bx_in" = none ∧ s "blast" "bz_in" = none ∧
      s "blast" "bx_out" = none ∧ s "blast" "bz_out" = none) ∧
    (cfgInt c "mesh" "boundary_type_xmin" 1 = 1 ∧ cfgInt c "mesh" "boundary_type_xmax" 1 = 1 ∧
    cfgInt c "mesh" "boundary_type_ymin" 1 = 1 ∧ cfgInt c "mesh" "boundary_type_ymax" 1 = 1) := by
  rw [blastMCfg_eq]
  decide +kernel

theorem blastM_ordinary : OrdinaryM2 (hydroParams exactLib blastMCfg) := by
  obtain ⟨sn, ⟨f1, f2, f3, f4, f5, f6⟩, ⟨f7, f8, f9, f10, f11⟩, ⟨n1, n2, n3, nl⟩, hr, -⟩ := blastM_values
  exact
    { x := by
        show cfgFloat exactLib blastMCfg "mesh" "xmin" 0 < cfgFloat exactLib blastMCfg "mesh" "xmax" 1
        rw [exact_float_default f1, exact_float_default f2]; norm_num
      y := by
        show cfgFloat exactLib blastMCfg "mesh" "ymin" 0 < cfgFloat exactLib blastMCfg "mesh" "ymax" 1
        rw [exact_float_default f3, exact_float_default f4]; norm_num
      z := by
        show cfgFloat exactLib blastMCfg "mesh" "zmin" 0 < cfgFloat exactLib blastMCfg "mesh" "zmax" 1
        rw [exact_float_default f5, exact_float_default f6]; norm_num
      gamma := by
        show 1 < cfgFloat exactLib blastMCfg "hydro" "gamma0" (14 / 10)
        rw [exact_float_default f8]; norm_num
      smallr := by
        show 0 < cfgFloat exactLib blastMCfg "hydro" "smallr" (1 / 10000000000)
        rw [exact_float_default f10]; norm_num
      smallc := by
        show 0 < cfgFloat exactLib blastMCfg "hydro" "smallc" (1 / 10000000000)
        rw [exact_float_default f11]; norm_num
      cfl := by
        show 0 < cfgFloat exactLib blastMCfg "hydro" "cfl" (5 / 10)
        rw [exact_float_default f9]; norm_num
      nlog := by
        show cfgInt blastMCfg "run" "nlog" 10 ≠ 0
        rw [nl]; decide
      nx := by
        show 3 ≤ cfgInt blastMCfg "mesh" "nx" 1
        rw [n1]; decide
      ny := by
        show 3 ≤ cfgInt blastMCfg "mesh" "ny" 1
        rw [n2]; decide
      nz := by
        show 1 ≤ cfgInt blastMCfg "mesh" "nz" 1
        rw [n3]
      slope := by
        show cfgFloat exactLib blastMCfg "hydro" "slope_type" 1 = 1 ∨
          cfgFloat exactLib blastMCfg "hydro" "slope_type" 1 = 2
        rw [exact_float_default f7]; norm_num
      riemann := by
        show riemannOf (cfgString blastMCfg "hydro" "riemann" "approx") = .hll ∨
          riemannOf (cfgString blastMCfg "hydro" "riemann" "approx") = .llf ∨
          riemannOf (cfgString blastMCfg "hydro" "riemann" "approx") = .hlld
        rw [hr]; decide }

/-- every execution of the program on this file writes files that are symmetric about the diagonal, and there are such
executions, whatever the uninitialised z field of the blast parameters holds -/
theorem blastM_symmetric (e : Env ℝ) (hid : e.ident ≤ 0) :
    let p := hydroParams exactLib blastMCfg
    (∃ s', serialMain exactLib exactMath e (some (textOf blastMIni)) (.finished s')) ∧
    ∀ s', serialMain exactLib exactMath e (some (textOf blastMIni)) (.finished s') →
      ∀ o ∈ s'.outputs, DiagonalM2 p o := by
  intro p
  obtain ⟨sn, ⟨f1, f2, f3, f4, f5, f6⟩, -, ⟨n1, n2, -⟩, hr, rs, pn, ⟨c1, c2, c3, c4, c5, c6⟩, b1, b2, b3, b4⟩ := blastM_values
  have hs : Sets blastMCfg "run" "solver_name" "MHD_Muscl_2D" := sets_of sn (by decide)
  have ho := blastM_ordinary
  have hq : ∀ ju, mhdProblem exactLib exactMath blastMCfg ju = .blast (blastParams exactLib exactMath blastMCfg ju) := by
    intro ju
    unfold mhdProblem
    rw [pn]
    rfl
  have x0 : p.xmin = 0 := (exact_float_default f1).trans (by norm_num)
  have x1 : p.xmax = 1 := (exact_float_default f2).trans (by norm_num)
  have y0 : p.ymin = 0 := (exact_float_default f3).trans (by norm_num)
  have y1 : p.ymax = 1 := (exact_float_default f4).trans (by norm_num)
  have q1 : p.boundary_type_xmin = .dirichlet := congrArg BC.ofInt b1
  have q2 : p.boundary_type_xmax = .dirichlet := congrArg BC.ofInt b2
  have q3 : p.boundary_type_ymin = .dirichlet := congrArg BC.ofInt b3
  have q4 : p.boundary_type_ymax = .dirichlet := congrArg BC.ofInt b4
  have hsq : Square p := ⟨n1.trans n2.symm, x0.trans y0.symm, x1.trans y1.symm, q1.trans q3.symm, q2.trans q4.symm⟩
  constructor
  · have hk : findSolver (mainSolverName blastMCfg) = some .mhd2 := findSolver_sets (by simp [solverRegistry]) hs
    obtain ⟨h1, -⟩ := C54_mhd_runnable exactLib blastMCfg (Or.inl (hs _)) ho.nx ho.ny ho.nz ho.x ho.y ho.z ho.slope
      ho.riemann ho.gamma ho.smallr ho.smallc ho.cfl
    obtain ⟨m', hm'⟩ := launches_exists (initMhd2 exactMath p (0, 0, 0) e.rnd (mhdProblem exactLib exactMath blastMCfg e.ju))
      freshMem
    have hi : initProblem exactLib exactMath e blastMCfg p m' .mhd2 := hm'
    have hT := total_mhd2 h1.wf h1.faces e.ident e.jkM
    obtain ⟨s, hs0⟩ := C14_starts (p := p) hT m' (cfgFloat exactLib blastMCfg "run" "tCurrent" 0) 0
    obtain ⟨_, s₁, _, _, hrun⟩ := C14_completes hT ho.nlog hs0
    exact ⟨_, (serialMain_fresh hk rs _).2 ⟨m', _, rfl, hi, hrun⟩⟩
  · intro s' h
    have k1 : (blastParams exactLib exactMath blastMCfg e.ju).center_x = (p.xmin + p.xmax) / 2 := by
      show cfgFloatD exactLib exactMath blastMCfg "blast" "center_x" ((p.xmin + p.xmax) / lit 2) = _
      rw [exact_floatD_default c1]
      simp only [RealOps.lit_real]
      norm_num
    have k2 : (blastParams exactLib exactMath blastMCfg e.ju).center_y = (p.ymin + p.ymax) / 2 := by
      show cfgFloatD exactLib exactMath blastMCfg "blast" "center_y" ((p.ymin + p.ymax) / lit 2) = _
      rw [exact_floatD_default c2]
      simp only [RealOps.lit_real]
      norm_num
    exact C99_mhd_blast exactLib exactMath e hid _ hs rs ho hsq _ (hq _) (by rw [k1, k2, x0, x1, y0, y1])
      ((exact_float_default c3).trans (exact_float_default c4).symm)
      ((exact_float_default c5).trans (exact_float_default c6).symm) s' h

end EulerKokkos
