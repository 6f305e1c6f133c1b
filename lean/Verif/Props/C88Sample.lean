import Verif.Props.C88
import Verif.Props.C67b
import Verif.Lemmas.RunSymmetry

/-!
# C88 — a concrete restart
-/

set_option linter.constructorNameAsVariable false
set_option linter.unusedSectionVars false
set_option linter.unusedSimpArgs false

namespace EulerKokkos
open Spec

/-! ## A concrete pair of files -/

/-- a parameter file -/
def runIni : List String :=
  ["[run]", "solver_name=Hydro_Muscl_2D", "tend=0.01", "noutput=1",
   "[mesh]", "nx=4", "ny=4", "[output]", "hdf5_enabled=yes"]

/-- the same with a restart asked for -/
def againIni : List String :=
  runIni ++ ["[run]", "restart_enabled=yes", "restart_filename=run_0000000.h5"]

def cfgOf (ls : List String) : Ini.Reader := Ini.broadcastSerial (some (textOf ls))

def linesOf (ls : List String) : List (List Char) := ls.map fun l => l.toList ++ ['\n']

theorem cfgOf_eq {ls : List String} (h : ∀ l ∈ ls, '\n' ∉ l.toList ∧ l.toList.length ≤ 198) :
    cfgOf ls = ⟨(Ini.parseLines Ini.valueHandler (linesOf ls) (Ini.initState fun _ => none)).user,
      (Ini.parseLines Ini.valueHandler (linesOf ls) (Ini.initState fun _ => none)).error⟩ := by
  unfold cfgOf linesOf Ini.broadcastSerial Ini.Reader.ofFile Ini.iniParse
  simp only
  rw [fgetsLines_textOf h]

theorem again_values (st : Ini.PState Ini.Values) (h1 : st.section_ = "output".toList)
    (h2 : st.prevName = "hdf5_enabled".toList) (h3 : st.lineno = 9) (h4 : st.error = 0) :
    (Ini.parseLines Ini.valueHandler (linesOf ["[run]", "restart_enabled=yes", "restart_filename=run_0000000.h5"]) st).user
      = Ini.Values.set (Ini.Values.set st.user (Ini.makeKey "run".toList "restart_enabled".toList) "yes".toList)
          (Ini.makeKey "run".toList "restart_filename".toList) "run_0000000.h5".toList := by
  obtain ⟨a, b, c, d, e⟩ := st
  dsimp only at h1 h2 h3 h4
  subst h1 h2 h3 h4
  rfl

theorem run_again : Restarts (cfgOf runIni) (cfgOf againIni) "run_0000000.h5" := by
  have hv : (cfgOf againIni).values = Ini.Values.set (Ini.Values.set (cfgOf runIni).values
      (Ini.makeKey "run".toList "restart_enabled".toList) "yes".toList)
          (Ini.makeKey "run".toList "restart_filename".toList) "run_0000000.h5".toList := by
    rw [cfgOf_eq (ls := againIni) (by decide +kernel), cfgOf_eq (ls := runIni) (by decide +kernel)]
    unfold againIni linesOf Ini.parseLines
    rw [List.map_append, List.foldl_append]
    exact again_values _ (by decide +kernel) (by decide +kernel) (by decide +kernel) (by decide +kernel)
  have hu : OptionOff (cfgOf runIni) "run" "restart_upscale" := by
    left
    intro d
    rw [cfgOf_eq (by decide +kernel)]
    rfl
  refine ⟨fun s n d hk => ?_, ⟨"yes", by decide, fun d => ?_⟩, fun d => ?_, ⟨"run_0000000", rfl⟩, Or.inl fun d => ?_⟩
  · unfold Ini.Reader.getString
    rw [hv]
    unfold Ini.Values.set
    rw [if_neg (hk _ (by decide)), if_neg (hk _ (by decide))]
  · unfold Ini.Reader.getString
    rw [hv]
    rfl
  · unfold Ini.Reader.getString
    rw [hv]
    rfl
  · unfold Ini.Reader.getString
    rw [hv, cfgOf_eq (by decide +kernel)]
    rfl

theorem run_values : let c := cfgOf runIni
    let s := fun (a b : String) => ratOf (Ini.cstr (c.getString a.toList b.toList []))
    c.getString "run".toList "solver_name".toList [] = "Hydro_Muscl_2D".toList ∧
    s "mesh" "xmin" = none ∧ s "mesh" "xmax" = none ∧
    s "mesh" "ymin" = none ∧ s "mesh" "ymax" = none ∧
    s "mesh" "zmin" = none ∧ s "mesh" "zmax" = none ∧
    s "hydro" "slope_type" = none ∧ s "hydro" "gamma0" = none ∧
    s "hydro" "cfl" = none ∧ s "hydro" "smallr" = none ∧ s "hydro" "smallc" = none ∧
    cfgInt c "mesh" "nx" 1 = 4 ∧ cfgInt c "mesh" "ny" 1 = 4 ∧ cfgInt c "mesh" "nz" 1 = 1 ∧
    riemannOf (cfgString c "hydro" "riemann" "approx") = .approx ∧
    cfgInt c "run" "nlog" 10 = 10 ∧ cfgInt c "run" "noutput" 100 = 1 ∧ cfgInt c "run" "nstepmax" 1000 = 1000 ∧
    s "run" "tend" = some (1 / 100) ∧ s "run" "tCurrent" = none ∧ problemName c = "unknown".toList ∧
    (∀ k ∈ ["density_outer", "pressure_outer", "vx_outer", "vy_outer", "density_inner", "pressure_inner",
      "vx_inner", "vy_inner"], s "implode" k = none) := by
  rw [cfgOf_eq (by decide +kernel)]
  decide +kernel

theorem run_flags : PlainHdf5 (cfgOf runIni) ∧ OptionOff (cfgOf runIni) "gravity" "enabled" ∧
    OptionOff (cfgOf runIni) "run" "restart_upscale" ∧
    cfgBool (cfgOf runIni) "run" "restart_enabled" false = false ∧
    OptionOff (cfgOf againIni) "run" "restart_reset_totaltime" := by
  refine ⟨⟨⟨"yes", by decide, fun d => ?_⟩, Or.inl fun d => ?_, Or.inl fun d => ?_, Or.inl fun d => ?_⟩,
    Or.inl fun d => ?_, Or.inl fun d => ?_, ?_, Or.inl fun d => ?_⟩
  all_goals rw [cfgOf_eq (by decide +kernel)]; rfl

theorem run_ordinary : Sets (cfgOf runIni) "run" "solver_name" "Hydro_Muscl_2D" ∧
    Ordinary2 (hydroParams exactLib (cfgOf runIni)) := by
  obtain ⟨sn, f1, f2, f3, f4, f5, f6, f7, f8, f9, f10, f11, n1, n2, n3, hr, nl, -⟩ := run_values
  refine ⟨sets_of sn (by decide), ?_⟩
  exact
    { x := by
        show cfgFloat exactLib (cfgOf runIni) "mesh" "xmin" 0 < cfgFloat exactLib (cfgOf runIni) "mesh" "xmax" 1
        rw [exact_float_default f1, exact_float_default f2]; norm_num
      y := by
        show cfgFloat exactLib (cfgOf runIni) "mesh" "ymin" 0 < cfgFloat exactLib (cfgOf runIni) "mesh" "ymax" 1
        rw [exact_float_default f3, exact_float_default f4]; norm_num
      z := by
        show cfgFloat exactLib (cfgOf runIni) "mesh" "zmin" 0 < cfgFloat exactLib (cfgOf runIni) "mesh" "zmax" 1
        rw [exact_float_default f5, exact_float_default f6]; norm_num
      gamma := by
        show 1 < cfgFloat exactLib (cfgOf runIni) "hydro" "gamma0" (14 / 10)
        rw [exact_float_default f8]; norm_num
      smallr := by
        show 0 < cfgFloat exactLib (cfgOf runIni) "hydro" "smallr" (1 / 10000000000)
        rw [exact_float_default f10]; norm_num
      smallc := by
        show 0 < cfgFloat exactLib (cfgOf runIni) "hydro" "smallc" (1 / 10000000000)
        rw [exact_float_default f11]; norm_num
      cfl := by
        show 0 < cfgFloat exactLib (cfgOf runIni) "hydro" "cfl" (5 / 10)
        rw [exact_float_default f9]; norm_num
      nlog := by
        show cfgInt (cfgOf runIni) "run" "nlog" 10 ≠ 0
        rw [nl]; decide
      nx := by
        show 2 ≤ cfgInt (cfgOf runIni) "mesh" "nx" 1
        rw [n1]; decide
      ny := by
        show 2 ≤ cfgInt (cfgOf runIni) "mesh" "ny" 1
        rw [n2]; decide
      nz := by
        show 1 ≤ cfgInt (cfgOf runIni) "mesh" "nz" 1
        rw [n3]
      slope := by
        show cfgFloat exactLib (cfgOf runIni) "hydro" "slope_type" 1 = 0 ∨
          cfgFloat exactLib (cfgOf runIni) "hydro" "slope_type" 1 = 1 ∨
          cfgFloat exactLib (cfgOf runIni) "hydro" "slope_type" 1 = 2
        rw [exact_float_default f7]; norm_num
      riemann := by
        show riemannOf (cfgString (cfgOf runIni) "hydro" "riemann" "approx") ≠ .hlld
        rw [hr]; decide }

theorem run_problem : hydroProblem2 exactLib exactMath (cfgOf runIni) (0, 0) =
    .implode (implodeParams exactLib (cfgOf runIni)) := by
  have h := run_values.2.2.2.2.2.2.2.2.2.2.2.2.2.2.2.2.2.2.2.2.2.1
  unfold hydroProblem2
  rw [h]
  rfl

theorem one_step' {X : Type} {p : Params ℝ} {M : Method X} {x : X} {sv : Int} {k : Nat}
    (hend : p.tEnd ≤ M.cflDt x) (hs : 1 < p.nStepmax) (h : Sim.Length p M x 0 sv k) :
    p.tEnd - 1 / 100000000000000 ≤ (Sim.result p M x 0 sv k).t := by
  have h1 : ((Sim.turn p M)^[1] (Sim.start p x 0 sv)).t = p.tEnd := by
    rw [Function.iterate_one, Sim.turn_t, (Sim.start_xtn ..).2.1, (Sim.start_xtn ..).1, sub_zero, min_eq_right hend,
      zero_add]
  have hk : k ≤ 1 := by
    by_contra hk
    exact h.2 1 (by omega) (Or.inl (by rw [h1]; norm_num))
  rw [(Sim.result_xt ..).2]
  rcases h.1 with h | h
  · exact h
  · rw [Sim.turns_n, (Sim.start_xtn ..).2.2] at h
    push_cast at h
    omega

theorem rest_rate {p : Params ℝ} (hg : GoodGrid p) (hs : p.settings.gamma0 = 14 / 10)
    (hr : p.settings.smallr ≤ 1 / 8) (hp : p.settings.smallp ≤ 1 / 10)
    (hx : p.dx = 1 / 4) (hy : p.dy = 1 / 4) {d P : ℝ} (hd : 1 / 8 ≤ d) (hd1 : d ≤ 1) (hP : 1 / 10 ≤ P)
    (hc : P / d ≤ 112 / 100) :
    cflRate2 p (computePrimitives2 p.settings (toCons p.settings.gamma0 ⟨d, P, 0, 0, 0⟩)).1 ≤ 12 := by
  rw [(C18_inverse_2d hg.settings).1 ⟨d, P, 0, 0, 0⟩ ⟨by dsimp only; linarith, by dsimp only; nlinarith [hg.settings.smallp_pos]⟩
    rfl]
  unfold cflRate2 sound
  have : Real.sqrt (p.settings.gamma0 * P / d) ≤ 13 / 10 := by
    rw [Real.sqrt_le_left (by norm_num), hs, mul_div_assoc]
    nlinarith
  dsimp only
  rw [hx, hy, abs_zero]
  linarith

theorem run_step : let p := hydroParams exactLib (cfgOf runIni)
    p.tEnd ≤ cflDt2 p (gravityParams (cfgOf runIni)) (gravityField2 p (.implode (implodeParams exactLib (cfgOf runIni))))
      (fill2 p (initialField2 p (.implode (implodeParams exactLib (cfgOf runIni))))) := by
  intro p
  obtain ⟨sn, f1, f2, f3, f4, f5, f6, f7, f8, f9, f10, f11, n1, n2, n3, hr, nl, no, ns, te, tc, pn, im⟩ := run_values
  obtain ⟨hs, ho⟩ := run_ordinary
  obtain ⟨h1, h2, -, -⟩ := C36_runnable_2d exactLib (cfgOf runIni) (hs _) ho.nx ho.ny ho.nz ho.x ho.y ho.z ho.slope
    ho.riemann ho.gamma ho.smallr ho.smallc ho.cfl
  have h1 : Hydro2 p := h1
  have h2 : GoodGrid p := h2
  have e1 : p.settings.gamma0 = 14 / 10 := by
    refine (exact_float_default f8).trans ?_; norm_num
  have e2 : p.settings.smallr = 1 / 10000000000 := by
    refine (exact_float_default f10).trans ?_; norm_num
  have e3 : p.settings.smallc = 1 / 10000000000 := by
    refine (exact_float_default f11).trans ?_; norm_num
  have e4 : p.settings.cfl = 5 / 10 := by
    refine (exact_float_default f9).trans ?_; norm_num
  have e5 : p.tEnd = 1 / 100 := by
    refine (exact_float te).trans ?_; norm_num
  have e6 : p.settings.smallp ≤ 1 / 10 := by
    rw [h2.settings.smallp, e1, e3]; norm_num
  have ex : p.dx = 1 / 4 := by
    show (cfgFloat exactLib (cfgOf runIni) "mesh" "xmax" 1 - cfgFloat exactLib (cfgOf runIni) "mesh" "xmin" 0) /
      intLit (cfgInt (cfgOf runIni) "mesh" "nx" 1) = _
    rw [exact_float_default f1, exact_float_default f2, n1]; simp [intLit]
  have ey : p.dy = 1 / 4 := by
    show (cfgFloat exactLib (cfgOf runIni) "mesh" "ymax" 1 - cfgFloat exactLib (cfgOf runIni) "mesh" "ymin" 0) /
      intLit (cfgInt (cfgOf runIni) "mesh" "ny" 1) = _
    rw [exact_float_default f3, exact_float_default f4, n2]; simp [intLit]
  have hgr := (C88_gravity_option (cfgOf runIni)).1 run_flags.2.1
  have hbound : ∀ i j, interior2 p i j → rate2 p (gravityParams (cfgOf runIni))
      (gravityField2 p (.implode (implodeParams exactLib (cfgOf runIni))))
      (fill2 p (initialField2 p (.implode (implodeParams exactLib (cfgOf runIni))))) i j ≤ 12 := by
    intro i j hij
    have g1 : ∀ (k : String) (d : ℚ), k ∈ ["density_outer", "pressure_outer", "vx_outer", "vy_outer", "density_inner",
        "pressure_inner", "vx_inner", "vy_inner"] → cfgFloat exactLib (cfgOf runIni) "implode" k d = d :=
      fun k d hk => exact_float_default (im k hk)
    have ew : (initialField2 p (.implode (implodeParams exactLib (cfgOf runIni))) i j).w = 0 := by
      unfold initialField2 prescribed2 toCons
      dsimp only
      split_ifs <;> simp
    unfold rate2
    rw [hgr, if_neg (by decide), fill2_on_interior hij ew]
    unfold initialField2 prescribed2 implodeParams
    simp (disch := decide) only [g1]
    push_cast
    split_ifs
    all_goals
      refine rest_rate h2 e1 (by rw [e2]; norm_num) e6 ex ey ?_ ?_ ?_ ?_ <;> norm_num
  have hpos : 0 < sSup {r | ∃ i j, interior2 p i j ∧ r = rate2 p (gravityParams (cfgOf runIni))
      (gravityField2 p (.implode (implodeParams exactLib (cfgOf runIni))))
      (fill2 p (initialField2 p (.implode (implodeParams exactLib (cfgOf runIni))))) i j} := by
    have hi : interior2 p p.ghostWidth p.ghostWidth := by
      have := h1.wf.nx_pos
      have := h1.wf.ny_pos
      exact ⟨by omega, by omega, by omega, by omega⟩
    refine lt_of_lt_of_le (rate2_pos h2 _ _ _ p.ghostWidth p.ghostWidth) (le_csSup ⟨12, ?_⟩ ⟨_, _, hi, rfl⟩)
    rintro r ⟨i, j, hij, rfl⟩
    exact hbound i j hij
  unfold cflDt2
  rw [e4, e5, le_div_iff₀ hpos]
  have : sSup {r | ∃ i j, interior2 p i j ∧ r = rate2 p (gravityParams (cfgOf runIni))
      (gravityField2 p (.implode (implodeParams exactLib (cfgOf runIni))))
      (fill2 p (initialField2 p (.implode (implodeParams exactLib (cfgOf runIni))))) i j} ≤ 12 := by
    refine Real.sSup_le ?_ (by norm_num)
    rintro r ⟨i, j, hij, rfl⟩
    exact hbound i j hij
  linarith

/-- The hypotheses of `C88_restart_hydro_2d` are met: the program run on `runIni` (an implosion on 4 × 4 cells to
time 0.01) reaches that time, writes an initial file, and restarted from it on `againIni` continues the run. -/
theorem restart_sample : ∃ (e e' : Env ℝ) (A : RunState ℝ) (o : Output ℝ) (post : List (Output ℝ)) (f : H5File ℝ),
    Restarting exactLib exactMath (some (textOf runIni)) (some (textOf againIni)) "run_0000000.h5" e e' A [] o post f ∧
    0 < A.t ∧
    ∃ B, serialMain exactLib exactMath e' (some (textOf againIni)) (.finished B) ∧
      Continues (SameInterior2 (hydroParams exactLib (cfgOf runIni))) (hydroParams exactLib (cfgOf runIni)) [] o post A B := by
  obtain ⟨sn, f1, f2, f3, f4, f5, f6, f7, f8, f9, f10, f11, n1, n2, n3, hr, nl, no, ns, te, tc, pn, im⟩ := run_values
  obtain ⟨hs, ho⟩ := run_ordinary
  obtain ⟨q1, q2, q3, q4, q5⟩ := run_flags
  have hq := run_problem
  have hstep := run_step
  have key := C79_hydro_2d exactLib exactMath_exact (file := some (textOf runIni)) hs q4 ho
  have hg : ∀ (k : String) (d : ℚ), k ∈ ["density_outer", "pressure_outer", "vx_outer", "vy_outer", "density_inner",
      "pressure_inner", "vx_inner", "vy_inner"] → cfgFloat exactLib (cfgOf runIni) "implode" k d = d :=
    fun k d hk => exact_float_default (im k hk)
  have key := key (by
      rw [show hydroProblem2 exactLib exactMath (Ini.broadcastSerial (some (textOf runIni))) (0, 0) = _ from hq]
      refine ⟨Or.inl ?_, Or.inr ⟨?_, ?_⟩⟩
      · exact (hg "density_outer" 1 (by decide)).trans (by norm_num)
      · exact (hg "vx_inner" 0 (by decide)).trans (by norm_num)
      · exact (hg "vy_inner" 0 (by decide)).trans (by norm_num))
    (by
      rw [show hydroProblem2 exactLib exactMath (Ini.broadcastSerial (some (textOf runIni))) (0, 0) = _ from hq]
      trivial)
    (by
      rw [show hydroProblem2 exactLib exactMath (Ini.broadcastSerial (some (textOf runIni))) (0, 0) = _ from hq]
      trivial)
  rw [show hydroProblem2 exactLib exactMath (Ini.broadcastSerial (some (textOf runIni))) (0, 0) = _ from hq] at key
  obtain ⟨n, hlen, hrun⟩ := key
  have ht0 : cfgFloat exactLib (cfgOf runIni) "run" "tCurrent" 0 = 0 := (exact_float_default tc).trans (by norm_num)
  have hte : (hydroParams exactLib (cfgOf runIni)).tEnd = 1 / 100 := (exact_float te).trans (by norm_num)
  have hno : (hydroParams exactLib (cfgOf runIni)).nOutput = 1 := no
  have hlen' := hlen
  rw [show cfgFloat exactLib (Ini.broadcastSerial (some (textOf runIni))) "run" "tCurrent" 0 = 0 from ht0] at hlen'
  have hend := one_step' (M := hydro2 _ _ _) hstep (by
    show 1 < cfgInt (cfgOf runIni) "run" "nstepmax" 1000
    rw [ns]; decide) hlen'
  obtain ⟨e, hid, -⟩ := env_exists (0, 0)
  obtain ⟨⟨x, hx⟩, hall⟩ := hrun e hid trivial
  obtain ⟨A, rfl, hn, hA, hfiles⟩ := hall x hx
  rw [show cfgFloat exactLib (Ini.broadcastSerial (some (textOf runIni))) "run" "tCurrent" 0 = 0 from ht0] at hA
  have hA : A.t = (Sim.result (hydroParams exactLib (cfgOf runIni)) (hydro2 _ _ _) _ 0 0 n).t := hA
  have hend := hend.trans (le_of_eq hA.symm)
  obtain ⟨o, post, hout⟩ : ∃ o post, A.outputs = o :: post := by
    obtain ⟨m, t, sv, hr⟩ := finished_run (findSolver_sets (k := .hydro2) (by simp [solverRegistry]) hs) hx
    obtain ⟨-, ⟨o, h1, -⟩, -⟩ := C16_first_last hr (by
      show (hydroParams exactLib (cfgOf runIni)).nOutput ≠ 0
      rw [hno]; decide)
    cases h : A.outputs with
    | nil => rw [h] at h1; cases h1
    | cons a l => exact ⟨a, l, rfl⟩
  obtain ⟨f, hf⟩ := saveH5_exists e.lay (h5Options (cfgOf runIni)) (hydroParams exactLib (cfgOf runIni)) o.data o.number
    o.time
  have hR : Restarting exactLib exactMath (some (textOf runIni)) (some (textOf againIni)) "run_0000000.h5" e
      { e with hdf5 := true, disk := fun _ => some f } A [] o post f :=
    { identA := hid, identB := hid, restart := run_again, plain := q1, up := q3
      outputs := by
        show (hydroParams exactLib (cfgOf runIni)).nOutput ≠ 0
        rw [hno]; decide
      run := hx, reached := hend, which := hout, saved := hf, hdf5 := rfl, disk := rfl }
  obtain ⟨⟨B, hB⟩, hc⟩ := C88_restart_hydro_2d hR q5 hs ho q2
  obtain ⟨B', e1, hB'⟩ := hc _ hB
  cases e1
  refine ⟨e, _, A, o, post, f, hR, ?_, B, hB, hB'⟩
  rw [hte] at hend
  linarith

end EulerKokkos
