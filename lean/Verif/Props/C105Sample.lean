import Verif.Props.C102Sample
import Verif.Props.C103Sample
import Verif.Props.C104Sample
import Verif.Props.C105

/-!
# C105: the shipped implosion in double precision
-/

set_option linter.constructorNameAsVariable false
set_option linter.unusedSectionVars false
set_option linter.unusedSimpArgs false

namespace EulerKokkos
open Spec Prog Spmd

namespace Ieee

open Classical in
/-- a number of the parameter file: the nearest `float`, widened to `double` -/
noncomputable def single (q : ℚ) : Double :=
  if binary32.rnd |(q : ℝ)| ≤ binary32.top then Spec.Ieee.round (decide (q < 0)) (binary32.rnd |(q : ℝ)|)
  else .inf (decide (q < 0))

open Classical in
/-- the C library of the `double` build: `strtof`, conversion of a `float` literal, conversion to `int` -/
noncomputable def dblLib : FloatLib Double where
  strtof s := (ratOf s).map single
  single := single
  trunc
    | .fin s m => if s then -⌊m.1⌋ else ⌊m.1⌋
    | _ => 0

theorem dbl_float {c : Ini.Reader} {s n : String} {d q : ℚ}
    (h : ratOf (Ini.cstr (c.getString s.toList n.toList [])) = some q) : cfgFloat dblLib c s n d = single q := by
  unfold cfgFloat Ini.Reader.getFloat dblLib
  simp [h]

/-- powers of two and zero are exact in both formats -/
theorem zero_mem32 : (0 : ℝ) ∈ binary32.grid := binary32.zero_mem
theorem pow_mem32 {e : ℤ} (h : -149 ≤ e) : (2 : ℝ) ^ e ∈ binary32.grid := pow_mem (by norm_num) h
theorem pow_mem64 {e : ℤ} (h : -1074 ≤ e) : (2 : ℝ) ^ e ∈ binary64.grid := pow_mem (by norm_num) h

theorem four_le_top32 : (4 : ℝ) ≤ binary32.top := by
  show (4 : ℝ) ≤ ((2 : ℝ) ^ 24 - 1) * (2 : ℝ) ^ (104 : ℤ)
  norm_num
theorem four_le_top64 : (4 : ℝ) ≤ binary64.top := by
  show (4 : ℝ) ≤ ((2 : ℝ) ^ 53 - 1) * (2 : ℝ) ^ (971 : ℤ)
  have h : (1 : ℝ) ≤ (2 : ℝ) ^ (971 : ℤ) := one_le_zpow₀ (by norm_num) (by norm_num)
  have : (0 : ℝ) ≤ (2 : ℝ) ^ 53 - 1 := by norm_num
  calc (4 : ℝ) ≤ ((2 : ℝ) ^ 53 - 1) * 1 := by norm_num
    _ ≤ _ := mul_le_mul_of_nonneg_left h this

/-- a small exact number -/
theorem single_exact {q : ℚ} (h0 : 0 ≤ q) (h4 : q ≤ 4) (h32 : (q : ℝ) ∈ binary32.grid) (h64 : (q : ℝ) ∈ binary64.grid) :
    single q = .fin false ⟨(q : ℝ), h64, le_trans (by exact_mod_cast h4) four_le_top64⟩ := by
  have h0' : (0 : ℝ) ≤ (q : ℝ) := by exact_mod_cast h0
  have h4' : (q : ℝ) ≤ 4 := by exact_mod_cast h4
  unfold single
  rw [abs_of_nonneg h0', binary32.rnd_id h32, if_pos (h4'.trans four_le_top32), decide_eq_false (not_lt.2 h0)]
  exact round_mag (⟨(q : ℝ), h64, h4'.trans four_le_top64⟩ : binary64.Mag)

theorem single_zero : single 0 = .fin false ⟨0, binary64.zero_mem, binary64.zero_le_top⟩ := by
  rw [single_exact le_rfl (by norm_num) (by rw [Rat.cast_zero]; exact zero_mem32) (by rw [Rat.cast_zero]; exact binary64.zero_mem)]
  congr 1
  exact Subtype.ext Rat.cast_zero

theorem single_one : single 1 = .fin false ⟨1, binary64.one_mem, binary64.one_le_top⟩ := by
  rw [single_exact zero_le_one (by norm_num) (by rw [Rat.cast_one]; exact binary32.one_mem) (by rw [Rat.cast_one]; exact binary64.one_mem)]
  congr 1
  exact Subtype.ext Rat.cast_one

theorem single_two : single 2 = .fin false ⟨2, binary64.two_mem, binary64.two_le_top⟩ := by
  rw [single_exact zero_le_two (by norm_num) (by rw [Rat.cast_ofNat]; exact binary32.two_mem) (by rw [Rat.cast_ofNat]; exact binary64.two_mem)]
  congr 1

theorem below_fin {Φ : Rounding} {a b : Φ.Mag} (h : a.1 < b.1) : Below (.fin false a : Ieee Φ) (.fin false b) :=
  lt_iff.2 ⟨rfl, rfl, EReal.coe_lt_coe_iff.2 h⟩

/-- The shipped `test_implode_2D.ini` in double precision. -/
theorem implode_ieee : IeeeRun (hydroParams dblLib implodeCfg) .hydro2 := by
  have h := implode_values
  have h' := implode_version
  rw [← implodeCfg_eq] at h h'
  obtain ⟨h0, sn, f1, f2, f3, f4, f5, f6, f7, f8, f9, f10, f11, n1, n2, n3, hr⟩ := h
  refine ⟨?_, ?_, ?_, ?_, ?_, ?_, ?_, ?_⟩
  · show Below (cfgFloat dblLib implodeCfg "mesh" "xmin" 0) (cfgFloat dblLib implodeCfg "mesh" "xmax" 1)
    rw [dbl_float f1, dbl_float f2, single_zero, single_two]
    exact below_fin (by norm_num)
  · show Below (cfgFloat dblLib implodeCfg "mesh" "ymin" 0) (cfgFloat dblLib implodeCfg "mesh" "ymax" 1)
    rw [dbl_float f3, dbl_float f4, single_zero, single_one]
    exact below_fin (by norm_num)
  · show 2 ≤ cfgInt implodeCfg "mesh" "nx" 1
    rw [n1]; decide
  · show 2 ≤ cfgInt implodeCfg "mesh" "ny" 1
    rw [n2]; decide
  · show 1 ≤ cfgInt implodeCfg "mesh" "nz" 1
    rw [n3]
  · show versionOf (dblLib.trunc (cfgFloat dblLib implodeCfg "OTHER" "implementationVersion" 0)) = 0 ∨
      versionOf (dblLib.trunc (cfgFloat dblLib implodeCfg "OTHER" "implementationVersion" 0)) = 1
    rw [dbl_float h'.1, single_zero]
    have : dblLib.trunc (.fin false ⟨0, binary64.zero_mem, binary64.zero_le_top⟩) = 0 := by
      show (if false = true then -⌊(0 : ℝ)⌋ else ⌊(0 : ℝ)⌋) = 0
      simp
    rw [this]
    decide
  · refine .inr (.inr ?_)
    show RealOps.beq (cfgFloat dblLib implodeCfg "hydro" "slope_type" 1) (lit 2) = true
    rw [dbl_float f7, single_two, lit_two]
    show Spec.Ieee.beq _ _ = true
    simp [Spec.Ieee.beq, Spec.Ieee.isNan]
  · show riemannOf (cfgString implodeCfg "hydro" "riemann" "approx") ≠ .hlld
    rw [hr]; decide

/-- The program, run on the shipped implosion in double precision, has exactly one outcome, whatever the schedules, the
uninitialised memory and the random numbers. -/
theorem implode_double (M : MathLib Double) :
    ∃ s, ∀ e' : Env Double, e'.ident = Spec.Ieee.lowest → ∀ o, serialMain dblLib M e' (some (textOf implodeIni)) o ↔
      o = .finished s := by
  have h := implode_values
  have h' := implode_more
  rw [← implodeCfg_eq] at h h'
  have hk : findSolver (mainSolverName implodeCfg) = some .hydro2 :=
    findSolver_sets (by decide) implode_sets.1
  let i : Double := Spec.Ieee.lowest
  let e : Env Double :=
    { ident := i, jk := fun _ _ _ _ => HS.zero, jkM := fun _ _ _ _ => ⟨i, i, i, i, i, i, i, i⟩, ju := (i, i)
      rnd := fun _ _ _ _ => i, hdf5 := false, lay := .left, disk := fun _ => none }
  obtain ⟨s, hs⟩ := C105_serial dblLib M (file := some (textOf implodeIni)) hk
    implode_sets.2 implode_ieee (by
      show cfgInt implodeCfg "run" "nlog" 10 ≠ 0
      rw [h'.2.1]; decide) (.inr (by
      show problemName implodeCfg ≠ _
      rw [h'.2.2.1]; decide)) trivial (e := e) rfl
  refine ⟨s, fun e' he o => hs e' ⟨he.symm, .inr (.inl ?_), .inr (.inl rfl)⟩ o⟩
  show problemName implodeCfg ≠ _
  rw [h'.2.2.1]; decide

/-! ### Two processes -/

/-- the block of each of the two processes, in double precision -/
theorem block_ieee : IeeeRun (hydroParamsMpi topo211 dblLib blockCfg) .hydro2 := by
  have hw := block_whole
  have h := whole_raw hw (lit (R := Double) 0) dblLib
  obtain ⟨o1, o2, o3, o4, o5, o6, o7, o8⟩ := implode_ieee
  simp only [hydroParams, Params.init, h] at o1 o2 o3 o4 o5 o6 o7 o8
  have oy : cfgInt blockCfg "mesh" "ny" 1 = cfgInt implodeCfg "mesh" "ny" 1 := by
    rw [hw.ny]; exact (mul_one _).symm
  have oz : cfgInt blockCfg "mesh" "nz" 1 = cfgInt implodeCfg "mesh" "nz" 1 := by
    rw [hw.nz]; exact (mul_one _).symm
  obtain ⟨-, -, p3, p4, p5, -⟩ := implode_ieee
  refine ⟨o1, o2, ?_, p4.trans_eq oy.symm, p5.trans_eq oz.symm, o6, o7, o8⟩
  show 2 ≤ cfgInt blockCfg "mesh" "nx" 1
  unfold cfgInt Ini.Reader.getInteger
  rw [getString_block, if_neg (by decide), if_pos (by decide)]
  decide

/-- Two processes, the shipped implosion, double precision: they start, always end, and any two executions end in the same
states, whatever the interleaving, the schedules, the uninitialised memory and the random numbers. -/
theorem implode_two_double (M : MathLib Double) {e e' : EnvMpi topo211 Double} (hi : e.ident = Spec.Ieee.lowest)
    (hi' : e'.ident = Spec.Ieee.lowest) (hl : e.lay = e'.lay) :
    ∃ st flow st' flow' fin, MpiStarts dblLib M e (some (textOf blockIni)) st flow ∧
      MpiStarts dblLib M e' (some (textOf blockIni)) st' flow' ∧ SameBooks fin ∧
      AlwaysEnds flow st (· = fin) ∧ AlwaysEnds flow' st' (· = fin) := by
  have hw := block_whole
  obtain ⟨hs, hT, hr, -⟩ := implode_block_facts
  have h' := implode_more
  rw [← implodeCfg_eq] at h'
  have hq : ∀ j, hydroProblem2 dblLib M blockCfg j = .implode (implodeParams dblLib implodeCfg) := by
    intro j
    rw [← whole_problem2 hw]
    unfold hydroProblem2
    exact if_pos h'.2.2.1
  have hk : findSolver (mainSolverName blockCfg) = some .hydro2 := findSolver_sets (by decide) hs
  have hn : (hydroParamsMpi topo211 dblLib blockCfg).nlog ≠ 0 := by
    show cfgInt blockCfg "run" "nlog" 10 ≠ 0
    rw [← whole_int hw (by decide), h'.2.1]; decide
  have hpn : problemName blockCfg ≠ "kelvin_helmholtz".toList := by
    show cfgString blockCfg "hydro" "problem" "unknown" ≠ _
    have : cfgString blockCfg "hydro" "problem" "unknown" = cfgString implodeCfg "hydro" "problem" "unknown" :=
      (hw.same _ _ _ (by decide)).symm
    rw [this]
    show problemName implodeCfg ≠ _
    rw [h'.2.2.1]; decide
  have hstart : ∀ e : EnvMpi topo211 Double, ∃ st flow, MpiStarts dblLib M e (some (textOf blockIni)) st flow :=
    fun e => C80_starts dblLib M e (file := some (textOf blockIni)) hT hr
      (Or.inl ⟨hs, fun r => by
        rw [show hydroProblem2 dblLib M (Ini.broadcastMpi (some (textOf blockIni))) (e.ju r) = _ from hq _]
        trivial⟩)
  obtain ⟨st, flow, h1⟩ := hstart e
  obtain ⟨st', flow', h2⟩ := hstart e'
  obtain ⟨fin, hb, h3, h4⟩ := C105_mpi dblLib M (file := some (textOf blockIni)) hk block_ieee hn trivial (e := e)
    (e' := e') hi ⟨hi.trans hi'.symm, hl, .inr (.inl hpn), .inr (.inl rfl)⟩ h1 h2
  exact ⟨st, flow, st', flow', fin, h1, h2, hb, h3, h4⟩

/-- the small exact numbers of the sample -/
noncomputable def num2 (e : ℤ) (h : -1074 ≤ e) (h' : e ≤ 2) : Double :=
  .fin false ⟨(2 : ℝ) ^ e, pow_mem64 h, (zpow_le_zpow_right₀ (by norm_num) h').trans
    (le_trans (by norm_num) four_le_top64)⟩

/-- 4 × 4 cells per process, two processes along `x`, one step, in double precision -/
noncomputable def dblRaw : Params Double :=
  { nStepmax := 1, tEnd := num2 0 (by norm_num) (by norm_num), nOutput := 5, enableOutput := true, mhdEnabled := false, nlog := 10
    nx := 4, ny := 4, nz := 1, ghostWidth := 2, nbvar := 4, dimType := .two
    imin := 0, imax := 0, jmin := 0, jmax := 0, kmin := 0, kmax := 0, isize := 0, jsize := 0
    ksize := 0, xmin := lit 0, xmax := num2 0 (by norm_num) (by norm_num), ymin := lit 0
    ymax := num2 (-1) (by norm_num) (by norm_num), zmin := lit 0
    zmax := num2 0 (by norm_num) (by norm_num), dx := .nan, dy := .nan, dz := .nan
    boundary_type_xmin := .dirichlet, boundary_type_xmax := .neumann
    boundary_type_ymin := .dirichlet, boundary_type_ymax := .neumann
    boundary_type_zmin := .neumann, boundary_type_zmax := .neumann
    settings := { gamma0 := num2 1 (by norm_num) (by norm_num), gamma6 := .nan, cfl := num2 (-1) (by norm_num) (by norm_num)
                  slope_type := lit 1
                  smallr := num2 (-30) (by norm_num) (by norm_num), smallc := num2 (-30) (by norm_num) (by norm_num)
                  smallp := .nan, smallpp := .nan, cIso := .nan }
    riemannSolverType := .hllc, implementationVersion := 0 }

theorem num2_pos {e : ℤ} {h : -1074 ≤ e} {h' : e ≤ 2} : FinitePos (num2 e h h') := ⟨_, zpow_pos two_pos e, rfl⟩

/-- `2^a - 0` divided by `2^k` is exact -/
theorem cell_exact {a : ℤ} {h : -1074 ≤ a} {h' : a ≤ 2} {n : Int} {k : ℤ} (hn : (n : ℝ) = (2 : ℝ) ^ k) (hk : 0 ≤ k)
    (hk' : k ≤ 1000) (hak : -1074 ≤ a - k) : FinitePos ((num2 a h h' - lit 0) / intLit n) := by
  have htop : ∀ e : ℤ, e ≤ 1000 → (2 : ℝ) ^ e ≤ binary64.top := fun e he => by
    show (2 : ℝ) ^ e ≤ ((2 : ℝ) ^ 53 - 1) * (2 : ℝ) ^ (971 : ℤ)
    have h1 : (2 : ℝ) ^ e ≤ (2 : ℝ) ^ (52 : ℤ) * (2 : ℝ) ^ (971 : ℤ) := by
      rw [← zpow_add₀ two_ne_zero]
      exact zpow_le_zpow_right₀ (by norm_num) (by omega)
    exact h1.trans (mul_le_mul_of_nonneg_right (by norm_num) (zpow_pos two_pos _).le)
  have e1 : (num2 a h h' - lit 0 : Double) = num2 a h h' := by
    show Spec.Ieee.add (num2 a h h') (Spec.Ieee.neg (lit 0)) = _
    rw [lit_zero]
    have hp := zpow_pos (two_pos (α := ℝ)) a
    show (if (2 : ℝ) ^ a + -(0 : ℝ) = 0 then _ else Spec.Ieee.round (decide ((2 : ℝ) ^ a + -(0 : ℝ) < 0)) |(2 : ℝ) ^ a + -(0 : ℝ)|) = _
    rw [neg_zero, add_zero, if_neg hp.ne', decide_eq_false (not_lt.2 hp.le), abs_of_pos hp]
    exact round_mag (⟨(2 : ℝ) ^ a, pow_mem64 h, htop a (by omega)⟩ : binary64.Mag)
  have e2 : (intLit n : Double) = .fin false ⟨(2 : ℝ) ^ k, pow_mem64 (by omega), htop k hk'⟩ := by
    have h0 : (0 : ℝ) ≤ n := by rw [hn]; exact (zpow_pos two_pos k).le
    unfold intLit
    rw [lit_eq _ (by exact_mod_cast h0), Rat.cast_intCast, hn]
    exact round_mag (⟨(2 : ℝ) ^ k, pow_mem64 (by omega), htop k hk'⟩ : binary64.Mag)
  rw [e1, e2]
  have e3 : Spec.Ieee.div (num2 a h h') (.fin false ⟨(2 : ℝ) ^ k, pow_mem64 (by omega), htop k hk'⟩) =
      .fin false ⟨(2 : ℝ) ^ (a - k), pow_mem64 hak, htop _ (by omega)⟩ := by
    show (if (2 : ℝ) ^ k = 0 then _ else Spec.Ieee.round (false ^^ false) ((2 : ℝ) ^ a / (2 : ℝ) ^ k)) = _
    rw [if_neg (zpow_pos two_pos k).ne', ← zpow_sub₀ two_ne_zero]
    exact round_mag (⟨(2 : ℝ) ^ (a - k), pow_mem64 hak, htop _ (by omega)⟩ : binary64.Mag)
  exact ⟨_, zpow_pos two_pos (a - k), e3⟩

/-- a gas at rest: density 1, energy density 2 -/
noncomputable def dblGas : Mem Arr Double := fun l =>
  if l.v = IU ∨ l.v = IV then lit 0 else if l.v = ID then num2 0 (by norm_num) (by norm_num)
  else num2 1 (by norm_num) (by norm_num)

theorem dblGas_alive (i j : Int) : Alive (hs2 dblGas .U i j) := by
  have z : (lit 0 : Double).isNan = false := by rw [lit_zero]; rfl
  refine ⟨?_, ?_, ?_, z⟩
  · show num2 0 (by norm_num) (by norm_num) ≠ _
    intro h
    cases h
  · exact z
  · exact z

theorem finitePos_sg {x : Double} (h : FinitePos x) : Spec.Ieee.Sg x := by
  obtain ⟨m, _, rfl⟩ := h
  exact .inr rfl

/-- **C105, MPI = serial, in double precision.** Two processes, each with its half of the gas, one step: every cell has a
rate, and the processes end with the halves of the serial result, bit for bit. -/
theorem dbl_two_parts {lay : Layout} {jk : topo211.Rank → Junk Double} {jk' : Junk Double} {s' : RunState Double}
    (hser : runMain (globalParams topo211 dblRaw)
      (hydroOps2 (globalParams topo211 dblRaw) ⟨false, false⟩ Spec.Ieee.lowest jk') dblGas (lit 0) 0 s') :
    AlwaysEnds (mpiMain (localParams topo211 dblRaw)
        (mpiHydro2 lay topo211 (localParams topo211 dblRaw) ⟨false, false⟩ Spec.Ieee.lowest jk))
      (fun _ => startState dblGas (lit 0) 0) fun s => PartOf topo211 dblRaw .hydro2 s s' := by
  have hp : Hydro2 (localParams topo211 dblRaw) :=
    ⟨wf_local topo211 (Params.init_wf _ (by decide) (by decide) (by decide) (by decide)), rfl,
      ⟨.inr (.inl (by
        show Spec.Ieee.beq (lit 1) (lit 1) = true
        rw [lit_one]
        simp [Spec.Ieee.beq, Spec.Ieee.isNan])), by
        show RiemannType.hllc ≠ .hlld
        decide⟩, by
        unfold Faces2Ok BCok; exact ⟨.inr (by decide), .inr (by decide), .inr (by decide), .inr (by decide)⟩⟩
  have hwide : Wide2 (localParams topo211 dblRaw) := ⟨by decide, by decide⟩
  have hpg := hydro2_global hp hwide
  have hdx : FinitePos (globalParams topo211 dblRaw).dx :=
    cell_exact (h := by norm_num) (h' := by norm_num) (n := 8) (k := 3) (by norm_num) (by norm_num) (by norm_num) (by norm_num)
  have hdy : FinitePos (globalParams topo211 dblRaw).dy :=
    cell_exact (h := by norm_num) (h' := by norm_num) (n := 4) (k := 2) (by norm_num) (by norm_num) (by norm_num) (by norm_num)
  have n1 : FinitePos (num2 1 (by norm_num) (by norm_num)) := num2_pos
  have n30 : FinitePos (num2 (-30) (by norm_num) (by norm_num)) := num2_pos
  have hgas : GasIeee (globalParams topo211 dblRaw).settings :=
    ⟨n1, n30, notBelow_div (notBelow_mul n30 (rate_notBelow (rate_of_sg rfl (finitePos_sg n30)))) n1⟩
  have hmv : ∀ n A, (∀ i j, interior2 (globalParams topo211 dblRaw) i j → Alive (hs2 A (pingIn n) i j)) →
      BlocksMove Spec.Ieee.Rate topo211 dblRaw ⟨false, false⟩ .hydro2 n A := by
    intro n A h
    refine C105_alive_moves_2d hgas hdx hdy rfl fun r => ⟨2, 2, ?_, h _ _ ?_⟩
    · show interior2 (localParams topo211 dblRaw) 2 2
      decide
    · exact interior2_block hp.wf topo211 r (show interior2 (localParams topo211 dblRaw) 2 2 by decide)
  have hset : ∀ A, (hydroOps2 (globalParams topo211 dblRaw) ⟨false, false⟩ Spec.Ieee.lowest jk').setup dblGas A →
      ∀ i j, interior2 (globalParams topo211 dblRaw) i j → Alive (hs2 A .U i j) := by
    rintro A ⟨mb, hb, hc⟩ i j hij
    have hc' : A = fun l => if l.arr = .U2 then mb { l with arr := .U } else mb l := hc
    obtain ⟨-, q2⟩ := makeBoundaries2_hs2 hpg signLaws hb
    have e1 : hs2 A .U i j = hs2 mb .U i j := by rw [hc']; rfl
    rw [e1, q2 i j (int_inGrid2 hpg.wf hij)]
    obtain ⟨a, b, c, d⟩ := hij
    have e2 : fill2 (globalParams topo211 dblRaw) (hs2 dblGas .U) i j = hs2 dblGas .U i j := by
      unfold fill2
      simp only [srcCoord_self a b, srcCoord_self c d, signed, flips_not a b, flips_not c d, if_false]
      rfl
    rw [e2]
    exact dblGas_alive i j
  refine C104_run_hydro_2d maxLaws (divLaws (zpow_pos two_pos (-1))) signLaws hp hwide ?_ (.inl rfl) (finitePos_sg hdx)
    (finitePos_sg hdy) num_lowest num_lowest lowest_not_rate lowest_not_rate hser
    ⟨fun A h => hmv 0 A (hset A h), fun k a A hr hf hpre => ?_⟩ (fun r i j v _ _ => rfl) (by simp)
  · exact ⟨.inr (.inl rfl), .inr (.inr (.inl rfl)), .inr (.inl rfl), .inr (.inr (.inl rfl))⟩
  · obtain rfl : A = a.mem := hpre
    obtain ⟨s₀, ⟨A₁, h1, d, h2, rfl⟩, ht⟩ := hr
    have hit := ht.iteration
    rcases Nat.eq_zero_or_pos k with rfl | hk
    · cases ht
      exact hmv 0 _ fun i j hij => hset A₁ h1 i j hij
    · refine absurd (.inr ?_) hf
      show (1 : Int) ≤ _
      omega

end Ieee

end EulerKokkos
