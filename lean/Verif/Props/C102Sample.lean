import Verif.Lemmas.FixedPoint
import Verif.Props.C102

/-!
# C102: the shipped implosion, in an arithmetic that rounds and has a NaN
-/

set_option linter.constructorNameAsVariable false
set_option linter.unusedSectionVars false
set_option linter.unusedSimpArgs false

namespace EulerKokkos
open Spec Prog

/-- numbers of the configuration, rounded to fixed point -/
def fixLib : FloatLib Fix where
  strtof s := (ratOf s).map fun q => (lit q : Fix)
  single q := lit q
  trunc x := (x.getD 0) / Fix.unit

theorem fix_float {c : Ini.Reader} {s n : String} {d q : ℚ}
    (h : ratOf (Ini.cstr (c.getString s.toList n.toList [])) = some q) :
    cfgFloat fixLib c s n d = (lit q : Fix) := by
  unfold cfgFloat Ini.Reader.getFloat fixLib
  simp [h]

theorem fix_float_default {c : Ini.Reader} {s n : String} {d : ℚ}
    (h : ratOf (Ini.cstr (c.getString s.toList n.toList [])) = none) :
    cfgFloat fixLib c s n d = (lit d : Fix) := by
  unfold cfgFloat Ini.Reader.getFloat fixLib
  simp [h]

theorem fix_lit (n : Int) : (lit (n : ℚ) : Fix) = some (n * Fix.unit) := by
  show some ⌊(n : ℚ) * ((Fix.unit : Int) : ℚ)⌋ = _
  rw [← Int.cast_mul, Int.floor_intCast]

theorem implode_version : let c := implodeCfg'
    ratOf (Ini.cstr (c.getString "OTHER".toList "implementationVersion".toList [])) = some 0 ∧
    cfgBool c "gravity" "enabled" false = false := by
  decide +kernel

/-- The shipped `test_implode_2D.ini` is repeatable in fixed point arithmetic. -/
theorem implode_repeatable : Repeatable Fix.Sg (hydroParams fixLib implodeCfg) .hydro2 := by
  have h := implode_values
  have h' := implode_version
  rw [← implodeCfg_eq] at h h'
  obtain ⟨h0, sn, f1, f2, f3, f4, f5, f6, f7, f8, f9, f10, f11, n1, n2, n3, hr⟩ := h
  refine ⟨?_, ?_, ?_, ?_, ?_, ?_, ?_, ?_⟩
  · show Fix.Sg ((cfgFloat fixLib implodeCfg "mesh" "xmax" 1 - cfgFloat fixLib implodeCfg "mesh" "xmin" 0) /
      intLit (cfgInt implodeCfg "mesh" "nx" 1))
    rw [fix_float f1, fix_float f2, n1]
    have e0 := fix_lit 0
    have e2 := fix_lit 2
    push_cast at e0 e2
    refine Fix.maxLaws.sg_div _ _ ?_ ?_
    · rw [e0, e2]; exact Fix.sg_some.2 (by norm_num)
    · unfold intLit; rw [fix_lit]; exact Fix.sg_some.2 (by norm_num)
  · show Fix.Sg ((cfgFloat fixLib implodeCfg "mesh" "ymax" 1 - cfgFloat fixLib implodeCfg "mesh" "ymin" 0) /
      intLit (cfgInt implodeCfg "mesh" "ny" 1))
    rw [fix_float f3, fix_float f4, n2]
    have e0 := fix_lit 0
    have e1 := fix_lit 1
    push_cast at e0 e1
    refine Fix.maxLaws.sg_div _ _ ?_ ?_
    · rw [e0, e1]; exact Fix.sg_some.2 (by norm_num)
    · unfold intLit; rw [fix_lit]; exact Fix.sg_some.2 (by norm_num)
  · show 2 ≤ cfgInt implodeCfg "mesh" "nx" 1
    rw [n1]; decide
  · show 2 ≤ cfgInt implodeCfg "mesh" "ny" 1
    rw [n2]; decide
  · show 1 ≤ cfgInt implodeCfg "mesh" "nz" 1
    rw [n3]
  · show versionOf (fixLib.trunc (cfgFloat fixLib implodeCfg "OTHER" "implementationVersion" 0)) = 0 ∨
      versionOf (fixLib.trunc (cfgFloat fixLib implodeCfg "OTHER" "implementationVersion" 0)) = 1
    rw [fix_float h'.1]
    have e0 := fix_lit 0
    push_cast at e0
    rw [e0]
    decide
  · refine .inr (.inr ?_)
    show RealOps.beq (cfgFloat fixLib implodeCfg "hydro" "slope_type" 1) (lit 2) = true
    rw [fix_float f7]
    have e2 := fix_lit 2
    push_cast at e2
    rw [e2]
    decide
  · show riemannOf (cfgString implodeCfg "hydro" "riemann" "approx") ≠ .hlld
    rw [hr]; decide

/-- Rounded products are not associative: nothing of the kind is needed. -/
example : ∃ a b c : Fix, a * b * c ≠ a * (b * c) :=
  ⟨some 1, some (Fix.unit / 2), some (Fix.unit * 2), by decide⟩

/-- The program, run on the shipped implosion in fixed point arithmetic, has exactly one outcome, whatever the
schedules, the uninitialised memory and the random numbers. -/
theorem implode_one_outcome (M : MathLib Fix) {i : Fix} (hi : Fix.IsNum i) :
    ∃ s, ∀ e' : Env Fix, e'.ident = i → ∀ o, serialMain fixLib M e' (some (textOf implodeIni)) o ↔
      o = .finished s := by
  have h := implode_values
  have h' := implode_more
  rw [← implodeCfg_eq] at h h'
  have hk : findSolver (mainSolverName implodeCfg) = some .hydro2 :=
    findSolver_sets (by decide) implode_sets.1
  let e : Env Fix :=
    { ident := i, jk := fun _ _ _ _ => HS.zero, jkM := fun _ _ _ _ => ⟨i, i, i, i, i, i, i, i⟩, ju := (i, i)
      rnd := fun _ _ _ _ => i, hdf5 := false, lay := .left, disk := fun _ => none }
  obtain ⟨s, hs⟩ := C102_one_outcome Fix.maxLaws fixLib M (file := some (textOf implodeIni)) hk
    implode_sets.2 implode_repeatable (by
      show cfgInt implodeCfg "run" "nlog" 10 ≠ 0
      rw [h'.2.1]; decide) (.inr (by
      show problemName implodeCfg ≠ _
      rw [h'.2.2.1]; decide)) trivial (e := e) hi
  refine ⟨s, fun e' he o => hs e' ⟨he.symm, .inr (.inl ?_), .inr (.inl rfl)⟩ o⟩
  show problemName implodeCfg ≠ _
  rw [h'.2.2.1]; decide

end EulerKokkos
