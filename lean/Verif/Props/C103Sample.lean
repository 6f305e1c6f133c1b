import Verif.Props.C102Sample
import Verif.Props.C103

/-!
# C103: the shipped implosion on two processes, in an arithmetic that rounds and has a NaN
-/

set_option linter.constructorNameAsVariable false
set_option linter.unusedSectionVars false
set_option linter.unusedSimpArgs false

namespace EulerKokkos
open Spec Prog Spmd

/-- The block of each of the two processes is repeatable. -/
theorem block_repeatable : Repeatable Fix.Sg (hydroParamsMpi topo211 fixLib blockCfg) .hydro2 := by
  have hw := block_whole
  have h := whole_raw hw (lit (R := Fix) 0) fixLib
  obtain ⟨o1, o2, o3, o4, o5, o6, o7, o8⟩ := implode_repeatable
  simp only [hydroParams, Params.init, h] at o1 o2 o3 o4 o5 o6 o7 o8
  have oy : cfgInt blockCfg "mesh" "ny" 1 = cfgInt implodeCfg "mesh" "ny" 1 := by
    rw [hw.ny]; exact (mul_one _).symm
  have oz : cfgInt blockCfg "mesh" "nz" 1 = cfgInt implodeCfg "mesh" "nz" 1 := by
    rw [hw.nz]; exact (mul_one _).symm
  obtain ⟨-, -, p3, p4, p5, -⟩ := implode_repeatable
  refine ⟨o1, o2, ?_, p4.trans_eq oy.symm, p5.trans_eq oz.symm, o6, o7, o8⟩
  show 2 ≤ cfgInt blockCfg "mesh" "nx" 1
  unfold cfgInt Ini.Reader.getInteger
  rw [getString_block, if_neg (by decide), if_pos (by decide)]
  decide

/-- Two processes, the shipped implosion, fixed point arithmetic: they start, always end, and all executions end in the
same states, whatever the interleaving, the schedules, the uninitialised memory and the random numbers. -/
theorem implode_two_one_outcome (M : MathLib Fix) {i : Fix} (hi : Fix.IsNum i) (lay : Layout) :
    ∃ fin, SameBooks fin ∧ ∀ e : EnvMpi topo211 Fix, e.ident = i → e.lay = lay →
      ∃ st flow, MpiStarts fixLib M e (some (textOf blockIni)) st flow ∧ AlwaysEnds flow st (· = fin) := by
  have hw := block_whole
  have hs : Sets blockCfg "run" "solver_name" "Hydro_Muscl_2D" := fun d => by
    rw [← hw.same _ _ _ (by decide)]; exact implode_sets.1 d
  have hr : cfgBool blockCfg "run" "restart_enabled" false = false := by
    rw [← whole_bool hw (by decide)]; exact implode_sets.2
  have h' := implode_more
  rw [← implodeCfg_eq] at h'
  have hq : ∀ j, hydroProblem2 fixLib M blockCfg j = .implode (implodeParams fixLib implodeCfg) := by
    intro j
    rw [← whole_problem2 hw]
    unfold hydroProblem2
    exact if_pos h'.2.2.1
  have hT : TopoOf blockCfg topo211 := by
    refine ⟨?_, ?_, ?_, fun _ => rfl⟩
    · unfold cfgInt Ini.Reader.getInteger
      rw [getString_block, if_pos (by decide)]
      decide
    · unfold cfgInt Ini.Reader.getInteger
      rw [getString_block, if_neg (by decide), if_neg (by decide), implodeCfg_eq]
      decide +kernel
    · unfold cfgInt Ini.Reader.getInteger
      rw [getString_block, if_neg (by decide), if_neg (by decide), implodeCfg_eq]
      decide +kernel
  have hk : findSolver (mainSolverName blockCfg) = some .hydro2 := findSolver_sets (by decide) hs
  have hn : (hydroParamsMpi topo211 fixLib blockCfg).nlog ≠ 0 := by
    show cfgInt blockCfg "run" "nlog" 10 ≠ 0
    rw [← whole_int hw (by decide), h'.2.1]; decide
  have hpn : problemName blockCfg ≠ "kelvin_helmholtz".toList := by
    show cfgString blockCfg "hydro" "problem" "unknown" ≠ _
    have : cfgString blockCfg "hydro" "problem" "unknown" = cfgString implodeCfg "hydro" "problem" "unknown" :=
      (hw.same _ _ _ (by decide)).symm
    rw [this]
    show problemName implodeCfg ≠ _
    rw [h'.2.2.1]; decide
  have hstart : ∀ e : EnvMpi topo211 Fix, ∃ st flow, MpiStarts fixLib M e (some (textOf blockIni)) st flow :=
    fun e => C80_starts fixLib M e (file := some (textOf blockIni)) hT hr
      (Or.inl ⟨hs, fun r => by
        rw [show hydroProblem2 fixLib M (Ini.broadcastMpi (some (textOf blockIni))) (e.ju r) = _ from hq _]
        trivial⟩)
  let e : EnvMpi topo211 Fix :=
    { ident := i, jk := fun _ _ _ _ _ => HS.zero, jkM := fun _ _ _ _ _ => ⟨i, i, i, i, i, i, i, i⟩
      ju := fun _ => (i, i), rnd := fun _ _ _ _ _ => i, lay := lay }
  obtain ⟨st, flow, h⟩ := hstart e
  obtain ⟨fin, hb, ⟨N, hN⟩, -⟩ := C103_reproducible Fix.maxLaws fixLib M (file := some (textOf blockIni)) hk
    block_repeatable hn trivial (e := e) hi ⟨rfl, rfl, .inl rfl, .inl rfl⟩ h h
  refine ⟨fin, hb, fun e' he hl => ?_⟩
  obtain ⟨st', flow', h2⟩ := hstart e'
  obtain ⟨fin', -, ⟨N1, h3⟩, h4⟩ := C103_reproducible Fix.maxLaws fixLib M (file := some (textOf blockIni)) hk
    block_repeatable hn trivial (e := e) (e' := e') hi ⟨he.symm, hl.symm, .inr (.inl hpn), .inr (.inl rfl)⟩ h h2
  -- the first execution runs to its end, so the two descriptions of its final states are the same
  obtain ⟨n, y, hy, hyd⟩ := flow_completes (N := N) fun n y hy =>
    ⟨(hN False n y hy).1, (hN False n y hy).2.1⟩
  have e1 := ((hN False n y hy).2.2 hyd).2
  have e2 := ((h3 False n y hy).2.2 hyd).2
  exact ⟨st', flow', h2, by rw [← e1, e2]; exact h4⟩

end EulerKokkos
