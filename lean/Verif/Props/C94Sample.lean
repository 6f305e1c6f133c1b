import Verif.Props.C94
import Verif.Props.C88Sample

/-!
# C94 — a serial run restarted on two processes
-/

set_option linter.constructorNameAsVariable false
set_option linter.unusedSectionVars false
set_option linter.unusedSimpArgs false

namespace EulerKokkos
open Spec Spmd

/-- the restart of `againIni` on two processes of 2 × 4 cells -/
def againTwoIni : List String := againIni ++ ["[mesh]", "nx=2", "[mpi]", "mx=2"]

def againTwoCfg : Ini.Reader := Ini.broadcastMpi (some (textOf againTwoIni))

theorem againTwo_parse (st : Ini.PState Ini.Values) (h : st.prevName = "restart_filename".toList) :
    (Ini.parseLines Ini.valueHandler (["[mesh]", "nx=2", "[mpi]", "mx=2"].map fun l => l.toList ++ ['\n']) st).user =
      (st.user.set "mesh.nx".toList "2".toList).set "mpi.mx".toList "2".toList := by
  obtain ⟨a, b, n, e, u⟩ := st
  cases h
  rfl

theorem againTwo_values : againTwoCfg.values =
    ((cfgOf againIni).values.set "mesh.nx".toList "2".toList).set "mpi.mx".toList "2".toList := by
  have h0 : ∀ l ∈ againTwoIni, '\n' ∉ l.toList ∧ l.toList.length ≤ 198 := by decide +kernel
  unfold againTwoCfg
  rw [← Ini.C35_same_configuration (by
    rw [getLines_textOf fun l hl => (h0 l hl).1]
    intro l hl
    obtain ⟨l', hl', rfl⟩ := List.mem_map.1 hl
    exact (h0 l' hl').2)]
  rw [serial_values h0, cfgOf_eq (ls := againIni) (by decide +kernel), againTwoIni, List.map_append, parseLines_append]
  exact againTwo_parse _ (by decide +kernel)

theorem getString_againTwo (s n d : List Char) : againTwoCfg.getString s n d =
    if Ini.makeKey s n = "mpi.mx".toList then "2".toList
    else if Ini.makeKey s n = "mesh.nx".toList then "2".toList else (cfgOf againIni).getString s n d := by
  unfold Ini.Reader.getString
  rw [againTwo_values]
  unfold Ini.Values.set
  beta_reduce
  split_ifs <;> rfl

theorem again_int {s n : String} (h : NotRestartKey s.toList n.toList) (d : Int) :
    cfgInt (cfgOf againIni) s n d = cfgInt (cfgOf runIni) s n d := restarts_int run_again h d

theorem againTwo_whole : WholeDomain topo211 againTwoCfg (cfgOf againIni) where
  nx := by
    have e : cfgInt againTwoCfg "mesh" "nx" 1 = 2 := by
      unfold cfgInt Ini.Reader.getInteger
      rw [getString_againTwo, if_neg (by decide), if_pos (by decide)]
      decide
    rw [e, again_int (by decide), run_values.2.2.2.2.2.2.2.2.2.2.2.2.1]
    decide
  ny := by
    have e : cfgInt againTwoCfg "mesh" "ny" 1 = cfgInt (cfgOf againIni) "mesh" "ny" 1 := by
      unfold cfgInt Ini.Reader.getInteger
      rw [getString_againTwo, if_neg (by decide), if_neg (by decide)]
    rw [e]
    exact (mul_one _).symm
  nz := by
    have e : cfgInt againTwoCfg "mesh" "nz" 1 = cfgInt (cfgOf againIni) "mesh" "nz" 1 := by
      unfold cfgInt Ini.Reader.getInteger
      rw [getString_againTwo, if_neg (by decide), if_neg (by decide)]
    rw [e]
    exact (mul_one _).symm
  same := fun s n d hk => by
    have h1 := hk ("mpi", "mx") (by simp)
    have h2 := hk ("mesh", "nx") (by simp)
    rw [getString_againTwo, if_neg (fun h => h1 (h.trans (by decide))), if_neg (fun h => h2 (h.trans (by decide)))]

/-- The hypotheses of `C94_continues_serial_hydro_2d` are met: the serial program runs on `runIni` to the end time and
writes an initial HDF5 file; two processes started on `againTwoIni` read it, and continue the run. -/
theorem restart_two_processes (e : EnvMpi topo211 ℝ) (he : e.ident ≤ 0) :
    ∃ (e₀ e' : Env ℝ) (A B : RunState ℝ) (o : Output ℝ) (post : List (Output ℝ)) (f : H5File ℝ)
      (st : topo211.Rank → RunState ℝ) (flow : Flow Ctl topo211.Rank (RunState ℝ) (Msg ℝ)),
      Restarting exactLib exactMath (some (textOf runIni)) (some (textOf againIni)) "run_0000000.h5" e₀ e' A [] o post f ∧
      0 < A.t ∧
      MpiRestarts exactLib e true (fun _ => some f) (some (textOf againTwoIni)) st flow ∧
      Continues (SameInterior2 (hydroParams exactLib (cfgOf runIni))) (hydroParams exactLib (cfgOf runIni)) [] o post A B ∧
      Reproduces flow st (BlockFile2 topo211 (rawParams (lit 0) exactLib againTwoCfg)) B := by
  obtain ⟨e₀, e', A, o, post, f, h, hA, -⟩ := restart_sample
  have hw := againTwo_whole
  have hs : Sets againTwoCfg "run" "solver_name" "Hydro_Muscl_2D" :=
    whole_sets hw (by decide) fun d => (run_again.same _ _ _ (by decide)).trans (run_ordinary.1 d)
  have hT : TopoOf againTwoCfg topo211 := by
    refine ⟨?_, ?_, ?_, fun _ => rfl⟩
    · unfold cfgInt Ini.Reader.getInteger
      rw [getString_againTwo, if_pos (by decide)]
      decide
    · unfold cfgInt Ini.Reader.getInteger
      rw [getString_againTwo, if_neg (by decide), if_neg (by decide), cfgOf_eq (by decide +kernel)]
      decide +kernel
    · unfold cfgInt Ini.Reader.getInteger
      rw [getString_againTwo, if_neg (by decide), if_neg (by decide), cfgOf_eq (by decide +kernel)]
      decide +kernel
  have hpl : PlainHdf5 againTwoCfg := whole_plain hw (restarts_plainHdf5 run_again run_flags.1)
  obtain ⟨st, flow, hst⟩ := C94_restarts exactLib e (disk := fun _ => some f) (file := some (textOf againTwoIni)) hT hpl
    (whole_asks hw run_again) rfl (List.mem_cons_self ..) hs
  have hx : 2 ≤ cfgInt againTwoCfg "mesh" "nx" 1 := by
    unfold cfgInt Ini.Reader.getInteger
    rw [getString_againTwo, if_neg (by decide), if_pos (by decide)]
    decide
  have o' : Ordinary2 (hydroParams exactLib (cfgOf againIni)) := by
    rw [restarts_params run_again]; exact run_ordinary.2
  have oy : cfgInt againTwoCfg "mesh" "ny" 1 = cfgInt (cfgOf againIni) "mesh" "ny" 1 := by
    rw [hw.ny]; exact (mul_one _).symm
  have oz : cfgInt againTwoCfg "mesh" "nz" 1 = cfgInt (cfgOf againIni) "mesh" "nz" 1 := by
    rw [hw.nz]; exact (mul_one _).symm
  have ho := ordinary_block hw o' hx (o'.ny.trans_eq oy.symm) (o'.nz.trans_eq oz.symm)
  have hbc : NamedBC2 topo211 (hydroParamsMpi topo211 exactLib againTwoCfg) := by
    have h : ∀ k ∈ ["boundary_type_xmin", "boundary_type_xmax", "boundary_type_ymin", "boundary_type_ymax"],
        BC.ofInt (cfgInt againTwoCfg "mesh" k 1) = .dirichlet := by
      intro k hk
      have : OtherKey "mesh".toList k.toList := by
        simp only [List.mem_cons, List.not_mem_nil, or_false] at hk
        rcases hk with rfl | rfl | rfl | rfl <;> decide
      rw [← whole_int hw this, cfgOf_eq (by decide +kernel)]
      simp only [List.mem_cons, List.not_mem_nil, or_false] at hk
      rcases hk with rfl | rfl | rfl | rfl <;> decide +kernel
    refine ⟨?_, ?_, ?_, ?_⟩
    · exact Or.inr (Or.inl (h "boundary_type_xmin" (by simp)))
    · exact Or.inr (Or.inl (h "boundary_type_xmax" (by simp)))
    · exact Or.inr (Or.inl (h "boundary_type_ymin" (by simp)))
    · exact Or.inr (Or.inl (h "boundary_type_ymax" (by simp)))
  obtain ⟨B, h1, h2⟩ := C94_continues_serial_hydro_2d (file := some (textOf againTwoIni)) h run_flags.2.2.2.2 hw he rfl hst
    hs ho hbc run_flags.2.1
  exact ⟨e₀, e', A, B, o, post, f, st, flow, h, hA, hst, h1, h2⟩

end EulerKokkos
