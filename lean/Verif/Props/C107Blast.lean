import Verif.Props.C107Runs
import Verif.Lemmas.Init

/-!
# C107: a blast without contrast is no blast

The shipped problem that starts from gas at rest, with the same density and pressure inside and outside of the disc.
-/

set_option linter.constructorNameAsVariable false

namespace EulerKokkos
open Spec Ieee64

/-- density and pressure are the same inside and outside -/
def Spec.FlatBlast (q : BlastParams Double) : Prop := q.density_in = q.density_out ∧ q.pressure_in = q.pressure_out

theorem flat_still {M : MathLib Double} {p : Params Double} (hw : p.WF) {q : BlastParams Double} (hq : FlatBlast q)
    {pos : Int × Int × Int} {rnd : Int → Int → Int → Nat → Double} {m0 m : Mem Arr Double}
    (hm : runLaunches (initHydro2 M p pos rnd (.blast q)) m0 m) :
    Still p q.density_out (q.pressure_out / (p.settings.gamma0 - lit 1)) (hs2 m .U) := by
  intro i j hij
  rw [initHydro2_iff] at hm
  have h1 : (i, j) ∈ range2 p.isize p.jsize := by
    obtain ⟨a, b, c, d⟩ := hij
    have := hw.isize_eq
    have := hw.jsize_eq
    have := hw.gw_pos
    exact mem_range2.2 ⟨⟨by omega, by omega⟩, by omega, by omega⟩
  have hv : ∀ v < 4, m ⟨.U, i, j, 0, v⟩ =
      (⟨q.density_out, q.pressure_out / (p.settings.gamma0 - lit 1), lit 0, lit 0, lit 0⟩ : HS Double).get v := by
    intro v hv
    rw [hm]
    beta_reduce
    rw [if_pos ⟨Or.inl rfl, h1⟩, run_hydroInit2_U _ _ _ _ _ _ _ _ _ hv]
    show (blast2 p q _ _).get v = _
    unfold blast2
    dsimp only
    rw [hq.1, hq.2, ite_self]
  exact ⟨hv ID (by decide), hv IP (by decide), by rw [show (hs2 m .U i j).u = _ from hv IU (by decide)]; exact zero_lit,
    by rw [show (hs2 m .U i j).v = _ from hv IV (by decide)]; exact zero_lit⟩

/-- **C107, the flat blast, 2D**: initial condition and run of the serial program in double precision; the radius and the
centre of the disc, whatever they are, leave no trace in the output. -/
theorem C107_flat_blast_2d {M : MathLib Double} {p : Params Double} (hp : Hydro2 p)
    (hv : p.implementationVersion = 0 ∨ p.implementationVersion = 1) {g : GravityParams} (hg : g.enabled = false)
    {q : BlastParams Double} (hq : FlatBlast q)
    (h : CalmRun p q.density_out (q.pressure_out / (p.settings.gamma0 - lit 1)))
    {rnd : Int → Int → Int → Nat → Double} {m : Mem Arr Double}
    (hm : runLaunches (initHydro2 M p (0, 0, 0) rnd (.blast q)) freshMem m) {jk : Junk Double} {t : Double} {sv : Int}
    {s : RunState Double} (hr : runMain p (hydroOps2 p g Spec.Ieee.lowest jk) m t sv s) :
    ∀ o ∈ s.outputs, Still p q.density_out (q.pressure_out / (p.settings.gamma0 - lit 1)) (fileState o.data) :=
  (C107_main hp hv hg h (flat_still hp.wf hq hm) hr).2

theorem flat_still3 {M : MathLib Double} {p : Params Double} (hw : p.WF) {q : BlastParams Double} (hq : FlatBlast q)
    {pos : Int × Int × Int} {rnd : Int → Int → Int → Nat → Double} {m0 m : Mem Arr Double}
    (hm : runLaunches (initHydro3 M p pos rnd (.blast q)) m0 m) :
    Still3 p q.density_out (q.pressure_out / (p.settings.gamma0 - lit 1)) (hs3 m .U) := by
  intro i j k hij
  rw [initHydro3_iff] at hm
  have h1 : (i, j, k) ∈ range3 p.isize p.jsize p.ksize := by
    obtain ⟨⟨a, b⟩, ⟨c, d⟩, e, f⟩ := hij
    have := hw.isize_eq
    have := hw.jsize_eq
    have := hw.ksize_eq
    have := hw.gw_pos
    rw [mem_range3]
    dsimp only
    omega
  have hv : ∀ v < 5, m ⟨.U, i, j, k, v⟩ =
      (⟨q.density_out, q.pressure_out / (p.settings.gamma0 - lit 1), lit 0, lit 0, lit 0⟩ : HS Double).get v := by
    intro v hv
    rw [hm]
    beta_reduce
    rw [if_pos ⟨Or.inl rfl, h1⟩, run_hydroInit3_U _ _ _ _ _ _ _ _ _ _ hv]
    show (blast3 p q _ _ _).get v = _
    unfold blast3
    dsimp only
    rw [hq.1, hq.2, ite_self]
  exact ⟨⟨hv ID (by decide), hv IP (by decide),
    by rw [show (hs3 m .U i j k).u = _ from hv IU (by decide)]; exact zero_lit,
    by rw [show (hs3 m .U i j k).v = _ from hv IV (by decide)]; exact zero_lit⟩,
    by rw [show (hs3 m .U i j k).w = _ from hv IW (by decide)]; exact zero_lit⟩

/-- **C107, the flat blast, 3D.** -/
theorem C107_flat_blast_3d {M : MathLib Double} {p : Params Double} (hp : Hydro3 p)
    (hv : p.implementationVersion = 0 ∨ p.implementationVersion = 1) {g : GravityParams} (hg : g.enabled = false)
    {q : BlastParams Double} (hq : FlatBlast q)
    (h : CalmRun3 p q.density_out (q.pressure_out / (p.settings.gamma0 - lit 1)))
    {rnd : Int → Int → Int → Nat → Double} {m : Mem Arr Double}
    (hm : runLaunches (initHydro3 M p (0, 0, 0) rnd (.blast q)) freshMem m) {jk : Junk Double} {t : Double} {sv : Int}
    {s : RunState Double} (hr : runMain p (hydroOps3 p g Spec.Ieee.lowest jk) m t sv s) :
    ∀ o ∈ s.outputs, Still3 p q.density_out (q.pressure_out / (p.settings.gamma0 - lit 1)) (fileState3 o.data) :=
  (C107_main_3d hp hv hg h (flat_still3 hp.wf hq hm) hr).2

theorem flat_energy : (lit (1/2) / (stillParams.settings.gamma0 - lit 1) : Double) = lit (1/2) := by
  have r2 : Rep 2 := ⟨2, 0, by norm_num, by norm_num, by norm_num, by norm_num⟩
  show (lit (1/2) / (lit 2 - lit 1) : Double) = _
  rw [show (lit 2 - lit 1 : Double) = lit 1 from sub_rep r2 Tie.r1 (by norm_num) Tie.r1]
  exact div_rep Tie.rh Tie.r1 (by norm_num) (by norm_num) Tie.rh

/-- the hypotheses are met by the gas of `still_calm`, a disc of any radius and centre -/
example (M : MathLib Double) (q : BlastParams Double) (rnd : Int → Int → Int → Nat → Double) (jk : Junk Double) :
    ∃ m s, runLaunches (initHydro2 M stillParams (0, 0, 0) rnd
        (.blast { q with
      density_in := lit 1, density_out := lit 1, pressure_in := lit (1/2), pressure_out := lit (1/2) })) freshMem m ∧
      runMain stillParams (hydroOps2 stillParams ⟨false, false⟩ Spec.Ieee.lowest jk) m (lit 0) 0 s ∧
      ∀ o ∈ s.outputs, Still stillParams (lit 1) (lit (1/2)) (fileState o.data) := by
  have hm := (initHydro2_iff M stillParams (0, 0, 0) rnd (.blast { q with
      density_in := lit 1, density_out := lit 1, pressure_in := lit (1/2), pressure_out := lit (1/2) })
    freshMem _).2 rfl
  obtain ⟨s, hs⟩ := runMain_total (p := stillParams) (once_hydro2 Ieee.maxLaws still_hydro.wf still_hydro.faces (.inl rfl)
    tie_sg tie_sg ⟨false, false⟩ Ieee.num_lowest jk).toTotal (by decide) _ (lit 0) 0
  refine ⟨_, s, hm, hs, ?_⟩
  have := C107_flat_blast_2d still_hydro (.inl rfl) rfl ⟨rfl, rfl⟩
    (by show CalmRun stillParams (lit 1) (lit (1/2) / (stillParams.settings.gamma0 - lit 1))
        rw [flat_energy]; exact still_calm_run.1) hm hs
  rw [show (lit (1/2) / (stillParams.settings.gamma0 - lit 1) : Double) = lit (1/2) from flat_energy] at this
  exact this

end EulerKokkos
