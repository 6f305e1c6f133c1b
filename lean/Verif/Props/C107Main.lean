import Verif.Props.C107
import Verif.Lemmas.IeeeClip
import Verif.Lemmas.DriverUnique

/-!
# C107 for whole runs of the serial program
-/

set_option linter.constructorNameAsVariable false

namespace EulerKokkos
open Spec Ieee64

/-- **C107, the time step**: for uniform gas at rest the time step is `restStep`, bit for bit, in every schedule. -/
theorem C107_dt {p : Params Double} (hw : p.WF) {d e : Double} (h : CalmRun p d e) {g : GravityParams}
    (hg : g.enabled = false) {n : Nat} {m : Mem Arr Double} (hu : Still p d e (hs2 m (pingIn n))) {dt : Double}
    (hd : computeDtLocal2 p g Spec.Ieee.lowest n m dt) : dt = restStep p d e := by
  obtain ⟨r, hr, rfl⟩ := hd
  rw [if_neg (by rw [hg]; decide)] at hr
  have hr : ParReduce (range2 p.isize p.jsize) (dtBody2 p g (pingIn n)) kokkosMaxJoin Spec.Ieee.lowest m r := by
    unfold dtBody2
    rw [if_neg (by rw [hg]; decide)]
    exact hr
  have rate : ∀ i j, interior2 p i j → ∀ a, cellRate2 p g (hs2 m (pingIn n) i j) a =
      gasSound p.settings d e / p.dx + gasSound p.settings d e / p.dy := by
    intro i j hij a
    obtain ⟨a1, a2, a3, a4⟩ := prim_still h.gas (hu i j hij)
    have ec : (computePrimitives2 p.settings (hs2 m (pingIn n) i j)).2 = gasSound p.settings d e := by
      have : (computePrimitives2 p.settings (hs2 m (pingIn n) i j)).2 = RealOps.sqrt (p.settings.gamma0 *
        (computePrimitives2 p.settings (hs2 m (pingIn n) i j)).1.p /
          (computePrimitives2 p.settings (hs2 m (pingIn n) i j)).1.d) := rfl
      rw [this, a1, a2]
      rfl
    unfold cellRate2
    dsimp only
    rw [if_neg (by rw [hg]; decide), ec, pos_add h.sound (zero_fabs a3), pos_add h.sound (zero_fabs a4)]
  obtain ⟨l, hl, hm, hr⟩ := hr
  have := (reduce_same h.rate (fun t : Int × Int => interior2 p t.1 t.2)
    (fun t a ht => by rw [dtBody2_in hw ht, rate _ _ ht]) (fun t a ht => dtBody2_out hw ht a) hr).2
    ⟨(p.ghostWidth, p.ghostWidth), by
      have h1 := hw.nx_pos
      have h2 := hw.ny_pos
      have h3 := hw.gw_pos
      have h4 := hw.isize_eq
      have h5 := hw.jsize_eq
      refine ⟨(hm _).2 ?_, ⟨le_rfl, by dsimp only; omega, le_rfl, by dsimp only; omega⟩⟩
      rw [mem_range2]
      dsimp only
      omega⟩
  rw [this]
  rfl

/-- the gas and every file written so far -/
def StillRun (p : Params Double) (d e : Double) (s : RunState Double) : Prop :=
  Still p d e (hs2 s.mem (pingIn s.iteration)) ∧ ∀ o ∈ s.outputs, Still p d e (fileState o.data)

theorem still_save {p : Params Double} {d e : Double} {s : RunState Double} (h : StillRun p d e s) :
    StillRun p d e (saveSolution s) := by
  refine ⟨h.1, fun o ho => ?_⟩
  rcases List.mem_append.1 ho with ho | ho
  · exact h.2 o ho
  · rw [List.mem_singleton.1 ho]
    exact h.1

theorem still_log {p q : Params Double} {d e : Double} {s : RunState Double} (h : StillRun p d e s) :
    StillRun p d e (maybeSave q (logLine q s)) := by
  have hl : StillRun p d e (logLine q s) := by unfold logLine; split <;> exact h
  unfold maybeSave
  split
  · exact still_save hl
  · exact hl

theorem log_t {q : Params Double} {s : RunState Double} : (maybeSave q (logLine q s)).t = s.t := by
  unfold maybeSave logLine saveSolution
  split_ifs <;> rfl

theorem still_next {p : Params Double} (hp : Hydro2 p) (hv : p.implementationVersion = 0 ∨ p.implementationVersion = 1)
    {g : GravityParams} (hg : g.enabled = false) {d e : Double} (h : CalmRun p d e)
    {jk : Junk Double} {s s' : RunState Double} (hf : ¬ finished p s)
    (hn : nextIteration p (hydroOps2 p g Spec.Ieee.lowest jk) s s') (hs : StillRun p d e s) : StillRun p d e s' := by
  obtain ⟨s1, ⟨_, m1, s2, m3, hpre, ⟨dl, hdl, rfl⟩, hpost, rfl⟩, rfl⟩ := hn
  cases hpre
  have h1 : StillRun p d e (maybeSave p (logLine p s)) := still_log hs
  obtain rfl : dl = restStep p d e := C107_dt hp.wf h hg h1.1 hdl
  have hle : RealOps.le (p.tEnd - lit (1 / 100000000000000)) s.t = false := by
    rw [Bool.eq_false_iff]
    exact fun hc => hf (.inl hc)
  have hcalm : CalmStep p d e (clipDt p (maybeSave p (logLine p s)).t (restStep p d e)) := by
    rw [log_t]
    obtain ⟨δ, -, eδ⟩ := h.pos
    have hst := h.step
    rw [eδ] at hst ⊢
    obtain ⟨n, hn, e1⟩ := clip_below (δ := δ) h.tEnd hle
    rw [e1]
    exact calm_below h.gas h.dx h.dy hn hst
  refine ⟨?_, h1.2⟩
  have hrun := C107_rest_run hp hv hg h.gas (jk := jk) [_] (by
    intro dt hdt
    rw [List.mem_singleton.1 hdt]
    exact hcalm) (maybeSave p (logLine p s)).iteration (m' := m3) ⟨m3, hpost, rfl⟩ h1.1
  exact hrun

theorem still_turns {p : Params Double} (hp : Hydro2 p) (hv : p.implementationVersion = 0 ∨ p.implementationVersion = 1)
    {g : GravityParams} (hg : g.enabled = false) {d e : Double} (h : CalmRun p d e)
    {jk : Junk Double} {k : Nat} {s s' : RunState Double} (hn : Turns p (hydroOps2 p g Spec.Ieee.lowest jk) k s s')
    (hs : StillRun p d e s) : StillRun p d e s' := by
  induction hn with
  | zero => exact hs
  | succ _ hf hn ih => exact still_next hp hv hg h hf hn (ih hs)

theorem still_main {p : Params Double} {d e : Double} {s : RunState Double} (h : StillRun p d e s) :
    StillRun p d e (mainSave p s) := by
  unfold mainSave
  split
  · exact still_save h
  · exact h

/-- **C107, a run of the program**: `main` of the serial 2D hydro solver, started in double precision from uniform gas at rest,
with the time steps it computes itself (the last one shortened to end at `tEnd`), under any schedule: every output file it
writes, and the state it ends with, hold exactly the initial gas. -/
theorem C107_main {p : Params Double} (hp : Hydro2 p) (hv : p.implementationVersion = 0 ∨ p.implementationVersion = 1)
    {g : GravityParams} (hg : g.enabled = false) {d e : Double} (h : CalmRun p d e)
    {jk : Junk Double} {m : Mem Arr Double} (hu : Still p d e (hs2 m .U)) {t : Double} {sv : Int} {s : RunState Double}
    (hm : runMain p (hydroOps2 p g Spec.Ieee.lowest jk) m t sv s) :
    Still p d e (hs2 s.mem (pingIn s.iteration)) ∧ ∀ o ∈ s.outputs, Still p d e (fileState o.data) := by
  obtain ⟨s0, s1, ⟨m1, ⟨mb, hb, hc⟩, d1, hd1, rfl⟩, ⟨k, hk, -⟩, rfl⟩ := hm
  obtain ⟨b1, b2⟩ := makeBoundaries2_hs2 hp Ieee.signLaws hb
  have hgw := hp.wf.gw_pos
  have hm1 : m1 = fun l => if l.arr = .U2 then mb { l with arr := .U } else mb l := hc
  have h0 : Still p d e (hs2 m1 .U) := by
    intro i j hij
    have hin : inGrid2 p i j := by
      obtain ⟨a1, a2, a3, a4⟩ := hij
      exact ⟨by omega, by omega, by omega, by omega⟩
    have e1 : hs2 m1 .U i j = hs2 mb .U i j := by rw [hm1]; rfl
    rw [e1, b2 i j hin]
    exact fill_still hp hu i j hin
  exact still_main (still_turns hp hv hg h hk (still_main ⟨h0, fun o ho => absurd ho List.not_mem_nil⟩))

/-- the gas of `still_calm` meets the hypotheses of `C107_main`: its time step is exactly 1/4 -/
theorem still_calm_run : CalmRun stillParams (lit 1) (lit (1/2)) ∧ restStep stillParams (lit 1) (lit (1/2)) = lit (1/4) := by
  have r2 : Rep 2 := ⟨2, 0, by norm_num, by norm_num, by norm_num, by norm_num⟩
  have r4 : Rep (1/4) := ⟨1, -2, by norm_num, by norm_num, by norm_num, by norm_num⟩
  have h11 : (lit 1 * lit 1 : Double) = lit 1 := mul_rep Tie.r1 Tie.r1 (by norm_num) Tie.r1
  have h1h : (lit 1 * lit (1/2) : Double) = lit (1/2) := mul_rep Tie.r1 Tie.rh (by norm_num) Tie.rh
  have h2h : (lit 2 * lit (1/2) : Double) = lit 1 := mul_rep r2 Tie.rh (by norm_num) Tie.r1
  have hm : (lit 2 - lit 1 : Double) = lit 1 := sub_rep r2 Tie.r1 (by norm_num) Tie.r1
  have d11 : (lit 1 / lit 1 : Double) = lit 1 := div_rep Tie.r1 Tie.r1 (by norm_num) (by norm_num) Tie.r1
  have dh1 : (lit (1/2) / lit 1 : Double) = lit (1/2) := div_rep Tie.rh Tie.r1 (by norm_num) (by norm_num) Tie.rh
  have dh2 : (lit (1/2) / lit 2 : Double) = lit (1/4) := div_rep Tie.rh r2 (by norm_num) (by norm_num) r4
  have a11 : (lit 1 + lit 1 : Double) = lit 2 := add_rep Tie.r1 Tie.r1 (by norm_num) r2
  have p1 : FinitePos (lit 1 : Double) := finitePos_lit Tie.r1 (by norm_num)
  have sq : RealOps.sqrt (lit 1 : Double) = lit 1 := by
    rw [lit_rep Tie.r1]
    show Spec.Ieee.sqrt _ = _
    unfold Spec.Ieee.sqrt
    simp only [Rat.cast_one, Real.sqrt_one, one_ne_zero, if_false, Bool.false_eq_true]
    have := round_rep Tie.r1
    rw [lit_rep Tie.r1] at this
    simpa using this
  have ec : gasSound stillParams.settings (lit 1) (lit (1/2)) = lit 1 := by
    show RealOps.sqrt (lit 2 * ((lit 2 - lit 1) * lit 1 * (lit (1/2) / lit 1)) / lit 1 : Double) = _
    rw [hm, h11, dh1, h1h, h2h, d11, sq]
  have er : gasSound stillParams.settings (lit 1) (lit (1/2)) / stillParams.dx +
      gasSound stillParams.settings (lit 1) (lit (1/2)) / stillParams.dy = lit 2 := by
    rw [ec]
    show (lit 1 / lit 1 + lit 1 / lit 1 : Double) = _
    rw [d11, a11]
  have es : restStep stillParams (lit 1) (lit (1/2)) = lit (1/4) := by
    unfold restStep
    rw [er]
    exact dh2
  exact ⟨⟨still_calm.1, p1, p1, p1, by rw [ec]; exact p1, by rw [er]; exact finitePos_lit r2 (by norm_num),
    by rw [es]; exact finitePos_lit r4 (by norm_num), by rw [es]; exact still_calm.2⟩, es⟩

/-- and a run of the program from that gas exists -/
example (jk : Junk Double) (sv : Int) : ∃ s, runMain stillParams (hydroOps2 stillParams ⟨false, false⟩ Spec.Ieee.lowest jk)
    (fun l => if l.v = ID then lit 1 else if l.v = IP then lit (1/2) else lit 0) (lit 0) sv s ∧
    ∀ o ∈ s.outputs, Still stillParams (lit 1) (lit (1/2)) (fileState o.data) := by
  obtain ⟨s, hs⟩ := runMain_total (p := stillParams) (once_hydro2 Ieee.maxLaws still_hydro.wf still_hydro.faces (.inl rfl)
    tie_sg tie_sg ⟨false, false⟩ Ieee.num_lowest jk).toTotal (by decide)
    (fun l => if l.v = ID then lit 1 else if l.v = IP then lit (1/2) else lit 0) (lit 0) sv
  exact ⟨s, hs, (C107_main (m := fun l => if l.v = ID then lit 1 else if l.v = IP then lit (1/2) else lit 0) still_hydro
    (.inl rfl) rfl still_calm_run.1 (fun _ _ _ => ⟨rfl, rfl, zero_lit, zero_lit⟩) hs).2⟩

end EulerKokkos
