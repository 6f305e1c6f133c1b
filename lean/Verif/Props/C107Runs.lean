import Verif.Props.C107Main
import Verif.Props.C107Solid

/-!
# C107 for whole 3D runs
-/

set_option linter.constructorNameAsVariable false

namespace EulerKokkos
open Spec Ieee64

theorem calm_below3 {p : Params Double} {d e : Double} (h : CalmGas p.riemannSolverType p.settings d e) (hx : FinitePos p.dx)
    (hy : FinitePos p.dy) (hz : FinitePos p.dz) {n δ : binary64.Mag} (hn : n.1 ≤ δ.1) (hd : CalmStep3 p d e (.fin false δ)) :
    CalmStep3 p d e (.fin false n) := by
  obtain ⟨a, b, hab, ea, eb⟩ := div_below hn hz hd.ratio_z
  refine ⟨calm_below h hx hy hn hd.toCalmStep, by rw [ea]; exact ⟨_, _, rfl⟩, ?_⟩
  have := hd.kick_z
  rw [eb] at this
  rw [ea]
  exact mul_below hab h.pressure this

/-- **C107, the time step**: for uniform gas at rest the time step is `restStep3`, bit for bit, in every schedule. -/
theorem C107_dt_3d {p : Params Double} (hw : p.WF) {d e : Double} (h : CalmRun3 p d e) {g : GravityParams}
    (hg : g.enabled = false) {n : Nat} {m : Mem Arr Double} (hu : Still3 p d e (hs3 m (pingIn n))) {dt : Double}
    (hd : computeDtLocal3 p g Spec.Ieee.lowest n m dt) : dt = restStep3 p d e := by
  obtain ⟨r, hr, rfl⟩ := hd
  rw [if_neg (by rw [hg]; decide)] at hr
  have hr : ParReduce (range3 p.isize p.jsize p.ksize) (dtBody3 p g (pingIn n)) kokkosMaxJoin Spec.Ieee.lowest m r := by
    unfold dtBody3
    rw [if_neg (by rw [hg]; decide)]
    exact hr
  have rate : ∀ i j k, interior3 p i j k → ∀ a, cellRate3 p g (hs3 m (pingIn n) i j k) a =
      gasSound p.settings d e / p.dx + gasSound p.settings d e / p.dy + gasSound p.settings d e / p.dz := by
    intro i j k hij a
    obtain ⟨⟨a1, a2, a3, a4⟩, a5⟩ := prim_still3 h.gas (hu i j k hij)
    have ec : (computePrimitives3 p.settings (hs3 m (pingIn n) i j k)).2 = gasSound p.settings d e := by
      have : (computePrimitives3 p.settings (hs3 m (pingIn n) i j k)).2 = RealOps.sqrt (p.settings.gamma0 *
        (computePrimitives3 p.settings (hs3 m (pingIn n) i j k)).1.p /
          (computePrimitives3 p.settings (hs3 m (pingIn n) i j k)).1.d) := rfl
      rw [this, a1, a2]
      rfl
    unfold cellRate3
    dsimp only
    rw [if_neg (by rw [hg]; decide), ec, pos_add h.sound (zero_fabs a3), pos_add h.sound (zero_fabs a4),
      pos_add h.sound (zero_fabs a5)]
  obtain ⟨l, hl, hm, hr⟩ := hr
  have := (reduce_same h.rate (fun t : Int × Int × Int => interior3 p t.1 t.2.1 t.2.2)
    (fun t a ht => by rw [dtBody3_in hw ht, rate _ _ _ ht]) (fun t a ht => dtBody3_out hw ht a) hr).2
    ⟨(p.ghostWidth, p.ghostWidth, p.ghostWidth), by
      have h1 := hw.nx_pos
      have h2 := hw.ny_pos
      have h3 := hw.gw_pos
      have h4 := hw.isize_eq
      have h5 := hw.jsize_eq
      have h6 := hw.nz_pos
      have h7 := hw.ksize_eq
      refine ⟨(hm _).2 ?_, ⟨⟨le_rfl, by dsimp only; omega⟩, ⟨le_rfl, by dsimp only; omega⟩, le_rfl, by dsimp only; omega⟩⟩
      rw [mem_range3]
      dsimp only
      omega⟩
  rw [this]
  rfl

/-- the gas and every file written so far -/
def StillRun3 (p : Params Double) (d e : Double) (s : RunState Double) : Prop :=
  Still3 p d e (hs3 s.mem (pingIn s.iteration)) ∧ ∀ o ∈ s.outputs, Still3 p d e (fileState3 o.data)

theorem still_save3 {p : Params Double} {d e : Double} {s : RunState Double} (h : StillRun3 p d e s) :
    StillRun3 p d e (saveSolution s) := by
  refine ⟨h.1, fun o ho => ?_⟩
  rcases List.mem_append.1 ho with ho | ho
  · exact h.2 o ho
  · rw [List.mem_singleton.1 ho]
    exact h.1

theorem still_log3 {p q : Params Double} {d e : Double} {s : RunState Double} (h : StillRun3 p d e s) :
    StillRun3 p d e (maybeSave q (logLine q s)) := by
  have hl : StillRun3 p d e (logLine q s) := by unfold logLine; split <;> exact h
  unfold maybeSave
  split
  · exact still_save3 hl
  · exact hl

theorem still_next3 {p : Params Double} (hp : Hydro3 p) (hv : p.implementationVersion = 0 ∨ p.implementationVersion = 1)
    {g : GravityParams} (hg : g.enabled = false) {d e : Double} (h : CalmRun3 p d e)
    {jk : Junk Double} {s s' : RunState Double} (hf : ¬ finished p s)
    (hn : nextIteration p (hydroOps3 p g Spec.Ieee.lowest jk) s s') (hs : StillRun3 p d e s) : StillRun3 p d e s' := by
  obtain ⟨s1, ⟨_, m1, s2, m3, hpre, ⟨dl, hdl, rfl⟩, hpost, rfl⟩, rfl⟩ := hn
  cases hpre
  have h1 : StillRun3 p d e (maybeSave p (logLine p s)) := still_log3 hs
  obtain rfl : dl = restStep3 p d e := C107_dt_3d hp.wf h hg h1.1 hdl
  have hle : RealOps.le (p.tEnd - lit (1 / 100000000000000)) s.t = false := by
    rw [Bool.eq_false_iff]
    exact fun hc => hf (.inl hc)
  have hcalm : CalmStep3 p d e (clipDt p (maybeSave p (logLine p s)).t (restStep3 p d e)) := by
    rw [log_t]
    obtain ⟨δ, -, eδ⟩ := h.pos
    have hst := h.step
    rw [eδ] at hst ⊢
    obtain ⟨n, hn, e1⟩ := clip_below (δ := δ) h.tEnd hle
    rw [e1]
    exact calm_below3 h.gas h.dx h.dy h.dz hn hst
  refine ⟨?_, h1.2⟩
  have hrun := C107_rest_run_3d hp hv hg h.gas (jk := jk) [_] (by
    intro dt hdt
    rw [List.mem_singleton.1 hdt]
    exact hcalm) (maybeSave p (logLine p s)).iteration (m' := m3) ⟨m3, hpost, rfl⟩ h1.1
  exact hrun

theorem still_turns3 {p : Params Double} (hp : Hydro3 p) (hv : p.implementationVersion = 0 ∨ p.implementationVersion = 1)
    {g : GravityParams} (hg : g.enabled = false) {d e : Double} (h : CalmRun3 p d e)
    {jk : Junk Double} {k : Nat} {s s' : RunState Double} (hn : Turns p (hydroOps3 p g Spec.Ieee.lowest jk) k s s')
    (hs : StillRun3 p d e s) : StillRun3 p d e s' := by
  induction hn with
  | zero => exact hs
  | succ _ hf hn ih => exact still_next3 hp hv hg h hf hn (ih hs)

theorem still_main3 {p : Params Double} {d e : Double} {s : RunState Double} (h : StillRun3 p d e s) :
    StillRun3 p d e (mainSave p s) := by
  unfold mainSave
  split
  · exact still_save3 h
  · exact h

/-- **C107, a run of the program**: `main` of the serial 3D hydro solver, started in double precision from uniform gas at rest,
with the time steps it computes itself (the last one shortened to end at `tEnd`), under any schedule: every output file it
writes, and the state it ends with, hold exactly the initial gas. -/
theorem C107_main_3d {p : Params Double} (hp : Hydro3 p) (hv : p.implementationVersion = 0 ∨ p.implementationVersion = 1)
    {g : GravityParams} (hg : g.enabled = false) {d e : Double} (h : CalmRun3 p d e)
    {jk : Junk Double} {m : Mem Arr Double} (hu : Still3 p d e (hs3 m .U)) {t : Double} {sv : Int} {s : RunState Double}
    (hm : runMain p (hydroOps3 p g Spec.Ieee.lowest jk) m t sv s) :
    Still3 p d e (hs3 s.mem (pingIn s.iteration)) ∧ ∀ o ∈ s.outputs, Still3 p d e (fileState3 o.data) := by
  obtain ⟨s0, s1, ⟨m1, ⟨mb, hb, hc⟩, d1, hd1, rfl⟩, ⟨nk, hk, -⟩, rfl⟩ := hm
  obtain ⟨b1, b2⟩ := makeBoundaries3_hs3 hp Ieee.signLaws hb
  have hgw := hp.wf.gw_pos
  have hm1 : m1 = fun l => if l.arr = .U2 then mb { l with arr := .U } else mb l := hc
  have h0 : Still3 p d e (hs3 m1 .U) := by
    intro i j k hij
    have hin : inGrid3 p i j k := by
      obtain ⟨⟨a1, a2⟩, ⟨a3, a4⟩, a5, a6⟩ := hij
      exact ⟨⟨by omega, by omega⟩, ⟨by omega, by omega⟩, by omega, by omega⟩
    have e1 : hs3 m1 .U i j k = hs3 mb .U i j k := by rw [hm1]; rfl
    rw [e1, b2 i j k hin]
    exact fill_still3 hp hu i j k hin
  exact still_main3 (still_turns3 hp hv hg h hk (still_main3 ⟨h0, fun o ho => absurd ho List.not_mem_nil⟩))


/-- the 3D grid of the same gas, cells half as high -/
noncomputable def stillParamsZ : Params Double := { stillParams3 with dz := lit (1/2) }

theorem still_hydroZ : Hydro3 stillParamsZ where
  wf := by constructor <;> decide
  nbvar := rfl
  valid := ⟨still_hydro.valid.slope, by decide⟩
  faces := ⟨still_hydro.faces, .inr (by decide), .inr (by decide)⟩

/-- its time step is exactly 1/8 -/
theorem still_calm_run3 : CalmRun3 stillParamsZ (lit 1) (lit (1/2)) ∧
    restStep3 stillParamsZ (lit 1) (lit (1/2)) = lit (1/8) := by
  have r2 : Rep 2 := ⟨2, 0, by norm_num, by norm_num, by norm_num, by norm_num⟩
  have r4 : Rep 4 := ⟨4, 0, by norm_num, by norm_num, by norm_num, by norm_num⟩
  have rq : Rep (1/4) := ⟨1, -2, by norm_num, by norm_num, by norm_num, by norm_num⟩
  have r8 : Rep (1/8) := ⟨1, -3, by norm_num, by norm_num, by norm_num, by norm_num⟩
  have h11 : (lit 1 * lit 1 : Double) = lit 1 := mul_rep Tie.r1 Tie.r1 (by norm_num) Tie.r1
  have h1h : (lit 1 * lit (1/2) : Double) = lit (1/2) := mul_rep Tie.r1 Tie.rh (by norm_num) Tie.rh
  have h2h : (lit 2 * lit (1/2) : Double) = lit 1 := mul_rep r2 Tie.rh (by norm_num) Tie.r1
  have hm : (lit 2 - lit 1 : Double) = lit 1 := sub_rep r2 Tie.r1 (by norm_num) Tie.r1
  have d11 : (lit 1 / lit 1 : Double) = lit 1 := div_rep Tie.r1 Tie.r1 (by norm_num) (by norm_num) Tie.r1
  have d1h : (lit 1 / lit (1/2) : Double) = lit 2 := div_rep Tie.r1 Tie.rh (by norm_num) (by norm_num) r2
  have dh1 : (lit (1/2) / lit 1 : Double) = lit (1/2) := div_rep Tie.rh Tie.r1 (by norm_num) (by norm_num) Tie.rh
  have dh4 : (lit (1/2) / lit 4 : Double) = lit (1/8) := div_rep Tie.rh r4 (by norm_num) (by norm_num) r8
  have d8h : (lit (1/8) / lit (1/2) : Double) = lit (1/4) := div_rep r8 Tie.rh (by norm_num) (by norm_num) rq
  have dq1 : (lit (1/4) / lit 1 : Double) = lit (1/4) := div_rep rq Tie.r1 (by norm_num) (by norm_num) rq
  have a11 : (lit 1 + lit 1 : Double) = lit 2 := add_rep Tie.r1 Tie.r1 (by norm_num) r2
  have a22 : (lit 2 + lit 2 : Double) = lit 4 := add_rep r2 r2 (by norm_num) r4
  have p1 : FinitePos (lit 1 : Double) := finitePos_lit Tie.r1 (by norm_num)
  have p8 : FinitePos (lit (1/8) : Double) := finitePos_lit r8 (by norm_num)
  have sq : RealOps.sqrt (lit 1 : Double) = lit 1 := by
    rw [lit_rep Tie.r1]
    show Spec.Ieee.sqrt _ = _
    unfold Spec.Ieee.sqrt
    simp only [Rat.cast_one, Real.sqrt_one, one_ne_zero, if_false, Bool.false_eq_true]
    have := round_rep Tie.r1
    rw [lit_rep Tie.r1] at this
    simpa using this
  have ec : gasSound stillParamsZ.settings (lit 1) (lit (1/2)) = lit 1 := by
    show RealOps.sqrt (lit 2 * ((lit 2 - lit 1) * lit 1 * (lit (1/2) / lit 1)) / lit 1 : Double) = _
    rw [hm, h11, dh1, h1h, h2h, d11, sq]
  have er : gasSound stillParamsZ.settings (lit 1) (lit (1/2)) / stillParamsZ.dx +
      gasSound stillParamsZ.settings (lit 1) (lit (1/2)) / stillParamsZ.dy +
      gasSound stillParamsZ.settings (lit 1) (lit (1/2)) / stillParamsZ.dz = lit 4 := by
    rw [ec]
    show (lit 1 / lit 1 + lit 1 / lit 1 + lit 1 / lit (1/2) : Double) = _
    rw [d11, a11, d1h, a22]
  have es : restStep3 stillParamsZ (lit 1) (lit (1/2)) = lit (1/8) := by
    unfold restStep3
    rw [er]
    exact dh4
  have hs : CalmStep stillParams (lit 1) (lit (1/2)) (lit (1/8)) := by
    have h4 := still_calm.2
    rw [lit_rep rq] at h4
    rw [lit_rep r8]
    refine calm_below still_calm.1 p1 p1 ?_ h4
    show ((1/8 : ℚ) : ℝ) ≤ ((1/4 : ℚ) : ℝ)
    norm_num
  have hz : CalmStep3 stillParamsZ (lit 1) (lit (1/2)) (lit (1/8)) := by
    refine ⟨⟨hs.ratio_x, hs.ratio_y, hs.kick_x, hs.kick_y⟩, ?_, ?_⟩
    · show IsFin (lit (1/8) / lit (1/2))
      rw [d8h]; exact pos_fin (finitePos_lit rq (by norm_num))
    · have := still_calm.2.kick_x
      rw [show stillParams.dx = lit 1 from rfl, dq1] at this
      rw [show stillParamsZ.dz = lit (1/2) from rfl, d8h]
      exact this
  exact ⟨⟨still_calm.1, p1, p1, finitePos_lit Tie.rh (by norm_num), p1, by rw [ec]; exact p1,
    by rw [er]; exact finitePos_lit r4 (by norm_num), by rw [es]; exact p8, by rw [es]; exact hz⟩, es⟩

/-- a 3D run from that gas exists, and all its files hold it -/
example (jk : Junk Double) (sv : Int) : ∃ s, runMain stillParamsZ (hydroOps3 stillParamsZ ⟨false, false⟩ Spec.Ieee.lowest jk)
    (fun l => if l.v = ID then lit 1 else if l.v = IP then lit (1/2) else lit 0) (lit 0) sv s ∧
    ∀ o ∈ s.outputs, Still3 stillParamsZ (lit 1) (lit (1/2)) (fileState3 o.data) := by
  have sgh : Spec.Ieee.Sg (lit (1/2) : Double) := by
    rw [lit_rep Tie.rh]
    exact .inr rfl
  obtain ⟨s, hs⟩ := runMain_total (p := stillParamsZ) (once_hydro3 Ieee.maxLaws still_hydroZ.wf still_hydroZ.faces (.inl rfl)
    tie_sg tie_sg sgh ⟨false, false⟩ Ieee.num_lowest jk).toTotal (by decide)
    (fun l => if l.v = ID then lit 1 else if l.v = IP then lit (1/2) else lit 0) (lit 0) sv
  exact ⟨s, hs, (C107_main_3d (m := fun l => if l.v = ID then lit 1 else if l.v = IP then lit (1/2) else lit 0) still_hydroZ
    (.inl rfl) rfl still_calm_run3.1 (fun _ _ _ _ => ⟨⟨rfl, rfl, zero_lit, zero_lit⟩, zero_lit⟩) hs).2⟩

end EulerKokkos
