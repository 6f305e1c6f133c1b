import Verif.Props.C103Sample
import Verif.Props.C104

/-!
# C104: the laws hold in exact and in fixed point arithmetic; the shipped implosion on two processes
-/

set_option linter.constructorNameAsVariable false
set_option linter.unusedSectionVars false
set_option linter.unusedSimpArgs false

namespace EulerKokkos
open Spec Prog Spmd

/-- a number not smaller than a positive one is positive -/
theorem posNum_up {R : Type} [RealOps R] {num sg : R → Prop} (hL : MaxLaws R num sg) (h0 : num (lit 0)) (a b : R)
    (ha : PosNum num a) (hb : num b) (h : RealOps.lt b a = false) : PosNum num b := by
  refine ⟨hb, ?_⟩
  by_contra hn
  have := hL.ntr h0 hb ha.1 (by simpa using hn) h
  rw [ha.2] at this
  cases this

/-- exact arithmetic -/
theorem divLaws_real {c : ℝ} (hc : 0 < c) : DivLaws ℝ (fun _ => True) (PosNum fun _ => True) c where
  pos_num _ h := h.1
  pos_up := posNum_up maxLaws_real trivial
  min_num a b _ _ := by
    show min a b = if decide (b < a) = true then b else a
    by_cases h : b < a
    · simp [h, h.le]
    · simp [h, not_lt.1 h]
  div_num _ _ := trivial
  div_anti a b h0 h1 h2 := by
    obtain ⟨-, h0⟩ := h0
    obtain ⟨-, h1⟩ := h1
    have h0 : 0 < a := by simpa [RealOps.lt_real] using h0
    have h1 : 0 < b := by simpa [RealOps.lt_real] using h1
    have h2 : ¬ a < b := of_decide_eq_false h2
    have : c / a ≤ c / b := div_le_div_of_nonneg_left hc.le h1 (not_lt.1 h2)
    exact decide_eq_false (not_lt.2 this)

/-- fixed point arithmetic, quotients rounded down -/
theorem Fix.divLaws {c : Int} (hc : 0 ≤ c) : DivLaws Fix Fix.IsNum (PosNum Fix.IsNum) (some c) where
  pos_num _ h := h.1
  pos_up := posNum_up Fix.maxLaws ⟨_, rfl⟩
  min_num a b ha hb := by
    obtain ⟨a, rfl⟩ := ha
    obtain ⟨b, rfl⟩ := hb
    show some (min a b) = if decide (b < a) = true then some b else some a
    by_cases h : b < a
    · simp [h, h.le]
    · simp [h, not_lt.1 h]
  div_num a ha := by
    obtain ⟨ha, h⟩ := ha
    obtain ⟨a, rfl⟩ := ha
    have h : ⌊(0 : ℚ) * ((Fix.unit : Int) : ℚ)⌋ < a := of_decide_eq_true h
    have h : 0 < a := by simpa using h
    refine ⟨c * Fix.unit / a, ?_⟩
    show (if a = 0 then none else some (c * Fix.unit / a)) = some (c * Fix.unit / a)
    rw [if_neg (by omega)]
  div_anti a b ha hb h2 := by
    obtain ⟨ha, h0⟩ := ha
    obtain ⟨hb, h1⟩ := hb
    obtain ⟨a, rfl⟩ := ha
    obtain ⟨b, rfl⟩ := hb
    have h0 : ⌊(0 : ℚ) * ((Fix.unit : Int) : ℚ)⌋ < a := of_decide_eq_true h0
    have h0 : 0 < a := by simpa using h0
    have h1 : ⌊(0 : ℚ) * ((Fix.unit : Int) : ℚ)⌋ < b := of_decide_eq_true h1
    have h1 : 0 < b := by simpa using h1
    have h2 : ¬ a < b := of_decide_eq_false h2
    have e : ∀ x : Int, 0 < x → (some c / some x : Fix) = some (c * Fix.unit / x) := fun x hx => by
      show (if x = 0 then none else some (c * Fix.unit / x)) = some (c * Fix.unit / x)
      rw [if_neg (by omega)]
    rw [e a h0, e b h1]
    have h3 : c * Fix.unit / a ≤ c * Fix.unit / b := by
      rw [Int.le_ediv_iff_mul_le h1]
      have hq : 0 ≤ c * Fix.unit / a := Int.ediv_nonneg (by positivity) h0.le
      have := Int.ediv_mul_le (c * Fix.unit) h0.ne'
      nlinarith
    exact decide_eq_false (not_lt.2 h3)

theorem Fix.signLaws : SignLaws Fix where
  mul_one x := by
    cases x with
    | none => rfl
    | some a =>
      have := fix_lit 1
      push_cast at this
      rw [this]
      show some (a * (1 * Fix.unit) / Fix.unit) = some a
      congr 1
      simp only [Fix.unit]
      omega
  mul_neg_one x := by
    cases x with
    | none => rfl
    | some a =>
      have := fix_lit (-1)
      push_cast at this
      rw [this]
      show some (a * (-1 * Fix.unit) / Fix.unit) = some (-a)
      congr 1
      simp only [Fix.unit]
      omega

/-- in exact arithmetic every cell has a positive inverse time step -/
theorem cellRate2_pos {p : Params ℝ} (hg : GoodGrid p) (g : GravityParams) (u : HS ℝ) (a : ℝ × ℝ) :
    0 < cellRate2 p g u a := by
  have h := rate2_pos hg g (fun _ _ => a) (fun _ _ => u) 0 0
  have e : cellRate2 p g u a = rate2 p g (fun _ _ => a) (fun _ _ => u) 0 0 := by
    have es : (computePrimitives2 p.settings u).2 = sound p.settings (computePrimitives2 p.settings u).1 := rfl
    unfold cellRate2 rate2 gravRate gravVel cflRate2
    simp only [es]
    simp only [RealOps.lit_real, RealOps.fmax_real, RealOps.fmin_real, RealOps.fabs_real, RealOps.sqrt_real]
    push_cast
    split_ifs
    · ring_nf
    · ring_nf
  rw [e]
  exact h

theorem cellRate3_pos {p : Params ℝ} (hg : GoodGrid p) (g : GravityParams) (u : HS ℝ) (a : ℝ × ℝ × ℝ) :
    0 < cellRate3 p g u a := by
  have h := rate3_pos hg g (fun _ _ _ => a) (fun _ _ _ => u) 0 0 0
  have e : cellRate3 p g u a = rate3 p g (fun _ _ _ => a) (fun _ _ _ => u) 0 0 0 := by
    have es : (computePrimitives3 p.settings u).2 = sound p.settings (computePrimitives3 p.settings u).1 := rfl
    unfold cellRate3 rate3 gravRate gravVel cflRate3
    simp only [es]
    simp only [RealOps.lit_real, RealOps.fmax_real, RealOps.fmin_real, RealOps.fabs_real, RealOps.sqrt_real]
    push_cast
    split_ifs
    · ring_nf
    · ring_nf
  rw [e]
  exact h

theorem cellRateM2_eq {p : Params ℝ} (hg : 1 < p.settings.gamma0) {q : MS ℝ} (hq : PhysM q) :
    cellRateM2 p q = mhdRate2 p.settings.gamma0 p.dx p.dy q := by
  unfold cellRateM2
  rw [findSpeedInfo_spec hg hq]
  rfl

theorem cellRateM3_eq {p : Params ℝ} (hg : 1 < p.settings.gamma0) {q : MS ℝ} (hq : PhysM q) :
    cellRateM3 p q = mhdRate3 p.settings.gamma0 p.dx p.dy p.dz q := by
  unfold cellRateM3
  rw [findSpeedInfo_spec hg hq]
  rfl

theorem goodGrid_global {T : Topo} {p : Params ℝ} (hg : GoodGrid (localParams T p)) : GoodGrid (globalParams T p) :=
  ⟨hg.settings, hg.cfl, hg.dx, hg.dy, hg.dz⟩

/-- **C104 (exact arithmetic).** The hypothesis on the inverse time steps is always met: hydro, any gravity. -/
theorem C104_exact_moves_hydro_2d {T : Topo} {p : Params ℝ} (hp : Hydro2 (localParams T p))
    (hg : GoodGrid (localParams T p)) (g : GravityParams) (n : Nat) (A : Mem Arr ℝ) :
    BlocksMove (PosNum fun _ => True) T p g .hydro2 n A := fun _ =>
  ⟨p.ghostWidth, p.ghostWidth, interior2_first hp.wf, trivial, by
    rw [show (lit 0 : ℝ) = 0 by simp]; exact decide_eq_true (cellRate2_pos (goodGrid_global hg) g _ _)⟩

theorem C104_exact_moves_hydro_3d {T : Topo} {p : Params ℝ} (hp : Hydro3 (localParams T p))
    (hg : GoodGrid (localParams T p)) (g : GravityParams) (n : Nat) (A : Mem Arr ℝ) :
    BlocksMove (PosNum fun _ => True) T p g .hydro3 n A := fun _ =>
  ⟨p.ghostWidth, p.ghostWidth, p.ghostWidth, interior3_first hp.wf, trivial, by
    rw [show (lit 0 : ℝ) = 0 by simp]; exact decide_eq_true (cellRate3_pos (goodGrid_global hg) g _ _)⟩

theorem C104_exact_moves_mhd_2d {T : Topo} {p : Params ℝ} (hp : Mhd2 (localParams T p))
    (hwide : Wide2 (localParams T p)) (hg : GoodGrid (localParams T p)) (g : GravityParams) {ident : ℝ} {jk : JunkM ℝ}
    (G : Mem Arr ℝ) (t : ℝ) (sv : Int) :
    AlwaysMoves (globalParams T p) (mhdOps2 (globalParams T p) ident jk) (BlocksMove (PosNum fun _ => True) T p g .mhd2)
      G t sv := by
  have hpg := mhd2_global hp hwide
  have hgg := goodGrid_global hg
  have key : ∀ n m A, runLaunches (preMhd2 (globalParams T p) (pingIn n) (pingOut n)) m A →
      BlocksMove (PosNum fun _ => True) T p g .mhd2 n A := by
    intro n m A h r
    refine ⟨p.ghostWidth, p.ghostWidth, interior2_first hp.wf, trivial, ?_⟩
    have hin : interior2 (globalParams T p) ((T.coords r).1 * p.nx + p.ghostWidth)
        ((T.coords r).2.1 * p.ny + p.ghostWidth) := interior2_block hp.wf T r (interior2_first hp.wf)
    have e := preMhd2_prim hpg signLaws_real (pingPong n) h (x := ms2 m (pingIn n)) (fun _ _ _ => rfl) _ _ hin
    have hph := primM2_phys hgg.settings (fillM2 (globalParams T p) (ms2 m (pingIn n)))
      ((T.coords r).1 * p.nx + p.ghostWidth) ((T.coords r).2.1 * p.ny + p.ghostWidth)
    rw [show (lit 0 : ℝ) = 0 by simp]
    refine decide_eq_true ?_
    have h0 := mhdRate2_pos hgg hph
    rw [← e] at h0 hph
    exact lt_of_lt_of_eq h0 (cellRateM2_eq hgg.settings.gamma hph).symm
  exact ⟨fun A h => key 0 _ A h, fun k a A _ _ h => key k _ A h⟩

theorem C104_exact_moves_mhd_3d {T : Topo} {p : Params ℝ} (hp : Mhd3 (localParams T p))
    (hwide : Wide3 (localParams T p)) (hg : GoodGrid (localParams T p)) (g : GravityParams) {ident : ℝ} {jk : JunkM ℝ}
    (G : Mem Arr ℝ) (t : ℝ) (sv : Int) :
    AlwaysMoves (globalParams T p) (mhdOps3 (globalParams T p) ident jk) (BlocksMove (PosNum fun _ => True) T p g .mhd3)
      G t sv := by
  have hpg := mhd3_global hp hwide
  have hgg := goodGrid_global hg
  have key : ∀ n m A, runLaunches (preMhd3 (globalParams T p) (pingIn n) (pingOut n)) m A →
      BlocksMove (PosNum fun _ => True) T p g .mhd3 n A := by
    intro n m A h r
    refine ⟨p.ghostWidth, p.ghostWidth, p.ghostWidth, interior3_first hp.wf, trivial, ?_⟩
    have hin : interior3 (globalParams T p) ((T.coords r).1 * p.nx + p.ghostWidth)
        ((T.coords r).2.1 * p.ny + p.ghostWidth) ((T.coords r).2.2 * p.nz + p.ghostWidth) :=
      interior3_block hp.wf T r (interior3_first hp.wf)
    have e := preMhd3_prim hpg signLaws_real (pingPong n) h (x := ms m (pingIn n)) (fun _ _ _ _ => rfl) _ _ _ hin
    have hph := primM3_phys hgg.settings (fillM3 (globalParams T p) (ms m (pingIn n)))
      ((T.coords r).1 * p.nx + p.ghostWidth) ((T.coords r).2.1 * p.ny + p.ghostWidth)
      ((T.coords r).2.2 * p.nz + p.ghostWidth)
    rw [show (lit 0 : ℝ) = 0 by simp]
    refine decide_eq_true ?_
    have h0 := mhdRate3_pos hgg hph
    rw [← e] at h0 hph
    exact lt_of_lt_of_eq h0 (cellRateM3_eq hgg.settings.gamma hph).symm
  exact ⟨fun A h => key 0 _ A h, fun k a A _ _ h => key k _ A h⟩

/-! ### Fixed point arithmetic -/

/-- one block of 4 × 4 cells, fixed point, two processes along `x`, one step -/
def fixRaw : Params Fix :=
  { nStepmax := 1, tEnd := some 1048576, nOutput := 5, enableOutput := true, mhdEnabled := false, nlog := 10
    nx := 4, ny := 4, nz := 1, ghostWidth := 2, nbvar := 4, dimType := .two
    imin := 0, imax := 0, jmin := 0, jmax := 0, kmin := 0, kmax := 0, isize := 0, jsize := 0
    ksize := 0, xmin := some 0, xmax := some 1048576, ymin := some 0, ymax := some 524288, zmin := some 0
    zmax := some 1048576, dx := none, dy := none, dz := none
    boundary_type_xmin := .dirichlet, boundary_type_xmax := .neumann
    boundary_type_ymin := .dirichlet, boundary_type_ymax := .neumann
    boundary_type_zmin := .neumann, boundary_type_zmax := .neumann
    settings := { gamma0 := some 1468006, gamma6 := none, cfl := some 524288, slope_type := some 1048576
                  smallr := some 1, smallc := some 1, smallp := some 1, smallpp := some 1, cIso := none }
    riemannSolverType := .hllc, implementationVersion := 0 }

/-- a gas at rest: density 1, energy density 2 -/
def fixGas : Mem Arr Fix := fun l => if l.v = IU ∨ l.v = IV then some 0 else if l.v = ID then some 1048576 else
  some 2097152

theorem fix_rate : cellRate2 (globalParams topo211 fixRaw) ⟨false, false⟩ (hs2 fixGas .U 0 0) (none, none) =
    some 17755312 := by decide +kernel

/-- **C104 in an arithmetic that rounds.** Two processes, each with its half of the gas: one step of the fixed point
program; the hypothesis on the inverse time steps is met, and the processes end with the halves of the serial result. -/
theorem fix_two_parts {lay : Layout} {i i' : Fix} (hi : Fix.IsNum i) (hi' : Fix.IsNum i')
    (hneg : ¬ PosNum Fix.IsNum i) (hneg' : ¬ PosNum Fix.IsNum i') {jk : topo211.Rank → Junk Fix}
    {jk' : Junk Fix} {s' : RunState Fix}
    (hser : runMain (globalParams topo211 fixRaw) (hydroOps2 (globalParams topo211 fixRaw) ⟨false, false⟩ i' jk') fixGas
      (some 0) 0 s') :
    AlwaysEnds (mpiMain (localParams topo211 fixRaw)
        (mpiHydro2 lay topo211 (localParams topo211 fixRaw) ⟨false, false⟩ i jk))
      (fun _ => startState fixGas (some 0) 0) fun s => PartOf topo211 fixRaw .hydro2 s s' := by
  have hp : Hydro2 (localParams topo211 fixRaw) :=
    ⟨wf_local topo211 (Params.init_wf _ (by decide) (by decide) (by decide) (by decide)), rfl,
      ⟨.inr (.inl (by decide +kernel)), by decide⟩, by
        unfold Faces2Ok BCok; exact ⟨.inr (by decide), .inr (by decide), .inr (by decide), .inr (by decide)⟩⟩
  have hwide : Wide2 (localParams topo211 fixRaw) := ⟨by decide, by decide⟩
  have hpg := hydro2_global hp hwide
  have hmv : ∀ n A, (∀ i j, interior2 (globalParams topo211 fixRaw) i j → hs2 A (pingIn n) i j = hs2 fixGas .U 0 0) →
      BlocksMove (PosNum Fix.IsNum) topo211 fixRaw ⟨false, false⟩ .hydro2 n A := by
    intro n A h r
    refine ⟨2, 2, by decide, ?_⟩
    have hin : interior2 (globalParams topo211 fixRaw) ((topo211.coords r).1 * fixRaw.nx + 2)
        ((topo211.coords r).2.1 * fixRaw.ny + 2) :=
      interior2_block hp.wf topo211 r (show interior2 (localParams topo211 fixRaw) 2 2 by decide)
    rw [h _ _ hin]
    have e : ∀ a, cellRate2 (globalParams topo211 fixRaw) ⟨false, false⟩ (hs2 fixGas .U 0 0) a = some 17755312 :=
      fun _ => fix_rate
    rw [e]
    exact ⟨⟨_, rfl⟩, by decide +kernel⟩
  have hset : ∀ A, (hydroOps2 (globalParams topo211 fixRaw) ⟨false, false⟩ i' jk').setup fixGas A →
      ∀ i j, interior2 (globalParams topo211 fixRaw) i j → hs2 A .U i j = hs2 fixGas .U 0 0 := by
    rintro A ⟨mb, hb, hc⟩ i j hij
    have hc' : A = fun l => if l.arr = .U2 then mb { l with arr := .U } else mb l := hc
    obtain ⟨-, q2⟩ := makeBoundaries2_hs2 hpg Fix.signLaws hb
    have e1 : hs2 A .U i j = hs2 mb .U i j := by rw [hc']; rfl
    rw [e1, q2 i j (int_inGrid2 hpg.wf hij)]
    obtain ⟨a, b, c, d⟩ := hij
    unfold fill2
    have a' : (globalParams topo211 fixRaw).ghostWidth ≤ i := a
    simp only [srcCoord_self a b, srcCoord_self c d, signed, flips_not a b, flips_not c d, if_false]
    rfl
  refine C104_run_hydro_2d Fix.maxLaws (Fix.divLaws (by decide)) Fix.signLaws hp hwide ?_ (.inl rfl) ?_ ?_ hi hi' hneg
    hneg' hser ⟨fun A h => hmv 0 A (hset A h), fun k a A hr hf hpre => ?_⟩ (fun r i j v _ _ => rfl) (by simp)
  · exact ⟨.inr (.inl rfl), .inr (.inr (.inl rfl)), .inr (.inl rfl), .inr (.inr (.inl rfl))⟩
  · rw [show (localParams topo211 fixRaw).dx = some 131072 by decide +kernel]; exact Fix.sg_some.2 (by decide)
  · rw [show (localParams topo211 fixRaw).dy = some 131072 by decide +kernel]; exact Fix.sg_some.2 (by decide)
  · obtain rfl : A = a.mem := hpre
    obtain ⟨s₀, ⟨A₁, h1, d, h2, rfl⟩, ht⟩ := hr
    have hit := ht.iteration
    rcases Nat.eq_zero_or_pos k with rfl | hk
    · cases ht
      exact hmv 0 _ fun i j hij => hset A₁ h1 i j hij
    · refine absurd (.inr ?_) hf
      show (1 : Int) ≤ _
      omega

/-! ### The shipped implosion on two processes -/

/-- the block of each process is ordinary, its faces are Dirichlet, the problem has no random numbers -/
theorem implode_block_facts :
    Sets blockCfg "run" "solver_name" "Hydro_Muscl_2D" ∧ TopoOf blockCfg topo211 ∧
    cfgBool blockCfg "run" "restart_enabled" false = false ∧
    Ordinary2 (hydroParamsMpi topo211 exactLib blockCfg) ∧ NamedBC2 topo211 (hydroParamsMpi topo211 exactLib blockCfg) ∧
    (∀ j, hydroProblem2 exactLib exactMath blockCfg j = .implode (implodeParams exactLib implodeCfg)) ∧
    ((hydroParamsMpi topo211 exactLib blockCfg).implementationVersion = 0) := by
  have hw := block_whole
  have hs : Sets blockCfg "run" "solver_name" "Hydro_Muscl_2D" := fun d => by
    rw [← hw.same _ _ _ (by decide)]; exact implode_sets.1 d
  have hr : cfgBool blockCfg "run" "restart_enabled" false = false := by
    rw [← whole_bool hw (by decide)]; exact implode_sets.2
  have hq : ∀ j, hydroProblem2 exactLib exactMath blockCfg j = .implode (implodeParams exactLib implodeCfg) := by
    intro j
    have h' := implode_more
    rw [← implodeCfg_eq] at h'
    rw [← whole_problem2 hw]
    unfold hydroProblem2
    exact if_pos h'.2.2.1
  have hT : TopoOf blockCfg topo211 := by
    refine ⟨?_, ?_, ?_, fun _ => rfl⟩
    · unfold cfgInt Ini.Reader.getInteger
      rw [getString_block, if_pos (by decide)]
      decide
    · unfold cfgInt Ini.Reader.getInteger
      rw [getString_block, if_neg (by decide), if_neg (by decide), implodeCfg_eq]
      decide +kernel
    · unfold cfgInt Ini.Reader.getInteger
      rw [getString_block, if_neg (by decide), if_neg (by decide), implodeCfg_eq]
      decide +kernel
  have hx : 2 ≤ cfgInt blockCfg "mesh" "nx" 1 := by
    unfold cfgInt Ini.Reader.getInteger
    rw [getString_block, if_neg (by decide), if_pos (by decide)]
    decide
  have o := implode_ordinary
  have oy : cfgInt blockCfg "mesh" "ny" 1 = cfgInt implodeCfg "mesh" "ny" 1 := by
    rw [hw.ny]; exact (mul_one _).symm
  have oz : cfgInt blockCfg "mesh" "nz" 1 = cfgInt implodeCfg "mesh" "nz" 1 := by
    rw [hw.nz]; exact (mul_one _).symm
  have hv : (hydroParamsMpi topo211 exactLib blockCfg).implementationVersion = 0 := by
    have h' := implode_version
    rw [← implodeCfg_eq] at h'
    show versionOf (exactLib.trunc (cfgFloat exactLib blockCfg "OTHER" "implementationVersion" 0)) = 0
    rw [← whole_float hw (by decide), exact_float h'.1]
    simp [exactLib, versionOf]
  refine ⟨hs, hT, hr, ordinary_block hw o hx (o.ny.trans_eq oy.symm) (o.nz.trans_eq oz.symm), ?_, hq, hv⟩
  have h : ∀ k ∈ ["boundary_type_xmin", "boundary_type_xmax", "boundary_type_ymin", "boundary_type_ymax"],
      BC.ofInt (cfgInt blockCfg "mesh" k 1) = .dirichlet := by
    intro k hk
    have : OtherKey "mesh".toList k.toList := by
      simp only [List.mem_cons, List.not_mem_nil, or_false] at hk
      rcases hk with rfl | rfl | rfl | rfl <;> decide
    rw [← whole_int hw this, implodeCfg_eq]
    simp only [List.mem_cons, List.not_mem_nil, or_false] at hk
    rcases hk with rfl | rfl | rfl | rfl <;> decide +kernel
  refine ⟨?_, ?_, ?_, ?_⟩
  · exact Or.inr (Or.inl (h "boundary_type_xmin" (by simp)))
  · exact Or.inr (Or.inl (h "boundary_type_xmax" (by simp)))
  · exact Or.inr (Or.inl (h "boundary_type_ymin" (by simp)))
  · exact Or.inr (Or.inl (h "boundary_type_ymax" (by simp)))

/-- The hypotheses of `C104_program` are met by the shipped `test_implode_2D.ini`, cut in two: the serial program
finishes, the two processes start, and they always end with the two halves of its result. -/
theorem implode_two_parts {e : EnvMpi topo211 ℝ} {e' : Env ℝ} (he : e.ident ≤ 0) (he' : e'.ident ≤ 0) :
    ∃ s' st flow, serialMain exactLib exactMath e' (some (textOf implodeIni)) (.finished s') ∧
      MpiStarts exactLib exactMath e (some (textOf blockIni)) st flow ∧
      AlwaysEnds flow st fun s => PartOf topo211 (rawParams (lit 0) exactLib blockCfg) .hydro2 s s' := by
  obtain ⟨n, -, h⟩ := implode_program
  obtain ⟨⟨o, ho⟩, h⟩ := h e' he' trivial
  obtain ⟨s', rfl, -⟩ := h o ho
  have hw := block_whole
  obtain ⟨hs, hT, hr, oo, hbc, hq, hv⟩ := implode_block_facts
  have hk : findSolver (mainSolverName blockCfg) = some .hydro2 := findSolver_sets (by simp [solverRegistry]) hs
  obtain ⟨st, flow, hst⟩ := C80_starts exactLib exactMath e (file := some (textOf blockIni)) hT hr
    (Or.inl ⟨hs, fun r => by
      rw [show hydroProblem2 exactLib exactMath (Ini.broadcastMpi (some (textOf blockIni))) (e.ju r) = _ from hq _]
      trivial⟩)
  obtain ⟨h1, h2, h3, h4⟩ := C36_runnable_2d exactLib blockCfg (hs _) oo.nx oo.ny oo.nz oo.x oo.y oo.z oo.slope
    oo.riemann oo.gamma oo.smallr oo.smallc oo.cfl
  have hnx := oo.nx
  have hny := oo.ny
  have hp' : Hydro2 (hydroParamsMpi topo211 exactLib blockCfg) :=
    ⟨wf_local topo211 h1.wf, h1.nbvar, ⟨h1.valid.slope, h1.valid.riemann⟩, h1.faces⟩
  have hgr : GoodGrid (hydroParamsMpi topo211 exactLib blockCfg) :=
    goodGrid_local topo211 h2 (le_trans (by norm_num) hnx) (le_trans (by norm_num) hny) oo.nz oo.x oo.y oo.z
  have neg : ∀ x : ℝ, x ≤ 0 → ¬ PosNum (fun _ => True) x := fun x hx h => by
    have h := h.2
    rw [show (lit 0 : ℝ) = 0 by simp] at h
    exact absurd (of_decide_eq_true h) (not_lt.2 hx)
  refine ⟨s', st, flow, ho, hst, ?_⟩
  refine C104_program maxLaws_real signLaws_real exactLib exactMath (file := some (textOf blockIni))
    (file' := some (textOf implodeIni)) hw hk ?_ (divLaws_real hgr.cfl) hbc ?_ ?_ trivial (neg _ he) trivial
    (neg _ he') hst ho
  · exact ⟨hgr.dx.le, hgr.dy.le, hnx, hny, oo.nz, .inl hv, h1.valid.slope, h1.valid.riemann⟩
  · intro j
    rw [show hydroProblem2 exactLib exactMath (Ini.broadcastMpi (some (textOf blockIni))) j = _ from hq _]
    trivial
  · exact fun G _ => ⟨fun A _ => C104_exact_moves_hydro_2d hp' hgr _ 0 A,
      fun k a A _ _ _ => C104_exact_moves_hydro_2d hp' hgr _ k A⟩

end EulerKokkos
