import Verif.Lemmas.DriverUnique
import Verif.Lemmas.NoJunk
import Verif.Props.C57
import Verif.Props.C79

/-!
# C102: the same parameter file gives the same files, bit for bit, on any number of threads

Floating point addition is not associative, so a parallel program need not repeat itself.  This one does, for the
versions of the schemes without atomic additions: the only reduction is the maximum of the time step, and a
maximum is exact.  The statement is for *any* arithmetic `R` that satisfies the exact facts `MaxLaws` of IEEE 754
(`Verif/Spec/FloatMax.lean`): no associativity, no rounding model.
-/

set_option linter.constructorNameAsVariable false
set_option linter.unusedSectionVars false
set_option linter.unusedSimpArgs false

namespace EulerKokkos
open Spec Prog

variable {R : Type} [RealOps R] {num sg : R → Prop}

namespace Spec

/-- Settings of a repeatable run: cell sizes with a clear sign bit, a grid that is not smaller than the ghost
layers, a version of the scheme without atomic additions, a slope limiter and a Riemann solver the solver
knows. -/
def Repeatable (sg : R → Prop) (p : Params R) : SolverKind → Prop
  | .hydro2 => sg p.dx ∧ sg p.dy ∧ 2 ≤ p.nx ∧ 2 ≤ p.ny ∧ 1 ≤ p.nz ∧
      (p.implementationVersion = 0 ∨ p.implementationVersion = 1) ∧
      SlopeKnown p.settings ∧ p.riemannSolverType ≠ .hlld
  | .hydro3 => sg p.dx ∧ sg p.dy ∧ sg p.dz ∧ 2 ≤ p.nx ∧ 2 ≤ p.ny ∧ 2 ≤ p.nz ∧
      (p.implementationVersion = 0 ∨ p.implementationVersion = 1) ∧
      SlopeKnown p.settings ∧ p.riemannSolverType ≠ .hll ∧ p.riemannSolverType ≠ .hlld
  | .mhd2 => sg p.dx ∧ sg p.dy ∧ 3 ≤ p.nx ∧ 3 ≤ p.ny ∧ 1 ≤ p.nz ∧ p.implementationVersion = 0 ∧
      SlopeKnownM p.settings ∧ RiemannKnownM p.riemannSolverType
  | .mhd3 => sg p.dx ∧ sg p.dy ∧ sg p.dz ∧ 3 ≤ p.nx ∧ 3 ≤ p.ny ∧ 3 ≤ p.nz ∧ p.implementationVersion = 0 ∧
      SlopeKnownM p.settings ∧ RiemannKnownM p.riemannSolverType

/-- The direction of the Brio-Wu tube is one of the documented ones. -/
def TubeOk (F : FloatLib R) (M : MathLib R) (c : Ini.Reader) : SolverKind → Prop
  | .mhd2 => ∀ ju, DirectionOk2 (mhdProblem F M c ju)
  | .mhd3 => ∀ ju, DirectionOk3 (mhdProblem F M c ju)
  | _ => True

/-- What two executions must share besides the parameter file: the identity of the maximum (the build); the
random numbers, if the Kelvin-Helmholtz problem with a random perturbation is run; for the MHD blast, whose `bz`
is never assigned, the values found in that memory.  Nothing else: not the schedules, not the contents of the
other uninitialised variables, not the memory layout, not the files on disk. -/
structure SameStart (c : Ini.Reader) (k : SolverKind) (e e' : Env R) : Prop where
  ident : e.ident = e'.ident
  rnd : e.rnd = e'.rnd ∨ problemName c ≠ "kelvin_helmholtz".toList ∨
    cfgBool c "KH" "perturbation_rand" false = false
  bz : e.ju = e'.ju ∨ k = .hydro2 ∨ k = .hydro3 ∨ problemName c ≠ "blast".toList

end Spec

/-! ### What the solvers need -/

theorem repeatable_once (hL : MaxLaws R num sg) {F : FloatLib R} {c : Ini.Reader} {k : SolverKind}
    (hk : findSolver (mainSolverName c) = some k) (hp : Repeatable sg (hydroParams F c) k) {e : Env R}
    (hid : num e.ident) : (solverOps e c (hydroParams F c) k).Once := by
  have hc := C79_consistent F c hk
  have wf : 1 ≤ (hydroParams F c).nx → 1 ≤ (hydroParams F c).ny → 1 ≤ (hydroParams F c).nz →
      2 ≤ (hydroParams F c).ghostWidth → (hydroParams F c).WF := Params.init_wf _
  generalize hydroParams F c = p at *
  cases k with
  | hydro2 =>
    obtain ⟨dx, dy, nx, ny, nz, hi, -, -⟩ := hp
    have gw : p.ghostWidth = 2 := by simpa using congrArg (fun q => q.2.1) hc
    refine once_hydro2 hL (wf (by omega) (by omega) (by omega) (by omega)) ?_ hi dx dy _ hid _
    unfold Faces2Ok BCok
    rw [gw]
    exact ⟨.inr nx, .inr nx, .inr ny, .inr ny⟩
  | hydro3 =>
    obtain ⟨dx, dy, dz, nx, ny, nz, hi, -, -⟩ := hp
    have gw : p.ghostWidth = 2 := by simpa using congrArg (fun q => q.2.1) hc
    refine once_hydro3 hL (wf (by omega) (by omega) (by omega) (by omega)) ?_ hi dx dy dz _ hid _
    unfold Faces3Ok Faces2Ok BCok
    rw [gw]
    exact ⟨⟨.inr nx, .inr nx, .inr ny, .inr ny⟩, .inr nz, .inr nz⟩
  | mhd2 =>
    obtain ⟨dx, dy, nx, ny, nz, hi, -, -⟩ := hp
    have gw : p.ghostWidth = 3 := by simpa using congrArg (fun q => q.2.1) hc
    refine once_mhd2 hL (wf (by omega) (by omega) (by omega) (by omega)) ?_ hi dx dy hid _
    unfold Faces2Ok BCok
    rw [gw]
    exact ⟨.inr nx, .inr nx, .inr ny, .inr ny⟩
  | mhd3 =>
    obtain ⟨dx, dy, dz, nx, ny, nz, hi, -, -⟩ := hp
    have gw : p.ghostWidth = 3 := by simpa using congrArg (fun q => q.2.1) hc
    refine once_mhd3 hL (wf (by omega) (by omega) (by omega) (by omega)) ?_ hi dx dy dz hid _
    unfold Faces3Ok Faces2Ok BCok
    rw [gw]
    exact ⟨⟨.inr nx, .inr nx, .inr ny, .inr ny⟩, .inr nz, .inr nz⟩

theorem repeatable_ops {p : Params R} {c : Ini.Reader} {k : SolverKind} (hp : Repeatable sg p k) {e e' : Env R}
    (hi : e.ident = e'.ident) : solverOps e c p k = solverOps e' c p k := by
  cases k with
  | hydro2 =>
    obtain ⟨_, _, _, _, _, _, hs, hr⟩ := hp
    simp only [solverOps, hi]
    exact hydroOps2_junk hs hr _ _ _ _
  | hydro3 =>
    obtain ⟨_, _, _, _, _, _, _, hs, hr⟩ := hp
    simp only [solverOps, hi]
    exact hydroOps3_junk hs hr _ _ _ _
  | mhd2 =>
    obtain ⟨_, _, _, _, _, _, hs, hr⟩ := hp
    simp only [solverOps, hi]
    exact mhdOps2_junk hs hr _ _ _
  | mhd3 =>
    obtain ⟨_, _, _, _, _, _, _, hs, hr⟩ := hp
    simp only [solverOps, hi]
    exact mhdOps3_junk hs hr _ _ _

theorem cell2_rnd {M : MathLib R} {p : Params R} {q : HydroProblem R} (r r' : Nat → R) (x y : R)
    (h : ∀ k, q = .kelvinHelmholtz k → k.p_rand = false) :
    hydroCell2 M p r x y q = hydroCell2 M p r' x y q := by
  cases q with
  | kelvinHelmholtz k => simp [hydroCell2, kh2, h k rfl]
  | _ => rfl

theorem cell3_rnd {M : MathLib R} {p : Params R} {q : HydroProblem R} (r r' : Nat → R) (x y z : R)
    (h : ∀ k, q = .kelvinHelmholtz k → k.p_rand = false) :
    hydroCell3 M p r x y z q = hydroCell3 M p r' x y z q := by
  cases q with
  | kelvinHelmholtz k => simp [hydroCell3, kh3, h k rfl]
  | _ => rfl

theorem problem2_rand {F : FloatLib R} {M : MathLib R} {c : Ini.Reader} {ju : R × R}
    (h : problemName c ≠ "kelvin_helmholtz".toList ∨ cfgBool c "KH" "perturbation_rand" false = false) :
    ∀ k, hydroProblem2 F M c ju = .kelvinHelmholtz k → k.p_rand = false := by
  intro k hk
  unfold hydroProblem2 fourQuadrantOf at hk
  dsimp only at hk
  split_ifs at hk with h1 h2 h3
  cases hk
  exact h.resolve_left fun hn => hn h3

theorem problem3_rand {F : FloatLib R} {M : MathLib R} {c : Ini.Reader} {ju : R × R}
    (h : problemName c ≠ "kelvin_helmholtz".toList ∨ cfgBool c "KH" "perturbation_rand" false = false) :
    ∀ k, hydroProblem3 F M c ju = .kelvinHelmholtz k → k.p_rand = false := by
  intro k hk
  unfold hydroProblem3 fourQuadrantOf at hk
  dsimp only at hk
  split_ifs at hk with h1 h2 h3
  cases hk
  exact h.resolve_left fun hn => hn h3

theorem problemM_rand {F : FloatLib R} {M : MathLib R} {c : Ini.Reader} {ju : R × R}
    (h : problemName c ≠ "kelvin_helmholtz".toList ∨ cfgBool c "KH" "perturbation_rand" false = false) :
    ∀ k, mhdProblem F M c ju = .kelvinHelmholtz k → k.p_rand = false := by
  intro k hk
  unfold mhdProblem at hk
  dsimp only at hk
  split_ifs at hk with h1 h2 h3 h4 h5
  cases hk
  exact h.resolve_left fun hn => hn h5

theorem problemM_bz {F : FloatLib R} {M : MathLib R} {c : Ini.Reader} {ju ju' : R × R}
    (h : ju = ju' ∨ problemName c ≠ "blast".toList) : mhdProblem F M c ju = mhdProblem F M c ju' := by
  rcases h with rfl | h
  · rfl
  · unfold mhdProblem
    simp only [if_neg h]

theorem init2_ju {F : FloatLib R} {M : MathLib R} {c : Ini.Reader} (p : Params R) (rnd : Int → Int → Int → Nat → R)
    (ju ju' : R × R) : initHydro2 M p (0, 0, 0) rnd (hydroProblem2 F M c ju) =
      initHydro2 M p (0, 0, 0) rnd (hydroProblem2 F M c ju') ∧
    gravityAllocated (gravityParams c) (hydroProblem2 F M c ju) =
      gravityAllocated (gravityParams c) (hydroProblem2 F M c ju') := by
  unfold hydroProblem2
  dsimp only
  split_ifs <;> exact ⟨rfl, rfl⟩

theorem init3_ju {F : FloatLib R} {M : MathLib R} {c : Ini.Reader} (p : Params R) (rnd : Int → Int → Int → Nat → R)
    (ju ju' : R × R) : initHydro3 M p (0, 0, 0) rnd (hydroProblem3 F M c ju) =
      initHydro3 M p (0, 0, 0) rnd (hydroProblem3 F M c ju') ∧
    gravityAllocated (gravityParams c) (hydroProblem3 F M c ju) =
      gravityAllocated (gravityParams c) (hydroProblem3 F M c ju') := by
  unfold hydroProblem3
  dsimp only
  split_ifs <;> exact ⟨rfl, rfl⟩

theorem cellM2_rnd {M : MathLib R} {p : Params R} {q : MhdProblem R} (r r' : Nat → R) (x y : R)
    (h : ∀ k, q = .kelvinHelmholtz k → k.p_rand = false) :
    mhdCell2 M p r x y q = mhdCell2 M p r' x y q := by
  cases q with
  | kelvinHelmholtz k => simp [mhdCell2, khM2, h k rfl]
  | _ => rfl

theorem cellM3_rnd {M : MathLib R} {p : Params R} {q : MhdProblem R} (r r' : Nat → R) (x y z zb : R)
    (h : ∀ k, q = .kelvinHelmholtz k → k.p_rand = false) :
    mhdCell3 M p r x y z zb q = mhdCell3 M p r' x y z zb q := by
  cases q with
  | kelvinHelmholtz k => simp [mhdCell3, khM3, h k rfl]
  | _ => rfl

/-- the initial state needs nothing but what the two executions share -/
theorem sameStart_init {F : FloatLib R} {M : MathLib R} {c : Ini.Reader} {k : SolverKind} {e e' : Env R}
    (h : SameStart c k e e') (p : Params R) (m : Mem Arr R) :
    initProblem F M e c p m k = initProblem F M e' c p m k := by
  cases k with
  | hydro2 =>
    simp only [initProblem]
    rw [(init2_ju p e.rnd e.ju e'.ju).1, (init2_ju p e.rnd e.ju e'.ju).2]
    rcases h.rnd with hr | hr
    · rw [hr]
    · have : initHydro2 M p (0, 0, 0) e.rnd (hydroProblem2 F M c e'.ju) =
          initHydro2 M p (0, 0, 0) e'.rnd (hydroProblem2 F M c e'.ju) := by
        unfold initHydro2 hydroInit2
        simp only [fun t : Int × Int => cell2_rnd (M := M) (p := p) (e.rnd t.1 t.2 0) (e'.rnd t.1 t.2 0)
          (cellX p (0, 0, 0) t.1) (cellY p (0, 0, 0) t.2) (problem2_rand (F := F) (M := M) (ju := e'.ju) hr)]
      rw [this]
  | hydro3 =>
    simp only [initProblem]
    rw [(init3_ju p e.rnd e.ju e'.ju).1, (init3_ju p e.rnd e.ju e'.ju).2]
    rcases h.rnd with hr | hr
    · rw [hr]
    · have : initHydro3 M p (0, 0, 0) e.rnd (hydroProblem3 F M c e'.ju) =
          initHydro3 M p (0, 0, 0) e'.rnd (hydroProblem3 F M c e'.ju) := by
        unfold initHydro3 hydroInit3
        simp only [fun t : Int × Int × Int => cell3_rnd (M := M) (p := p) (e.rnd t.1 t.2.1 t.2.2)
          (e'.rnd t.1 t.2.1 t.2.2) (cellX p (0, 0, 0) t.1) (cellY p (0, 0, 0) t.2.1) (cellZ p (0, 0, 0) t.2.2)
          (problem3_rand (F := F) (M := M) (ju := e'.ju) hr)]
      rw [this]
  | mhd2 =>
    have hb : e.ju = e'.ju ∨ problemName c ≠ "blast".toList := by
      rcases h.bz with h | h | h | h
      · exact .inl h
      · cases h
      · cases h
      · exact .inr h
    simp only [initProblem]
    rw [problemM_bz hb]
    rcases h.rnd with hr | hr
    · rw [hr]
    · have : initMhd2 M p (0, 0, 0) e.rnd (mhdProblem F M c e'.ju) =
          initMhd2 M p (0, 0, 0) e'.rnd (mhdProblem F M c e'.ju) := by
        have hk := problemM_rand (F := F) (M := M) (ju := e'.ju) hr
        generalize mhdProblem F M c e'.ju = q at hk
        cases q <;> first | rfl | skip
        unfold initMhd2 mhdInit2
        simp only [fun t : Int × Int => cellM2_rnd (M := M) (p := p) (e.rnd t.1 t.2 0)
          (e'.rnd t.1 t.2 0) (cellX p (0, 0, 0) t.1) (cellY p (0, 0, 0) t.2) hk]
      rw [this]
  | mhd3 =>
    have hb : e.ju = e'.ju ∨ problemName c ≠ "blast".toList := by
      rcases h.bz with h | h | h | h
      · exact .inl h
      · cases h
      · cases h
      · exact .inr h
    simp only [initProblem]
    rw [problemM_bz hb]
    rcases h.rnd with hr | hr
    · rw [hr]
    · have : initMhd3 M p (0, 0, 0) e.rnd (mhdProblem F M c e'.ju) =
          initMhd3 M p (0, 0, 0) e'.rnd (mhdProblem F M c e'.ju) := by
        have hk := problemM_rand (F := F) (M := M) (ju := e'.ju) hr
        generalize mhdProblem F M c e'.ju = q at hk
        cases q <;> first | rfl | skip
        unfold initMhd3 mhdInit3
        simp only [fun (t : Int × Int × Int) zb => cellM3_rnd (M := M) (p := p) (e.rnd t.1 t.2.1 t.2.2)
          (e'.rnd t.1 t.2.1 t.2.2) (cellX p (0, 0, 0) t.1) (cellY p (0, 0, 0) t.2.1) (cellZ p (0, 0, 0) t.2.2) zb hk]
      rw [this]

theorem initProblem_once {F : FloatLib R} {M : MathLib R} {c : Ini.Reader} {k : SolverKind} {e : Env R}
    (hd : TubeOk F M c k) {p : Params R} {m m' : Mem Arr R} (h : initProblem F M e c p m k)
    (h' : initProblem F M e c p m' k) : m = m' := by
  cases k with
  | hydro2 => exact (C57_init_unique_hydro_2d M p _ _ _ _).unique h.2 h'.2
  | hydro3 => exact (C57_init_unique_hydro_3d M p _ _ _ _).unique h.2 h'.2
  | mhd2 => exact (C57_init_unique_mhd_2d M p _ _ (hd _) _).unique h h'
  | mhd3 => exact (C57_init_unique_mhd_3d M p _ _ (hd _) _).unique h h'

/-! ### The statements -/

/-- **C102, the time step.**  All four solvers, with and without gravity: one result, whatever the number of threads, the
order in which each processes its cells and the order of the joins, in floating point as in exact arithmetic. -/
theorem C102_time_step (hL : MaxLaws R num sg) {p : Params R} (hx : sg p.dx) (hy : sg p.dy) (hz : sg p.dz)
    (g : GravityParams) {ident : R} (hid : num ident) (n : Nat) (m : Mem Arr R) {d d' : R} :
    (computeDtLocal2 p g ident n m d → computeDtLocal2 p g ident n m d' → d = d') ∧
    (computeDtLocal3 p g ident n m d → computeDtLocal3 p g ident n m d' → d = d') ∧
    (computeDtLocalMhd2 p ident m d → computeDtLocalMhd2 p ident m d' → d = d') ∧
    (computeDtLocalMhd3 p ident m d → computeDtLocalMhd3 p ident m d' → d = d') := by
  refine ⟨?_, ?_, ?_, ?_⟩
  · rintro ⟨r, hr, rfl⟩ ⟨r', hr', rfl⟩
    by_cases hg : g.enabled = true
    · rw [if_pos hg] at hr hr'
      rw [parReduce_max_unique hL (isMax_gravity2 hL hx hy _ _ _ m) hid hr hr']
    · rw [if_neg hg] at hr hr'
      rw [parReduce_max_unique hL (isMax_hydro2 hL hx hy _ m) hid hr hr']
  · rintro ⟨r, hr, rfl⟩ ⟨r', hr', rfl⟩
    by_cases hg : g.enabled = true
    · rw [if_pos hg] at hr hr'
      rw [parReduce_max_unique hL (isMax_gravity3 hL hx hy hz _ _ _ m) hid hr hr']
    · rw [if_neg hg] at hr hr'
      rw [parReduce_max_unique hL (isMax_hydro3 hL hx hy hz _ m) hid hr hr']
  · rintro ⟨r, hr, rfl⟩ ⟨r', hr', rfl⟩
    rw [parReduce_max_unique hL (isMax_mhd2 hL hx hy _ m) hid hr hr']
  · rintro ⟨r, hr, rfl⟩ ⟨r', hr', rfl⟩
    rw [parReduce_max_unique hL (isMax_mhd3 hL hx hy hz _ m) hid hr hr']

/-- **C102, the whole program.**  Two executions of the serial program on the same parameter file — any
arithmetic, any schedules, any contents of the uninitialised locals — end in the same state: same files with the
same contents, same log lines, same final time. -/
theorem C102_reproducible (hL : MaxLaws R num sg) (F : FloatLib R) (M : MathLib R) {file : Option (List Char)}
    {k : SolverKind} (hk : findSolver (mainSolverName (Ini.broadcastSerial file)) = some k)
    (hr : cfgBool (Ini.broadcastSerial file) "run" "restart_enabled" false = false)
    (hp : Repeatable sg (hydroParams F (Ini.broadcastSerial file)) k)
    (hd : TubeOk F M (Ini.broadcastSerial file) k) {e e' : Env R} (hid : num e.ident)
    (he : SameStart (Ini.broadcastSerial file) k e e') {o o' : Outcome R}
    (h : serialMain F M e file o) (h' : serialMain F M e' file o') : o = o' := by
  obtain ⟨m, s, rfl, hi, hm⟩ := (serialMain_fresh hk hr o).1 h
  obtain ⟨m', s', rfl, hi', hm'⟩ := (serialMain_fresh hk hr o').1 h'
  rw [← sameStart_init he] at hi'
  obtain rfl := initProblem_once hd hi hi'
  rw [← repeatable_ops hp he.ident] at hm'
  rw [runMain_once (repeatable_once hL hk hp hid) hm hm']

/-- **C102, and it ends.**  The program terminates, in exactly one state (`nlog` is not zero, and gravity is
enabled if the Rayleigh-Taylor problem is run: otherwise the behaviour of the C++ program is undefined). -/
theorem C102_one_outcome (hL : MaxLaws R num sg) (F : FloatLib R) (M : MathLib R) {file : Option (List Char)}
    {k : SolverKind} (hk : findSolver (mainSolverName (Ini.broadcastSerial file)) = some k)
    (hr : cfgBool (Ini.broadcastSerial file) "run" "restart_enabled" false = false)
    (hp : Repeatable sg (hydroParams F (Ini.broadcastSerial file)) k)
    (hn : (hydroParams F (Ini.broadcastSerial file)).nlog ≠ 0)
    (hg : cfgBool (Ini.broadcastSerial file) "gravity" "enabled" false = true ∨
      problemName (Ini.broadcastSerial file) ≠ "rayleigh_taylor".toList)
    (hd : TubeOk F M (Ini.broadcastSerial file) k) {e : Env R} (hid : num e.ident) :
    ∃ s, ∀ e', SameStart (Ini.broadcastSerial file) k e e' →
      ∀ o, serialMain F M e' file o ↔ o = .finished s := by
  have hi : ∃ m, initProblem F M e (Ini.broadcastSerial file) (hydroParams F (Ini.broadcastSerial file)) m k := by
    have hga : ∀ q : HydroProblem R, (∀ r, q = .rayleighTaylor r →
        problemName (Ini.broadcastSerial file) = "rayleigh_taylor".toList) →
        gravityAllocated (gravityParams (Ini.broadcastSerial file)) q := by
      intro q hq
      cases q with
      | rayleighTaylor r => exact hg.resolve_right fun hn => hn (hq r rfl)
      | _ => trivial
    cases k with
    | hydro2 =>
      obtain ⟨m, hm⟩ := (C57_init_unique_hydro_2d M (hydroParams F (Ini.broadcastSerial file)) (0, 0, 0) e.rnd
        (hydroProblem2 F M (Ini.broadcastSerial file) e.ju) freshMem).exists
      refine ⟨m, hga _ (fun r hq => ?_), hm⟩
      unfold hydroProblem2 fourQuadrantOf at hq
      dsimp only at hq
      split_ifs at hq with h1 h2 h3 h4 h5 h6 h7
      exact h7
    | hydro3 =>
      obtain ⟨m, hm⟩ := (C57_init_unique_hydro_3d M (hydroParams F (Ini.broadcastSerial file)) (0, 0, 0) e.rnd
        (hydroProblem3 F M (Ini.broadcastSerial file) e.ju) freshMem).exists
      refine ⟨m, hga _ (fun r hq => ?_), hm⟩
      unfold hydroProblem3 fourQuadrantOf at hq
      dsimp only at hq
      split_ifs at hq with h1 h2 h3 h4 h5 h6
      exact h6
    | mhd2 => exact (C57_init_unique_mhd_2d M _ _ _ (hd _) _).exists
    | mhd3 => exact (C57_init_unique_mhd_3d M _ _ _ (hd _) _).exists
  obtain ⟨m, hm⟩ := hi
  obtain ⟨s, hs⟩ := runMain_total (repeatable_once hL hk hp hid).toTotal hn m
    (cfgFloat F (Ini.broadcastSerial file) "run" "tCurrent" 0) 0
  have hrun : ∀ e', SameStart (Ini.broadcastSerial file) k e e' → serialMain F M e' file (.finished s) := by
    intro e' he
    refine (serialMain_fresh hk hr _).2 ⟨m, s, rfl, ?_, ?_⟩
    · rw [← sameStart_init he]; exact hm
    · rw [← repeatable_ops hp he.ident]; exact hs
  have refl : SameStart (Ini.broadcastSerial file) k e e := ⟨rfl, .inl rfl, .inl rfl⟩
  refine ⟨s, fun e' he o => ⟨fun ho => ?_, fun ho => ho ▸ hrun e' he⟩⟩
  exact (C102_reproducible hL F M hk hr hp hd hid he (hrun e refl) ho).symm

/-- **C102, restarts and any other start.**  From the same state after initialization (whatever produced it), one
run. -/
theorem C102_run_from_state (hL : MaxLaws R num sg) (F : FloatLib R) {c : Ini.Reader} {k : SolverKind}
    (hk : findSolver (mainSolverName c) = some k) (hp : Repeatable sg (hydroParams F c) k) {e e' : Env R}
    (hid : num e.ident) (he : e.ident = e'.ident) {m : Mem Arr R} {t : R} {sv : Int} {s s' : RunState R}
    (h : runMain (hydroParams F c) (solverOps e c (hydroParams F c) k) m t sv s)
    (h' : runMain (hydroParams F c) (solverOps e' c (hydroParams F c) k) m t sv s') : s = s' := by
  rw [← repeatable_ops hp he] at h'
  exact runMain_once (repeatable_once hL hk hp hid) h h'

end EulerKokkos
