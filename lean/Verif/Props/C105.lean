import Verif.Lemmas.IeeeRate
import Verif.Props.C103
import Verif.Props.C104

/-!
# C105: the program in IEEE 754 arithmetic

C102, C103 and C104 for the arithmetic the program is really run in: `double` and every other binary format, with signed
zeros, infinities, a NaN, overflow and gradual underflow, rounded to nearest.  No hypothesis about the arithmetic is left.
-/

set_option linter.constructorNameAsVariable false
set_option linter.unusedSectionVars false
set_option linter.unusedSimpArgs false

namespace EulerKokkos
open Spec Prog Spmd

variable {Φ : Rounding} {T : Topo}

namespace Ieee

theorem sg_width {a b : Ieee Φ} (h : Below a b) : Spec.Ieee.Sg (b - a) := by
  obtain ⟨ha, hb, h⟩ := lt_iff.1 h
  show Spec.Ieee.Sg (Spec.Ieee.add b (Spec.Ieee.neg a))
  cases a with
  | nan => cases ha
  | inf s =>
    cases s
    · exact absurd h (by simp [Spec.Ieee.key])
    · cases b with
      | nan => cases hb
      | inf t =>
        cases t
        · exact .inr rfl
        · exact absurd h (lt_irrefl _)
      | fin t m => exact .inr rfl
  | fin s m =>
    cases b with
    | nan => cases hb
    | inf t =>
      cases t
      · exact .inr rfl
      · exact absurd h (by simp [Spec.Ieee.key])
    | fin t n =>
      have h : Spec.Ieee.real s m < Spec.Ieee.real t n := EReal.coe_lt_coe_iff.1 h
      have hm := Φ.nonneg _ m.2.1
      have hn := Φ.nonneg _ n.2.1
      refine sg_add_fin ?_ ?_
      · cases s <;> cases t <;> try rfl
        rw [real_false, real_true] at h
        linarith
      · have e : Spec.Ieee.real (!s) m = - Spec.Ieee.real s m := by
          cases s
          · rfl
          · exact (neg_neg m.1).symm
        rw [e]
        linarith

theorem sg_count {n : Int} (h : 0 ≤ n) : Spec.Ieee.Sg (intLit n : Ieee Φ) := by
  unfold intLit
  rw [lit_eq _ (by exact_mod_cast h)]
  exact sg_round _

theorem sg_cell {a b : Ieee Φ} (h : Below a b) {n : Int} (hn : 0 ≤ n) : Spec.Ieee.Sg ((b - a) / intLit n) :=
  sg_div _ _ (sg_width h) (sg_count hn)

end Ieee

theorem ieee_repeatable {F : FloatLib (Ieee Φ)} {c : Ini.Reader} {k : SolverKind} (h : IeeeRun (hydroParams F c) k) :
    Repeatable Spec.Ieee.Sg (hydroParams F c) k := by
  cases k with
  | hydro2 =>
    obtain ⟨hx, hy, nx, ny, r⟩ := h
    exact ⟨Ieee.sg_cell hx (le_trans (by decide) nx), Ieee.sg_cell hy (le_trans (by decide) ny), nx, ny, r⟩
  | hydro3 =>
    obtain ⟨hx, hy, hz, nx, ny, nz, r⟩ := h
    exact ⟨Ieee.sg_cell hx (le_trans (by decide) nx), Ieee.sg_cell hy (le_trans (by decide) ny),
      Ieee.sg_cell hz (le_trans (by decide) nz), nx, ny, nz, r⟩
  | mhd2 =>
    obtain ⟨hx, hy, nx, ny, r⟩ := h
    exact ⟨Ieee.sg_cell hx (le_trans (by decide) nx), Ieee.sg_cell hy (le_trans (by decide) ny), nx, ny, r⟩
  | mhd3 =>
    obtain ⟨hx, hy, hz, nx, ny, nz, r⟩ := h
    exact ⟨Ieee.sg_cell hx (le_trans (by decide) nx), Ieee.sg_cell hy (le_trans (by decide) ny),
      Ieee.sg_cell hz (le_trans (by decide) nz), nx, ny, nz, r⟩

theorem ieee_repeatableMpi {F : FloatLib (Ieee Φ)} {c : Ini.Reader} {k : SolverKind}
    (h : IeeeRun (hydroParamsMpi T F c) k) : Repeatable Spec.Ieee.Sg (hydroParamsMpi T F c) k := by
  have m : ∀ {n : Int} {d : Nat}, 1 ≤ n → 0 ≤ n * (d : Int) := fun h => by positivity
  cases k with
  | hydro2 =>
    obtain ⟨hx, hy, nx, ny, r⟩ := h
    exact ⟨Ieee.sg_cell hx (m (le_trans (by decide) nx)), Ieee.sg_cell hy (m (le_trans (by decide) ny)), nx, ny, r⟩
  | hydro3 =>
    obtain ⟨hx, hy, hz, nx, ny, nz, r⟩ := h
    exact ⟨Ieee.sg_cell hx (m (le_trans (by decide) nx)), Ieee.sg_cell hy (m (le_trans (by decide) ny)),
      Ieee.sg_cell hz (m (le_trans (by decide) nz)), nx, ny, nz, r⟩
  | mhd2 =>
    obtain ⟨hx, hy, nx, ny, r⟩ := h
    exact ⟨Ieee.sg_cell hx (m (le_trans (by decide) nx)), Ieee.sg_cell hy (m (le_trans (by decide) ny)), nx, ny, r⟩
  | mhd3 =>
    obtain ⟨hx, hy, hz, nx, ny, nz, r⟩ := h
    exact ⟨Ieee.sg_cell hx (m (le_trans (by decide) nx)), Ieee.sg_cell hy (m (le_trans (by decide) ny)),
      Ieee.sg_cell hz (m (le_trans (by decide) nz)), nx, ny, nz, r⟩

/-- **C105 (serial).**  In IEEE 754 arithmetic the program terminates on the parameter file, in exactly one state: same
files bit for bit, same log, whatever the number of threads, the schedules and the uninitialised memory. -/
theorem C105_serial (F : FloatLib (Ieee Φ)) (M : MathLib (Ieee Φ)) {file : Option (List Char)} {k : SolverKind}
    (hk : findSolver (mainSolverName (Ini.broadcastSerial file)) = some k)
    (hr : cfgBool (Ini.broadcastSerial file) "run" "restart_enabled" false = false)
    (hp : IeeeRun (hydroParams F (Ini.broadcastSerial file)) k)
    (hn : (hydroParams F (Ini.broadcastSerial file)).nlog ≠ 0)
    (hg : cfgBool (Ini.broadcastSerial file) "gravity" "enabled" false = true ∨
      problemName (Ini.broadcastSerial file) ≠ "rayleigh_taylor".toList)
    (hd : TubeOk F M (Ini.broadcastSerial file) k) {e : Env (Ieee Φ)} (hid : e.ident = Spec.Ieee.lowest) :
    ∃ s, ∀ e', SameStart (Ini.broadcastSerial file) k e e' →
      ∀ o, serialMain F M e' file o ↔ o = .finished s :=
  C102_one_outcome Ieee.maxLaws F M hk hr (ieee_repeatable hp) hn hg hd (hid ▸ Ieee.num_lowest)

/-- **C105 (MPI).**  In IEEE 754 arithmetic every execution of the MPI program ends, without deadlock and without a message
left, in the same states of all processes. -/
theorem C105_mpi (F : FloatLib (Ieee Φ)) (M : MathLib (Ieee Φ)) {file : Option (List Char)} {k : SolverKind}
    (hk : findSolver (mainSolverName (Ini.broadcastMpi file)) = some k)
    (hp : IeeeRun (hydroParamsMpi T F (Ini.broadcastMpi file)) k)
    (hn : (hydroParamsMpi T F (Ini.broadcastMpi file)).nlog ≠ 0)
    (hd : TubeOk F M (Ini.broadcastMpi file) k) {e e' : EnvMpi T (Ieee Φ)} (hid : e.ident = Spec.Ieee.lowest)
    (he : SameStartMpi (Ini.broadcastMpi file) k e e') {st st' : T.Rank → RunState (Ieee Φ)}
    {flow flow' : Flow Ctl T.Rank (RunState (Ieee Φ)) (Msg (Ieee Φ))}
    (h : MpiStarts F M e file st flow) (h' : MpiStarts F M e' file st' flow') :
    ∃ fin, SameBooks fin ∧ AlwaysEnds flow st (· = fin) ∧ AlwaysEnds flow' st' (· = fin) :=
  C103_reproducible Ieee.maxLaws F M hk (ieee_repeatableMpi hp) hn hd (hid ▸ Ieee.num_lowest) he h h'

/-- **C105 (MPI = serial).**  In IEEE 754 arithmetic, with a finite positive Courant number, every execution of the MPI
program on a process grid ends with every process holding its block of the result of the serial program on the whole domain,
bit for bit: clock, iterations, log, files.  (In every block, at every step, some cell has a rate that is not a NaN;
`C105_dead_block` shows what happens otherwise.) -/
theorem C105_mpi_is_serial (F : FloatLib (Ieee Φ)) (M : MathLib (Ieee Φ)) {file file' : Option (List Char)}
    {k : SolverKind} {e : EnvMpi T (Ieee Φ)} {e' : Env (Ieee Φ)} {st : T.Rank → RunState (Ieee Φ)}
    {flow : Flow Ctl T.Rank (RunState (Ieee Φ)) (Msg (Ieee Φ))} {s' : RunState (Ieee Φ)} :
    let c := Ini.broadcastMpi file
    let p := hydroParamsMpi T F c
    WholeDomain T c (Ini.broadcastSerial file') → findSolver (mainSolverName c) = some k → IeeeRun p k →
    FinitePos p.settings.cfl → NamedFaces T p k → StartsBlockwise F M T c e.ju e'.ju k →
    SerialMoves Spec.Ieee.Rate T F M e' c (Ini.broadcastSerial file') k →
    e.ident = Spec.Ieee.lowest → e'.ident = Spec.Ieee.lowest →
    MpiStarts F M e file st flow → serialMain F M e' file' (.finished s') →
    AlwaysEnds flow st fun s => PartOf T (rawParams (lit 0) F c) k s s' := by
  intro c p hw hk hp hcfl hbc hst hmv hi hi' h h'
  obtain ⟨m, hm, e⟩ := hcfl
  exact C104_program Ieee.maxLaws Ieee.signLaws F M hw hk (ieee_repeatableMpi hp)
    (by rw [show p.settings.cfl = _ from e]; exact Ieee.divLaws hm)
    hbc hst hmv (hi ▸ Ieee.num_lowest) (hi ▸ Ieee.lowest_not_rate) (hi' ▸ Ieee.num_lowest) (hi' ▸ Ieee.lowest_not_rate) h h'

/-! ### When a cell has a rate -/

namespace Spec

/-- every block of the whole domain, held in the memory `A` of the serial run at iteration `n`, contains a gas cell the
time step can be computed from -/
def AliveBlocks2 (T : Topo) (p : Params (Ieee Φ)) (n : Nat) (A : Mem Arr (Ieee Φ)) : Prop :=
  ∀ r : T.Rank, ∃ i j, interior2 (localParams T p) i j ∧
    Alive (hs2 A (pingIn n) ((T.coords r).1 * p.nx + i) ((T.coords r).2.1 * p.ny + j))

/-- the same in 3D -/
def AliveBlocks3 (T : Topo) (p : Params (Ieee Φ)) (n : Nat) (A : Mem Arr (Ieee Φ)) : Prop :=
  ∀ r : T.Rank, ∃ i j k, interior3 (localParams T p) i j k ∧
    Alive (hs3 A (pingIn n) ((T.coords r).1 * p.nx + i) ((T.coords r).2.1 * p.ny + j) ((T.coords r).2.2 * p.nz + k))

end Spec

/-- **C105 (rates, 2D hydro).**  Whatever the energy and even if the density is a NaN: a cell of an alive block has a rate,
so the blocks move. -/
theorem C105_alive_moves_2d {p : Params (Ieee Φ)} (hs : GasIeee (globalParams T p).settings)
    (hx : FinitePos (globalParams T p).dx) (hy : FinitePos (globalParams T p).dy) {g : GravityParams}
    (hg : g.enabled = false) {n : Nat} {A : Mem Arr (Ieee Φ)} (h : AliveBlocks2 T p n A) :
    BlocksMove Spec.Ieee.Rate T p g .hydro2 n A := fun r => by
  obtain ⟨i, j, hij, ha⟩ := h r
  exact ⟨i, j, hij, Ieee.rate_cell2 hs hx hy hg ha _⟩

/-- **C105 (rates, 3D hydro).** -/
theorem C105_alive_moves_3d {p : Params (Ieee Φ)} (hs : GasIeee (globalParams T p).settings)
    (hx : FinitePos (globalParams T p).dx) (hy : FinitePos (globalParams T p).dy) (hz : FinitePos (globalParams T p).dz)
    {g : GravityParams} (hg : g.enabled = false) {n : Nat} {A : Mem Arr (Ieee Φ)} (h : AliveBlocks3 T p n A) :
    BlocksMove Spec.Ieee.Rate T p g .hydro3 n A := fun r => by
  obtain ⟨i, j, k, hij, ha⟩ := h r
  exact ⟨i, j, k, hij, Ieee.rate_cell3 hs hx hy hz hg ha _⟩

/-- **C105 (a dead block).**  If the rate of every cell of its block is a NaN, a process computes the time step
`cfl / -DBL_MAX`, which has its sign bit set: the hypothesis of `C105_mpi_is_serial` cannot be dropped, since the processes
take the smallest of their time steps. -/
theorem C105_dead_block {p : Params (Ieee Φ)} (hw : p.WF) (hx : Spec.Ieee.Sg p.dx) (hy : Spec.Ieee.Sg p.dy)
    (hc : FinitePos p.settings.cfl) {g : GravityParams} {n : Nat} {m : Mem Arr (Ieee Φ)} {dt : Ieee Φ}
    (h : computeDtLocal2 p g Spec.Ieee.lowest n m dt)
    (hdead : ∀ i j, interior2 p i j →
      (cellRate2 p g (hs2 m (pingIn n) i j) (gravOf m .grav i j)).isNan = true) :
    dt = p.settings.cfl / Spec.Ieee.lowest ∧ dt.negative = true := by
  obtain ⟨r, hr, rfl⟩ := h
  have hL : MaxLaws (Ieee Φ) Spec.Ieee.Num Spec.Ieee.Sg := Ieee.maxLaws
  have hr : ParReduce (range2 p.isize p.jsize) (dtBody2 p g (pingIn n)) kokkosMaxJoin Spec.Ieee.lowest m r := by
    unfold dtBody2
    split_ifs at hr ⊢ <;> exact hr
  have hmax : IsMax Spec.Ieee.Sg (dtBody2 p g (pingIn n)) m := by
    unfold dtBody2
    split_ifs
    · exact isMax_gravity2 hL hx hy _ _ _ m
    · exact isMax_hydro2 hL hx hy _ m
  have idle : ∀ t, ((dtBody2 p g (pingIn n) t Spec.Ieee.lowest).run m).1 = Spec.Ieee.lowest := by
    intro t
    by_cases ht : interior2 p t.1 t.2
    · rw [dtBody2_in hw ht]
      have := hdead _ _ ht
      generalize cellRate2 p g (hs2 m (pingIn n) t.1 t.2) (gravOf m .grav t.1 t.2) = x at this
      cases x with
      | nan => rfl
      | inf s => cases this
      | fin s a => cases this
    · exact dtBody2_out hw ht _
  obtain ⟨l, _, hl, hr⟩ := hr
  obtain ⟨h1, h2, h3, h4⟩ := reduce_fmax hL hmax Ieee.num_lowest hr
  have e : r = Spec.Ieee.lowest := by
    rcases h2 with e | ⟨t, _, x, hx, hxx, rfl⟩
    · exact e
    · have := (hxx Spec.Ieee.lowest).symm.trans (idle t)
      rw [hL.max_num _ _ Ieee.num_lowest hx] at this
      split at this
      · exact this
      · rename_i hlt
        exact hL.total _ _ h1 Ieee.num_lowest h3 (by simpa using hlt)
  rw [e]
  refine ⟨rfl, ?_⟩
  obtain ⟨c, hc0, ec⟩ := hc
  rw [ec]
  show (Spec.Ieee.div (.fin false c) Spec.Ieee.lowest).negative = true
  unfold Spec.Ieee.div Spec.Ieee.lowest
  dsimp only
  have := Φ.two_le_top
  rw [if_neg (by linarith)]
  rcases Ieee.round_cases (Φ := Φ) (false ^^ true) (c.1 / Φ.top) with ⟨k, ek⟩ | ek <;> rw [ek] <;> rfl

end EulerKokkos
