import Verif.Lemmas.DistRun
import Verif.Lemmas.DistMhd
import Verif.Lemmas.DriverUnique

/-!
# The MPI build repeats itself, in any arithmetic

`MpiOps.Once`: every part of the solver has exactly one result on every memory.  Then all interleavings of the
processes lead to the same final states (`mpi_once`), whatever the arithmetic.
-/

set_option linter.constructorNameAsVariable false
set_option linter.unusedSectionVars false
set_option linter.unusedSimpArgs false

namespace EulerKokkos
open Spec Spmd

variable {R : Type} [RealOps R] {T : Topo} {p : Params R} {O : MpiOps T R}

/-- the local computations of a phase have exactly one result -/
def OncePhase {ρ S M : Type} : Phase ρ S M → Prop
  | .loc k => ∀ r s, ∃! s', k r s s'
  | _ => True

theorem bulk_total {ρ S M : Type} {l : List (Phase ρ S M)} (h : ∀ ph ∈ l, OncePhase ph) (s : ρ → S) :
    ∃ s', BulkRel l s s' := by
  induction l generalizing s with
  | nil => exact ⟨s, BulkRel.nil s⟩
  | cons ph l ih =>
    have hph : ∃ s1, BulkRel [ph] s s1 := by
      cases ph with
      | loc k =>
        have hk : ∀ r s, ∃! s', k r s s' := h _ (List.mem_cons_self ..)
        choose f h1 h2 using fun r => hk r (s r)
        exact ⟨f, BulkRel.loc fun r s' => ⟨fun hk => h2 r s' hk, fun e => e ▸ h1 r⟩⟩
      | exch dst src tS tR pack unpack => exact ⟨_, BulkRel.exch _⟩
      | coll contrib combine => exact ⟨_, BulkRel.coll _⟩
    obtain ⟨s1, h1⟩ := hph
    obtain ⟨s2, h2⟩ := ih (fun q hq => h q (List.mem_cons_of_mem _ hq)) s1
    exact ⟨s2, h1.cons h2⟩

/-- every part of the solver has exactly one result -/
structure MpiOps.Once (O : MpiOps T R) : Prop where
  setup : ∀ m, ∃ m', BulkRel O.setup m m'
  pre : ∀ n m, ∃ m', BulkRel (O.pre (pingIn n) (pingOut n)) m m'
  dt : ∀ r n m, ∃ d, ∀ d', O.dtLocal r n m d' ↔ d' = d
  halo : ∀ n m, ∃ m', BulkRel (O.halo (pingIn n)) m m'
  scheme : ∀ r d n m, ∃ m', ∀ m'', O.scheme r d (pingIn n) (pingOut n) m m'' ↔ m'' = m'
  matched : Matched O.setup ∧ (∀ U V, Matched (O.pre U V)) ∧ ∀ U, Matched (O.halo U)

/-- what the processes have in common at the head of the loop -/
def RanksAgree (s : T.Rank → RunState R) (a : RunState R) : Prop :=
  ∀ r, (s r).t = a.t ∧ (s r).dt = a.dt ∧ (s r).iteration = a.iteration ∧ (s r).times_saved = a.times_saved ∧
    (s r).outputs.map (fun o => (o.number, o.time, o.iteration)) =
      a.outputs.map (fun o => (o.number, o.time, o.iteration))

theorem RanksAgree.save {s : T.Rank → RunState R} {a : RunState R} (h : RanksAgree s a) :
    RanksAgree (fun r => saveSolution (s r)) (saveSolution a) := by
  intro r
  obtain ⟨h1, h2, h3, h4, h5⟩ := h r
  refine ⟨h1, h2, h3, by simp [saveSolution, h4], ?_⟩
  simp [saveSolution, h5, h4, h1, h3]

theorem RanksAgree.mainSave {s : T.Rank → RunState R} {a : RunState R} (h : RanksAgree s a) :
    RanksAgree (fun r => EulerKokkos.mainSave p (s r)) (EulerKokkos.mainSave p a) := by
  unfold EulerKokkos.mainSave
  split_ifs
  · exact h.save
  · exact h

theorem RanksAgree.maybeSave {s : T.Rank → RunState R} {a : RunState R} (h : RanksAgree s a) :
    RanksAgree (fun r => EulerKokkos.maybeSave p (s r)) (EulerKokkos.maybeSave p a) := by
  have e : ∀ r, (p.enableOutput && shouldSave p (s r)) = (p.enableOutput && shouldSave p a) := by
    intro r
    obtain ⟨h1, h2, h3, h4, h5⟩ := h r
    unfold shouldSave
    rw [h1, h4]
  unfold EulerKokkos.maybeSave
  simp only [e]
  split_ifs
  · exact h.save
  · exact h

theorem RanksAgree.logLine {s : T.Rank → RunState R} {a : RunState R} (h : RanksAgree s a) :
    RanksAgree (fun r => if r.val = 0 then EulerKokkos.logLine p (s r) else s r) (EulerKokkos.logLine p a) := by
  intro r
  have e : ∀ x : RunState R, (EulerKokkos.logLine p x).t = x.t ∧ (EulerKokkos.logLine p x).dt = x.dt ∧
      (EulerKokkos.logLine p x).iteration = x.iteration ∧
      (EulerKokkos.logLine p x).times_saved = x.times_saved ∧
      (EulerKokkos.logLine p x).outputs = x.outputs := by
    intro x
    unfold EulerKokkos.logLine
    split_ifs <;> exact ⟨rfl, rfl, rfl, rfl, rfl⟩
  obtain ⟨a1, a2, a3, a4, a5⟩ := e a
  obtain ⟨b1, b2, b3, b4, b5⟩ := e (s r)
  simp only [a1, a2, a3, a4, a5]
  split_ifs
  · simp only [b1, b2, b3, b4, b5]; exact h r
  · exact h r

theorem bulk_dt {s : T.Rank → RunState R} {a : RunState R} {d : T.Rank → R}
    (hd : ∀ r d', O.dtLocal r a.iteration (s r).mem d' ↔ d' = d r)
    (hn : ∀ r, (s r).iteration = a.iteration) (ht : ∀ r, (s r).t = a.t) :
    BulkRel (mpiComputeDt p O) s (fun r => { s r with dt := clipDt p a.t (minOver d) }) := by
  have h1 : BulkRel [(Phase.loc fun r s s' => ∃ d, O.dtLocal r s.iteration s.mem d ∧
      s' = { s with dt := d } : Phase T.Rank (RunState R) (Msg R))] s
      (fun r => { s r with dt := d r }) := by
    refine BulkRel.loc (fun r s' => ?_)
    constructor
    · rintro ⟨d', h, rfl⟩
      rw [hn r] at h
      rw [(hd r d').1 h]
    · rintro rfl
      exact ⟨d r, by rw [hn r]; exact (hd r _).2 rfl, rfl⟩
  have h2 : BulkRel [(barrier T.Rank (RunState R) : Phase T.Rank (RunState R) (Msg R))]
      (fun r => { s r with dt := d r }) (fun r => { s r with dt := d r }) := BulkRel.coll _
  have h3 := BulkRel.coll (contrib := fun s : RunState R => (⟨1, fun _ => s.dt⟩ : Msg R))
    (combine := fun (all : T.Rank → Msg R) (s : RunState R) =>
      { s with dt := clipDt p s.t (minOver fun a => (all a).data 0) })
    (fun r => { s r with dt := d r })
  have e : (fun r => { s r with dt := clipDt p a.t (minOver d) }) =
      fun r => (fun (all : T.Rank → Msg R) (s : RunState R) =>
        { s with dt := clipDt p s.t (minOver fun a => (all a).data 0) })
        (fun x => (fun s : RunState R => (⟨1, fun _ => s.dt⟩ : Msg R)) { s x with dt := d x })
        { s r with dt := d r } := by
    funext r
    simp only
    rw [ht r]
  rw [e]
  exact h1.cons (h2.cons h3)

theorem matched_dt : Matched (mpiComputeDt p O) :=
  Matched.cons (Matched.single trivial) (Matched.cons (Matched.single trivial)
    (Matched.single trivial))

theorem matchedTurn (hR : O.Once) (b : Bool) : Matched (mpiTurn p O b) :=
  ((((Matched.single trivial).append (matched_onMem (hR.matched.2.1 _ _))).append
    matched_dt).append (matched_onMem (hR.matched.2.2 _))).append (Matched.single trivial)

theorem matchedStart (hR : O.Once) : Matched (mpiStart p O) :=
  ((matched_onMem hR.matched.1).append matched_dt).append (Matched.single trivial)

/-- the turn of the processes: what each part does -/
theorem bulk_turn (hlog : p.nlog ≠ 0) {n : Nat} {s : T.Rank → RunState R} {a : RunState R} (ha : RanksAgree s a)
    (hn : a.iteration = n) {m₀ m₁ m₂ : T.Rank → Mem Arr R} {d : T.Rank → R}
    (h0 : BulkRel (O.pre (pingIn n) (pingOut n)) (fun r => (s r).mem) m₀)
    (hd : ∀ r d', O.dtLocal r n (m₀ r) d' ↔ d' = d r)
    (h1 : BulkRel (O.halo (pingIn n)) m₀ m₁)
    (h2 : ∀ r m', O.scheme r (clipDt p a.t (minOver d)) (pingIn n) (pingOut n) (m₁ r) m' ↔ m' = m₂ r) :
    BulkRel (mpiTurn p O (n % 2 == 1)) s (fun r =>
      let s1 := maybeSave p (if r.val = 0 then logLine p (s r) else s r)
      { s1 with mem := m₂ r, dt := clipDt p a.t (minOver d), iteration := s1.iteration + 1,
                t := s1.t + clipDt p a.t (minOver d) }) := by
  have hin : (if (n % 2 == 1) = true then Arr.U2 else .U) = pingIn n := by
    unfold pingIn
    rcases Nat.mod_two_eq_zero_or_one n with e | e <;> simp [e]
  have hout : (if (n % 2 == 1) = true then Arr.U else .U2) = pingOut n := by
    unfold pingOut
    rcases Nat.mod_two_eq_zero_or_one n with e | e <;> simp [e]
  have hb1 : BulkRel [(Phase.loc fun r s s' => p.nlog ≠ 0 ∧
      s' = maybeSave p (if r.val = 0 then logLine p s else s) :
      Phase T.Rank (RunState R) (Msg R))] s
      (fun r => maybeSave p (if r.val = 0 then logLine p (s r) else s r)) :=
    BulkRel.loc fun r s' => ⟨fun h => h.2, fun h => ⟨hlog, h⟩⟩
  have c1 := (ha.logLine (p := p)).maybeSave (p := p)
  set s1 : T.Rank → RunState R :=
    fun r => maybeSave p (if r.val = 0 then logLine p (s r) else s r) with hs1
  have hmem : ∀ x : RunState R, (maybeSave p x).mem = x.mem ∧ (maybeSave p x).t = x.t ∧
      (maybeSave p x).iteration = x.iteration := by
    intro x; unfold maybeSave saveSolution; split_ifs <;> exact ⟨rfl, rfl, rfl⟩
  have hmem' : ∀ x : RunState R, (logLine p x).mem = x.mem ∧ (logLine p x).t = x.t ∧
      (logLine p x).iteration = x.iteration := by
    intro x; unfold logLine; split_ifs <;> exact ⟨rfl, rfl, rfl⟩
  have hsm : ∀ r, (s1 r).mem = (s r).mem := by
    intro r
    rw [hs1]; simp only; rw [(hmem _).1]; split_ifs
    · exact (hmem' _).1
    · rfl
  have hst : ∀ r, (s1 r).t = a.t := fun r => by
    rw [(c1 r).1, (hmem _).2.1, (hmem' _).2.1]
  have hsn : ∀ r, (s1 r).iteration = a.iteration := fun r => by
    rw [(c1 r).2.2.1, (hmem _).2.2, (hmem' _).2.2]
  have hb1' := BulkRel.onMem h0 (s := s1) hsm
  have hb2 := bulk_dt (p := p) (O := O) (a := a) (s := fun r => { s1 r with mem := m₀ r })
    (by rw [hn]; exact hd) hsn hst
  set dt := clipDt p a.t (minOver d) with hdt
  have hb3 := BulkRel.onMem h1 (s := fun r => { s1 r with mem := m₀ r, dt := dt }) (fun r => rfl)
  have hb4 : BulkRel [(Phase.loc fun r s s' => ∃ m', O.scheme r s.dt (pingIn n) (pingOut n) s.mem m' ∧
      s' = { s with mem := m', iteration := s.iteration + 1, t := s.t + s.dt } :
      Phase T.Rank (RunState R) (Msg R))] (fun r => { s1 r with dt := dt, mem := m₁ r })
      (fun r => { s1 r with dt := dt, mem := m₂ r, iteration := (s1 r).iteration + 1
                            t := (s1 r).t + dt }) := by
    refine BulkRel.loc fun r s' => ?_
    constructor
    · rintro ⟨m', hm, rfl⟩
      rw [(h2 r m').1 hm]
    · rintro rfl
      exact ⟨m₂ r, (h2 r _).2 rfl, rfl⟩
  unfold mpiTurn
  simp only [hin, hout]
  exact (((hb1.append hb1').append hb2).append hb3).append hb4

theorem bulk_turn_agree (hR : O.Once) (hlog : p.nlog ≠ 0) {n : Nat} {s : T.Rank → RunState R} {a : RunState R}
    (ha : RanksAgree s a) (hn : a.iteration = n) :
    ∃ s' a', BulkRel (mpiTurn p O (n % 2 == 1)) s s' ∧ RanksAgree s' a' ∧ a'.iteration = n + 1 := by
  obtain ⟨m0, h0⟩ := hR.pre n (fun r => (s r).mem)
  choose d hd using fun r => hR.dt r n (m0 r)
  obtain ⟨m1, h1⟩ := hR.halo n m0
  choose m2 h2 using fun r => hR.scheme r (clipDt p a.t (minOver d)) n (m1 r)
  have c1 := (ha.logLine (p := p)).maybeSave (p := p)
  refine ⟨_, { maybeSave p (logLine p a) with
      dt := clipDt p a.t (minOver d), iteration := (maybeSave p (logLine p a)).iteration + 1,
      t := (maybeSave p (logLine p a)).t + clipDt p a.t (minOver d) },
    bulk_turn hlog ha hn h0 hd h1 h2, fun r => ?_, ?_⟩
  · obtain ⟨e1, e2, e3, e4, e5⟩ := c1 r
    exact ⟨congrArg (· + clipDt p a.t (minOver d)) e1, rfl, congrArg (· + 1) e3, e4, e5⟩
  · show (maybeSave p (logLine p a)).iteration + 1 = n + 1
    have hmem : ∀ x : RunState R, (maybeSave p x).iteration = x.iteration := by
      intro x; unfold maybeSave saveSolution; split_ifs <;> rfl
    have hmem' : ∀ x : RunState R, (logLine p x).iteration = x.iteration := by
      intro x; unfold logLine; split_ifs <;> rfl
    rw [hmem, hmem', hn]

/-- the processes follow a sequence of states on which they agree about the end of the loop -/
theorem mpi_along (hR : O.Once) {s : T.Rank → RunState R}
    (σ : Nat → T.Rank → RunState R) (K : Nat) (hstart : BulkRel (mpiStart p O) s (σ 0))
    (hturn : ∀ n < K, BulkRel (mpiTurn p O (n % 2 == 1)) (σ n) (σ (n + 1)))
    (hit : ∀ n ≤ K, ∀ r, (σ n r).iteration = n)
    (hgo : ∀ n < K, ∀ r, ¬ finished p (σ n r)) (hend : ∀ r, finished p (σ K r)) :
    ∃ N, ∀ (buf : Prop) n y, FSteps buf (mpiMain p O) n (FConfig.init (.pre 0) s) y →
      n ≤ N ∧ (¬ y.Done (mpiMain p O) → ∃ z, FStep False (mpiMain p O) y z) ∧
      (y.Done (mpiMain p O) → y.c.st = (fun r => mainSave p (σ K r)) ∧ ∀ a b t, y.c.chan a b t = []) := by
  have hflow := loop_along (pre := mpiStart p O) (body := mpiTurn p O)
    (post := [(Phase.loc fun _ s s' => s' = mainSave p s :
      Phase T.Rank (RunState R) (Msg R))]) (stop := finished p)
    (sel := fun s => s.iteration % 2 == 1)
    (by simp [mpiStart]) (by simp [mpiTurn]) (by simp)
    (s := s) σ (fun j => j % 2 == 1) K hstart
    (fun n hn r => ⟨hgo n hn r, by rw [hit n hn.le r]⟩)
    hturn hend
    (s' := fun r => mainSave p (σ K r)) (BulkRel.loc fun r s' => Iff.rfl)
  obtain ⟨hist, tr, hA, hB, h0, h1, t0⟩ := hflow.along rfl
  have hmat : Matched (mpiStart p O ++ turnPhases (mpiTurn p O) (fun j => j % 2 == 1) K ++
      [(Phase.loc fun _ s s' => s' = mainSave p s : Phase T.Rank (RunState R) (Msg R))]) :=
    ((matchedStart hR).append (Matched.turnPhases (matchedTurn hR) K)).append
      (Matched.single trivial)
  refine ⟨3 * (mpiStart p O ++ turnPhases (mpiTurn p O) (fun j => j % 2 == 1) K ++
      [(Phase.loc fun _ s s' => s' = mainSave p s : Phase T.Rank (RunState R) (Msg R))]).length *
        Fintype.card T.Rank, fun buf n y hy => ?_⟩
  have hy' : FSteps buf (mpiMain p O) n (FConfig.init (tr 0) (hist 0)) y := by
    rw [h0, t0]; exact hy
  obtain ⟨r1, r2, r3⟩ := flow_run hA hmat hB hy'
  refine ⟨r1, r2, fun hd => ?_⟩
  obtain ⟨q1, q2⟩ := r3 hd
  exact ⟨by rw [q1, h1], q2⟩

/-- **One outcome of the MPI build.** -/
theorem mpi_once (hR : O.Once) (hlog : p.nlog ≠ 0) (m : T.Rank → Mem Arr R) (t : R) (sv : Int) :
    ∃ N fin, (∀ r r' : T.Rank, (fin r).t = (fin r').t ∧ (fin r).iteration = (fin r').iteration ∧
        (fin r).times_saved = (fin r').times_saved ∧
        (fin r).outputs.map (fun o => (o.number, o.time, o.iteration)) =
          (fin r').outputs.map (fun o => (o.number, o.time, o.iteration))) ∧
      ∀ (buf : Prop) n y,
        FSteps buf (mpiMain p O) n (FConfig.init (.pre 0) (fun r => startState (m r) t sv)) y →
        n ≤ N ∧ (¬ y.Done (mpiMain p O) → ∃ z, FStep False (mpiMain p O) y z) ∧
        (y.Done (mpiMain p O) → y.c.st = fin ∧ ∀ a b t, y.c.chan a b t = []) := by
  classical
  obtain ⟨m1, hm1⟩ := hR.setup m
  choose d hd using fun r => hR.dt r 0 (m1 r)
  have g1 := BulkRel.onMem hm1 (s := fun r => startState (m r) t sv) (fun r => rfl)
  set s1 : T.Rank → RunState R := fun r => startState (m1 r) t sv with hs1
  set a1 : RunState R := startState (fun _ => lit 0) t sv with ha1
  have g3 := bulk_dt (p := p) (O := O) (a := a1) (s := s1) hd (fun _ => rfl) (fun _ => rfl)
  set dt := clipDt p a1.t (minOver d)
  have c0 : RanksAgree (fun r => { s1 r with dt := dt }) { a1 with dt := dt } :=
    fun r => ⟨rfl, rfl, rfl, rfl, rfl⟩
  have c1 := c0.mainSave (p := p)
  have hn1 : (mainSave p { a1 with dt := dt }).iteration = 0 := by
    unfold mainSave saveSolution; split_ifs <;> rfl
  have g4 : BulkRel [(Phase.loc fun _ s s' => s' = mainSave p s :
      Phase T.Rank (RunState R) (Msg R))] (fun r => { s1 r with dt := dt })
      (fun r => mainSave p { s1 r with dt := dt }) := BulkRel.loc fun r s' => Iff.rfl
  have hstart : BulkRel (mpiStart p O) (fun r => startState (m r) t sv)
      (fun r => mainSave p { s1 r with dt := dt }) := (g1.append g3).append g4
  -- the sequence of states at the loop head
  let St := { x : Nat × (T.Rank → RunState R) × RunState R // RanksAgree x.2.1 x.2.2 ∧ x.2.2.iteration = x.1 }
  choose nx na hb hag hit using fun x : St => bulk_turn_agree (p := p) hR hlog x.2.1 x.2.2
  let step : St → St := fun x => ⟨(x.1.1 + 1, nx x, na x), hag x, hit x⟩
  let st : Nat → St := fun k => step^[k] ⟨(0, _, _), c1, hn1⟩
  have hst : ∀ k, st (k + 1) = step (st k) := fun k => Function.iterate_succ_apply' ..
  have hk : ∀ k, (st k).1.1 = k := by
    intro k
    induction k with
    | zero => rfl
    | succ k ih => rw [hst]; show (st k).1.1 + 1 = _; rw [ih]
  let σ : Nat → T.Rank → RunState R := fun k => (st k).1.2.1
  have hσn : ∀ k r, (σ k r).iteration = k := fun k r => by
    rw [((st k).2.1 r).2.2.1, (st k).2.2, hk]
  have hfin : ∀ k r, finished p (σ k r) ↔ finished p (st k).1.2.2 := fun k r => by
    unfold finished
    rw [((st k).2.1 r).1, ((st k).2.1 r).2.2.1]
  have hex : ∃ k, finished p (st k).1.2.2 :=
    ⟨p.nStepmax.toNat, Or.inr (by rw [(st _).2.2, hk]; omega)⟩
  obtain ⟨N, hN⟩ := mpi_along (p := p) hR (s := fun r => startState (m r) t sv) σ (Nat.find hex) hstart
    (fun n _ => by
      have := hb (st n)
      rw [hk] at this
      show BulkRel _ (st n).1.2.1 (st (n + 1)).1.2.1
      rw [hst]
      exact this)
    (fun n _ r => hσn n r)
    (fun n hn r hf => Nat.find_min hex hn ((hfin n r).1 hf))
    (fun r => (hfin _ r).2 (Nat.find_spec hex))
  refine ⟨N, _, fun r r' => ?_, hN⟩
  have ha := (st (Nat.find hex)).2.1.mainSave (p := p)
  obtain ⟨e1, e2, e3, e4, e5⟩ := ha r
  obtain ⟨f1, f2, f3, f4, f5⟩ := ha r'
  exact ⟨e1.trans f1.symm, e3.trans f3.symm, e4.trans f4.symm, e5.trans f5.symm⟩

end EulerKokkos
