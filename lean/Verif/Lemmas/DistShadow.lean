import Verif.Lemmas.DistOnceOps

/-!
# The MPI build shadows the serial build, in any arithmetic

`Mirrors`: the parts of the MPI solver take blocks of the serial memory to blocks of the serial memory and their time
steps have the serial one as minimum.  Then (`mirror_run`) every execution of the MPI build ends with the blocks of the
result of the serial build, the same clock, the same files and the same log.
-/

set_option linter.constructorNameAsVariable false
set_option linter.unusedSectionVars false
set_option linter.unusedSimpArgs false

namespace EulerKokkos
open Spec Spmd

variable {R : Type} [RealOps R] {T : Topo} {p q : Params R} {O : MpiOps T R} {S : SolverOps R}
  {J : (T.Rank → Mem Arr R) → Mem Arr R → Prop} {I : Nat → (T.Rank → Mem Arr R) → Mem Arr R → Prop}
  {Good : Nat → Mem Arr R → Prop} {V : T.Rank → (Loc Unit → R) → (Loc Unit → R) → Prop}

theorem BulkRel.unique {ρ σ M : Type} {l : List (Phase ρ σ M)} {s a b : ρ → σ} (ha : BulkRel l s a)
    (hb : BulkRel l s b) : a = b := by
  obtain ⟨f, hf, f0, rfl⟩ := ha
  obtain ⟨g, hg, g0, rfl⟩ := hb
  have key : ∀ n ≤ l.length, f n = g n := by
    intro n
    induction n with
    | zero => intro _; rw [f0, g0]
    | succ n ih =>
      intro hn
      have e := ih (by omega)
      obtain ⟨ph, hph⟩ : ∃ ph, l[n]? = some ph := ⟨l[n]'(by omega), List.getElem?_eq_getElem _⟩
      funext r
      have h1 := hf n ph hph r
      have h2 := hg n ph hph r
      cases ph with
      | loc k =>
        simp only at h1 h2
        rw [e] at h1
        exact (h2 _).1 ((h1 _).2 rfl)
      | exch dst src tS tR pack unpack =>
        simp only at h1 h2
        rw [h1, h2, e]
      | coll contrib combine =>
        simp only at h1 h2
        rw [h1, h2, e]
  exact key _ le_rfl

/-- part by part, the MPI solver works on the blocks of the serial memory -/
structure Mirrors (S : SolverOps R) (O : MpiOps T R) (J : (T.Rank → Mem Arr R) → Mem Arr R → Prop)
    (I : Nat → (T.Rank → Mem Arr R) → Mem Arr R → Prop) (Good : Nat → Mem Arr R → Prop)
    (V : T.Rank → (Loc Unit → R) → (Loc Unit → R) → Prop) : Prop where
  start : ∀ m A A₁, J m A → S.setup A A₁ → ∃ m₁, BulkRel O.setup m m₁ ∧ I 0 m₁ A₁ ∧
    ∀ d dl, Good 0 A₁ → S.dtLocal 0 A₁ d → (∀ r, O.dtLocal r 0 (m₁ r) (dl r)) → minOver dl = d
  turn : ∀ n m A A₁, I n m A → S.pre n A A₁ → ∃ m₀ m₁, BulkRel (O.pre (pingIn n) (pingOut n)) m m₀ ∧
    BulkRel (O.halo (pingIn n)) m₀ m₁ ∧
    (∀ d dl, Good n A₁ → S.dtLocal n A₁ d → (∀ r, O.dtLocal r n (m₀ r) (dl r)) → minOver dl = d) ∧
    ∀ dt A₂ m₂, S.post n dt A₁ A₂ → (∀ r, O.scheme r dt (pingIn n) (pingOut n) (m₁ r) (m₂ r)) → I (n + 1) m₂ A₂
  shows : ∀ n m A, I n m A → ∀ r, V r (viewOf (m r) (pingIn n)) (viewOf A (pingIn n))

/-- the two builds read the same clock, output and log settings -/
structure SameClock (p q : Params R) : Prop where
  tEnd : q.tEnd = p.tEnd
  nStepmax : q.nStepmax = p.nStepmax
  nOutput : q.nOutput = p.nOutput
  enableOutput : q.enableOutput = p.enableOutput
  nlog : q.nlog = p.nlog

/-- the file of a process and the file of the serial run -/
def FileOf (V : T.Rank → (Loc Unit → R) → (Loc Unit → R) → Prop) (r : T.Rank) (o g : Output R) : Prop :=
  o.number = g.number ∧ o.time = g.time ∧ o.iteration = g.iteration ∧ V r o.data g.data

/-- the states of the processes next to the state of the serial run -/
structure Mirror (I : Nat → (T.Rank → Mem Arr R) → Mem Arr R → Prop)
    (V : T.Rank → (Loc Unit → R) → (Loc Unit → R) → Prop) (n : Nat) (s : T.Rank → RunState R) (a : RunState R) :
    Prop where
  agree : RanksAgree s a
  iter : a.iteration = n
  mem : I n (fun r => (s r).mem) a.mem
  files : ∀ r, List.Forall₂ (FileOf V r) (s r).outputs a.outputs
  logs : ∀ r : T.Rank, (s r).logs = if r.val = 0 then a.logs else []

theorem Mirror.save (hM : Mirrors S O J I Good V) {n : Nat} {s : T.Rank → RunState R} {a : RunState R}
    (h : Mirror I V n s a) : Mirror I V n (fun r => saveSolution (s r)) (saveSolution a) where
  agree := h.agree.save
  iter := h.iter
  mem := h.mem
  files r := by
    have hv := hM.shows n _ _ h.mem r
    have e : (if n % 2 = 0 then Arr.U else .U2) = pingIn n := by
      unfold pingIn
      rfl
    obtain ⟨e1, _, e3, e4, _⟩ := h.agree r
    unfold saveSolution
    simp only [e3, h.iter, e]
    exact List.rel_append (h.files r) (List.Forall₂.cons ⟨e4, e1, rfl, hv⟩ .nil)
  logs := h.logs

theorem Mirror.mainSave (hM : Mirrors S O J I Good V) {n : Nat} {s : T.Rank → RunState R} {a : RunState R}
    (h : Mirror I V n s a) : Mirror I V n (fun r => mainSave p (s r)) (mainSave p a) := by
  unfold EulerKokkos.mainSave
  split_ifs
  · exact h.save hM
  · exact h

theorem Mirror.maybeSave (hM : Mirrors S O J I Good V) {n : Nat} {s : T.Rank → RunState R} {a : RunState R}
    (h : Mirror I V n s a) : Mirror I V n (fun r => maybeSave p (s r)) (maybeSave p a) := by
  have e : ∀ r, shouldSave p (s r) = shouldSave p a := fun r => by
    obtain ⟨e1, _, _, e4, _⟩ := h.agree r
    unfold shouldSave
    rw [e1, e4]
  unfold EulerKokkos.maybeSave
  simp only [e]
  split_ifs
  · exact h.save hM
  · exact h

theorem Mirror.logLine {n : Nat} {s : T.Rank → RunState R} {a : RunState R}
    (h : Mirror I V n s a) :
    Mirror I V n (fun r => if r.val = 0 then logLine p (s r) else s r) (logLine p a) := by
  have e : ∀ x : RunState R, (EulerKokkos.logLine p x).mem = x.mem ∧
      (EulerKokkos.logLine p x).outputs = x.outputs ∧ (EulerKokkos.logLine p x).iteration = x.iteration := by
    intro x; unfold EulerKokkos.logLine; split_ifs <;> exact ⟨rfl, rfl, rfl⟩
  have em : (fun r => (if r.val = 0 then EulerKokkos.logLine p (s r) else s r : RunState R).mem) =
      fun r => (s r).mem := by
    funext r
    split_ifs
    · exact (e _).1
    · rfl
  refine ⟨h.agree.logLine, (e a).2.2.trans h.iter, ?_, fun r => ?_, fun r => ?_⟩
  · rw [em, (e a).1]; exact h.mem
  · have : (if r.val = 0 then EulerKokkos.logLine p (s r) else s r : RunState R).outputs = (s r).outputs := by
      split_ifs
      · exact (e _).2.1
      · rfl
    rw [this, (e a).2.1]
    exact h.files r
  · obtain ⟨e1, e2, e3, _⟩ := h.agree r
    by_cases hr : r.val = 0
    · simp only [hr, if_true]
      unfold EulerKokkos.logLine
      rw [e3]
      have hl := h.logs r
      rw [if_pos hr] at hl
      split_ifs
      · simp only [hl, e1, e2, e3]
      · exact hl
    · simp only [hr, if_false]
      have hl := h.logs r
      rw [if_neg hr] at hl
      exact hl

/-- one turn of the loop -/
theorem mirror_turn (hR : O.Once) (hM : Mirrors S O J I Good V) (hq : SameClock p q) {n : Nat}
    {s : T.Rank → RunState R} {a a' : RunState R} (h : Mirror I V n s a)
    (hg : ∀ A₁, S.pre n a.mem A₁ → Good n A₁) (hs : nextIteration q S a a') :
    ∃ s', BulkRel (mpiTurn p O (n % 2 == 1)) s s' ∧ Mirror I V (n + 1) s' a' := by
  have hclip : clipDt q = clipDt p := by funext t d; unfold clipDt; rw [hq.tEnd]
  have hll : logLine q = logLine p := by funext x; unfold logLine; rw [hq.nlog]
  have hms : maybeSave q = maybeSave p := by
    funext x; unfold maybeSave shouldSave; rw [hq.tEnd, hq.nOutput, hq.enableOutput]
  obtain ⟨hlog, A₁, d, A₂, h1, h2, h3, rfl⟩ := nextIteration_iff.1 hs
  rw [hq.nlog] at hlog
  rw [h.iter] at h1 h2 h3
  rw [hclip] at h3
  obtain ⟨m₀, m₁, b0, b1, hdt, hpost⟩ := hM.turn n _ _ _ h.mem h1
  choose dl hdl using fun r => hR.dt r n (m₀ r)
  have hd := hdt d dl (hg _ h1) h2 (fun r => (hdl r _).2 rfl)
  choose m₂ hm₂ using fun r => hR.scheme r (clipDt p a.t (minOver dl)) n (m₁ r)
  have hI := hpost _ A₂ m₂ (hd ▸ h3) (fun r => (hm₂ r _).2 rfl)
  have c1 := (h.logLine (p := p)).maybeSave (p := p) hM
  refine ⟨_, bulk_turn hlog h.agree h.iter b0 hdl b1 hm₂, ?_⟩
  have kt : ∀ x : RunState R, (maybeSave p (logLine p x)).t = x.t := by
    intro x; unfold maybeSave saveSolution logLine; split_ifs <;> rfl
  have ki : ∀ x : RunState R, (maybeSave p (logLine p x)).iteration = x.iteration := by
    intro x; unfold maybeSave saveSolution logLine; split_ifs <;> rfl
  have kl : ∀ x : RunState R, (maybeSave p (logLine p x)).logs = (logLine p x).logs := by
    intro x; unfold maybeSave saveSolution; split_ifs <;> rfl
  simp only [hclip, hll, hms, ← hd]
  refine ⟨fun r => ?_, ?_, hI, fun r => c1.files r, fun r => ?_⟩
  · obtain ⟨e1, e2, e3, e4, e5⟩ := c1.agree r
    rw [kt] at e1
    rw [ki] at e3
    exact ⟨congrArg (· + clipDt p a.t (minOver dl)) e1, rfl, congrArg (· + 1) e3, e4, e5⟩
  · exact congrArg (· + 1) h.iter
  · have := c1.logs r
    rw [kl] at this
    exact this

/-- the whole run -/
theorem mirror_run (hR : O.Once) (hM : Mirrors S O J I Good V) (hq : SameClock p q)
    {G : Mem Arr R} {t : R} {sv : Int} {s' : RunState R} (hser : runMain q S G t sv s')
    (hg0 : ∀ A₁, S.setup G A₁ → Good 0 A₁)
    (hg : ∀ k a A₁, reaches q S G t sv k a → ¬ finished q a → S.pre k a.mem A₁ → Good k A₁)
    {m : T.Rank → Mem Arr R} (hJ : J m G) :
    ∃ N, ∀ (buf : Prop) n y,
      FSteps buf (mpiMain p O) n (FConfig.init (.pre 0) (fun r => startState (m r) t sv)) y →
      n ≤ N ∧ (¬ y.Done (mpiMain p O) → ∃ z, FStep False (mpiMain p O) y z) ∧
      (y.Done (mpiMain p O) → (∀ a b tag, y.c.chan a b tag = []) ∧ Mirror I V s'.iteration y.c.st s') := by
  have hclip : clipDt q = clipDt p := by funext t d; unfold clipDt; rw [hq.tEnd]
  have hmain : mainSave q = mainSave p := by funext x; unfold mainSave; rw [hq.nOutput]
  have hfin : ∀ x, finished q x ↔ finished p x := fun x => by
    unfold finished; rw [hq.tEnd, hq.nStepmax]
  obtain ⟨s₀, s₁, ⟨A₁, hset, d, hd, rfl⟩, ⟨K, hturns, hend⟩, rfl⟩ := hser
  have hreach : ∀ k a, Turns q S k (mainSave q _) a → reaches q S G t sv k a :=
    fun k a h => ⟨_, ⟨A₁, hset, d, hd, rfl⟩, h⟩
  simp only at hd
  obtain ⟨m₁, b0, hI, hdt⟩ := hM.start m G A₁ hJ hset
  choose dl hdl using fun r => hR.dt r 0 (m₁ r)
  have hmin := hdt d dl (hg0 _ hset) hd (fun r => (hdl r _).2 rfl)
  have g1 := BulkRel.onMem b0 (s := fun r => startState (m r) t sv) (fun r => rfl)
  have g3 := bulk_dt (p := p) (O := O) (a := startState A₁ t sv) (s := fun r => startState (m₁ r) t sv) hdl
    (fun _ => rfl) (fun _ => rfl)
  have g4 : BulkRel [(Phase.loc fun _ s s' => s' = mainSave p s :
      Phase T.Rank (RunState R) (Msg R))] (fun r => { startState (m₁ r) t sv with dt := clipDt p t (minOver dl) })
      (fun r => mainSave p { startState (m₁ r) t sv with dt := clipDt p t (minOver dl) }) :=
    BulkRel.loc fun r s' => Iff.rfl
  have hstart : BulkRel (mpiStart p O) (fun r => startState (m r) t sv) _ := (g1.append g3).append g4
  have h00 : Mirror I V 0 (fun r => { startState (m₁ r) t sv with dt := clipDt p t (minOver dl) })
      { startState A₁ t sv with dt := clipDt p t (minOver dl) } :=
    ⟨fun r => ⟨rfl, rfl, rfl, rfl, rfl⟩, rfl, hI, fun r => .nil, fun r => by simp [startState]⟩
  have h0 := h00.mainSave (p := p) hM
  have key : ∀ k a, Turns q S k (mainSave q { startState A₁ t sv with dt := clipDt q t d }) a →
      ∃ σ : Nat → T.Rank → RunState R,
        σ 0 = (fun r => mainSave p { startState (m₁ r) t sv with dt := clipDt p t (minOver dl) }) ∧
        (∀ n < k, BulkRel (mpiTurn p O (n % 2 == 1)) (σ n) (σ (n + 1)) ∧ ∀ r, ¬ finished p (σ n r)) ∧
        (∀ n ≤ k, ∀ r, (σ n r).iteration = n) ∧ Mirror I V k (σ k) a := by
    intro k
    induction k with
    | zero =>
      intro a ht
      cases ht
      refine ⟨fun _ => _, rfl, fun n hn => absurd hn (Nat.not_lt_zero _), fun n hn r => ?_, ?_⟩
      · obtain rfl : n = 0 := by omega
        exact (h0.agree r).2.2.1.trans h0.iter
      · rw [hmain, hclip, ← hmin]
        exact h0
    | succ k ih =>
      intro a ht
      cases ht with
      | @succ _ _ b _ ht hnf hn =>
        obtain ⟨σ, e0, e1, e2, e3⟩ := ih b ht
        obtain ⟨sn, t1, t2⟩ := mirror_turn hR hM hq e3 (fun A h => hg k b A (hreach k b ht) hnf h) hn
        refine ⟨fun j => if j ≤ k then σ j else sn, by simp [e0], fun n hn => ?_, fun n hn r => ?_, ?_⟩
        · rcases Nat.lt_or_ge n k with h | h
          · simp only [show n ≤ k by omega, show n + 1 ≤ k by omega, if_true]
            exact e1 n h
          · obtain rfl : n = k := by omega
            simp only [le_refl, if_true, show ¬ n + 1 ≤ n by omega, if_false]
            refine ⟨t1, fun r hf => hnf ((hfin b).2 ?_)⟩
            unfold finished at hf ⊢
            rwa [(e3.agree r).1, (e3.agree r).2.2.1] at hf
        · by_cases h : n ≤ k
          · simp only [h, if_true]; exact e2 n h r
          · obtain rfl : n = k + 1 := by omega
            simp only [show ¬ k + 1 ≤ k by omega, if_false]
            exact (t2.agree r).2.2.1.trans t2.iter
        · simp only [show ¬ k + 1 ≤ k by omega, if_false]
          exact t2
  obtain ⟨σ, e0, e1, e2, e3⟩ := key K s₁ hturns
  have hitK : (mainSave q s₁).iteration = K := by
    have : (mainSave q s₁).iteration = s₁.iteration := by
      unfold mainSave saveSolution; split_ifs <;> rfl
    rw [this, e3.iter]
  obtain ⟨N, hN⟩ := mpi_along (p := p) hR (s := fun r => startState (m r) t sv) σ K (by rw [e0]; exact hstart)
    (fun n hn => (e1 n hn).1) e2 (fun n hn => (e1 n hn).2)
    (fun r => by
      have := (hfin _).1 hend
      unfold finished at this ⊢
      rwa [(e3.agree r).1, (e3.agree r).2.2.1])
  refine ⟨N, fun buf n y hy => ?_⟩
  obtain ⟨c1, c2, c3⟩ := hN buf n y hy
  refine ⟨c1, c2, fun hd => ?_⟩
  obtain ⟨f1, f2⟩ := c3 hd
  refine ⟨f2, ?_⟩
  rw [f1, hitK, hmain]
  exact e3.mainSave (p := p) hM

end EulerKokkos
