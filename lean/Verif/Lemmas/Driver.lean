import Verif.Model.Driver

/-!
# Basic facts about the run driver
-/

set_option linter.constructorNameAsVariable false
set_option linter.unusedSectionVars false

namespace EulerKokkos

variable {R : Type} [RealOps R]
variable {p : Params R} {S : SolverOps R}

/-- What one turn of the loop does. -/
theorem nextIteration_iff {s s' : RunState R} :
    nextIteration p S s s' ↔ p.nlog ≠ 0 ∧ ∃ m₁ d m₃,
      S.pre s.iteration s.mem m₁ ∧ S.dtLocal s.iteration m₁ d ∧
      S.post s.iteration (clipDt p s.t d) m₁ m₃ ∧
      s' = { mem := m₃, t := s.t + clipDt p s.t d, dt := clipDt p s.t d
             iteration := s.iteration + 1
             times_saved := (maybeSave p (logLine p s)).times_saved
             outputs := (maybeSave p (logLine p s)).outputs
             logs := (logLine p s).logs } := by
  have e1 : (maybeSave p (logLine p s)).mem = s.mem := by
    unfold maybeSave saveSolution logLine; split_ifs <;> rfl
  have e2 : (maybeSave p (logLine p s)).t = s.t := by
    unfold maybeSave saveSolution logLine; split_ifs <;> rfl
  have e3 : (maybeSave p (logLine p s)).iteration = s.iteration := by
    unfold maybeSave saveSolution logLine; split_ifs <;> rfl
  have e4 : (maybeSave p (logLine p s)).logs = (logLine p s).logs := by
    unfold maybeSave saveSolution; split_ifs <;> rfl
  unfold nextIteration nextIterationImpl computeDt
  constructor
  · rintro ⟨s1, ⟨hn, m1, s2, m3, a, ⟨d, b, rfl⟩, c, rfl⟩, rfl⟩
    simp only [e1, e2, e3] at a b c
    refine ⟨hn, m1, d, m3, a, b, c, ?_⟩
    simp only [e2, e3, e4]
  · rintro ⟨hn, m1, d, m3, a, b, c, rfl⟩
    refine ⟨_, ⟨hn, m1, _, m3, ?_, ⟨d, ?_, rfl⟩, ?_, rfl⟩, ?_⟩
    · rw [e1, e3]; exact a
    · simp only [e3]; exact b
    · simp only [e2, e3]; exact c
    · simp only [e2, e3, e4]

/-- the state after the log line and the possible output, seen by its effects -/
theorem maybeSave_eq (s : RunState R) :
    (p.enableOutput = true ∧ shouldSave p s = true ∧
      (maybeSave p (logLine p s)).times_saved = s.times_saved + 1 ∧
      (maybeSave p (logLine p s)).outputs = (saveSolution s).outputs) ∨
    (¬ (p.enableOutput = true ∧ shouldSave p s = true) ∧
      (maybeSave p (logLine p s)).times_saved = s.times_saved ∧
      (maybeSave p (logLine p s)).outputs = s.outputs) := by
  have e1 : shouldSave p (logLine p s) = shouldSave p s := by
    unfold shouldSave logLine; split_ifs <;> rfl
  have e2 : (saveSolution (logLine p s)).outputs = (saveSolution s).outputs := by
    unfold saveSolution logLine; split_ifs <;> rfl
  have e3 : (saveSolution (logLine p s)).times_saved = s.times_saved + 1 := by
    unfold saveSolution logLine; split_ifs <;> rfl
  have e4 : (logLine p s).outputs = s.outputs := by unfold logLine; split_ifs <;> rfl
  have e5 : (logLine p s).times_saved = s.times_saved := by unfold logLine; split_ifs <;> rfl
  unfold maybeSave
  rw [e1]
  by_cases h : p.enableOutput = true ∧ shouldSave p s = true
  · left
    simp [h.1, h.2, e2, e3]
  · right
    refine ⟨h, ?_⟩
    have : ¬ ((p.enableOutput && shouldSave p s) = true) := by simpa using h
    rw [if_neg this]
    exact ⟨e5, e4⟩

theorem Turns.iteration {k : Nat} {s s' : RunState R} (h : Turns p S k s s') :
    s'.iteration = s.iteration + k := by
  induction h with
  | zero => rfl
  | succ _ _ h ih =>
    obtain ⟨_, m1, d, m3, _, _, _, rfl⟩ := nextIteration_iff.1 h
    simp only [ih]; omega

/-- a turn at the front -/
theorem Turns.head {k : Nat} {s s₁ s' : RunState R} (hf : ¬ finished p s)
    (h : nextIteration p S s s₁) (h' : Turns p S k s₁ s') : Turns p S (k + 1) s s' := by
  induction h' with
  | zero => exact .succ (.zero _) hf h
  | succ _ h1 h2 ih => exact .succ (ih h) h1 h2

theorem Turns.trans {k l : Nat} {s s₁ s' : RunState R} (h : Turns p S k s s₁)
    (h' : Turns p S l s₁ s') : Turns p S (k + l) s s' := by
  induction h' with
  | zero => exact h
  | succ _ h1 h2 ih => exact .succ (ih h) h1 h2

/-- Invariants of the loop. -/
theorem Turns.invariant {k : Nat} {s s' : RunState R} (h : Turns p S k s s')
    (I : RunState R → Prop) (h0 : I s)
    (hs : ∀ s s', I s → ¬ finished p s → nextIteration p S s s' → I s') : I s' := by
  induction h with
  | zero => exact h0
  | succ _ h1 h2 ih => exact hs _ _ (ih h0) h1 h2

/-- Invariants of the loop, with the history of each turn. -/
theorem Turns.invariant' {k : Nat} {s s' : RunState R} (h : Turns p S k s s')
    (I : RunState R → Prop) (h0 : I s)
    (hs : ∀ l s₁ s₂, Turns p S l s s₁ → I s₁ → ¬ finished p s₁ → nextIteration p S s₁ s₂ → I s₂) :
    I s' := by
  induction h with
  | zero => exact h0
  | succ ht h1 h2 ih => exact hs _ _ _ ht (ih h0 hs) h1 h2

/-- every solver call has an execution -/
structure SolverOps.Total (S : SolverOps R) : Prop where
  pre : ∀ n m, ∃ m', S.pre n m m'
  dt : ∀ n m, ∃ d, S.dtLocal n m d
  post : ∀ n d m, ∃ m', S.post n d m m'
  setup : ∀ m, ∃ m', S.setup m m'

theorem nextIteration_total (hT : S.Total) (hn : p.nlog ≠ 0) (s : RunState R) :
    ∃ s', nextIteration p S s s' := by
  obtain ⟨m1, h1⟩ := hT.pre s.iteration s.mem
  obtain ⟨d, h2⟩ := hT.dt s.iteration m1
  obtain ⟨m3, h3⟩ := hT.post s.iteration (clipDt p s.t d) m1
  exact ⟨_, nextIteration_iff.2 ⟨hn, m1, d, m3, h1, h2, h3, rfl⟩⟩

end EulerKokkos
