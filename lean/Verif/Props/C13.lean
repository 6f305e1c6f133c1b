import Verif.Lemmas.Driver
import Verif.Props.C29
import Verif.Props.C24

/-!
# C13, C14, C16, C17 — the run loop: time, termination, numbering and cadence of outputs

The statements hold for every solver plugged into the driver (`SolverOps`), in particular for the
2D/3D hydro solvers; the instances with all hypotheses on the time step discharged are at the end.
-/

set_option linter.constructorNameAsVariable false
set_option linter.unusedSectionVars false
set_option linter.unusedSimpArgs false

namespace EulerKokkos

section Generic
variable {R : Type} [RealOps R] {p : Params R} {S : SolverOps R}

theorem construct_fields {m : Mem Arr R} {t : R} {sv : Int} {s : RunState R}
    (h : construct p S m t sv s) :
    s.t = t ∧ s.iteration = 0 ∧ s.times_saved = sv ∧ s.outputs = [] ∧ s.logs = [] := by
  obtain ⟨m1, _, d, _, rfl⟩ := h
  exact ⟨rfl, rfl, rfl, rfl, rfl⟩

theorem mainSave_fields (s : RunState R) :
    (mainSave p s).t = s.t ∧ (mainSave p s).iteration = s.iteration ∧
    (mainSave p s).mem = s.mem ∧ (mainSave p s).dt = s.dt := by
  unfold mainSave saveSolution; split_ifs <;> exact ⟨rfl, rfl, rfl, rfl⟩

theorem reaches_of_runMain {m : Mem Arr R} {t : R} {sv : Int} {s' : RunState R}
    (h : runMain p S m t sv s') :
    ∃ k s, reaches p S m t sv k s ∧ finished p s ∧ s' = mainSave p s := by
  obtain ⟨s0, s1, h0, ⟨k, h1, h2⟩, rfl⟩ := h
  exact ⟨k, s1, ⟨s0, h0, h1⟩, h2, rfl⟩

/-! ## C14 -/

theorem reaches_iteration {m : Mem Arr R} {t : R} {sv : Int} {k : Nat} {s : RunState R}
    (h : reaches p S m t sv k s) : s.iteration = k := by
  obtain ⟨s0, h0, h1⟩ := h
  have := h1.iteration
  rw [(mainSave_fields s0).2.1, (construct_fields h0).2.1] at this
  omega

/-- **C14.** The loop makes at most `max(nstepmax, 0)` turns, whatever the solver, the time steps
and the arithmetic (NaN included); the counter counts the turns. -/
theorem C14_at_most_nstepmax {m : Mem Arr R} {t : R} {sv : Int} {k : Nat} {s : RunState R}
    (h : reaches p S m t sv k s) : s.iteration = k ∧ (k : Int) ≤ max p.nStepmax 0 := by
  refine ⟨reaches_iteration h, ?_⟩
  obtain ⟨s0, h0, h1⟩ := h
  cases h1 with
  | zero => simp
  | @succ k _ s1 _ h1 h2 h3 =>
    have e := reaches_iteration (⟨s0, h0, h1⟩ : reaches p S m t sv k s1)
    unfold finished at h2
    push Not at h2
    have := h2.2
    rw [e] at this
    push_cast
    have := le_max_left p.nStepmax 0
    omega

/-- **C14, no infinite run.** -/
theorem C14_no_infinite_run :
    ¬ ∃ f : Nat → RunState R, ∀ k, ¬ finished p (f k) ∧ nextIteration p S (f k) (f (k + 1)) := by
  rintro ⟨f, hf⟩
  have hi : ∀ k, (f k).iteration = (f 0).iteration + k := by
    intro k
    induction k with
    | zero => rfl
    | succ k ih =>
      obtain ⟨_, m1, d, m3, _, _, _, e⟩ := nextIteration_iff.1 (hf k).2
      rw [e]; simp only [ih]; omega
  have := (hf p.nStepmax.toNat).1
  unfold finished at this
  push Not at this
  have := this.2
  rw [hi] at this
  push_cast at this
  omega

/-- **C14, every run completes**: from any point of the execution a final state is reachable, and
every execution can only end there. -/
theorem C14_completes (hT : S.Total) (hn : p.nlog ≠ 0) {m : Mem Arr R} {t : R} {sv : Int} {k : Nat}
    {s : RunState R} (h : reaches p S m t sv k s) :
    ∃ l s', Turns p S l s s' ∧ finished p s' ∧ runMain p S m t sv (mainSave p s') := by
  obtain ⟨s0, h0, h1⟩ := h
  have key : ∀ (b : Nat) (s : RunState R), (p.nStepmax - s.iteration).toNat ≤ b →
      ∃ l s', Turns p S l s s' ∧ finished p s' := by
    intro b
    induction b with
    | zero =>
      intro s hb
      exact ⟨0, s, .zero s, Or.inr (by omega)⟩
    | succ b ih =>
      intro s hb
      by_cases hf : finished p s
      · exact ⟨0, s, .zero s, hf⟩
      · obtain ⟨s1, hs1⟩ := nextIteration_total hT hn s
        obtain ⟨_, m1, d, m3, _, _, _, e⟩ := nextIteration_iff.1 hs1
        have : s1.iteration = s.iteration + 1 := by rw [e]
        obtain ⟨l, s', h, h'⟩ := ih s1 (by omega)
        exact ⟨l + 1, s', h.head hf hs1, h'⟩
  obtain ⟨l, s', h2, h3⟩ := key _ s le_rfl
  exact ⟨l, s', h2, h3, s0, s', h0, ⟨k + l, h1.trans h2, h3⟩, rfl⟩

/-- **C14, a run starts**: with total kernels the constructor always reaches the loop. -/
theorem C14_starts (hT : S.Total) (m : Mem Arr R) (t : R) (sv : Int) :
    ∃ s, reaches p S m t sv 0 s := by
  obtain ⟨m1, h1⟩ := hT.setup m
  obtain ⟨d, h2⟩ := hT.dt 0 m1
  exact ⟨_, _, ⟨m1, h1, d, h2, rfl⟩, .zero _⟩

/-- **C14, why a run stops**: before `nstepmax` iterations only if `t ≥ tEnd - 1e-14`. -/
theorem C14_stop_reason {m : Mem Arr R} {t : R} {sv : Int} {s' : RunState R}
    (h : runMain p S m t sv s') :
    ((s'.iteration : Int) < p.nStepmax →
      RealOps.le (p.tEnd - lit (1 / 100000000000000)) s'.t = true) ∧
    (s'.iteration : Int) ≤ max p.nStepmax 0 := by
  obtain ⟨k, s, h1, h2, rfl⟩ := reaches_of_runMain h
  obtain ⟨a, b⟩ := C14_at_most_nstepmax h1
  obtain ⟨e1, e2, _, _⟩ := mainSave_fields (p := p) s
  rw [e1, e2]
  refine ⟨fun hlt => ?_, by rw [a]; exact b⟩
  rcases h2 with h2 | h2
  · exact h2
  · omega

/-! ## C16 -/

/-- numbering of a list of outputs -/
def Spec.Numbered (n₀ : Int) (os : List (Output R)) : Prop :=
  ∀ (i : Nat) (o : Output R), os[i]? = some o → o.number = n₀ + i

theorem numbered_snoc {n₀ : Int} {os : List (Output R)} {o : Output R} (h : Spec.Numbered n₀ os)
    (ho : o.number = n₀ + os.length) : Spec.Numbered n₀ (os ++ [o]) := by
  intro i o' hi
  rw [List.getElem?_append] at hi
  split at hi
  · exact h i o' hi
  · rw [List.getElem?_singleton] at hi
    split at hi
    · obtain rfl := Option.some.inj hi
      rw [ho]
      have : i = os.length := by omega
      rw [this]
    · simp at hi

/-- the bookkeeping invariant of the loop -/
structure OutInv (n₀ : Int) (s : RunState R) : Prop where
  count : s.times_saved = n₀ + s.outputs.length
  numbered : Spec.Numbered n₀ s.outputs
  sorted : s.outputs.Pairwise (fun a b => a.iteration ≤ b.iteration)
  bound : ∀ o ∈ s.outputs, o.iteration ≤ s.iteration

theorem OutInv.save {n₀ : Int} {s : RunState R} (h : OutInv n₀ s) : OutInv n₀ (saveSolution s) := by
  refine ⟨?_, ?_, ?_, ?_⟩
  · simp only [saveSolution, List.length_append, List.length_singleton, h.count]; push_cast; ring
  · exact numbered_snoc h.numbered h.count
  · simp only [saveSolution, List.pairwise_append, List.mem_singleton]
    exact ⟨h.sorted, by simp, fun a ha b hb => by rw [hb]; exact h.bound a ha⟩
  · intro o ho
    simp only [saveSolution, List.mem_append, List.mem_singleton] at ho
    rcases ho with ho | rfl
    · exact h.bound o ho
    · exact le_rfl

theorem OutInv.next {n₀ : Int} {s s' : RunState R} (h : OutInv n₀ s) (hs : nextIteration p S s s') :
    OutInv n₀ s' := by
  obtain ⟨_, m1, d, m3, _, _, _, rfl⟩ := nextIteration_iff.1 hs
  rcases maybeSave_eq (p := p) s with ⟨_, _, e1, e2⟩ | ⟨_, e1, e2⟩
  · have h' := h.save
    refine ⟨?_, ?_, ?_, ?_⟩ <;> simp only [e1, e2]
    · exact h'.count
    · exact h'.numbered
    · exact h'.sorted
    · exact fun o ho => (h'.bound o ho).trans (Nat.le_succ _)
  · refine ⟨?_, ?_, ?_, ?_⟩ <;> simp only [e1, e2]
    · exact h.count
    · exact h.numbered
    · exact h.sorted
    · exact fun o ho => (h.bound o ho).trans (Nat.le_succ _)

theorem outInv_reaches {m : Mem Arr R} {t : R} {sv : Int} {k : Nat} {s : RunState R}
    (h : reaches p S m t sv k s) : OutInv sv s := by
  obtain ⟨s0, h0, h1⟩ := h
  obtain ⟨_, f2, f3, f4, _⟩ := construct_fields h0
  have i0 : OutInv sv s0 := by
    refine ⟨by simp [f3, f4], ?_, by simp [f4], by simp [f4]⟩
    intro i o ho; simp [f4] at ho
  refine h1.invariant (OutInv sv) ?_ (fun s s' h _ hs => h.next hs)
  unfold mainSave; split_ifs
  · exact i0.save
  · exact i0

/-- outputs are only appended: what is written stays -/
theorem turns_outputs_prefix {k : Nat} {s s' : RunState R} (h : Turns p S k s s') :
    s.outputs <+: s'.outputs := by
  refine h.invariant (fun x => s.outputs <+: x.outputs) (List.prefix_refl _) ?_
  intro x x' hx _ hs
  obtain ⟨_, m1, d, m3, _, _, _, rfl⟩ := nextIteration_iff.1 hs
  rcases maybeSave_eq (p := p) x with ⟨_, _, _, e2⟩ | ⟨_, _, e2⟩ <;> simp only [e2]
  · exact hx.trans (List.prefix_append _ _)
  · exact hx

/-- **C16.** Numbers are consecutive from the initial counter, in the order of writing, and the
iterations at which they are written do not decrease; in the middle of a run as well as at its end. -/
theorem C16_gapless {m : Mem Arr R} {t : R} {sv : Int} {s' : RunState R}
    (h : runMain p S m t sv s') :
    s'.outputs.map Output.number = (List.range s'.outputs.length).map (fun i => sv + (i : Nat)) ∧
    s'.times_saved = sv + s'.outputs.length ∧
    s'.outputs.Pairwise (fun a b => a.iteration ≤ b.iteration) := by
  obtain ⟨k, s, h1, _, rfl⟩ := reaches_of_runMain h
  have i1 : OutInv sv (mainSave p s) := by
    have := outInv_reaches h1
    unfold mainSave; split_ifs
    · exact this.save
    · exact this
  refine ⟨?_, i1.count, i1.sorted⟩
  apply List.ext_getElem?
  intro i
  simp only [List.getElem?_map, List.getElem?_range]
  cases e : (mainSave p s).outputs[i]? with
  | none =>
    have := List.getElem?_eq_none_iff.1 e
    rw [List.getElem?_eq_none (by simpa using this)]
    rfl
  | some o =>
    have hlt : i < (mainSave p s).outputs.length := by
      by_contra hc
      rw [List.getElem?_eq_none (by omega)] at e
      cases e
    rw [List.getElem?_range hlt]
    simp [i1.numbered i o e]

/-- **C16, first and last.** With `noutput ≠ 0` the first file holds the initial state (initial
time, iteration 0) and the last one the final state (final time, final iteration); they are
different files. -/
theorem C16_first_last {m : Mem Arr R} {t : R} {sv : Int} {s' : RunState R}
    (h : runMain p S m t sv s') (hn : p.nOutput ≠ 0) :
    2 ≤ s'.outputs.length ∧
    (∃ o, s'.outputs.head? = some o ∧ o.number = sv ∧ o.time = t ∧ o.iteration = 0) ∧
    ∃ o, s'.outputs.getLast? = some o ∧ o.number = s'.times_saved - 1 ∧ o.time = s'.t ∧
      o.iteration = s'.iteration := by
  obtain ⟨s0, s, h0, ⟨k, h1, _⟩, rfl⟩ := h
  obtain ⟨f1, f2, f3, f4, _⟩ := construct_fields h0
  have hp := turns_outputs_prefix h1
  unfold mainSave at hp ⊢
  rw [if_pos hn] at hp ⊢
  simp only [saveSolution, f1, f2, f3, f4, List.nil_append] at hp ⊢
  obtain ⟨os, hos⟩ := hp
  rw [← hos]
  refine ⟨by simp, ⟨_, by simp; rfl, rfl, rfl, rfl⟩, ⟨_, List.getLast?_concat, by ring, rfl, rfl⟩⟩

/-- **C16, no output.** With `noutput = 0` (hence `enableOutput = false`) nothing is written. -/
theorem C16_no_output {m : Mem Arr R} {t : R} {sv : Int} {s' : RunState R}
    (h : runMain p S m t sv s') (hn : p.nOutput = 0) (he : p.enableOutput = false) :
    s'.outputs = [] := by
  obtain ⟨s0, s, h0, ⟨k, h1, _⟩, rfl⟩ := h
  obtain ⟨f1, f2, f3, f4, _⟩ := construct_fields h0
  have : s.outputs = [] := by
    refine h1.invariant (fun s => s.outputs = []) ?_ ?_
    · unfold mainSave; rw [if_neg (by omega)]; exact f4
    · intro x x' hx _ hs
      obtain ⟨_, m1, d, m3, _, _, _, rfl⟩ := nextIteration_iff.1 hs
      rcases maybeSave_eq (p := p) x with ⟨e, _⟩ | ⟨_, _, e2⟩
      · rw [he] at e; cases e
      · exact e2.trans hx
  unfold mainSave; rw [if_neg (by omega)]; exact this

/-- **C16, every step.** With `noutput < 0` each iteration writes one file, plus the initial and the
final one. -/
theorem C16_every_step {m : Mem Arr R} {t : R} {sv : Int} {s' : RunState R}
    (h : runMain p S m t sv s') (hn : p.nOutput < 0) (he : p.enableOutput = true) :
    s'.outputs.length = s'.iteration + 2 := by
  obtain ⟨s0, s, h0, ⟨k, h1, _⟩, rfl⟩ := h
  obtain ⟨f1, f2, f3, f4, _⟩ := construct_fields h0
  have : s.outputs.length = s.iteration + 1 := by
    refine h1.invariant (fun s => s.outputs.length = s.iteration + 1) ?_ ?_
    · unfold mainSave saveSolution; rw [if_pos (by omega)]; simp [f4, f2]
    · intro x x' hx _ hs
      obtain ⟨_, m1, d, m3, _, _, _, rfl⟩ := nextIteration_iff.1 hs
      rcases maybeSave_eq (p := p) x with ⟨_, _, _, e2⟩ | ⟨e, _⟩
      · rw [e2]; simp only [saveSolution, List.length_append, List.length_singleton]; omega
      · exact absurd ⟨he, by unfold shouldSave; simp [hn]⟩ e
  unfold mainSave saveSolution; rw [if_pos (by omega)]
  simp only [List.length_append, List.length_singleton]; omega

end Generic

/-! ## C13 -/

section Real
variable {p : Params ℝ} {S : SolverOps ℝ}

theorem clipDt_real (t d : ℝ) : clipDt p t d = min d (p.tEnd - t) := by
  unfold clipDt
  simp only [RealOps.lt_real]
  split_ifs with h
  · exact (min_eq_right (by linarith)).symm
  · exact (min_eq_left (by linarith)).symm

theorem finished_real (s : RunState ℝ) :
    finished p s ↔ p.tEnd - 1 / 100000000000000 ≤ s.t ∨ p.nStepmax ≤ (s.iteration : Int) := by
  unfold finished
  rw [RealOps.le_real, RealOps.lit_real]
  push_cast
  rfl

/-- **C13, one turn.** The time advances by the CFL step, or lands exactly on `tEnd`; it never goes
back, and a turn that lands on `tEnd` is the last one. -/
theorem C13_one_turn (hS : ∀ n m d, S.dtLocal n m d → 0 ≤ d) {s s' : RunState ℝ}
    (hf : ¬ finished p s) (h : nextIteration p S s s') :
    ∃ m₁ d, S.dtLocal s.iteration m₁ d ∧ s'.t = min (s.t + d) p.tEnd ∧ s'.dt = s'.t - s.t ∧
      s.t ≤ s'.t ∧ s'.t ≤ p.tEnd ∧ (0 < d → s.t < s'.t) ∧ (s'.t = p.tEnd → finished p s') := by
  obtain ⟨_, m1, d, m3, _, h2, _, rfl⟩ := nextIteration_iff.1 h
  have hd := hS _ _ _ h2
  rw [finished_real] at hf
  push Not at hf
  have hlt : s.t < p.tEnd := by linarith [hf.1]
  refine ⟨m1, d, h2, ?_, ?_, ?_, ?_, ?_, ?_⟩ <;> simp only [clipDt_real, finished_real]
  · rcases le_total d (p.tEnd - s.t) with h | h
    · rw [min_eq_left h, min_eq_left (by linarith)]
    · rw [min_eq_right h, min_eq_right (by linarith)]; ring
  · ring
  · have : 0 ≤ min d (p.tEnd - s.t) := le_min hd (by linarith)
    linarith
  · linarith [min_le_right d (p.tEnd - s.t)]
  · intro hd
    have : 0 < min d (p.tEnd - s.t) := lt_min hd (by linarith)
    linarith
  · intro e; left; rw [e]; norm_num

/-- **C13.** In exact arithmetic, if the CFL time steps are not negative: at every point of every
run the time is at least the initial time and at most `tEnd` (or the initial time, if that was
already later; then no step is made). -/
theorem C13_time_bounded (hS : ∀ n m d, S.dtLocal n m d → 0 ≤ d) {m : Mem Arr ℝ} {t : ℝ} {sv : Int}
    {k : Nat} {s : RunState ℝ} (h : reaches p S m t sv k s) :
    t ≤ s.t ∧ s.t ≤ max t p.tEnd ∧ (p.tEnd ≤ t → k = 0) := by
  obtain ⟨s0, h0, h1⟩ := h
  obtain ⟨f1, _⟩ := construct_fields h0
  have e0 : (mainSave p s0).t = t := (mainSave_fields s0).1.trans f1
  refine ⟨?_, ?_, ?_⟩
  · refine h1.invariant (fun s => t ≤ s.t) e0.ge ?_
    intro s s' hx hf hs
    obtain ⟨_, _, _, _, _, h, _⟩ := C13_one_turn hS hf hs
    exact hx.trans h
  · refine h1.invariant (fun s => s.t ≤ max t p.tEnd) (e0.le.trans (le_max_left _ _)) ?_
    intro s s' hx hf hs
    obtain ⟨_, _, _, _, _, _, h, _⟩ := C13_one_turn hS hf hs
    exact h.trans (le_max_right _ _)
  · intro hle
    by_contra hk
    obtain ⟨k, rfl⟩ := Nat.exists_eq_succ_of_ne_zero hk
    have : ∀ k s', Turns p S (k + 1) (mainSave p s0) s' → ¬ finished p (mainSave p s0) := by
      intro k
      induction k with
      | zero =>
        intro s' h
        cases h with
        | succ a b c => cases a; exact b
      | succ k ih =>
        intro s' h
        cases h with
        | succ a b c => exact ih _ a
    refine this k s h1 ?_
    rw [finished_real, e0]
    left; linarith

/-- **C13, end of a run.** -/
theorem C13_final_time (hS : ∀ n m d, S.dtLocal n m d → 0 ≤ d) {m : Mem Arr ℝ} {t : ℝ} {sv : Int}
    (ht : t ≤ p.tEnd) {s' : RunState ℝ} (h : runMain p S m t sv s') :
    t ≤ s'.t ∧ s'.t ≤ p.tEnd ∧
    (p.tEnd - 1 / 100000000000000 ≤ s'.t ∨ (s'.iteration : Int) = max p.nStepmax 0) := by
  obtain ⟨k, s, h1, h2, rfl⟩ := reaches_of_runMain h
  obtain ⟨a, b, _⟩ := C13_time_bounded hS h1
  obtain ⟨e1, e2, _⟩ := mainSave_fields (p := p) s
  rw [e1, e2]
  rw [max_eq_right ht] at b
  refine ⟨a, b, ?_⟩
  rw [finished_real] at h2
  rcases h2 with h2 | h2
  · exact Or.inl h2
  · right
    obtain ⟨c, d⟩ := C14_at_most_nstepmax h1
    rw [c] at h2 ⊢
    have := le_max_left p.nStepmax 0
    rcases max_choice p.nStepmax 0 with e | e <;> omega

/-! ## C17 -/

theorem shouldSave_real (s : RunState ℝ) (hN : 0 < p.nOutput) :
    shouldSave p s = true ↔ s.times_saved * (p.tEnd / p.nOutput) < s.t ∨
      |s.t - p.tEnd| < 1 / 1000000000000 := by
  unfold shouldSave
  simp only [not_lt.2 hN.le, if_false]
  have e : RealOps.lt (p.tEnd / intLit p.nOutput)
      (s.t - intLit (s.times_saved - 1) * (p.tEnd / intLit p.nOutput)) = true ↔
      s.times_saved * (p.tEnd / p.nOutput) < s.t := by
    rw [RealOps.lt_real]
    unfold intLit
    simp only [RealOps.lit_real]
    push_cast
    constructor <;> intro h <;> linarith
  by_cases h : s.times_saved * (p.tEnd / p.nOutput) < s.t
  · rw [if_pos (e.2 h)]; simp [h]
  · rw [if_neg (fun hc => h (e.1 hc)), RealOps.lt_real]
    simp [h]

/-- every time step of every run from the initial memory `m` (time 0) is at most `D` -/
def Spec.StepsAtMost (p : Params ℝ) (S : SolverOps ℝ) (m : Mem Arr ℝ) (D : ℝ) : Prop :=
  ∀ k s s', reaches p S m 0 0 k s → ¬ finished p s → nextIteration p S s s' → s'.dt ≤ D

/-- what C17 says of one output written inside the loop: number `k` comes after `k·tEnd/N`, by at
most `D`; the only exception is the safety rule "within 1e-12 of tEnd" -/
def Spec.OnSchedule (p : Params ℝ) (D : ℝ) (o : Output ℝ) : Prop :=
  (o.number * (p.tEnd / p.nOutput) < o.time ∧
    (o.iteration ≠ 0 → o.time ≤ o.number * (p.tEnd / p.nOutput) + D)) ∨
  |o.time - p.tEnd| < 1 / 1000000000000

/-- loop invariant for C17 -/
structure CadInv (p : Params ℝ) (D : ℝ) (o₀ : Output ℝ) (s : RunState ℝ) : Prop where
  ok : ∃ os, s.outputs = o₀ :: os ∧ ∀ o ∈ os, Spec.OnSchedule p D o
  head : s.iteration ≠ 0 → s.t ≤ s.times_saved * (p.tEnd / p.nOutput) + D
  pos : 1 ≤ s.times_saved

theorem cadInv_next {D : ℝ} (hN : 0 < p.nOutput) (hDI : D ≤ p.tEnd / p.nOutput)
    (he : p.enableOutput = true) (hE : 0 < p.tEnd) {o₀ : Output ℝ} {s s' : RunState ℝ}
    (h0 : s.iteration = 0 → s.t ≤ s.times_saved * (p.tEnd / p.nOutput))
    (h : CadInv p D o₀ s) (hs : nextIteration p S s s') (hdt : s'.dt ≤ D) : CadInv p D o₀ s' := by
  obtain ⟨_, m1, d, m3, _, h2, _, rfl⟩ := nextIteration_iff.1 hs
  have hI : 0 < p.tEnd / p.nOutput := div_pos hE (by exact_mod_cast hN)
  have hclip : clipDt p s.t d ≤ D := hdt
  obtain ⟨os, ho, hos⟩ := h.ok
  rcases maybeSave_eq (p := p) s with ⟨_, hs1, e1, e2⟩ | ⟨hns, e1, e2⟩
  · refine ⟨?_, ?_, ?_⟩ <;> simp only [e1, e2]
    · refine ⟨os ++ [⟨s.times_saved, s.t, s.iteration,
        viewOf s.mem (if s.iteration % 2 = 0 then .U else .U2)⟩],
        by simp only [saveSolution, ho, List.cons_append], ?_⟩
      intro o ho
      rw [List.mem_append, List.mem_singleton] at ho
      rcases ho with ho | rfl
      · exact hos o ho
      · rcases (shouldSave_real s hN).1 hs1 with a | a
        · exact Or.inl ⟨a, h.head⟩
        · exact Or.inr a
    · intro _
      push_cast
      by_cases hz : s.iteration = 0
      · have := h0 hz
        linarith
      · have := h.head hz
        linarith
    · linarith [h.pos]
  · refine ⟨?_, ?_, ?_⟩ <;> simp only [e1, e2]
    · exact ⟨os, ho, hos⟩
    · intro _
      have : ¬ (s.times_saved * (p.tEnd / p.nOutput) < s.t ∨
        |s.t - p.tEnd| < 1 / 1000000000000) := fun hc => hns ⟨he, (shouldSave_real s hN).2 hc⟩
      push Not at this
      linarith [this.1]
    · exact h.pos

theorem cadInv_reaches {m : Mem Arr ℝ} {D : ℝ}
    (hD : Spec.StepsAtMost p S m D) (hN : 0 < p.nOutput) (hDI : D ≤ p.tEnd / p.nOutput)
    (he : p.enableOutput = true) (hE : 0 < p.tEnd) {k : Nat} {s : RunState ℝ}
    (h : reaches p S m 0 0 k s) : ∃ o₀, o₀.number = 0 ∧ o₀.time = 0 ∧ o₀.iteration = 0 ∧
      CadInv p D o₀ s := by
  obtain ⟨s0, h0, h1⟩ := h
  obtain ⟨f1, f2, f3, f4, _⟩ := construct_fields h0
  have hI : 0 < p.tEnd / p.nOutput := div_pos hE (by exact_mod_cast hN)
  set s1 := mainSave p s0 with hs1
  have g1 : s1.t = 0 := (mainSave_fields s0).1.trans f1
  have g2 : s1.iteration = 0 := (mainSave_fields s0).2.1.trans f2
  have g3 : s1.times_saved = 1 := by
    rw [hs1]; unfold mainSave saveSolution; rw [if_pos (by omega)]; simp [f3]
  have g4 : s1.outputs = [{ number := 0, time := 0, iteration := 0
                            data := viewOf s0.mem .U }] := by
    rw [hs1]; unfold mainSave saveSolution; rw [if_pos (by omega)]; simp [f1, f2, f3, f4]
  refine ⟨{ number := 0, time := 0, iteration := 0, data := viewOf s0.mem .U }, rfl, rfl, rfl, ?_⟩
  have hinv : CadInv p D { number := 0, time := 0, iteration := 0, data := viewOf s0.mem .U } s1 :=
    ⟨⟨[], g4, by simp⟩, fun h => absurd g2 h, g3.ge⟩
  exact (h1.invariant' (fun s => CadInv p D
    { number := 0, time := 0, iteration := 0, data := viewOf s0.mem .U } s ∧
    (s.iteration = 0 → s.t ≤ s.times_saved * (p.tEnd / p.nOutput)))
    ⟨hinv, fun _ => by rw [g1, g3]; push_cast; linarith⟩
    (fun l s s' ht hx hf hs => ⟨cadInv_next hN hDI he hE hx.2 hx.1 hs
      (hD l s s' ⟨s0, h0, ht⟩ hf hs), fun hz => by
      obtain ⟨_, m1, d, m3, _, _, _, rfl⟩ := nextIteration_iff.1 hs
      simp at hz⟩)).1

/-- **C17.** `noutput = N > 0`, time starting at 0, steps at most `D ≤ tEnd/N`: the first file is
the initial state; apart from it and from the one written after the loop, file number `k` is written
after time `k·tEnd/N`, by at most one CFL step; the only exception is the rule that writes within
1e-12 of `tEnd`.  At most one file per iteration. -/
theorem C17_cadence {m : Mem Arr ℝ} {D : ℝ}
    (hD : Spec.StepsAtMost p S m D) (hN : 0 < p.nOutput) (hDI : D ≤ p.tEnd / p.nOutput)
    (he : p.enableOutput = true) (hE : 0 < p.tEnd) {s' : RunState ℝ}
    (h : runMain p S m 0 0 s') : ∃ o₀ os oₙ, s'.outputs = o₀ :: os ++ [oₙ] ∧
      o₀.number = 0 ∧ o₀.time = 0 ∧ oₙ.time = s'.t ∧ ∀ o ∈ os, Spec.OnSchedule p D o := by
  obtain ⟨k, s, h1, h2, rfl⟩ := reaches_of_runMain h
  obtain ⟨o₀, a, b, _, hc⟩ := cadInv_reaches hD hN hDI he hE h1
  obtain ⟨os, ho, hos⟩ := hc.ok
  refine ⟨o₀, os, ⟨s.times_saved, s.t, s.iteration,
    viewOf s.mem (if s.iteration % 2 = 0 then .U else .U2)⟩, ?_, a, b, ?_, hos⟩
  · unfold mainSave saveSolution; rw [if_pos (by omega)]; simp only [ho]
  · rw [(mainSave_fields s).1]

/-- **C17, an output is due.** If at a loop head the time has passed `k·tEnd/N` where `k` is the
number of the next file, the turn writes exactly that file, with that time. -/
theorem C17_due (hN : 0 < p.nOutput) (he : p.enableOutput = true) {s s' : RunState ℝ}
    (h : nextIteration p S s s') (hd : s.times_saved * (p.tEnd / p.nOutput) < s.t) :
    ∃ o, s'.outputs = s.outputs ++ [o] ∧ o.number = s.times_saved ∧ o.time = s.t ∧
      o.iteration = s.iteration := by
  obtain ⟨_, m1, d, m3, _, _, _, rfl⟩ := nextIteration_iff.1 h
  rcases maybeSave_eq (p := p) s with ⟨_, _, _, e2⟩ | ⟨hn, _⟩
  · exact ⟨_, e2, rfl, rfl, rfl⟩
  · exact absurd ⟨he, (shouldSave_real s hN).2 (Or.inl hd)⟩ hn

/-- **C17, number of files.** Under the same hypotheses, if the run ends at `tEnd` and no loop head
falls in the last 1e-12 before `tEnd` (the safety rule does not fire), between `N` and `N + 1` files
are written. -/
theorem C17_count {m : Mem Arr ℝ} {D : ℝ}
    (hD : Spec.StepsAtMost p S m D) (hN : 0 < p.nOutput) (hDI : D ≤ p.tEnd / p.nOutput)
    (he : p.enableOutput = true) (hE : 0 < p.tEnd) {s' : RunState ℝ}
    (h : runMain p S m 0 0 s') (hend : s'.t = p.tEnd)
    (hz : ∀ o ∈ s'.outputs.dropLast, 1 / 1000000000000 ≤ |o.time - p.tEnd|)
    (hle : ∀ o ∈ s'.outputs, o.time ≤ p.tEnd) :
    p.nOutput ≤ s'.outputs.length ∧ (s'.outputs.length : Int) ≤ p.nOutput + 1 := by
  have hI : 0 < p.tEnd / p.nOutput := div_pos hE (by exact_mod_cast hN)
  have hIN : p.nOutput * (p.tEnd / p.nOutput) = p.tEnd := by
    field_simp
  obtain ⟨k, s, h1, h2, rfl⟩ := reaches_of_runMain h
  obtain ⟨o₀, a, b, b', hc⟩ := cadInv_reaches hD hN hDI he hE h1
  have hi := outInv_reaches h1
  obtain ⟨os, ho, hos⟩ := hc.ok
  have eo : (mainSave p s).outputs = s.outputs ++ [⟨s.times_saved, s.t, s.iteration,
      viewOf s.mem (if s.iteration % 2 = 0 then .U else .U2)⟩] := by
    unfold mainSave saveSolution; rw [if_pos (by omega)]
  rw [eo] at hz hle ⊢
  rw [List.dropLast_concat] at hz
  rw [(mainSave_fields s).1] at hend
  have hcount := hi.count
  simp only [zero_add] at hcount
  simp only [List.length_append, List.length_singleton]
  push_cast
  rw [← hcount]
  constructor
  · -- t = tEnd ≤ (times_saved + 1) I
    have hit : s.iteration ≠ 0 := by
      intro hzero
      have : k = 0 := by rw [← reaches_iteration h1]; exact hzero
      subst this
      obtain ⟨s0, h0, h1'⟩ := h1
      cases h1'
      rw [(mainSave_fields s0).1, (construct_fields h0).1] at hend
      linarith
    have := hc.head hit
    rw [hend] at this
    have h3 : (p.nOutput : ℝ) * (p.tEnd / p.nOutput) ≤
        ((s.times_saved + 1 : ℤ) : ℝ) * (p.tEnd / p.nOutput) := by
      rw [hIN]; push_cast; linarith
    have := le_of_mul_le_mul_right h3 hI
    exact_mod_cast this
  · -- the last in-loop file has number < N
    rcases List.eq_nil_or_concat os with rfl | ⟨os', o, rfl⟩
    · have : s.times_saved = 1 := by rw [hcount, ho]; simp
      omega
    · have hmem : o ∈ s.outputs := by rw [ho]; simp
      have hnum : o.number = s.times_saved - 1 := by
        have := hi.numbered (os'.length + 1) o (by rw [ho]; simp)
        rw [this, hcount, ho]; simp
      rcases hos o (by simp) with ⟨h4, _⟩ | h4
      · have h5 := hle o (by simp [hmem])
        have h6 : (o.number : ℝ) * (p.tEnd / p.nOutput) <
            (p.nOutput : ℝ) * (p.tEnd / p.nOutput) := by rw [hIN]; linarith
        have := lt_of_mul_lt_mul_right h6 hI.le
        have : o.number < p.nOutput := by exact_mod_cast this
        omega
      · exact absurd h4 (not_lt.2 (hz o hmem))

end Real

end EulerKokkos
