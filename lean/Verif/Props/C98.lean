import Verif.Model.Timers
import Verif.Lemmas.Driver
import Verif.Props.C13
import Verif.Props.C15
import Verif.Props.C95
import Verif.Props.Sample

/-!
# C98 — the times and the speed the program reports

For every run and every clock that does not run backwards.
-/

set_option linter.constructorNameAsVariable false
set_option linter.unusedSectionVars false
set_option linter.unusedSimpArgs false

namespace EulerKokkos
open Spec

namespace Spec

/-- the readings at the ends of the phases of `i` minus the readings at their beginnings; `τ n` is what the clock shows
at the `n`-th call -/
def timeIn (τ : Nat → ℝ) (calls : List TimerCall) (i : TimerId) : ℝ :=
  ∑ n ∈ Finset.range calls.length,
    (if calls[n]? = some (.stop i) then τ n else if calls[n]? = some (.start i) then - τ n else 0)

/-- how many phases of `i` there are -/
def phases (calls : List TimerCall) (i : TimerId) : Nat := calls.count (.stop i)

end Spec

/-! ### One timer -/

/-- `timeIn` for calls that start at position `n` -/
noncomputable def spent (τ : Nat → ℝ) (i : TimerId) : Nat → List TimerCall → ℝ
  | _, [] => 0
  | n, c :: l => (if c = .stop i then τ n else if c = .start i then - τ n else 0) + spent τ i (n + 1) l

theorem spent_append (τ : Nat → ℝ) (i : TimerId) (a b : List TimerCall) (n : Nat) :
    spent τ i n (a ++ b) = spent τ i n a + spent τ i (n + a.length) b := by
  induction a generalizing n with
  | nil => simp [spent]
  | cons c l ih =>
    simp only [List.cons_append, spent, ih, List.length_cons]
    rw [show n + 1 + l.length = n + (l.length + 1) by ring]
    ring

theorem timeIn_eq (τ : Nat → ℝ) (calls : List TimerCall) (i : TimerId) : timeIn τ calls i = spent τ i 0 calls := by
  have key : ∀ (l : List TimerCall) (n : Nat), spent τ i n l = ∑ k ∈ Finset.range l.length,
      (if l[k]? = some (.stop i) then τ (n + k) else if l[k]? = some (.start i) then - τ (n + k) else 0) := by
    intro l
    induction l with
    | nil => intro n; simp [spent]
    | cons c l ih =>
      intro n
      rw [List.length_cons, Finset.sum_range_succ']
      simp only [List.getElem?_cons_succ, List.getElem?_cons_zero, Option.some.injEq, spent, ih]
      rw [add_comm]
      congr 1
      exact Finset.sum_congr rfl fun k _ => by rw [show n + 1 + k = n + (k + 1) by ring]
  rw [key]
  unfold timeIn
  exact Finset.sum_congr rfl fun k _ => by rw [zero_add]

/-- the calls on timer `i` alternate, beginning with `stop` if it is running -/
def Alternates (i : TimerId) : Bool → List TimerCall → Prop
  | r, [] => r = false
  | r, c :: l => if c = .start i then r = false ∧ Alternates i true l
      else if c = .stop i then r = true ∧ Alternates i false l else Alternates i r l

theorem alternates_append {i : TimerId} {a b : List TimerCall} {r : Bool} (ha : Alternates i r a)
    (hb : Alternates i false b) : Alternates i r (a ++ b) := by
  induction a generalizing r with
  | nil => rw [show r = false from ha]; exact hb
  | cons c l ih =>
    simp only [Alternates, List.cons_append] at ha ⊢
    split_ifs at ha ⊢
    · exact ⟨ha.1, ih ha.2⟩
    · exact ⟨ha.1, ih ha.2⟩
    · exact ih ha

theorem timerCalls_total (τ : Nat → ℝ) (i : TimerId) (l : List TimerCall) : ∀ (n : Nat) (T : TimerId → Stopwatch ℝ)
    (r : Bool), Alternates i r l → (timerCalls τ n l T i).total_time =
      (T i).total_time + (if r then - (T i).start_time else 0) + spent τ i n l := by
  induction l with
  | nil => intro n T r h; rw [show r = false from h]; simp [timerCalls, spent]
  | cons c l ih =>
    intro n T r h
    simp only [timerCalls, Alternates, spent] at h ⊢
    split_ifs at h with h1 h2
    · subst h1
      rw [ih _ _ _ h.2, h.1]
      simp only [timerCall, if_true, reduceCtorEq, if_false]
      simp
      try ring
    · subst h2
      rw [ih _ _ _ h.2, h.1]
      simp only [timerCall, if_true]
      simp
      ring
    · rw [ih _ _ _ h, if_neg h2, if_neg h1]
      cases c with
      | start j =>
        have : i ≠ j := fun e => h1 (by rw [e])
        simp only [timerCall, if_neg this, zero_add]
      | stop j =>
        have : i ≠ j := fun e => h2 (by rw [e])
        simp only [timerCall, if_neg this, zero_add]

/-! ### The calls of the program -/

theorem alternates_save (b : Bool) (i : TimerId) : Alternates i false (saveCalls b) := by
  cases b <;> cases i <;> simp [saveCalls, phase, Alternates]

theorem alternates_turn (k : SolverKind) (v : Int) (b : Bool) (i : TimerId) :
    Alternates i false (turnCalls k v b) := by
  unfold turnCalls godunovCalls saveCalls
  split_ifs <;> cases k <;> cases i <;> simp [phase, Alternates]

theorem alternates_loop (k : SolverKind) (v : Int) (i : TimerId) (l : List Bool) :
    Alternates i false (loopCalls k v l) := by
  induction l with
  | nil => rfl
  | cons b l ih => exact alternates_append (alternates_turn k v b i) ih

theorem alternates_open {i : TimerId} {l : List TimerCall} (h : ∀ c ∈ l, c ≠ .start i ∧ c ≠ .stop i) (r : Bool)
    {b : List TimerCall} (hb : Alternates i r b) : Alternates i r (l ++ b) := by
  induction l with
  | nil => exact hb
  | cons c l ih =>
    simp only [Alternates, List.cons_append]
    rw [if_neg (h c (by simp)).1, if_neg (h c (by simp)).2]
    exact ih fun c hc => h c (by simp [hc])

theorem loop_total (k : SolverKind) (v : Int) (l : List Bool) :
    ∀ c ∈ loopCalls k v l, c ≠ .start .total ∧ c ≠ .stop .total := by
  have ht : ∀ b, ∀ c ∈ turnCalls k v b, c ≠ .start .total ∧ c ≠ .stop .total := by
    intro b
    unfold turnCalls godunovCalls saveCalls
    split_ifs <;> cases k <;> simp [phase]
  induction l with
  | nil => intro c hc; cases hc
  | cons b l ih =>
    intro c hc
    rcases List.mem_append.1 hc with hc | hc
    · exact ht b c hc
    · exact ih c hc

theorem alternates_main (k : SolverKind) (v : Int) (e : Bool) (l : List Bool) (i : TimerId) :
    Alternates i false (mainCalls k v e l) := by
  unfold mainCalls
  refine alternates_append ?_ (alternates_save e i)
  by_cases hi : i = .total
  · subst hi
    rw [List.append_assoc, List.append_assoc]
    refine alternates_append (alternates_save e _) ?_
    show Alternates .total false (TimerCall.start .total :: (loopCalls k v l ++ [TimerCall.stop .total]))
    unfold Alternates
    rw [if_pos rfl]
    exact ⟨rfl, alternates_open (loop_total k v l) true (by simp [Alternates])⟩
  · have n1 : ∀ c, c ≠ TimerCall.start i → c ≠ .stop i → Alternates i false [c] := by
      intro c h1 h2
      simp [Alternates, h1, h2]
    refine alternates_append (alternates_append (alternates_append (alternates_save e i) (n1 _ ?_ ?_))
      (alternates_loop k v i l)) (n1 _ ?_ ?_) <;> simp <;> exact fun h => hi h.symm

/-- **C98 (times).** In every run each reported time is the time spent in the phases it is the time of,
whatever the clock showed when the timers were made. -/
theorem C98_times {p : Params ℝ} {S : SolverOps ℝ} {k : SolverKind} {m : Mem Arr ℝ} {t : ℝ} {sv : Int}
    {calls : List TimerCall} {s' : RunState ℝ} (h : timedMain p S k m t sv calls s') (t₀ : TimerId → ℝ) (τ : Nat → ℝ)
    (i : TimerId) : reportedTime t₀ τ calls i = timeIn τ calls i := by
  obtain ⟨s₀, s₁, l, -, -, -, -, rfl⟩ := h
  unfold reportedTime
  rw [timerCalls_total τ i _ 0 _ false (alternates_main _ _ _ _ _), timeIn_eq]
  simp [freshTimers]

/-! ### How many phases -/

theorem turnsT_of {R : Type} [RealOps R] {p : Params R} {S : SolverOps R} {n : Nat} {s s' : RunState R}
    (h : Turns p S n s s') : ∃ l, TurnsT p S l s s' := by
  induction h with
  | zero s => exact ⟨_, .nil s⟩
  | succ _ h1 h2 ih =>
    obtain ⟨l, hl⟩ := ih
    exact ⟨_, .snoc hl h1 h2⟩

/-- every run makes such calls -/
theorem C98_every_run {R : Type} [RealOps R] {p : Params R} {S : SolverOps R} {m : Mem Arr R} {t : R} {sv : Int}
    {s' : RunState R} (k : SolverKind) (h : runMain p S m t sv s') : ∃ calls, timedMain p S k m t sv calls s' := by
  obtain ⟨s₀, s₁, h0, ⟨n, h1, h2⟩, h3⟩ := h
  obtain ⟨l, hl⟩ := turnsT_of h1
  exact ⟨_, s₀, s₁, l, h0, hl, h2, h3, rfl⟩

theorem turnsT_counts {p : Params ℝ} {S : SolverOps ℝ} {l : List Bool} {s s' : RunState ℝ} (h : TurnsT p S l s s') :
    s'.iteration = s.iteration + l.length ∧ s'.outputs.length = s.outputs.length + l.count true := by
  induction h with
  | nil s => simp
  | @snoc l s s₁ s' _ h1 h2 ih =>
    obtain ⟨_, m1, d, m3, _, _, _, e⟩ := nextIteration_iff.1 h2
    have ei : s'.iteration = s₁.iteration + 1 := by rw [e]
    have eo : s'.outputs = (maybeSave p (logLine p s₁)).outputs := by rw [e]
    constructor
    · rw [ei, ih.1, List.length_append]
      rfl
    · rw [eo, List.count_append]
      rcases maybeSave_eq (p := p) s₁ with ⟨a, b, _, e2⟩ | ⟨a, _, e2⟩ <;> rw [e2]
      · rw [a, b]
        simp [saveSolution, ih.2]
        omega
      · have : (p.enableOutput && shouldSave p s₁) = false := by
          rw [Bool.eq_false_iff]
          intro h
          rw [Bool.and_eq_true] at h
          exact a h
        rw [this, ih.2]
        simp

theorem phases_loop (k : SolverKind) (v : Int) (l : List Bool) :
    (loopCalls k v l).count (.stop .scheme) = l.length ∧ (loopCalls k v l).count (.stop .boundaries) = l.length ∧
    (loopCalls k v l).count (.stop .dt) = l.length ∧ (loopCalls k v l).count (.stop .io) = l.count true ∧
    (loopCalls k v l).count (.stop .total) = 0 := by
  have ht : ∀ b, (turnCalls k v b).count (.stop .scheme) = 1 ∧ (turnCalls k v b).count (.stop .boundaries) = 1 ∧
      (turnCalls k v b).count (.stop .dt) = 1 ∧ (turnCalls k v b).count (.stop .io) = [b].count true ∧
      (turnCalls k v b).count (.stop .total) = 0 := by
    intro b
    unfold turnCalls godunovCalls saveCalls
    cases b <;> by_cases hv : v = 0 <;> cases k <;> simp only [hv, if_true, if_false] <;> decide
  induction l with
  | nil => simp [loopCalls]
  | cons b l ih =>
    obtain ⟨a1, a2, a3, a4, a5⟩ := ht b
    obtain ⟨b1, b2, b3, b4, b5⟩ := ih
    simp only [loopCalls, List.count_append, a1, a2, a3, a4, a5, b1, b2, b3, b4, b5, List.length_cons]
    refine ⟨by ring, by ring, by ring, ?_, by simp⟩
    rw [← List.count_append]
    rfl

/-- **C98 (phases).** The scheme, the boundaries and the time step are timed once per iteration, the output once
per file, the whole loop once. -/
theorem C98_phases {p : Params ℝ} {S : SolverOps ℝ} {k : SolverKind} {m : Mem Arr ℝ} {t : ℝ} {sv : Int}
    {calls : List TimerCall} {s' : RunState ℝ} (h : timedMain p S k m t sv calls s') :
    phases calls .scheme = s'.iteration ∧ phases calls .boundaries = s'.iteration ∧ phases calls .dt = s'.iteration ∧
    phases calls .io = s'.outputs.length ∧ phases calls .total = 1 := by
  obtain ⟨s₀, s₁, l, h0, h1, -, rfl, rfl⟩ := h
  obtain ⟨f1, f2, f3, f4, _⟩ := construct_fields h0
  obtain ⟨e1, e2⟩ := turnsT_counts h1
  obtain ⟨b1, b2, b3, b4, b5⟩ := phases_loop k p.implementationVersion l
  have hit : (mainSave p s₁).iteration = l.length := by
    rw [(mainSave_fields s₁).2.1, e1, (mainSave_fields s₀).2.1, f2, zero_add]
  unfold phases mainCalls
  simp only [List.count_append, b1, b2, b3, b4, b5, hit]
  by_cases hn : p.nOutput = 0
  · simp only [hn, ne_eq, not_true_eq_false, decide_false, saveCalls, if_false, mainSave]
    simp only [mainSave, hn, ne_eq, not_true_eq_false, if_false, f4] at e2
    simp [e2]
  · simp only [hn, ne_eq, not_false_eq_true, decide_true, saveCalls, if_true, mainSave, phase]
    simp only [mainSave, hn, ne_eq, not_false_eq_true, if_true, saveSolution, f4] at e2
    simp [saveSolution, e2]

/-! ### Shares -/

/-- a weighted sum of the times of the phases of some calls -/
noncomputable def spentW (c : TimerId → ℝ) (τ : Nat → ℝ) (n : Nat) (l : List TimerCall) : ℝ :=
  c .total * spent τ .total n l + c .io * spent τ .io n l + c .dt * spent τ .dt n l +
  c .primitives * spent τ .primitives n l + c .fluxes * spent τ .fluxes n l + c .update * spent τ .update n l +
  c .boundaries * spent τ .boundaries n l + c .scheme * spent τ .scheme n l

theorem spentW_append (c : TimerId → ℝ) (τ : Nat → ℝ) (a b : List TimerCall) (n : Nat) :
    spentW c τ n (a ++ b) = spentW c τ n a + spentW c τ (n + a.length) b := by
  simp only [spentW, spent_append]
  ring

theorem spentW_loop_le {c : TimerId → ℝ} {τ : Nat → ℝ} {k : SolverKind} {v : Int}
    (h : ∀ b n, spentW c τ n (turnCalls k v b) ≤ τ (n + (turnCalls k v b).length) - τ n) (l : List Bool) :
    ∀ n, spentW c τ n (loopCalls k v l) ≤ τ (n + (loopCalls k v l).length) - τ n := by
  induction l with
  | nil => intro n; simp [loopCalls, spentW, spent]
  | cons b l ih =>
    intro n
    simp only [loopCalls, spentW_append, List.length_append]
    have h1 := h b n
    have h2 := ih (n + (turnCalls k v b).length)
    rw [add_assoc] at h2
    linarith

theorem spentW_loop_nonneg {c : TimerId → ℝ} {τ : Nat → ℝ} {k : SolverKind} {v : Int}
    (h : ∀ b n, 0 ≤ spentW c τ n (turnCalls k v b)) (l : List Bool) : ∀ n, 0 ≤ spentW c τ n (loopCalls k v l) := by
  induction l with
  | nil => intro n; simp [loopCalls, spentW, spent]
  | cons b l ih =>
    intro n
    simp only [loopCalls, spentW_append]
    have h1 := h b n
    have h2 := ih (n + (turnCalls k v b).length)
    linarith

theorem steps_mono {τ : Nat → ℝ} (hτ : Monotone τ) (n : Nat) :
    τ n ≤ τ (n + 1) ∧ τ (n + 1) ≤ τ (n + 1 + 1) ∧ τ (n + 1 + 1) ≤ τ (n + 1 + 1 + 1) ∧
    τ (n + 1 + 1 + 1) ≤ τ (n + 1 + 1 + 1 + 1) ∧ τ (n + 1 + 1 + 1 + 1) ≤ τ (n + 1 + 1 + 1 + 1 + 1) ∧
    τ (n + 1 + 1 + 1 + 1 + 1) ≤ τ (n + 1 + 1 + 1 + 1 + 1 + 1) ∧
    τ (n + 1 + 1 + 1 + 1 + 1 + 1) ≤ τ (n + 1 + 1 + 1 + 1 + 1 + 1 + 1) :=
  ⟨hτ (by omega), hτ (by omega), hτ (by omega), hτ (by omega), hτ (by omega), hτ (by omega), hτ (by omega)⟩

/-- the weights of the phases of a turn that do not overlap -/
def wTurn (k : SolverKind) : TimerId → ℝ := fun i => match i, k with
  | .io, _ => 1
  | .boundaries, _ => 1
  | .scheme, _ => 1
  | .dt, .hydro2 => 1
  | .dt, .hydro3 => 1
  | _, _ => 0

/-- the scheme minus the phases inside it -/
def wInside (k : SolverKind) : TimerId → ℝ := fun i => match i, k with
  | .scheme, _ => 1
  | .primitives, _ => -1
  | .fluxes, _ => -1
  | .update, _ => -1
  | .dt, .mhd2 => -1
  | .dt, .mhd3 => -1
  | _, _ => 0

/-- one timer alone -/
def wOne (j : TimerId) : TimerId → ℝ := fun i => if i = j then 1 else 0

theorem spentW_one (τ : Nat → ℝ) (j : TimerId) (n : Nat) (l : List TimerCall) :
    spentW (wOne j) τ n l = spent τ j n l := by
  cases j <;> simp [spentW, wOne]

theorem turn_le {τ : Nat → ℝ} (hτ : Monotone τ) (k : SolverKind) (v : Int) (b : Bool) (n : Nat) :
    spentW (wTurn k) τ n (turnCalls k v b) ≤ τ (n + (turnCalls k v b).length) - τ n := by
  obtain ⟨a1, a2, a3, a4, a5, a6, a7⟩ := steps_mono hτ n
  obtain ⟨b1, b2, b3, b4, b5, b6, b7⟩ := steps_mono hτ (n + 1 + 1 + 1 + 1 + 1 + 1 + 1)
  cases b <;> by_cases hv : v = 0 <;> cases k <;>
    simp [turnCalls, godunovCalls, saveCalls, phase, hv, spentW, wTurn, spent, ← add_assoc] <;>
    simp only [show n + 4 = n + 1 + 1 + 1 + 1 from rfl, show n + 6 = n + 1 + 1 + 1 + 1 + 1 + 1 from rfl,
      show n + 8 = n + 1 + 1 + 1 + 1 + 1 + 1 + 1 + 1 from rfl,
      show n + 10 = n + 1 + 1 + 1 + 1 + 1 + 1 + 1 + 1 + 1 + 1 from rfl,
      show n + 12 = n + 1 + 1 + 1 + 1 + 1 + 1 + 1 + 1 + 1 + 1 + 1 + 1 from rfl,
      show n + 14 = n + 1 + 1 + 1 + 1 + 1 + 1 + 1 + 1 + 1 + 1 + 1 + 1 + 1 + 1 from rfl] <;>
    linarith

theorem turn_inside {τ : Nat → ℝ} (hτ : Monotone τ) (k : SolverKind) (v : Int) (b : Bool) (n : Nat) :
    0 ≤ spentW (wInside k) τ n (turnCalls k v b) := by
  obtain ⟨a1, a2, a3, a4, a5, a6, a7⟩ := steps_mono hτ n
  obtain ⟨b1, b2, b3, b4, b5, b6, b7⟩ := steps_mono hτ (n + 1 + 1 + 1 + 1 + 1 + 1 + 1)
  cases b <;> by_cases hv : v = 0 <;> cases k <;>
    simp [turnCalls, godunovCalls, saveCalls, phase, hv, spentW, wInside, spent] <;> linarith

theorem turn_one {τ : Nat → ℝ} (hτ : Monotone τ) (k : SolverKind) (v : Int) (j : TimerId) (b : Bool) (n : Nat) :
    0 ≤ spentW (wOne j) τ n (turnCalls k v b) := by
  rw [spentW_one]
  obtain ⟨a1, a2, a3, a4, a5, a6, a7⟩ := steps_mono hτ n
  obtain ⟨b1, b2, b3, b4, b5, b6, b7⟩ := steps_mono hτ (n + 1 + 1 + 1 + 1 + 1 + 1 + 1)
  cases b <;> by_cases hv : v = 0 <;> cases k <;> cases j <;>
    simp [turnCalls, godunovCalls, saveCalls, phase, hv, spent] <;> linarith

theorem loop_total_zero (τ : Nat → ℝ) (k : SolverKind) (v : Int) (l : List Bool) (n : Nat) :
    spent τ .total n (loopCalls k v l) = 0 := by
  have key : ∀ (l : List TimerCall), (∀ c ∈ l, c ≠ .start .total ∧ c ≠ .stop .total) → ∀ n, spent τ .total n l = 0 := by
    intro l
    induction l with
    | nil => intro _ n; rfl
    | cons c l ih =>
      intro h n
      simp only [spent]
      rw [if_neg (h c (by simp)).2, if_neg (h c (by simp)).1, ih (fun c hc => h c (by simp [hc])), add_zero]
  exact key _ (loop_total k v l) n

/-- the times of a run in terms of those of its loop; `a`: the calls before the loop -/
theorem main_spent (τ : Nat → ℝ) (k : SolverKind) (v : Int) (e : Bool) (l : List Bool) :
    ∃ a L, a = (saveCalls e).length ∧ L = (loopCalls k v l).length ∧
    spent τ .total 0 (mainCalls k v e l) = τ (a + 1 + L) - τ a ∧
    (∀ i, i ≠ .total → i ≠ .io → spent τ i 0 (mainCalls k v e l) = spent τ i (a + 1) (loopCalls k v l)) ∧
    spent τ .io 0 (mainCalls k v e l) = spent τ .io (a + 1) (loopCalls k v l) +
      (if e then τ 1 - τ 0 + (τ (a + 1 + L + 2) - τ (a + 1 + L + 1)) else 0) := by
  refine ⟨_, _, rfl, rfl, ?_, ?_, ?_⟩
  · unfold mainCalls
    simp only [spent_append, loop_total_zero, List.length_append, List.length_singleton, zero_add]
    cases e <;> simp [saveCalls, phase, spent] <;> ring
  · intro i h1 h2
    unfold mainCalls
    simp only [spent_append, List.length_append, List.length_singleton, zero_add]
    cases e <;> simp [saveCalls, phase, spent, Ne.symm h1, Ne.symm h2]
  · unfold mainCalls
    simp only [spent_append, List.length_append, List.length_singleton, zero_add]
    cases e <;> simp [saveCalls, phase, spent] <;> ring

/-- what the clocks of a run satisfy -/
theorem run_times {p : Params ℝ} {S : SolverOps ℝ} {k : SolverKind} {m : Mem Arr ℝ} {t : ℝ} {sv : Int}
    {calls : List TimerCall} {s' : RunState ℝ} (h : timedMain p S k m t sv calls s') (t₀ : TimerId → ℝ) {τ : Nat → ℝ}
    (hτ : Monotone τ) : ∃ a L : Nat, ∃ ioLoop : ℝ,
    let T := reportedTime t₀ τ calls
    a = (if p.nOutput ≠ 0 then 2 else 0) ∧ calls.length = a + 1 + L + 1 + a ∧
    T .total = τ (a + 1 + L) - τ a ∧
    (∀ i, 0 ≤ T i) ∧ 0 ≤ ioLoop ∧
    T .io = ioLoop + (if p.nOutput ≠ 0 then τ 1 - τ 0 + (τ (a + 1 + L + 2) - τ (a + 1 + L + 1)) else 0) ∧
    T .boundaries + T .scheme + ioLoop + wTurn k .dt * T .dt ≤ T .total ∧
    0 ≤ T .scheme - (T .primitives + T .fluxes + T .update) + wInside k .dt * T .dt := by
  have hT : ∀ i, reportedTime t₀ τ calls i = spent τ i 0 calls := fun i => by rw [C98_times h, timeIn_eq]
  obtain ⟨s₀, s₁, l, -, -, -, -, rfl⟩ := h
  obtain ⟨a, L, ea, eL, h1, h2, h3⟩ := main_spent τ k p.implementationVersion (decide (p.nOutput ≠ 0)) l
  have hone : ∀ i, 0 ≤ spent τ i (a + 1) (loopCalls k p.implementationVersion l) := by
    intro i
    rw [← spentW_one]
    exact spentW_loop_nonneg (fun b n => turn_one hτ k _ i b n) l _
  have hle := spentW_loop_le (fun b n => turn_le hτ k p.implementationVersion b n) l (a + 1)
  have hin := spentW_loop_nonneg (fun b n => turn_inside hτ k p.implementationVersion b n) l (a + 1)
  rw [← eL] at hle
  have hm := hτ (show a ≤ a + 1 by omega)
  have hm2 := hτ (show a ≤ a + 1 + L by omega)
  have hm3 := hτ (show a + 1 + L + 1 ≤ a + 1 + L + 2 by omega)
  have hm4 := hτ (show 0 ≤ 1 by omega)
  refine ⟨a, L, spent τ .io (a + 1) (loopCalls k p.implementationVersion l), ?_⟩
  dsimp only
  simp only [hT, h1, h3, h2 .dt (by decide) (by decide), h2 .primitives (by decide) (by decide),
    h2 .fluxes (by decide) (by decide), h2 .update (by decide) (by decide), h2 .boundaries (by decide) (by decide),
    h2 .scheme (by decide) (by decide), decide_eq_true_eq]
  refine ⟨?_, ?_, by trivial, ?_, hone _, by trivial, ?_, ?_⟩
  · rw [ea]
    by_cases hn : p.nOutput = 0 <;> simp [hn, saveCalls, phase]
  · unfold mainCalls
    simp only [List.length_append, ← ea, ← eL, List.length_singleton]
  · intro i
    by_cases i1 : i = .total
    · rw [i1, h1]; linarith
    · by_cases i2 : i = .io
      · rw [i2, h3]
        have := hone .io
        split_ifs <;> linarith
      · rw [h2 i i1 i2]; exact hone i
  · simp only [spentW, loop_total_zero] at hle
    cases k <;> simp only [wTurn] at hle ⊢ <;> linarith
  · simp only [spentW, loop_total_zero] at hin
    cases k <;> simp only [wInside] at hin ⊢ <;> linarith

/-- **C98 (shares, hydrodynamics).** No reported time is negative; boundaries, time step and scheme together take no
more than the total, and the parts of the scheme no more than the scheme. -/
theorem C98_shares_hydro {p : Params ℝ} {S : SolverOps ℝ} {k : SolverKind} (hk : k = .hydro2 ∨ k = .hydro3)
    {m : Mem Arr ℝ} {t : ℝ} {sv : Int} {calls : List TimerCall} {s' : RunState ℝ}
    (h : timedMain p S k m t sv calls s') (t₀ : TimerId → ℝ) {τ : Nat → ℝ} (hτ : Monotone τ) :
    let T := reportedTime t₀ τ calls
    (∀ i, 0 ≤ T i) ∧ T .boundaries + T .dt + T .scheme ≤ T .total ∧
    T .primitives + T .fluxes + T .update ≤ T .scheme := by
  obtain ⟨a, L, io, -, -, -, h1, h2, -, h3, h4⟩ := run_times h t₀ hτ
  refine ⟨h1, ?_, ?_⟩
  · rcases hk with rfl | rfl <;> simp only [wTurn] at h3 <;> linarith
  · rcases hk with rfl | rfl <;> simp only [wInside] at h4 <;> linarith

theorem loop_unused (τ : Nat → ℝ) {k : SolverKind} (hk : k = .mhd2 ∨ k = .mhd3) {v : Int} {i : TimerId}
    (hi : i = .primitives ∨ i = .fluxes ∨ i = .update) (l : List Bool) : ∀ n, spent τ i n (loopCalls k v l) = 0 := by
  induction l with
  | nil => intro n; rfl
  | cons b l ih =>
    intro n
    rw [loopCalls, spent_append, ih, add_zero]
    rcases hk with rfl | rfl <;> rcases hi with rfl | rfl | rfl <;> cases b <;>
      simp [turnCalls, godunovCalls, saveCalls, phase, spent]

/-- **C98 (shares, MHD).** Here the time step is computed inside the scheme, and its time is a part of the scheme's. -/
theorem C98_shares_mhd {p : Params ℝ} {S : SolverOps ℝ} {k : SolverKind} (hk : k = .mhd2 ∨ k = .mhd3)
    {m : Mem Arr ℝ} {t : ℝ} {sv : Int} {calls : List TimerCall} {s' : RunState ℝ}
    (h : timedMain p S k m t sv calls s') (t₀ : TimerId → ℝ) {τ : Nat → ℝ} (hτ : Monotone τ) :
    let T := reportedTime t₀ τ calls
    (∀ i, 0 ≤ T i) ∧ T .boundaries + T .scheme ≤ T .total ∧ T .dt ≤ T .scheme ∧
    T .primitives = 0 ∧ T .fluxes = 0 ∧ T .update = 0 := by
  obtain ⟨a, L, io, -, -, -, h1, h2, -, h3, h4⟩ := run_times h t₀ hτ
  have n1 := h1 .primitives
  have n2 := h1 .fluxes
  have n3 := h1 .update
  have hz : ∀ i, i = .primitives ∨ i = .fluxes ∨ i = .update → reportedTime t₀ τ calls i = 0 := by
    intro i hi
    rw [C98_times h, timeIn_eq]
    obtain ⟨s₀, s₁, l, -, -, -, -, rfl⟩ := h
    obtain ⟨a, L, -, -, -, g2, -⟩ := main_spent τ k p.implementationVersion (decide (p.nOutput ≠ 0)) l
    rw [g2 i (by rintro rfl; simp at hi) (by rintro rfl; simp at hi)]
    exact loop_unused τ hk hi l _
  refine ⟨h1, ?_, ?_, hz _ (by simp), hz _ (by simp), hz _ (by simp)⟩
  · rcases hk with rfl | rfl <;> simp only [wTurn] at h3 <;> linarith
  · rcases hk with rfl | rfl <;> simp only [wInside] at h4 <;> linarith

/-- **C98 (output).** The files written inside the loop are part of the total; the first and the last file of a run
are written before the total starts and after it ends, and only their time can lift the sum of the reported times
above the total. -/
theorem C98_io {p : Params ℝ} {S : SolverOps ℝ} {k : SolverKind} {m : Mem Arr ℝ} {t : ℝ} {sv : Int}
    {calls : List TimerCall} {s' : RunState ℝ} (h : timedMain p S k m t sv calls s') (t₀ : TimerId → ℝ) {τ : Nat → ℝ}
    (hτ : Monotone τ) :
    let T := reportedTime t₀ τ calls
    let N := calls.length
    T .boundaries + T .scheme + T .io ≤
      T .total + (if p.nOutput ≠ 0 then (τ 1 - τ 0) + (τ (N - 1) - τ (N - 2)) else 0) := by
  obtain ⟨a, L, io, ea, eN, -, h1, h2, h5, h3, -⟩ := run_times h t₀ hτ
  have hd := h1 .dt
  have hw : 0 ≤ wTurn k .dt * reportedTime t₀ τ calls .dt := by
    cases k <;> simp [wTurn, hd]
  dsimp only
  rw [h5]
  by_cases hn : p.nOutput = 0
  · simp only [hn, ne_eq, not_true_eq_false, if_false]
    linarith
  · simp only [hn, ne_eq, not_false_eq_true, if_true] at ea ⊢
    subst ea
    rw [show calls.length - 1 = 2 + 1 + L + 2 by omega, show calls.length - 2 = 2 + 1 + L + 1 by omega]
    linarith

/-- **C98 (finding: shares above 100 %).** In every run with output there is a clock for which the printed share of
the output exceeds any given percentage of the total. -/
theorem C98_io_share_unbounded {p : Params ℝ} {S : SolverOps ℝ} {k : SolverKind} {m : Mem Arr ℝ} {t : ℝ} {sv : Int}
    {calls : List TimerCall} {s' : RunState ℝ} (h : timedMain p S k m t sv calls s') (hn : p.nOutput ≠ 0)
    (t₀ : TimerId → ℝ) (percent : ℝ) : ∃ τ : Nat → ℝ, Monotone τ ∧
    let T := reportedTime t₀ τ calls
    0 < T .total ∧ percent < 100 * T .io / T .total := by
  set K : ℝ := |percent| * (calls.length + 1) with hK
  have hK0 : 0 ≤ K := by positivity
  refine ⟨fun n => if n = 0 then - K else n, ?_, ?_⟩
  · intro a b hab
    dsimp only
    split_ifs with h1 h2 h2
    · exact le_refl _
    · have : (0 : ℝ) ≤ b := Nat.cast_nonneg b
      linarith
    · omega
    · exact_mod_cast hab
  · have hτ : Monotone (fun n : Nat => if n = 0 then - K else (n : ℝ)) := by
      intro a b hab
      dsimp only
      split_ifs with h1 h2 h2
      · exact le_refl _
      · have : (0 : ℝ) ≤ b := Nat.cast_nonneg b
        linarith
      · omega
      · exact_mod_cast hab
    obtain ⟨a, L, io, ea, eN, e1, -, h2, h5, -, -⟩ := run_times h t₀ hτ
    simp only [hn, ne_eq, not_false_eq_true, if_true] at ea h5
    subst ea
    dsimp only at e1 h5 ⊢
    have p1 : reportedTime t₀ (fun n : Nat => if n = 0 then - K else (n : ℝ)) calls .total = L + 1 := by
      rw [e1]
      simp only [show ¬ (2 + 1 + L = 0) by omega, show ¬ (2 = 0) by omega, if_false]
      push_cast
      ring
    have p2 : K + 1 ≤ reportedTime t₀ (fun n : Nat => if n = 0 then - K else (n : ℝ)) calls .io := by
      rw [h5]
      simp only [show ¬ (2 + 1 + L + 2 = 0) by omega, show ¬ (2 + 1 + L + 1 = 0) by omega, show ¬ (1 = 0) by omega,
        if_false, if_true]
      push_cast
      linarith
    have hL : (L : ℝ) + 1 ≤ calls.length + 1 := by
      have : L ≤ calls.length := by omega
      have : (L : ℝ) ≤ calls.length := by exact_mod_cast this
      linarith
    have hL0 : (0 : ℝ) < L + 1 := by positivity
    rw [p1]
    refine ⟨hL0, ?_⟩
    rw [lt_div_iff₀ hL0]
    have a1 : percent * (L + 1) ≤ |percent| * (calls.length + 1) :=
      mul_le_mul (le_abs_self _) hL hL0.le (abs_nonneg _)
    linarith

/-! ### The reported speed -/

theorem perf_of {n P : Nat} {c : Int} {T : ℝ} (hT : 0 < T) :
    1000000 * reportedPerf n c P T * T = n * c * P := by
  unfold reportedPerf
  have : T ≠ 0 := hT.ne'
  simp only [RealOps.lit_real, intLit]
  push_cast
  field_simp

/-- **C98 (speed).** The printed speed, in cell updates per second, times the total time is the number of iterations
times the number of cells of all processes, ghost cells included; so it exceeds the rate at which the cells of the
grid are updated. -/
theorem C98_perf_2d {p : Params ℝ} (w : p.WF) {nCells : Int} (hc : nCells2I p = some nCells) {n : Nat} (hn : 0 < n)
    {P : Nat} (hP : 0 < P) {T : ℝ} (hT : 0 < T) :
    1000000 * reportedPerf n nCells P T * T =
      n * ((p.nx + 2 * p.ghostWidth) * (p.ny + 2 * p.ghostWidth)) * P ∧
    n * (p.nx * p.ny) * P < 1000000 * reportedPerf n nCells P T * T := by
  have h1 := w.gw_pos
  have h5 := w.nx_pos
  have h6 := w.ny_pos
  have e : nCells = (p.nx + 2 * p.ghostWidth) * (p.ny + 2 * p.ghostWidth) := by
    rw [(C95_cell_count p w).1] at hc
    split_ifs at hc
    rw [← w.isize_eq, ← w.jsize_eq]
    exact (Option.some.inj hc).symm
  have hlt : p.nx * p.ny < nCells := by
    rw [e]
    exact mul_lt_mul'' (by omega) (by omega) (by omega) (by omega)
  have hlt' : (p.nx : ℝ) * p.ny < nCells := by exact_mod_cast hlt
  rw [perf_of hT]
  refine ⟨by rw [e]; push_cast; ring, ?_⟩
  have hn' : (0 : ℝ) < n := by exact_mod_cast hn
  have hP' : (0 : ℝ) < P := by exact_mod_cast hP
  exact mul_lt_mul_of_pos_right (mul_lt_mul_of_pos_left hlt' hn') hP'

/-- **C98 (speed, 3D).** -/
theorem C98_perf_3d {p : Params ℝ} (w : p.WF) {nCells : Int} (hc : nCells3I p = some nCells) {n : Nat} (hn : 0 < n)
    {P : Nat} (hP : 0 < P) {T : ℝ} (hT : 0 < T) :
    1000000 * reportedPerf n nCells P T * T =
      n * ((p.nx + 2 * p.ghostWidth) * (p.ny + 2 * p.ghostWidth) * (p.nz + 2 * p.ghostWidth)) * P ∧
    n * (p.nx * p.ny * p.nz) * P < 1000000 * reportedPerf n nCells P T * T := by
  have h1 := w.gw_pos
  have h5 := w.nx_pos
  have h6 := w.ny_pos
  have h7 := w.nz_pos
  have e : nCells = (p.nx + 2 * p.ghostWidth) * (p.ny + 2 * p.ghostWidth) * (p.nz + 2 * p.ghostWidth) := by
    rw [(C95_cell_count p w).2.1] at hc
    split_ifs at hc
    rw [← w.isize_eq, ← w.jsize_eq, ← w.ksize_eq]
    exact (Option.some.inj hc).symm
  have hxy : 0 ≤ p.nx * p.ny := mul_nonneg (by omega) (by omega)
  have hlt : p.nx * p.ny * p.nz < nCells := by
    rw [e]
    exact mul_lt_mul'' (mul_lt_mul'' (by omega) (by omega) (by omega) (by omega)) (by omega) hxy (by omega)
  have hlt' : (p.nx : ℝ) * p.ny * p.nz < nCells := by exact_mod_cast hlt
  rw [perf_of hT]
  refine ⟨by rw [e]; push_cast; ring, ?_⟩
  have hn' : (0 : ℝ) < n := by exact_mod_cast hn
  have hP' : (0 : ℝ) < P := by exact_mod_cast hP
  exact mul_lt_mul_of_pos_right (mul_lt_mul_of_pos_left hlt' hn') hP'

/-! ### The hypotheses are met -/

/-- a run on a 4 x 3 grid from any memory makes such calls, its clocks can be read, and its cells can be counted -/
example (jk : Junk ℝ) (m : Mem Arr ℝ) :
    ∃ s' calls, timedMain (sample .periodic .dirichlet) (hydroOps2 (sample .periodic .dirichlet)
      ⟨true, true⟩ (-1) jk) .hydro2 m 0 0 calls s' ∧ Monotone (fun n : Nat => (n : ℝ)) ∧
      nCells2I (sample .periodic .dirichlet) = some 56 ∧ (sample .periodic .dirichlet).nOutput ≠ 0 := by
  obtain ⟨s', h⟩ := (C14_hydro_completes (sample_wf .periodic .dirichlet) (sample_faces3 _ _) ⟨true, true⟩ (-1) jk
    (by simp [sample, rawSample, Params.init]) m 0 0).1
  obtain ⟨calls, h'⟩ := C98_every_run .hydro2 h
  refine ⟨s', calls, h', fun a b hab => by dsimp only; exact_mod_cast hab, ?_, by simp [sample, rawSample, Params.init]⟩
  rw [(C95_cell_count _ (sample_wf _ _)).1]
  norm_num [sample, rawSample, Params.init]

end EulerKokkos
