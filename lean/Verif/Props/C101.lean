import Verif.Props.C96

/-!
# C101 — the progress lines of a run

Every `nlog` iterations the program prints the number of the iteration, a time step and a time.  Which lines it prints, and
what the two numbers are: the time is the one the iteration starts from, the time step is the one that *led* to it (on the
first line, the step the constructor computed).
-/

set_option linter.constructorNameAsVariable false
set_option linter.unusedSectionVars false
set_option linter.unusedSimpArgs false

namespace EulerKokkos
open Spec

namespace Spec

variable {R : Type} [RealOps R]

/-- The records of a run from time `t` that made `N` iterations and ended at `tN`: with `τ n` the time after `n` iterations
and `δ n` the length of the `n`-th step, the lines printed are those of the iterations divisible by `nlog`, in order, each
with its number, the length of the step before it and the time it starts from; and every file carries the time after the
iterations it was written at. -/
def Progress (nlog : Int) (t : R) (s : RunState R) : Prop :=
  ∃ τ δ : Nat → R, τ 0 = t ∧ (∀ n < s.iteration, τ (n + 1) = τ n + δ (n + 1)) ∧ s.t = τ s.iteration ∧
    s.logs = ((List.range s.iteration).filter fun n : Nat => decide (nlog ∣ (n : Int))).map (fun n => (n, δ n, τ n)) ∧
    ∀ o ∈ s.outputs, o.iteration ≤ s.iteration ∧ o.time = τ o.iteration

end Spec

section
variable {R : Type} [RealOps R] {p : Params R} {S : SolverOps R}

/-- `Progress`, with the step the next line will show -/
def Progress' (nlog : Int) (t : R) (s : RunState R) : Prop :=
  ∃ τ δ : Nat → R, τ 0 = t ∧ (∀ n < s.iteration, τ (n + 1) = τ n + δ (n + 1)) ∧ s.t = τ s.iteration ∧
    s.dt = δ s.iteration ∧
    s.logs = ((List.range s.iteration).filter fun n : Nat => decide (nlog ∣ (n : Int))).map (fun n => (n, δ n, τ n)) ∧
    ∀ o ∈ s.outputs, o.iteration ≤ s.iteration ∧ o.time = τ o.iteration

theorem progress_save {nlog : Int} {t : R} {s : RunState R} (h : Progress' nlog t s) : Progress' nlog t (mainSave p s) := by
  unfold mainSave
  split_ifs with hn
  · obtain ⟨τ, δ, h0, h1, h2, h3, h4, h5⟩ := h
    refine ⟨τ, δ, h0, h1, h2, h3, h4, ?_⟩
    intro o ho
    rcases List.mem_append.1 (show o ∈ s.outputs ++ [_] from ho) with ho | ho
    · exact h5 o ho
    · rw [List.mem_singleton] at ho
      subst ho
      exact ⟨le_rfl, h2⟩
  · exact h

theorem progress_turn {t : R} {s s' : RunState R} (h : Progress' p.nlog t s) (hs : nextIteration p S s s') :
    Progress' p.nlog t s' := by
  obtain ⟨hn, m₁, d, m₃, -, -, -, rfl⟩ := nextIteration_iff.1 hs
  obtain ⟨τ, δ, h0, h1, h2, h3, h4, h5⟩ := h
  refine ⟨fun n => if n ≤ s.iteration then τ n else s.t + clipDt p s.t d,
    fun n => if n ≤ s.iteration then δ n else clipDt p s.t d, by simpa using h0, ?_, ?_, ?_, ?_, ?_⟩
  · intro n hlt
    have hlt : n < s.iteration + 1 := hlt
    rcases Nat.lt_or_ge n s.iteration with a | a
    · simpa [show n ≤ s.iteration by omega, show n + 1 ≤ s.iteration by omega] using h1 n a
    · have e : n = s.iteration := by omega
      subst e
      simp [h2]
  · simp
  · simp
  · have e : ∀ n ∈ List.range s.iteration, n ≤ s.iteration := fun n hn => (List.mem_range.1 hn).le
    have e2 : ((List.range s.iteration).filter fun n : Nat => decide (p.nlog ∣ (n : Int))).map
        (fun n => (n, if n ≤ s.iteration then δ n else clipDt p s.t d,
          if n ≤ s.iteration then τ n else s.t + clipDt p s.t d)) = s.logs := by
      rw [h4]
      refine List.map_congr_left fun n hn => ?_
      simp [e n (List.mem_filter.1 hn).1]
    show (logLine p s).logs = _
    unfold logLine
    rw [List.range_succ, List.filter_append, List.map_append, e2]
    by_cases hd : (s.iteration : Int) % p.nlog = 0
    · simp [hd, Int.dvd_of_emod_eq_zero hd, h2, h3]
    · have : ¬ p.nlog ∣ (s.iteration : Int) := fun h => hd (Int.emod_eq_zero_of_dvd h)
      simp [hd, this]
  · intro o ho
    have old : ∀ o ∈ s.outputs, o.iteration ≤ s.iteration + 1 ∧
        o.time = if o.iteration ≤ s.iteration then τ o.iteration else s.t + clipDt p s.t d := fun o ho => by
      obtain ⟨a, b⟩ := h5 o ho
      exact ⟨by omega, by rw [if_pos a]; exact b⟩
    rcases maybeSave_eq (p := p) s with ⟨-, -, -, e⟩ | ⟨-, -, e⟩
    · rw [e] at ho
      rcases List.mem_append.1 (show o ∈ s.outputs ++ [_] from ho) with ho | ho
      · exact old o ho
      · rw [List.mem_singleton] at ho
        subst ho
        exact ⟨Nat.le_succ _, h2.trans (if_pos le_rfl).symm⟩
    · rw [e] at ho
      exact old o ho

/-- **C101.** Every run of `main`, with any solver and any arithmetic, fresh or restarted at `t`. -/
theorem C101_progress {m : Mem Arr R} {t : R} {sv : Int} {s' : RunState R} (h : runMain p S m t sv s') :
    Progress p.nlog t s' := by
  obtain ⟨s0, s1, hc, ⟨k, hk, -⟩, rfl⟩ := h
  obtain ⟨a, b, -, c, d⟩ := construct_fields hc
  have h0 : Progress' p.nlog t s0 :=
    ⟨fun _ => t, fun _ => s0.dt, rfl, by rw [b]; exact fun n hn => absurd hn (Nat.not_lt_zero _), a, rfl, by
      rw [b, d]; rfl, by rw [c]; exact fun o ho => absurd ho List.not_mem_nil⟩
  have key : ∀ {k : Nat} {s s' : RunState R}, Turns p S k s s' → Progress' p.nlog t s → Progress' p.nlog t s' := by
    intro k s s' hk hs
    induction hk with
    | zero => exact hs
    | succ _ _ hn ih => exact progress_turn (ih hs) hn
  obtain ⟨τ, δ, h0, h1, h2, -, h4, h5⟩ := progress_save (p := p) (key hk (progress_save (p := p) h0))
  exact ⟨τ, δ, h0, h1, h2, h4, h5⟩

/-- **C101 (nlog = 0).** With `nlog = 0` the first iteration divides by zero: a run that ends has made none. -/
theorem C101_nlog_zero {m : Mem Arr R} {t : R} {sv : Int} {s' : RunState R} (hn : p.nlog = 0)
    (h : runMain p S m t sv s') : s'.iteration = 0 ∧ s'.t = t ∧ s'.logs = [] := by
  obtain ⟨s0, s1, hc, ⟨k, hk, -⟩, rfl⟩ := h
  obtain ⟨a, b, -, -, d⟩ := construct_fields hc
  have e : ∀ s : RunState R, (mainSave p s).logs = s.logs := fun s => by
    unfold mainSave saveSolution; split_ifs <;> rfl
  have f := @mainSave_fields R _ p
  cases hk with
  | zero => exact ⟨by rw [(f _).2.1, (f _).2.1, b], by rw [(f _).1, (f _).1, a], by rw [e, e, d]⟩
  | succ _ _ h => exact absurd hn (nextIteration_iff.1 h).1

end

/-- **C101 (the program).** Every execution of the serial program that finishes, whatever the solver, the text, the problem
and the arithmetic. -/
theorem C101_program {R : Type} [RealOps R] (F : FloatLib R) (M : MathLib R) (e : Env R) (file : Option (List Char)) (s' : RunState R)
    (h : serialMain F M e file (.finished s')) :
    ∃ t, Progress (cfgInt (Ini.broadcastSerial file) "run" "nlog" 10) t s' ∧
      (cfgBool (Ini.broadcastSerial file) "run" "restart_enabled" false = false →
        t = cfgFloat F (Ini.broadcastSerial file) "run" "tCurrent" 0) := by
  obtain ⟨k', m, t, sv, h1, h2, h3⟩ := h
  refine ⟨t, C101_progress h3, fun hr => ?_⟩
  unfold initSolver at h2
  rw [if_neg (by rw [hr]; decide)] at h2
  exact h2.2.1

/-- Non-vacuity: the shipped implosion has executions that finish, and each prints a line every ten iterations. -/
theorem implode_log (e : Env ℝ) (hid : e.ident ≤ 0) :
    ∃ s', serialMain exactLib exactMath e (some (textOf implodeIni)) (.finished s') ∧
      s'.logs.map (·.1) = (List.range s'.iteration).filter fun n : Nat => decide ((10 : Int) ∣ (n : Int)) := by
  obtain ⟨n, -, h⟩ := implode_program
  obtain ⟨⟨o, ho⟩, h⟩ := h e hid trivial
  obtain ⟨s', rfl, -⟩ := h o ho
  obtain ⟨t, ⟨τ, δ, -, -, -, hl, -⟩, -⟩ := C101_program exactLib exactMath e _ s' ho
  refine ⟨s', ho, ?_⟩
  have e10 : cfgInt (Ini.broadcastSerial (some (textOf implodeIni))) "run" "nlog" 10 = 10 := by
    have h' := implode_more
    rw [← implodeCfg_eq] at h'
    exact h'.2.1
  rw [hl, e10, List.map_map]
  exact List.map_id'' (fun _ => rfl) _

end EulerKokkos
