import Verif.Model.Params

/-!
# What a run of the program should produce: a plain sequential algorithm

A `Method` is a numerical method on a space `X` of states: the CFL time step of a state and the
advance by a time step.  `simTurn` is one iteration (write a file if one is due, choose the time
step, advance), in exact arithmetic; no arrays, buffers or schedules.
-/

namespace EulerKokkos.Spec

/-- a numerical method -/
structure Method (X : Type) where
  cflDt : X → ℝ
  advance : ℝ → X → X

/-- state of the run: solution, time, iteration, number of the next file, files written -/
structure Sim (X : Type) where
  x : X
  t : ℝ
  n : Nat
  next : Int
  files : List (Int × ℝ × X)

variable {X : Type}

/-- write the current solution -/
def Sim.save (s : Sim X) : Sim X :=
  { s with next := s.next + 1, files := s.files ++ [(s.next, s.t, s.x)] }

/-- is a file due? `N < 0`: always; `N > 0`: when `next · tEnd/N` has passed, or within 1e-12 of the
end; `N = 0`: never -/
def Sim.Due (p : Params ℝ) (s : Sim X) : Prop :=
  p.nOutput < 0 ∨ (0 < p.nOutput ∧
    ((s.next : ℝ) * (p.tEnd / p.nOutput) < s.t ∨ |s.t - p.tEnd| < 1 / 1000000000000))

/-- the run is over -/
def Sim.Over (p : Params ℝ) (s : Sim X) : Prop :=
  p.tEnd - 1 / 100000000000000 ≤ s.t ∨ p.nStepmax ≤ (s.n : Int)

open Classical in
/-- one iteration -/
noncomputable def Sim.turn (p : Params ℝ) (M : Method X) (s : Sim X) : Sim X :=
  let s := if s.Due p then s.save else s
  let dt := min (M.cflDt s.x) (p.tEnd - s.t)
  { s with x := M.advance dt s.x, t := s.t + dt, n := s.n + 1 }

/-- the initial state, with the first file if files are wanted -/
def Sim.start (p : Params ℝ) (x : X) (t : ℝ) (next : Int) : Sim X :=
  let s : Sim X := ⟨x, t, 0, next, []⟩
  if p.nOutput ≠ 0 then s.save else s

/-- the files of the run that makes `k` iterations -/
noncomputable def Sim.result (p : Params ℝ) (M : Method X) (x : X) (t : ℝ) (next : Int) (k : Nat) :
    Sim X :=
  let s := (Sim.turn p M)^[k] (Sim.start p x t next)
  if p.nOutput ≠ 0 then s.save else s

/-- `k` is the number of iterations of the run -/
def Sim.Length (p : Params ℝ) (M : Method X) (x : X) (t : ℝ) (next : Int) (k : Nat) : Prop :=
  Sim.Over p ((Sim.turn p M)^[k] (Sim.start p x t next)) ∧
  ∀ l < k, ¬ Sim.Over p ((Sim.turn p M)^[l] (Sim.start p x t next))

theorem Sim.Length.unique {p : Params ℝ} {M : Method X} {x : X} {t : ℝ} {next : Int} {k l : Nat}
    (h : Sim.Length p M x t next k) (h' : Sim.Length p M x t next l) : k = l := by
  rcases lt_trichotomy k l with hlt | he | hlt
  · exact absurd h.1 (h'.2 k hlt)
  · exact he
  · exact absurd h'.1 (h.2 l hlt)

end EulerKokkos.Spec
