import Verif.Core.Spmd

/-!
# Message-passing programs with control flow

`Spmd` treats programs that are a fixed list of phases.  Here each rank follows its own path through
a control-flow graph: which phase comes next depends on the rank's *own* memory (for example the
condition of the main loop).  Nothing forces the ranks to take the same path; a program in which one
rank leaves a loop before its neighbour deadlocks in this machine.

A collective completes when every rank has entered a collective after the same number of completed
phases.  (MPI counts only the collectives of the communicator.  Requiring the same number of phases
is more restrictive; in the executions shown to exist below all ranks follow the same path and the
two rules agree.)
-/

namespace EulerKokkos.Spmd

variable {κ ρ S M : Type}

/-- a program: the phase at each control point (`none`: end), and where to go after completing it -/
structure Flow (κ ρ S M : Type) where
  code : κ → Option (Phase ρ S M)
  next : κ → S → κ

/-- configuration: that of `Spmd` and the control point of each rank -/
structure FConfig (κ ρ S M : Type) where
  c : Config ρ S M
  ctl : ρ → κ

/-- all ranks at the control point `k`, nothing in transit -/
def FConfig.init (k : κ) (s : ρ → S) : FConfig κ ρ S M := ⟨Config.init s, fun _ => k⟩

/-- every rank has reached the end -/
def FConfig.Done (F : Flow κ ρ S M) (x : FConfig κ ρ S M) : Prop := ∀ r, F.code (x.ctl r) = none

variable [DecidableEq ρ]

/-- one step of one rank; the same rules as `Spmd.Step` -/
inductive FStep (buf : Prop) (F : Flow κ ρ S M) : FConfig κ ρ S M → FConfig κ ρ S M → Prop
  | loc (x r k s') : F.code (x.ctl r) = some (.loc k) → k r (x.c.st r) s' →
      FStep buf F x ⟨{ x.c with pc := Function.update x.c.pc r (x.c.pc r + 1)
                                st := Function.update x.c.st r s' },
        Function.update x.ctl r (F.next (x.ctl r) s')⟩
  | post (x r dst src tS tR pack unpack) :
      F.code (x.ctl r) = some (.exch dst src tS tR pack unpack) → x.c.posted r = false →
      FStep buf F x ⟨{ x.c with
        posted := Function.update x.c.posted r true
        chan := fun a b t => if a = r ∧ b = dst r ∧ t = tS then x.c.chan a b t ++ [pack (x.c.st r)]
                             else x.c.chan a b t }, x.ctl⟩
  | recv (x r dst src tS tR pack unpack y rest) :
      F.code (x.ctl r) = some (.exch dst src tS tR pack unpack) → x.c.posted r = true →
      x.c.got r = false → x.c.chan (src r) r tR = y :: rest →
      FStep buf F x ⟨{ x.c with
        got := Function.update x.c.got r true
        st := Function.update x.c.st r (unpack y (x.c.st r))
        chan := fun a b t => if a = src r ∧ b = r ∧ t = tR then rest else x.c.chan a b t }, x.ctl⟩
  | done (x r dst src tS tR pack unpack) :
      F.code (x.ctl r) = some (.exch dst src tS tR pack unpack) → x.c.posted r = true →
      x.c.got r = true → (buf ∨ x.c.chan r (dst r) tS = []) →
      FStep buf F x ⟨{ x.c with pc := Function.update x.c.pc r (x.c.pc r + 1)
                                posted := Function.update x.c.posted r false
                                got := Function.update x.c.got r false },
        Function.update x.ctl r (F.next (x.ctl r) (x.c.st r))⟩
  | enter (x r contrib combine) :
      F.code (x.ctl r) = some (.coll contrib combine) → x.c.posted r = false →
      FStep buf F x ⟨{ x.c with
        posted := Function.update x.c.posted r true
        board := fun n a => if n = x.c.pc r ∧ a = r then some (contrib (x.c.st r))
                            else x.c.board n a }, x.ctl⟩
  | leave (x r contrib combine all) :
      F.code (x.ctl r) = some (.coll contrib combine) → x.c.posted r = true →
      (∀ a, x.c.board (x.c.pc r) a = some (all a)) →
      FStep buf F x ⟨{ x.c with pc := Function.update x.c.pc r (x.c.pc r + 1)
                                posted := Function.update x.c.posted r false
                                st := Function.update x.c.st r (combine all (x.c.st r)) },
        Function.update x.ctl r (F.next (x.ctl r) (combine all (x.c.st r)))⟩

/-- executions with a given number of steps -/
inductive FSteps (buf : Prop) (F : Flow κ ρ S M) :
    Nat → FConfig κ ρ S M → FConfig κ ρ S M → Prop
  | zero (x) : FSteps buf F 0 x x
  | succ {n x y z} : FSteps buf F n x y → FStep buf F y z → FSteps buf F (n + 1) x z

/-- `tr` is the common path of the ranks when they execute the phases of `prog` together -/
structure Along (F : Flow κ ρ S M) (prog : List (Phase ρ S M)) (hist : Nat → ρ → S)
    (tr : Nat → κ) : Prop where
  code : ∀ n ≤ prog.length, F.code (tr n) = prog[n]?
  next : ∀ n < prog.length, ∀ r, F.next (tr n) (hist (n + 1) r) = tr (n + 1)

variable {F : Flow κ ρ S M} {prog : List (Phase ρ S M)} {hist : Nat → ρ → S} {tr : Nat → κ}

theorem Along.step (hA : Along F prog hist tr) (hm : Matched prog) (hb : Bulk prog hist)
    {buf : Prop} {x y : FConfig κ ρ S M} (hi : Inv prog hist x.c) (hc : ∀ r, x.ctl r = tr (x.c.pc r))
    (hs : FStep buf F x y) :
    Step buf prog x.c y.c ∧ Inv prog hist y.c ∧ ∀ r, y.ctl r = tr (y.c.pc r) := by
  have hcode : ∀ r ph, F.code (x.ctl r) = some ph → prog[x.c.pc r]? = some ph := by
    intro r ph h
    rw [hc r, hA.code _ (hi.le r)] at h
    exact h
  have key : ∀ (y : FConfig κ ρ S M) (r : ρ) (s : S), Step buf prog x.c y.c →
      x.c.pc r < prog.length →
      y.c.pc = Function.update x.c.pc r (x.c.pc r + 1) → y.c.posted r = false → y.c.st r = s →
      y.ctl = Function.update x.ctl r (F.next (x.ctl r) s) →
      Step buf prog x.c y.c ∧ Inv prog hist y.c ∧ ∀ r, y.ctl r = tr (y.c.pc r) := by
    intro y r s hs hlt e1 e2 e3 e4
    have hi' := hi.step hm hb hs
    refine ⟨hs, hi', fun a => ?_⟩
    rw [e1, e4]
    by_cases h : a = r
    · subst h
      have hgot : y.c.got a = false := by
        by_contra hg
        have := (hi'.got a (by simpa using hg)).1
        rw [e2] at this; simp at this
      have hst := hi'.st a
      rw [e3] at hst
      unfold Config.recvPos at hst
      rw [hgot, e1] at hst
      simp only [Function.update_self] at hst ⊢
      rw [hst, hc a]
      exact hA.next _ hlt a
    · simp [h, hc a]
  have lt : ∀ r ph, F.code (x.ctl r) = some ph → x.c.pc r < prog.length := fun r ph h =>
    getElem?_lt (hcode r ph h)
  cases hs with
  | loc r k s' hp hk =>
    have hpost : x.c.posted r = false := by
      by_contra hc'
      rcases hi.posted r (by simpa using hc') with ⟨_, _, _, _, _, _, e⟩ | ⟨_, _, e⟩ <;>
        rw [hcode r _ hp] at e <;> cases e
    exact key _ r s' (Step.loc x.c r k s' (hcode r _ hp) hk) (lt r _ hp) rfl hpost (by simp) rfl
  | post r dst src tS tR pack unpack hp hpo =>
    have hs := Step.post (buf := buf) x.c r dst src tS tR pack unpack (hcode r _ hp) hpo
    exact ⟨hs, hi.step hm hb hs, hc⟩
  | recv r dst src tS tR pack unpack y rest hp hpo hgo hch =>
    have hs := Step.recv (buf := buf) x.c r dst src tS tR pack unpack y rest (hcode r _ hp) hpo hgo
      hch
    exact ⟨hs, hi.step hm hb hs, hc⟩
  | done r dst src tS tR pack unpack hp hpo hgo hch =>
    exact key _ r _ (Step.done x.c r dst src tS tR pack unpack (hcode r _ hp) hpo hgo hch)
      (lt r _ hp) rfl (by simp) rfl rfl
  | enter r contrib combine hp hpo =>
    have hs := Step.enter (buf := buf) x.c r contrib combine (hcode r _ hp) hpo
    exact ⟨hs, hi.step hm hb hs, hc⟩
  | leave r contrib combine all hp hpo hall =>
    exact key _ r _ (Step.leave x.c r contrib combine all (hcode r _ hp) hpo hall) (lt r _ hp) rfl
      (by simp) (by simp) rfl

theorem Along.progress (hA : Along F prog hist tr) {x : FConfig κ ρ S M} (hi : Inv prog hist x.c)
    (hc : ∀ r, x.ctl r = tr (x.c.pc r)) {c' : Config ρ S M} (hs : Step False prog x.c c') :
    ∃ y, FStep False F x y := by
  have hcode : ∀ r ph, prog[x.c.pc r]? = some ph → F.code (x.ctl r) = some ph := by
    intro r ph h
    rw [hc r, hA.code _ (hi.le r)]
    exact h
  generalize hcc : x.c = c at hs
  cases hs <;> subst hcc
  · rename_i r k s' hp hk
    exact ⟨_, FStep.loc x r k s' (hcode r _ hp) hk⟩
  · rename_i r dst src tS tR pack unpack hp hpo
    exact ⟨_, FStep.post x r dst src tS tR pack unpack (hcode r _ hp) hpo⟩
  · rename_i r dst src tS tR pack unpack y rest hp hpo hgo hch
    exact ⟨_, FStep.recv x r dst src tS tR pack unpack y rest (hcode r _ hp) hpo hgo hch⟩
  · rename_i r dst src tS tR pack unpack hp hpo hgo hch
    exact ⟨_, FStep.done x r dst src tS tR pack unpack (hcode r _ hp) hpo hgo hch⟩
  · rename_i r contrib combine hp hpo
    exact ⟨_, FStep.enter x r contrib combine (hcode r _ hp) hpo⟩
  · rename_i r contrib combine all hp hpo hall
    exact ⟨_, FStep.leave x r contrib combine all (hcode r _ hp) hpo hall⟩

/-- **Asynchronous executions of a program with control flow** whose bulk-synchronous execution
follows a common path to the end: bounded, never stuck, and ending in the bulk-synchronous state. -/
theorem flow_run [Fintype ρ] (hA : Along F prog hist tr) (hm : Matched prog) (hb : Bulk prog hist)
    {buf : Prop} {n : Nat} {x : FConfig κ ρ S M}
    (hs : FSteps buf F n (FConfig.init (tr 0) (hist 0)) x) :
    n ≤ 3 * prog.length * Fintype.card ρ ∧
    (¬ x.Done F → ∃ y, FStep False F x y) ∧
    (x.Done F → x.c.st = hist prog.length ∧ ∀ a b t, x.c.chan a b t = []) := by
  have key : Steps buf prog n (Config.init (M := M) (hist 0)) x.c ∧ Inv prog hist x.c ∧
      ∀ r, x.ctl r = tr (x.c.pc r) := by
    have : ∀ n (a b : FConfig κ ρ S M), FSteps buf F n a b → Inv prog hist a.c →
        (∀ r, a.ctl r = tr (a.c.pc r)) →
        Steps buf prog n a.c b.c ∧ Inv prog hist b.c ∧ ∀ r, b.ctl r = tr (b.c.pc r) := by
      intro n a b h
      induction h with
      | zero => exact fun h1 h2 => ⟨.zero _, h1, h2⟩
      | succ h1 h2 ih =>
        intro i1 i2
        obtain ⟨j1, j2, j3⟩ := ih i1 i2
        obtain ⟨k1, k2, k3⟩ := hA.step hm hb j2 j3 h2
        exact ⟨j1.succ k1, k2, k3⟩
    exact this n _ _ hs (Inv.init _ rfl) (fun _ => rfl)
  obtain ⟨k1, k2, k3⟩ := key
  obtain ⟨r1, r2, r3⟩ := run_matched hm hb k1
  have hdone : x.Done F ↔ x.c.Done prog := by
    constructor
    · intro h r
      have := h r
      rw [k3 r, hA.code _ (k2.le r)] at this
      have hle := k2.le r
      by_contra hne
      rw [List.getElem?_eq_getElem (by omega)] at this
      cases this
    · intro h r
      rw [k3 r, hA.code _ (k2.le r), h r]
      simp
  refine ⟨r1, fun hd => ?_, fun hd => r3 (hdone.1 hd)⟩
  obtain ⟨c', hc'⟩ := r2 (fun h => hd (hdone.2 h))
  exact hA.progress k2 k3 hc'

/-! ### The main-loop pattern -/

omit [DecidableEq ρ]

/-- control points of: `pre; while (!stop) { body (sel) }; post` -/
inductive Ctl
  | pre (i : Nat)
  | body (b : Bool) (i : Nat)
  | post (i : Nat)

/-- `pre; while (!stop(s)) body[sel(s)]; post`: each rank evaluates `stop` and `sel` on its own
memory -/
def loopFlow (pre : List (Phase ρ S M)) (body : Bool → List (Phase ρ S M))
    (post : List (Phase ρ S M)) (stop : S → Prop) [DecidablePred stop] (sel : S → Bool) :
    Flow Ctl ρ S M where
  code
    | .pre i => pre[i]?
    | .body b i => (body b)[i]?
    | .post i => post[i]?
  next k s :=
    let head : Ctl := if stop s then .post 0 else .body (sel s) 0
    match k with
    | .pre i => if i + 1 < pre.length then .pre (i + 1) else head
    | .body b i => if i + 1 < (body b).length then .body b (i + 1) else head
    | .post i => .post (i + 1)

end EulerKokkos.Spmd
