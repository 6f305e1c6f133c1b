import Mathlib.Data.Finset.Max
import Mathlib.Data.Fintype.Card
import Mathlib.Data.Fintype.Pi
import Mathlib.Algebra.BigOperators.Group.Finset.Basic
import Mathlib.Algebra.Order.BigOperators.Group.Finset
import Mathlib.Order.Interval.Finset.Nat

/-!
# Message-passing programs (MPI)

All ranks execute the same list of phases (SPMD).  A phase is a local computation, an
`MPI_Sendrecv`, or a collective (`MPI_Barrier`, `MPI_Allreduce`).  Ranks advance asynchronously: a
step of the machine is a step of one rank, chosen arbitrarily.

Point-to-point messages are matched by (source, destination, tag) in the order they were sent
(MPI 3.1 standard, section 3.5, "non-overtaking").  The send half of a `Sendrecv` may complete
* as soon as it is posted, if the library buffers the message (`buf`), or
* only when its message has been taken by the receiver (rendezvous, always possible).
`Step buf` is parametrised by whether buffering is available; a program that never gets stuck with
`buf = False` does not rely on it.
-/

namespace EulerKokkos.Spmd

variable {ρ S M : Type}

/-- one phase of the common program -/
inductive Phase (ρ S M : Type)
  /-- local computation of each rank, a relation because kernels are (see `Kern`) -/
  | loc (k : ρ → S → S → Prop)
  /-- `MPI_Sendrecv`: rank `r` sends `pack s` to `dst r` with tag `tagS`, and receives from `src r`
  with tag `tagR` -/
  | exch (dst src : ρ → ρ) (tagS tagR : Nat) (pack : S → M) (unpack : M → S → S)
  /-- a collective: every rank contributes, every rank gets a result computed from all the
  contributions; no rank leaves before all have entered -/
  | coll (contrib : S → M) (combine : (ρ → M) → S → S)

/-- The machine: per rank the number of completed phases, whether the current phase has posted its
message (or contribution), whether its receive has completed, and the memory; the messages in
transit; the contributions to the collectives. -/
structure Config (ρ S M : Type) where
  pc : ρ → Nat
  posted : ρ → Bool
  got : ρ → Bool
  st : ρ → S
  chan : ρ → ρ → Nat → List M
  board : Nat → ρ → Option M

/-- all ranks at the start of the program, nothing in transit -/
def Config.init (s : ρ → S) : Config ρ S M where
  pc _ := 0
  posted _ := false
  got _ := false
  st := s
  chan _ _ _ := []
  board _ _ := none

variable [DecidableEq ρ]

/-- one step of one rank -/
inductive Step (buf : Prop) (prog : List (Phase ρ S M)) : Config ρ S M → Config ρ S M → Prop
  /-- a local computation -/
  | loc (c r k s') : prog[c.pc r]? = some (.loc k) → k r (c.st r) s' →
      Step buf prog c { c with pc := Function.update c.pc r (c.pc r + 1)
                               st := Function.update c.st r s' }
  /-- `MPI_Sendrecv` is entered: the message is handed to the library -/
  | post (c r dst src tS tR pack unpack) :
      prog[c.pc r]? = some (.exch dst src tS tR pack unpack) → c.posted r = false →
      Step buf prog c { c with
        posted := Function.update c.posted r true
        chan := fun a b t => if a = r ∧ b = dst r ∧ t = tS then c.chan a b t ++ [pack (c.st r)]
                             else c.chan a b t }
  /-- its receive half completes with the oldest matching message -/
  | recv (c r dst src tS tR pack unpack x rest) :
      prog[c.pc r]? = some (.exch dst src tS tR pack unpack) → c.posted r = true →
      c.got r = false → c.chan (src r) r tR = x :: rest →
      Step buf prog c { c with
        got := Function.update c.got r true
        st := Function.update c.st r (unpack x (c.st r))
        chan := fun a b t => if a = src r ∧ b = r ∧ t = tR then rest else c.chan a b t }
  /-- both halves are complete, the call returns -/
  | done (c r dst src tS tR pack unpack) :
      prog[c.pc r]? = some (.exch dst src tS tR pack unpack) → c.posted r = true →
      c.got r = true → (buf ∨ c.chan r (dst r) tS = []) →
      Step buf prog c { c with pc := Function.update c.pc r (c.pc r + 1)
                               posted := Function.update c.posted r false
                               got := Function.update c.got r false }
  /-- a collective is entered -/
  | enter (c r contrib combine) :
      prog[c.pc r]? = some (.coll contrib combine) → c.posted r = false →
      Step buf prog c { c with
        posted := Function.update c.posted r true
        board := fun n a => if n = c.pc r ∧ a = r then some (contrib (c.st r)) else c.board n a }
  /-- a collective is left, possible once all ranks have entered it -/
  | leave (c r contrib combine all) :
      prog[c.pc r]? = some (.coll contrib combine) → c.posted r = true →
      (∀ a, c.board (c.pc r) a = some (all a)) →
      Step buf prog c { c with pc := Function.update c.pc r (c.pc r + 1)
                               posted := Function.update c.posted r false
                               st := Function.update c.st r (combine all (c.st r)) }

/-- executions with a given number of steps -/
inductive Steps (buf : Prop) (prog : List (Phase ρ S M)) :
    Nat → Config ρ S M → Config ρ S M → Prop
  | zero (c) : Steps buf prog 0 c c
  | succ {n a b c} : Steps buf prog n a b → Step buf prog b c → Steps buf prog (n + 1) a c

/-- every rank has executed the whole program -/
def Config.Done (prog : List (Phase ρ S M)) (c : Config ρ S M) : Prop :=
  ∀ r, c.pc r = prog.length

/-- **Bulk-synchronous meaning** of a program: `hist n r` is the memory of rank `r` after `n` phases,
as if all ranks executed each phase together. -/
def Bulk (prog : List (Phase ρ S M)) (hist : Nat → ρ → S) : Prop :=
  ∀ (n : Nat) (ph : Phase ρ S M), prog[n]? = some ph → ∀ r,
    match ph with
    | .loc k => ∀ s', k r (hist n r) s' ↔ s' = hist (n + 1) r
    | .exch _ src _ _ pack unpack => hist (n + 1) r = unpack (pack (hist n (src r))) (hist n r)
    | .coll contrib combine => hist (n + 1) r = combine (fun a => contrib (hist n a)) (hist n r)

/-- in every `MPI_Sendrecv` the tags agree and "send to" is the inverse of "receive from" -/
def Matched (prog : List (Phase ρ S M)) : Prop :=
  ∀ (n : Nat) (dst src : ρ → ρ) (tS tR : Nat) (pack : S → M) (unpack : M → S → S),
    prog[n]? = some (.exch dst src tS tR pack unpack) →
    tS = tR ∧ (∀ r, src (dst r) = r) ∧ ∀ r, dst (src r) = r

/-! ### Invariant -/

/-- number of phases in which the rank has handed over its message -/
def Config.sendPos (c : Config ρ S M) (r : ρ) : Nat := c.pc r + (if c.posted r then 1 else 0)
/-- number of phases in which the rank has completed its receive -/
def Config.recvPos (c : Config ρ S M) (r : ρ) : Nat := c.pc r + (if c.got r then 1 else 0)

/-- the message phase `i` sends from `a` to `b` with tag `t`, if any -/
def msg (prog : List (Phase ρ S M)) (hist : Nat → ρ → S) (a b : ρ) (t : Nat) (i : Nat) : Option M :=
  match prog[i]? with
  | some (.exch dst _ tS _ pack _) => if dst a = b ∧ tS = t then some (pack (hist i a)) else none
  | _ => none

/-- messages of the phases `lo ≤ i < hi` in order -/
def msgs (prog : List (Phase ρ S M)) (hist : Nat → ρ → S) (a b : ρ) (t lo hi : Nat) : List M :=
  (List.range' lo (hi - lo)).filterMap (msg prog hist a b t)

variable {prog : List (Phase ρ S M)} {hist : Nat → ρ → S}

theorem msgs_empty {a b : ρ} {t lo hi : Nat} (h : hi ≤ lo) : msgs prog hist a b t lo hi = [] := by
  unfold msgs
  rw [Nat.sub_eq_zero_of_le h]; rfl

theorem msgs_succ {a b : ρ} {t lo hi : Nat} (h : lo ≤ hi) :
    msgs prog hist a b t lo (hi + 1) =
      msgs prog hist a b t lo hi ++ (msg prog hist a b t hi).toList := by
  unfold msgs
  rw [show hi + 1 - lo = (hi - lo) + 1 by omega, List.range'_concat, List.filterMap_append]
  congr 1
  rw [show lo + 1 * (hi - lo) = hi by omega]
  cases h' : msg prog hist a b t hi <;> simp [h']

theorem msgs_head {a b : ρ} {t lo hi : Nat} (h : lo < hi) :
    msgs prog hist a b t lo hi =
      (msg prog hist a b t lo).toList ++ msgs prog hist a b t (lo + 1) hi := by
  unfold msgs
  rw [show hi - lo = (hi - (lo + 1)) + 1 by omega, List.range'_succ]
  cases h' : msg prog hist a b t lo <;> simp [h']

theorem msgs_succ_none {a b : ρ} {t lo hi : Nat} (h : msg prog hist a b t hi = none) :
    msgs prog hist a b t lo (hi + 1) = msgs prog hist a b t lo hi := by
  by_cases hl : lo ≤ hi
  · rw [msgs_succ hl, h]; simp
  · rw [msgs_empty (by omega), msgs_empty (by omega)]

theorem msgs_head_none {a b : ρ} {t lo hi : Nat} (h : msg prog hist a b t lo = none) :
    msgs prog hist a b t (lo + 1) hi = msgs prog hist a b t lo hi := by
  by_cases hl : lo < hi
  · rw [msgs_head hl, h]; simp
  · rw [msgs_empty (by omega), msgs_empty (by omega)]

/-- what holds in every reachable configuration -/
structure Inv (prog : List (Phase ρ S M)) (hist : Nat → ρ → S) (c : Config ρ S M) : Prop where
  le : ∀ r, c.pc r ≤ prog.length
  posted : ∀ r, c.posted r = true → (∃ d s tS tR p u, prog[c.pc r]? = some (.exch d s tS tR p u)) ∨
    ∃ f g, prog[c.pc r]? = some (.coll f g)
  got : ∀ r, c.got r = true → c.posted r = true ∧
    ∃ d s tS tR p u, prog[c.pc r]? = some (.exch d s tS tR p u)
  st : ∀ r, c.st r = hist (c.recvPos r) r
  chan : ∀ a b t, c.chan a b t = msgs prog hist a b t (c.recvPos b) (c.sendPos a)
  recv : ∀ b i d s tS tR p u, i < c.recvPos b → prog[i]? = some (.exch d s tS tR p u) →
    i < c.sendPos (s b)
  board : ∀ n f g a, prog[n]? = some (.coll f g) →
    c.board n a = if n < c.sendPos a then some (f (hist n a)) else none

theorem Inv.init (s : ρ → S) (h : s = hist 0) : Inv prog hist (Config.init (M := M) s) := by
  constructor
  · intro r; simp [Config.init]
  · intro r h; simp [Config.init] at h
  · intro r h; simp [Config.init] at h
  · intro r; simp [Config.init, Config.recvPos, h]
  · intro a b t
    simp [Config.init, Config.recvPos, Config.sendPos, msgs_empty]
  · intro b i d s tS tR p u hi
    simp [Config.init, Config.recvPos] at hi
  · intro n f g a _
    simp [Config.init, Config.sendPos]

theorem getElem?_lt {α : Type} {l : List α} {n : Nat} {x : α} (h : l[n]? = some x) :
    n < l.length := by
  by_contra hc
  rw [List.getElem?_eq_none (by omega)] at h
  exact absurd h (by simp)

theorem Inv.step {buf : Prop} (hm : Matched prog) (hb : Bulk prog hist) {c c' : Config ρ S M}
    (h : Inv prog hist c) (hs : Step buf prog c c') : Inv prog hist c' := by
  cases hs with
  | loc r k s' hp hk =>
    have hpl := getElem?_lt hp
    have hposted : c.posted r = false := by
      by_contra hc
      rcases h.posted r (by simpa using hc) with ⟨_, _, _, _, _, _, e⟩ | ⟨_, _, e⟩ <;>
        rw [hp] at e <;> simp at e
    have hgot : c.got r = false := by
      by_contra hc
      have := (h.got r (by simpa using hc)).1
      rw [hposted] at this; simp at this
    have hst : c.st r = hist (c.pc r) r := by rw [h.st]; simp [Config.recvPos, hgot]
    have hs' : s' = hist (c.pc r + 1) r := by
      have := hb _ _ hp r
      simp only at this
      exact (this s').1 (hst ▸ hk)
    have hmn : ∀ a b t, msg prog hist a b t (c.pc r) = none := by
      intro a b t; unfold msg; rw [hp]
    set c' : Config ρ S M := { c with pc := Function.update c.pc r (c.pc r + 1)
                                      st := Function.update c.st r s' } with hc'
    have es : ∀ a, c'.sendPos a = if a = r then c.pc r + 1 else c.sendPos a := by
      intro a
      by_cases ha : a = r
      · subst ha; simp [Config.sendPos, hposted, hc']
      · simp [Config.sendPos, ha, hc']
    have er : ∀ a, c'.recvPos a = if a = r then c.pc r + 1 else c.recvPos a := by
      intro a
      by_cases ha : a = r
      · subst ha; simp [Config.recvPos, hgot, hc']
      · simp [Config.recvPos, ha, hc']
    have es0 : c.sendPos r = c.pc r := by simp [Config.sendPos, hposted]
    have er0 : c.recvPos r = c.pc r := by simp [Config.recvPos, hgot]
    constructor
    · intro a
      by_cases ha : a = r
      · subst ha; simp [hc']; omega
      · simpa [ha, hc'] using h.le a
    · intro a ha
      by_cases har : a = r
      · subst har; simp [hposted, hc'] at ha
      · simpa [har, hc'] using h.posted a ha
    · intro a ha
      by_cases har : a = r
      · subst har; simp [hgot, hc'] at ha
      · simpa [har, hc'] using h.got a ha
    · intro a
      rw [er]
      by_cases har : a = r
      · subst har; simp [hs', hc']
      · simpa [har, hc'] using h.st a
    · intro a b t
      rw [es, er]
      have := h.chan a b t
      show c.chan a b t = _
      rw [this]
      have k1 : ∀ lo, msgs prog hist a b t lo (if a = r then c.pc r + 1 else c.sendPos a) =
          msgs prog hist a b t lo (c.sendPos a) := by
        intro lo
        split_ifs with ha
        · rw [ha, es0, msgs_succ_none (hmn _ _ _)]
        · rfl
      rw [k1]
      split_ifs with hbr
      · rw [hbr, er0, msgs_head_none (hmn _ _ _)]
      · rfl
    · intro b i d s tS tR p u hi hpi
      rw [er] at hi
      rw [es]
      have hne : i ≠ c.pc r := by rintro rfl; rw [hp] at hpi; simp at hpi
      have : i < c.recvPos b := by
        split_ifs at hi with hbr
        · rw [hbr, er0]; omega
        · exact hi
      have := h.recv b i d s tS tR p u this hpi
      split_ifs with hs
      · rw [hs, es0] at this; omega
      · exact this
    · intro n f g a hn
      rw [es]
      have := h.board n f g a hn
      show c.board n a = _
      rw [this]
      have hne : n ≠ c.pc r := by rintro rfl; rw [hp] at hn; simp at hn
      by_cases har : a = r
      · subst har
        rw [if_pos rfl, es0]
        have e : (n < c.pc a + 1) = (n < c.pc a) := by apply propext; omega
        simp only [e]
      · rw [if_neg har]
  | post r dst src tS tR pack unpack hp hpo =>
    obtain ⟨htag, hsd, hds⟩ := hm _ _ _ _ _ _ _ hp
    have hgot : c.got r = false := by
      by_contra hc
      have := (h.got r (by simpa using hc)).1
      rw [hpo] at this; simp at this
    have hst : c.st r = hist (c.pc r) r := by rw [h.st]; simp [Config.recvPos, hgot]
    set c' : Config ρ S M := { c with
        posted := Function.update c.posted r true
        chan := fun a b t => if a = r ∧ b = dst r ∧ t = tS then c.chan a b t ++ [pack (c.st r)]
                             else c.chan a b t } with hc'
    have es : ∀ a, c'.sendPos a = if a = r then c.pc r + 1 else c.sendPos a := by
      intro a
      by_cases ha : a = r
      · subst ha; simp [Config.sendPos, hc']
      · simp [Config.sendPos, ha, hc']
    have er : ∀ a, c'.recvPos a = c.recvPos a := fun a => rfl
    have es0 : c.sendPos r = c.pc r := by simp [Config.sendPos, hpo]
    have hle : c.recvPos (dst r) ≤ c.pc r := by
      by_contra hc
      have := h.recv (dst r) (c.pc r) _ _ _ _ _ _ (by omega) hp
      rw [hsd, es0] at this; omega
    constructor
    · exact h.le
    · intro a ha
      by_cases har : a = r
      · subst har; exact Or.inl ⟨_, _, _, _, _, _, hp⟩
      · exact h.posted a (by simpa [hc', har] using ha)
    · intro a ha
      obtain ⟨k1, k2⟩ := h.got a ha
      refine ⟨?_, k2⟩
      by_cases har : a = r
      · subst har; simp [hc']
      · simpa [hc', har] using k1
    · exact h.st
    · intro a b t
      rw [es, er]
      show (if a = r ∧ b = dst r ∧ t = tS then _ else _) = _
      rw [h.chan]
      by_cases har : a = r
      · rw [if_pos har]
        by_cases hbt : b = dst r ∧ t = tS
        · rw [if_pos ⟨har, hbt⟩, har, es0, hbt.1, hbt.2, msgs_succ hle]
          congr 1
          have : msg prog hist r (dst r) tS (c.pc r) = some (pack (hist (c.pc r) r)) := by
            unfold msg; rw [hp]; simp
          rw [this, hst]; rfl
        · rw [if_neg (fun hc => hbt hc.2), har, es0, msgs_succ_none]
          unfold msg; rw [hp]
          simp only
          rw [if_neg]; rintro ⟨rfl, rfl⟩; exact hbt ⟨rfl, rfl⟩
      · rw [if_neg (fun hc => har hc.1), if_neg har]
    · intro b i d s tS tR p u hi hpi
      rw [es]
      have := h.recv b i d s tS tR p u hi hpi
      split_ifs with hs
      · rw [hs, es0] at this; omega
      · exact this
    · intro n f g a hn
      rw [es]
      show c.board n a = _
      rw [h.board n f g a hn]
      have hne : n ≠ c.pc r := by rintro rfl; rw [hp] at hn; simp at hn
      by_cases har : a = r
      · subst har
        rw [if_pos rfl, es0]
        have e : (n < c.pc a + 1) = (n < c.pc a) := by apply propext; omega
        simp only [e]
      · rw [if_neg har]
  | recv r dst src tS tR pack unpack x rest hp hpo hgo hch =>
    obtain ⟨htag, hsd, hds⟩ := hm _ _ _ _ _ _ _ hp
    have er0 : c.recvPos r = c.pc r := by simp [Config.recvPos, hgo]
    have hst : c.st r = hist (c.pc r) r := by rw [h.st, er0]
    set c' : Config ρ S M := { c with
        got := Function.update c.got r true
        st := Function.update c.st r (unpack x (c.st r))
        chan := fun a b t => if a = src r ∧ b = r ∧ t = tR then rest else c.chan a b t } with hc'
    have er : ∀ a, c'.recvPos a = if a = r then c.pc r + 1 else c.recvPos a := by
      intro a
      by_cases ha : a = r
      · subst ha; simp [Config.recvPos, hc']
      · simp [Config.recvPos, ha, hc']
    have es : ∀ a, c'.sendPos a = c.sendPos a := fun a => rfl
    have hch' := hch
    rw [h.chan, er0] at hch'
    have hlt : c.pc r < c.sendPos (src r) := by
      by_contra hc
      rw [msgs_empty (by omega)] at hch'; simp at hch'
    have hmsg : msg prog hist (src r) r tR (c.pc r) = some (pack (hist (c.pc r) (src r))) := by
      unfold msg; rw [hp]; simp [hds, htag]
    rw [msgs_head hlt, hmsg] at hch'
    simp only [Option.toList_some, List.cons_append, List.nil_append, List.cons.injEq] at hch'
    obtain ⟨rfl, hrest⟩ := hch'
    have hnew : unpack (pack (hist (c.pc r) (src r))) (c.st r) = hist (c.pc r + 1) r := by
      have := hb _ _ hp r
      simp only at this
      rw [this, hst]
    constructor
    · exact h.le
    · exact h.posted
    · intro a ha
      by_cases har : a = r
      · subst har; exact ⟨hpo, _, _, _, _, _, _, hp⟩
      · exact h.got a (by simpa [hc', har] using ha)
    · intro a
      rw [er]
      by_cases har : a = r
      · subst har; simp [hc', hnew]
      · simpa [hc', har] using h.st a
    · intro a b t
      rw [es, er]
      show (if a = src r ∧ b = r ∧ t = tR then rest else c.chan a b t) = _
      by_cases hbr : b = r
      · rw [if_pos hbr]
        by_cases hat : a = src r ∧ t = tR
        · rw [if_pos ⟨hat.1, hbr, hat.2⟩, hat.1, hbr, hat.2, hrest]
        · rw [if_neg (fun hc => hat ⟨hc.1, hc.2.2⟩), h.chan, hbr, er0, msgs_head_none]
          unfold msg; rw [hp]
          simp only
          rw [if_neg]; rintro ⟨e, rfl⟩
          exact hat ⟨by rw [← e, hsd], htag⟩
      · rw [if_neg (fun hc => hbr hc.2.1), if_neg hbr, h.chan]
    · intro b i d s tS' tR' p u hi hpi
      rw [es]
      rw [er] at hi
      by_cases hbr : b = r
      · subst hbr
        rw [if_pos rfl] at hi
        by_cases hip : i = c.pc b
        · subst hip
          rw [hp] at hpi
          simp only [Option.some.injEq, Phase.exch.injEq] at hpi
          rw [← hpi.2.1]; exact hlt
        · exact h.recv _ i d s tS' tR' p u (by omega) hpi
      · rw [if_neg hbr] at hi
        exact h.recv b i d s tS' tR' p u hi hpi
    · exact h.board
  | done r dst src tS tR pack unpack hp hpo hgo _ =>
    have hpl := getElem?_lt hp
    set c' : Config ρ S M := { c with pc := Function.update c.pc r (c.pc r + 1)
                                      posted := Function.update c.posted r false
                                      got := Function.update c.got r false } with hc'
    have es : ∀ a, c'.sendPos a = c.sendPos a := by
      intro a
      by_cases ha : a = r
      · subst ha; simp [Config.sendPos, hc', hpo]
      · simp [Config.sendPos, ha, hc']
    have er : ∀ a, c'.recvPos a = c.recvPos a := by
      intro a
      by_cases ha : a = r
      · subst ha; simp [Config.recvPos, hc', hgo]
      · simp [Config.recvPos, ha, hc']
    constructor
    · intro a
      by_cases ha : a = r
      · subst ha; simp [hc']; omega
      · simpa [hc', ha] using h.le a
    · intro a ha
      by_cases har : a = r
      · subst har; simp [hc'] at ha
      · simpa [hc', har] using h.posted a (by simpa [hc', har] using ha)
    · intro a ha
      by_cases har : a = r
      · subst har; simp [hc'] at ha
      · simpa [hc', har] using h.got a (by simpa [hc', har] using ha)
    · intro a; rw [er]; exact h.st a
    · intro a b t; rw [er, es]; exact h.chan a b t
    · intro b i d s tS tR p u hi hpi
      rw [er] at hi; rw [es]
      exact h.recv b i d s tS tR p u hi hpi
    · intro n f g a hn; rw [es]; exact h.board n f g a hn
  | enter r contrib combine hp hpo =>
    have hgot : c.got r = false := by
      by_contra hc
      have := (h.got r (by simpa using hc)).1
      rw [hpo] at this; simp at this
    have hst : c.st r = hist (c.pc r) r := by rw [h.st]; simp [Config.recvPos, hgot]
    have hmn : ∀ a b t, msg prog hist a b t (c.pc r) = none := by
      intro a b t; unfold msg; rw [hp]
    set c' : Config ρ S M := { c with
        posted := Function.update c.posted r true
        board := fun n a => if n = c.pc r ∧ a = r then some (contrib (c.st r))
                            else c.board n a } with hc'
    have es : ∀ a, c'.sendPos a = if a = r then c.pc r + 1 else c.sendPos a := by
      intro a
      by_cases ha : a = r
      · subst ha; simp [Config.sendPos, hc']
      · simp [Config.sendPos, ha, hc']
    have er : ∀ a, c'.recvPos a = c.recvPos a := fun a => rfl
    have es0 : c.sendPos r = c.pc r := by simp [Config.sendPos, hpo]
    constructor
    · exact h.le
    · intro a ha
      by_cases har : a = r
      · subst har; exact Or.inr ⟨_, _, hp⟩
      · exact h.posted a (by simpa [hc', har] using ha)
    · intro a ha
      obtain ⟨k1, k2⟩ := h.got a ha
      refine ⟨?_, k2⟩
      by_cases har : a = r
      · subst har; simp [hc']
      · simpa [hc', har] using k1
    · exact h.st
    · intro a b t
      rw [es, er]
      show c.chan a b t = _
      rw [h.chan]
      split_ifs with har
      · rw [har, es0, msgs_succ_none (hmn _ _ _)]
      · rfl
    · intro b i d s tS tR p u hi hpi
      rw [es]
      have := h.recv b i d s tS tR p u hi hpi
      split_ifs with hs
      · rw [hs, es0] at this; omega
      · exact this
    · intro n f g a hn
      rw [es]
      show (if n = c.pc r ∧ a = r then some (contrib (c.st r)) else c.board n a) = _
      by_cases har : a = r
      · subst har
        by_cases hnp : n = c.pc a
        · subst hnp
          rw [hp] at hn
          simp only [Option.some.injEq, Phase.coll.injEq] at hn
          simp [← hn.1, hst]
        · rw [if_neg (fun hc => hnp hc.1), h.board n f g _ hn, es0, if_pos rfl]
          have e : (n < c.pc a + 1) = (n < c.pc a) := by
            apply propext; omega
          simp only [e]
      · rw [if_neg (fun hc => har hc.2), h.board n f g a hn, if_neg har]
  | leave r contrib combine all hp hpo hall =>
    have hpl := getElem?_lt hp
    have hgot : c.got r = false := by
      by_contra hc
      obtain ⟨_, _, _, _, _, _, _, e⟩ := h.got r (by simpa using hc)
      rw [hp] at e; simp at e
    have er0 : c.recvPos r = c.pc r := by simp [Config.recvPos, hgot]
    have hst : c.st r = hist (c.pc r) r := by rw [h.st, er0]
    have hmn : ∀ a b t, msg prog hist a b t (c.pc r) = none := by
      intro a b t; unfold msg; rw [hp]
    have hal : all = fun a => contrib (hist (c.pc r) a) := by
      funext a
      have := h.board _ _ _ a hp
      rw [hall a] at this
      split_ifs at this with hc
      · exact Option.some.inj this
    have hnew : combine all (c.st r) = hist (c.pc r + 1) r := by
      have := hb _ _ hp r
      simp only at this
      rw [this, hst, hal]
    set c' : Config ρ S M := { c with pc := Function.update c.pc r (c.pc r + 1)
                                      posted := Function.update c.posted r false
                                      st := Function.update c.st r (combine all (c.st r)) } with hc'
    have es : ∀ a, c'.sendPos a = c.sendPos a := by
      intro a
      by_cases ha : a = r
      · subst ha; simp [Config.sendPos, hc', hpo]
      · simp [Config.sendPos, ha, hc']
    have er : ∀ a, c'.recvPos a = if a = r then c.pc r + 1 else c.recvPos a := by
      intro a
      by_cases ha : a = r
      · subst ha; simp [Config.recvPos, hc', hgot]
      · simp [Config.recvPos, ha, hc']
    constructor
    · intro a
      by_cases ha : a = r
      · subst ha; simp [hc']; omega
      · simpa [hc', ha] using h.le a
    · intro a ha
      by_cases har : a = r
      · subst har; simp [hc'] at ha
      · simpa [hc', har] using h.posted a (by simpa [hc', har] using ha)
    · intro a ha
      by_cases har : a = r
      · subst har; simp [hc', hgot] at ha
      · simpa [hc', har] using h.got a (by simpa [hc', har] using ha)
    · intro a
      rw [er]
      by_cases har : a = r
      · subst har; simp [hc', hnew]
      · simpa [hc', har] using h.st a
    · intro a b t
      rw [es, er]
      show c.chan a b t = _
      rw [h.chan]
      split_ifs with hbr
      · rw [hbr, er0, msgs_head_none (hmn _ _ _)]
      · rfl
    · intro b i d s tS tR p u hi hpi
      rw [es]
      rw [er] at hi
      have hne : i ≠ c.pc r := by rintro rfl; rw [hp] at hpi; simp at hpi
      refine h.recv b i d s tS tR p u ?_ hpi
      split_ifs at hi with hbr
      · rw [hbr, er0]; omega
      · exact hi
    · intro n f g a hn; rw [es]; exact h.board n f g a hn

theorem Inv.steps {buf : Prop} (hm : Matched prog) (hb : Bulk prog hist) {n : Nat}
    {c c' : Config ρ S M} (h : Inv prog hist c) (hs : Steps buf prog n c c') :
    Inv prog hist c' := by
  induction hs with
  | zero => exact h
  | succ _ h2 ih => exact (ih h).step hm hb h2

/-! ### Progress -/

/-- **No deadlock.** In every configuration satisfying the invariant some rank can make a step, even
if no message is ever buffered, until all ranks are done. -/
theorem Inv.progress [Fintype ρ] (hm : Matched prog) (hb : Bulk prog hist) {c : Config ρ S M}
    (h : Inv prog hist c) (hd : ¬ c.Done prog) : ∃ c', Step False prog c c' := by
  unfold Config.Done at hd
  push Not at hd
  obtain ⟨r0, hr0⟩ := hd
  obtain ⟨r, _, hr⟩ := Finset.exists_min_image Finset.univ c.pc ⟨r0, Finset.mem_univ _⟩
  have hmin : ∀ a, c.pc r ≤ c.pc a := fun a => hr a (Finset.mem_univ _)
  have hlt : c.pc r < prog.length := by
    have := hmin r0
    have := h.le r0
    omega
  obtain ⟨ph, hp⟩ : ∃ ph, prog[c.pc r]? = some ph := ⟨prog[c.pc r], List.getElem?_eq_getElem hlt⟩
  cases ph with
  | loc k =>
    have hposted : c.posted r = false := by
      by_contra hc
      rcases h.posted r (by simpa using hc) with ⟨_, _, _, _, _, _, e⟩ | ⟨_, _, e⟩ <;>
        rw [hp] at e <;> simp at e
    have hgot : c.got r = false := by
      by_contra hc
      have := (h.got r (by simpa using hc)).1
      rw [hposted] at this; simp at this
    have hst : c.st r = hist (c.pc r) r := by rw [h.st]; simp [Config.recvPos, hgot]
    have := hb _ _ hp r
    simp only at this
    exact ⟨_, .loc c r k _ hp (hst ▸ (this _).2 rfl)⟩
  | coll f g =>
    by_cases hall : ∀ a, c.pc r < c.sendPos a
    · have hpo : c.posted r = true := by
        have := hall r
        unfold Config.sendPos at this
        by_contra hc
        rw [if_neg hc] at this; omega
      refine ⟨_, .leave c r f g (fun a => f (hist (c.pc r) a)) hp hpo (fun a => ?_)⟩
      rw [h.board _ _ _ a hp, if_pos (hall a)]
    · push Not at hall
      obtain ⟨a, ha⟩ := hall
      have h1 := hmin a
      have hpa : c.posted a = false := by
        by_contra hc
        unfold Config.sendPos at ha
        rw [if_pos (by simpa using hc)] at ha; omega
      have hea : c.pc a = c.pc r := by
        unfold Config.sendPos at ha; omega
      exact ⟨_, .enter c a f g (hea ▸ hp) hpa⟩
  | exch dst src tS tR pack unpack =>
    obtain ⟨htag, hsd, hds⟩ := hm _ _ _ _ _ _ _ hp
    -- a rank still waiting to enter phase `pc r` can do so
    have hpost : ∀ a, c.sendPos a ≤ c.pc r → ∃ c', Step False prog c c' := by
      intro a ha
      have h1 := hmin a
      have hpa : c.posted a = false := by
        by_contra hc
        unfold Config.sendPos at ha
        rw [if_pos (by simpa using hc)] at ha; omega
      have hea : c.pc a = c.pc r := by
        unfold Config.sendPos at ha; omega
      exact ⟨_, .post c a _ _ _ _ _ _ (hea ▸ hp) hpa⟩
    by_cases hallp : ∀ a, c.pc r < c.sendPos a
    · -- a rank still waiting for its message of phase `pc r` can take it
      have htake : ∀ b, c.recvPos b ≤ c.pc r → ∃ c', Step False prog c c' := by
        intro b hb'
        have h1 := hmin b
        have hgb : c.got b = false := by
          by_contra hc
          unfold Config.recvPos at hb'
          rw [if_pos (by simpa using hc)] at hb'; omega
        have heb : c.pc b = c.pc r := by
          unfold Config.recvPos at hb'; omega
        have hpb : c.posted b = true := by
          have := hallp b
          unfold Config.sendPos at this
          by_contra hc
          rw [if_neg hc] at this; omega
        have hch := h.chan (src b) b tR
        have hrb : c.recvPos b = c.pc r := by unfold Config.recvPos; rw [hgb]; simp [heb]
        rw [hrb, msgs_head (hallp _)] at hch
        have hmsg : msg prog hist (src b) b tR (c.pc r) =
            some (pack (hist (c.pc r) (src b))) := by
          unfold msg; rw [hp]; simp [hds, htag]
        rw [hmsg] at hch
        exact ⟨_, .recv c b _ _ _ _ _ _ _ _ (heb ▸ hp) hpb hgb hch⟩
      by_cases hallr : ∀ b, c.pc r < c.recvPos b
      · have hpo : c.posted r = true := by
          have := hallp r
          unfold Config.sendPos at this
          by_contra hc
          rw [if_neg hc] at this; omega
        have hgo : c.got r = true := by
          have := hallr r
          unfold Config.recvPos at this
          by_contra hc
          rw [if_neg hc] at this; omega
        refine ⟨_, .done c r _ _ _ _ _ _ hp hpo hgo (Or.inr ?_)⟩
        rw [h.chan]
        refine msgs_empty ?_
        have := hallr (dst r)
        unfold Config.sendPos
        rw [if_pos hpo]; omega
      · push Not at hallr
        obtain ⟨b, hb'⟩ := hallr
        exact htake b hb'
    · push Not at hallp
      obtain ⟨a, ha⟩ := hallp
      exact hpost a ha

/-! ### Termination -/

/-- amount of work done -/
def Config.work [Fintype ρ] (c : Config ρ S M) : Nat :=
  ∑ r, (3 * c.pc r + (if c.posted r then 1 else 0) + (if c.got r then 1 else 0))

theorem work_lt [Fintype ρ] {f g : ρ → Nat} {r : ρ} (h1 : f r < g r) (h2 : ∀ a, a ≠ r → f a = g a) :
    ∑ a, f a < ∑ a, g a := by
  refine Finset.sum_lt_sum (fun a _ => ?_) ⟨r, Finset.mem_univ _, h1⟩
  by_cases h : a = r
  · exact h ▸ h1.le
  · exact (h2 a h).le

theorem work_step [Fintype ρ] {buf : Prop} {c c' : Config ρ S M}
    (hs : Step buf prog c c') : c.work < c'.work := by
  cases hs with
  | loc r k s' hp hk =>
    refine work_lt (r := r) ?_ (fun a ha => by simp [ha])
    simp
  | post r dst src tS tR pack unpack hp hpo =>
    refine work_lt (r := r) ?_ (fun a ha => by simp [ha])
    simp [hpo]
  | recv r dst src tS tR pack unpack x rest hp hpo hgo hch =>
    refine work_lt (r := r) ?_ (fun a ha => by simp [ha])
    simp [hgo]
  | done r dst src tS tR pack unpack hp hpo hgo _ =>
    refine work_lt (r := r) ?_ (fun a ha => by simp [ha])
    simp [hpo, hgo]; omega
  | enter r contrib combine hp hpo =>
    refine work_lt (r := r) ?_ (fun a ha => by simp [ha])
    simp [hpo]
  | leave r contrib combine all hp hpo hall =>
    refine work_lt (r := r) ?_ (fun a ha => by simp [ha])
    simp [hpo]
    try omega

theorem Inv.work_le [Fintype ρ] {c : Config ρ S M} (h : Inv prog hist c) :
    c.work ≤ 3 * prog.length * Fintype.card ρ := by
  have : ∀ r ∈ Finset.univ,
      3 * c.pc r + (if c.posted r then 1 else 0) + (if c.got r then 1 else 0) ≤ 3 * prog.length := by
    intro r _
    by_cases hp : c.posted r
    · have : c.pc r < prog.length := by
        rcases h.posted r hp with ⟨_, _, _, _, _, _, e⟩ | ⟨_, _, e⟩ <;> exact getElem?_lt e
      rw [if_pos hp]
      split_ifs <;> omega
    · have : ¬ c.got r := fun hg => hp (h.got r hg).1
      rw [if_neg hp, if_neg this]
      have := h.le r
      omega
  refine (Finset.sum_le_card_nsmul _ _ _ this).trans ?_
  simp [Finset.card_univ, mul_comm]

theorem steps_work [Fintype ρ] {buf : Prop} {n : Nat}
    {c c' : Config ρ S M} (hs : Steps buf prog n c c') :
    c.work + n ≤ c'.work := by
  induction hs with
  | zero => simp
  | succ h1 h2 ih =>
    have := work_step h2
    omega

/-- **Asynchronous executions of a matched program.**  From the start of the program, with or
without message buffering:
1. an execution has at most `3 · phases · ranks` steps;
2. an execution that has not finished can be continued, without relying on buffering;
3. a finished execution ends with every rank in its bulk-synchronous state, and no message left. -/
theorem run_matched [Fintype ρ] (hm : Matched prog) (hb : Bulk prog hist) {buf : Prop} {n : Nat}
    {c : Config ρ S M} (hs : Steps buf prog n (Config.init (hist 0)) c) :
    n ≤ 3 * prog.length * Fintype.card ρ ∧
    (¬ c.Done prog → ∃ c', Step False prog c c') ∧
    (c.Done prog → c.st = hist prog.length ∧ ∀ a b t, c.chan a b t = []) := by
  have h0 : Inv prog hist (Config.init (M := M) (hist 0)) := Inv.init _ rfl
  have h := h0.steps hm hb hs
  refine ⟨?_, h.progress hm hb, fun hd => ?_⟩
  · have := steps_work hs
    have := h.work_le
    omega
  · have hnp : ∀ r, c.posted r = false := by
      intro r
      by_contra hc
      have : c.pc r < prog.length := by
        rcases h.posted r (by simpa using hc) with ⟨_, _, _, _, _, _, e⟩ | ⟨_, _, e⟩ <;>
          exact getElem?_lt e
      have := hd r
      omega
    have hng : ∀ r, c.got r = false := by
      intro r
      by_contra hc
      have := (h.got r (by simpa using hc)).1
      rw [hnp r] at this; simp at this
    refine ⟨?_, fun a b t => ?_⟩
    · funext r
      rw [h.st]
      simp [Config.recvPos, hng, hd r]
    · rw [h.chan]
      refine msgs_empty ?_
      simp [Config.recvPos, Config.sendPos, hng, hnp, hd a, hd b]

end EulerKokkos.Spmd
