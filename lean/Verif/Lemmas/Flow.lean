import Verif.Core.Flow
import Verif.Lemmas.Spmd

/-!
# Composition of executions with control flow; the main-loop pattern
-/

set_option linter.constructorNameAsVariable false

namespace EulerKokkos.Spmd

variable {κ ρ S M : Type}

/-- all ranks together go from control point `k` and memories `s` to `k'` and `s'`, executing the
phases of the list -/
inductive FlowRel (F : Flow κ ρ S M) :
    κ → (ρ → S) → List (Phase ρ S M) → κ → (ρ → S) → Prop
  | nil (k s) : FlowRel F k s [] k s
  | cons {k s ph s₁ k₁ prog k' s'} : F.code k = some ph → BulkRel [ph] s s₁ →
      (∀ r, F.next k (s₁ r) = k₁) → FlowRel F k₁ s₁ prog k' s' → FlowRel F k s (ph :: prog) k' s'

variable {F : Flow κ ρ S M}

theorem FlowRel.append {k k₁ k₂ : κ} {s s₁ s₂ : ρ → S} {l l' : List (Phase ρ S M)}
    (h : FlowRel F k s l k₁ s₁) (h' : FlowRel F k₁ s₁ l' k₂ s₂) :
    FlowRel F k s (l ++ l') k₂ s₂ := by
  induction h with
  | nil => exact h'
  | cons a b c _ ih => exact .cons a b c (ih h')

/-- the path and the history behind a `FlowRel` -/
theorem FlowRel.along {k k' : κ} {s s' : ρ → S} {l : List (Phase ρ S M)}
    (h : FlowRel F k s l k' s') (hk : F.code k' = none) :
    ∃ hist tr, Along F l hist tr ∧ Bulk l hist ∧ hist 0 = s ∧ hist l.length = s' ∧ tr 0 = k := by
  induction h with
  | nil k s =>
    refine ⟨fun _ => s, fun _ => k, ⟨fun n hn => ?_, fun n hn => ?_⟩, fun n ph h => ?_, rfl, rfl, rfl⟩
    · simp at hn; subst hn; simpa using hk
    · simp at hn
    · simp at h
  | @cons k s ph s₁ k₁ prog k' s' a b c _ ih =>
    obtain ⟨hist, tr, hA, hB, h0, h1, t0⟩ := ih hk
    refine ⟨fun n => if n = 0 then s else hist (n - 1), fun n => if n = 0 then k else tr (n - 1),
      ⟨fun n hn => ?_, fun n hn r => ?_⟩, fun n ph' hn r => ?_, rfl, ?_, rfl⟩
    · cases n with
      | zero => simpa using a
      | succ n => simpa using hA.code n (by simpa using hn)
    · cases n with
      | zero => simp only [zero_add, one_ne_zero, if_false, if_true, Nat.sub_self, h0, t0]; exact c r
      | succ n => simpa using hA.next n (by simpa using hn) r
    · cases n with
      | zero =>
        obtain ⟨hh, hb, e0, e1⟩ := b
        simp only [List.getElem?_cons_zero, Option.some.injEq] at hn
        subst hn
        have := hb 0 ph rfl r
        simp only [List.length_singleton] at e1
        simp only [if_true, zero_add, one_ne_zero, if_false, Nat.sub_self, h0]
        rw [← e0, ← e1]
        exact this
      | succ n =>
        simp only [List.getElem?_cons_succ] at hn
        have := hB n ph' hn r
        simpa using this
    · simpa using h1

/-- splitting a bulk execution -/
theorem BulkRel.uncons {ph : Phase ρ S M} {q : List (Phase ρ S M)} {a c : ρ → S}
    (h : BulkRel (ph :: q) a c) : ∃ b, BulkRel [ph] a b ∧ BulkRel q b c := by
  obtain ⟨hist, hb, h0, h1⟩ := h
  refine ⟨hist 1, ⟨hist, fun n ph' hn => ?_, h0, rfl⟩, ⟨fun n => hist (n + 1), fun n ph' hn => ?_,
    rfl, by simpa using h1⟩⟩
  · cases n with
    | zero => exact hb 0 ph' (by simpa using hn)
    | succ n => simp at hn
  · exact hb (n + 1) ph' (by simpa using hn)

/-- a straight-line segment of the program, whose last phase leads to `out` -/
theorem FlowRel.segment (con : Nat → κ) (out : S → κ) {l : List (Phase ρ S M)} (hne : l ≠ [])
    (hc : ∀ i, F.code (con i) = l[i]?)
    (hn : ∀ i s, i < l.length → F.next (con i) s = if i + 1 < l.length then con (i + 1) else out s)
    {s s' : ρ → S} (h : BulkRel l s s') {k' : κ} (ho : ∀ r, out (s' r) = k') :
    FlowRel F (con 0) s l k' s' := by
  have key : ∀ q i s, (∀ j, l[i + j]? = q[j]?) → q ≠ [] → i + q.length = l.length →
      BulkRel q s s' → FlowRel F (con i) s q k' s' := by
    intro q
    induction q with
    | nil => intro i s _ h; exact absurd rfl h
    | cons ph q ih =>
      intro i s hq _ hl hb
      obtain ⟨b, h1, h2⟩ := hb.uncons
      have hcode : F.code (con i) = some ph := by
        rw [hc]; simpa using hq 0
      simp only [List.length_cons] at hl
      cases q with
      | nil =>
        simp only [List.length_nil] at hl
        have e : b = s' := by
          obtain ⟨hist, _, e0, e1⟩ := h2
          rw [← e0, ← e1]; rfl
        subst e
        refine .cons hcode h1 (fun r => ?_) (.nil _ _)
        rw [hn _ _ (by omega), if_neg (by omega)]; exact ho r
      | cons ph' q =>
        simp only [List.length_cons] at hl
        refine .cons hcode h1 (fun r => ?_) (ih (i + 1) b (fun j => ?_) (by simp) (by simp; omega) h2)
        · rw [hn _ _ (by omega), if_pos (by omega)]
        · have := hq (j + 1)
          rw [show i + (j + 1) = i + 1 + j by omega] at this
          simpa using this
  exact key l 0 s (fun j => by simp) hne (by simp) h

/-! ### The main-loop pattern -/

variable {pre : List (Phase ρ S M)} {body : Bool → List (Phase ρ S M)}
    {post : List (Phase ρ S M)} {stop : S → Prop} [DecidablePred stop] {sel : S → Bool}

/-- the phases of `K` turns -/
def turnPhases (body : Bool → List (Phase ρ S M)) (b : Nat → Bool) : Nat → List (Phase ρ S M)
  | 0 => []
  | K + 1 => turnPhases body b K ++ body (b K)

theorem Matched.turnPhases {b : Nat → Bool} (h : ∀ c, Matched (body c)) (K : Nat) :
    Matched (turnPhases body b K) := by
  induction K with
  | zero => exact Matched.nil
  | succ K ih => exact ih.append (h _)

/-- the bulk-synchronous execution of the main loop -/
theorem loop_along (hpre : pre ≠ []) (hbody : ∀ b, body b ≠ []) (hpost : post ≠ []) {s : ρ → S}
    (σ : Nat → ρ → S) (b : Nat → Bool) (K : Nat) (h0 : BulkRel pre s (σ 0))
    (hgo : ∀ n < K, ∀ r, ¬ stop (σ n r) ∧ sel (σ n r) = b n)
    (hturn : ∀ n < K, BulkRel (body (b n)) (σ n) (σ (n + 1)))
    (hstop : ∀ r, stop (σ K r)) {s' : ρ → S} (hend : BulkRel post (σ K) s') :
    FlowRel (loopFlow pre body post stop sel) (.pre 0) s
      (pre ++ turnPhases body b K ++ post) (.post post.length) s' := by
  let head : Nat → Ctl := fun n => if n < K then .body (b n) 0 else .post 0
  have hhead : ∀ n ≤ K, ∀ r, (if stop (σ n r) then Ctl.post 0 else .body (sel (σ n r)) 0) = head n := by
    intro n hn r
    simp only [head]
    by_cases h : n < K
    · rw [if_neg (hgo n h r).1, if_pos h, (hgo n h r).2]
    · have : n = K := by omega
      subst this
      rw [if_pos (hstop r), if_neg h]
  have h1 : FlowRel (loopFlow pre body post stop sel) (.pre 0) s pre (head 0) (σ 0) :=
    FlowRel.segment (fun i => Ctl.pre i)
      (fun s => if stop s then Ctl.post 0 else .body (sel s) 0) hpre (fun _ => rfl)
      (fun _ _ _ => rfl) h0 (hhead 0 (by omega))
  have h2 : ∀ n ≤ K, FlowRel (loopFlow pre body post stop sel) (head 0) (σ 0)
      (turnPhases body b n) (head n) (σ n) := by
    intro n
    induction n with
    | zero => exact fun _ => .nil _ _
    | succ n ih =>
      intro hn
      refine (ih (by omega)).append ?_
      have e : head n = .body (b n) 0 := by simp only [head]; rw [if_pos (by omega)]
      rw [e]
      exact FlowRel.segment (fun i => Ctl.body (b n) i)
        (fun s => if stop s then Ctl.post 0 else .body (sel s) 0) (hbody _) (fun _ => rfl)
        (fun _ _ _ => rfl) (hturn n (by omega)) (hhead (n + 1) hn)
  have e : head K = .post 0 := by simp [head]
  have h3 : FlowRel (loopFlow pre body post stop sel) (.post 0) (σ K) post (.post post.length) s' := by
    refine FlowRel.segment (fun i => Ctl.post i) (fun _ => Ctl.post post.length) hpost (fun _ => rfl)
      (fun i s hi => ?_) hend (fun _ => rfl)
    by_cases h : i + 1 < post.length
    · rw [if_pos h]; rfl
    · rw [if_neg h, show post.length = i + 1 by omega]; rfl
  exact (h1.append (h2 K le_rfl)).append (e ▸ h3)

end EulerKokkos.Spmd
