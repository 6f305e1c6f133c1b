import Verif.Core.Spmd
import Verif.Core.Kernel

/-!
# Composition of bulk-synchronous executions
-/

namespace EulerKokkos.Spmd

variable {ρ S M : Type}

/-- executing all phases of `prog` together takes the memories `s` to `s'` -/
def BulkRel (prog : List (Phase ρ S M)) (s s' : ρ → S) : Prop :=
  ∃ hist, Bulk prog hist ∧ hist 0 = s ∧ hist prog.length = s'

theorem BulkRel.nil (s : ρ → S) : BulkRel ([] : List (Phase ρ S M)) s s :=
  ⟨fun _ => s, fun n ph h => by simp at h, rfl, rfl⟩

theorem BulkRel.append {p q : List (Phase ρ S M)} {a b c : ρ → S} (h1 : BulkRel p a b)
    (h2 : BulkRel q b c) : BulkRel (p ++ q) a c := by
  obtain ⟨f, hf, f0, f1⟩ := h1
  obtain ⟨g, hg, g0, g1⟩ := h2
  refine ⟨fun n => if n ≤ p.length then f n else g (n - p.length), ?_, by simp [f0], ?_⟩
  · intro n ph hn r
    by_cases h : n < p.length
    · rw [List.getElem?_append_left h] at hn
      have := hf n ph hn r
      simp only [if_pos h.le, if_pos (Nat.succ_le_of_lt h)]
      exact this
    · have hle : p.length ≤ n := by omega
      rw [List.getElem?_append_right hle] at hn
      have := hg (n - p.length) ph hn r
      have e1 : (if n ≤ p.length then f n else g (n - p.length)) = g (n - p.length) := by
        by_cases h' : n ≤ p.length
        · have : n = p.length := by omega
          rw [if_pos h', this, f1, Nat.sub_self, g0]
        · rw [if_neg h']
      have e2 : (if n + 1 ≤ p.length then f (n + 1) else g (n + 1 - p.length)) =
          g (n - p.length + 1) := by
        rw [if_neg (by omega)]; congr 1; omega
      simp only [e1, e2]
      exact this
  · by_cases h : q.length = 0
    · have : q = [] := List.length_eq_zero_iff.mp h
      subst this
      simp only [List.append_nil, le_refl, if_true, f1]
      simp only [List.length_nil] at g1
      rw [← g1, g0]
    · simp only [List.length_append]
      rw [if_neg (by omega)]
      simp [g1]

theorem BulkRel.cons {ph : Phase ρ S M} {q : List (Phase ρ S M)} {a b c : ρ → S}
    (h1 : BulkRel [ph] a b) (h2 : BulkRel q b c) : BulkRel (ph :: q) a c :=
  h1.append h2

theorem BulkRel.single {ph : Phase ρ S M} {a b : ρ → S}
    (h : ∀ r, match ph with
      | .loc k => ∀ s', k r (a r) s' ↔ s' = b r
      | .exch _ src _ _ pack unpack => b r = unpack (pack (a (src r))) (a r)
      | .coll contrib combine => b r = combine (fun x => contrib (a x)) (a r)) :
    BulkRel [ph] a b := by
  refine ⟨fun n => if n = 0 then a else b, ?_, by simp, by simp⟩
  intro n ph' hn r
  have h0 : n = 0 := by
    by_contra h0
    have : [ph][n]? = none := by simp; omega
    rw [this] at hn; cases hn
  subst h0
  simp only [List.getElem?_cons_zero, Option.some.injEq] at hn
  subst hn
  have := h r
  cases ph <;> simpa using this

theorem BulkRel.loc {k : ρ → S → S → Prop} {a b : ρ → S}
    (h : ∀ r s', k r (a r) s' ↔ s' = b r) : BulkRel [(.loc k : Phase ρ S M)] a b :=
  .single h

theorem BulkRel.exch {dst src : ρ → ρ} {tS tR : Nat} {pack : S → M} {unpack : M → S → S}
    (a : ρ → S) :
    BulkRel [(.exch dst src tS tR pack unpack : Phase ρ S M)] a
      (fun r => unpack (pack (a (src r))) (a r)) :=
  .single fun _ => rfl

theorem BulkRel.coll {contrib : S → M} {combine : (ρ → M) → S → S} (a : ρ → S) :
    BulkRel [(.coll contrib combine : Phase ρ S M)] a
      (fun r => combine (fun x => contrib (a x)) (a r)) :=
  .single fun _ => rfl

theorem Matched.nil : Matched ([] : List (Phase ρ S M)) := by
  intro n dst src tS tR pack unpack h; simp at h

theorem Matched.append {p q : List (Phase ρ S M)} (h1 : Matched p) (h2 : Matched q) :
    Matched (p ++ q) := by
  intro n dst src tS tR pack unpack h
  by_cases hn : n < p.length
  · rw [List.getElem?_append_left hn] at h; exact h1 _ _ _ _ _ _ _ h
  · rw [List.getElem?_append_right (by omega)] at h; exact h2 _ _ _ _ _ _ _ h

theorem Matched.single {ph : Phase ρ S M} (h : match ph with
      | .exch dst src tS tR _ _ => tS = tR ∧ (∀ r, src (dst r) = r) ∧ ∀ r, dst (src r) = r
      | _ => True) : Matched [ph] := by
  intro n dst src tS tR pack unpack hn
  have h0 : n = 0 := by
    by_contra h0
    have : [ph][n]? = none := by simp; omega
    rw [this] at hn; cases hn
  subst h0
  simp only [List.getElem?_cons_zero, Option.some.injEq] at hn
  subst hn
  exact h

theorem Matched.cons {ph : Phase ρ S M} {q : List (Phase ρ S M)} (h1 : Matched [ph])
    (h2 : Matched q) : Matched (ph :: q) := h1.append h2

/-- What `run_matched` says of a program whose bulk-synchronous meaning is known. -/
theorem BulkRel.run [DecidableEq ρ] [Fintype ρ] {prog : List (Phase ρ S M)} {s s' : ρ → S}
    (h : BulkRel prog s s') (hm : Matched prog) {buf : Prop} {n : Nat} {c : Config ρ S M}
    (hs : Steps buf prog n (Config.init s) c) :
    n ≤ 3 * prog.length * Fintype.card ρ ∧
    (¬ c.Done prog → ∃ c', Step False prog c c') ∧
    (c.Done prog → c.st = s' ∧ ∀ a b t, c.chan a b t = []) := by
  obtain ⟨hist, hb, h0, h1⟩ := h
  subst h0
  have := run_matched hm hb hs
  rwa [h1] at this

end EulerKokkos.Spmd
