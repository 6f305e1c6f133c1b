import Verif.Spec.Integers
import Verif.Props.C33
import Mathlib.Tactic.IntervalCases
import Mathlib.Tactic.Ring

/-!
# C33 (integers): an integer parameter is read as the C language writes integers
-/

set_option linter.unusedSimpArgs false

namespace EulerKokkos.Ini
open Spec

theorem digitIs_digitVal {c : Char} {d : Nat} (h : DigitIs c d) : digitVal c = some d ∧ d < 16 := by
  have h16 : d < 16 := by
    rcases h with h | h
    · exact (List.getElem?_eq_some_iff.1 h).1
    · exact (List.getElem?_eq_some_iff.1 h).1
  refine ⟨?_, h16⟩
  rcases h with h | h
  · interval_cases d <;> simp only [List.getElem?_cons_zero, List.getElem?_cons_succ, Option.some.injEq] at h <;>
      subst h <;> rfl
  · interval_cases d <;> simp only [List.getElem?_cons_zero, List.getElem?_cons_succ, Option.some.injEq] at h <;>
      subst h <;> rfl

theorem ofToNat {c : Char} {n : Nat} (h : c.toNat = n) : c = Char.ofNat n := by rw [← h, Char.ofNat_toNat]

theorem digitVal_digitIs {c : Char} {d : Nat} (h : digitVal c = some d) : DigitIs c d := by
  unfold digitVal at h
  have e0 : '0'.toNat = 48 := rfl
  have ea : 'a'.toNat = 97 := rfl
  have eA : 'A'.toNat = 65 := rfl
  rw [e0, ea, eA] at h
  split_ifs at h with h1 h2 h3
  · have a : (48 : Nat) ≤ c.toNat := h1.1
    have b : c.toNat ≤ (57 : Nat) := h1.2
    have e : c = Char.ofNat c.toNat := ofToNat rfl
    generalize c.toNat = n at a b e h
    simp only [Option.some.injEq] at h
    left
    interval_cases n <;> subst h <;> subst e <;> rfl
  · have a : (97 : Nat) ≤ c.toNat := h2.1
    have b : c.toNat ≤ (102 : Nat) := h2.2
    have e : c = Char.ofNat c.toNat := ofToNat rfl
    generalize c.toNat = n at a b e h
    simp only [Option.some.injEq] at h
    left
    interval_cases n <;> subst h <;> subst e <;> rfl
  · have a : (65 : Nat) ≤ c.toNat := h3.1
    have b : c.toNat ≤ (70 : Nat) := h3.2
    have e : c = Char.ofNat c.toNat := ofToNat rfl
    generalize c.toNat = n at a b e h
    simp only [Option.some.injEq] at h
    right
    interval_cases n <;> subst h <;> subst e <;> rfl

theorem digits_stops {b : Nat} {rest : List Char} (h : Stops b rest) (acc n : Nat) :
    digits b acc n rest = (acc, n) := by
  cases rest with
  | nil => rfl
  | cons c s =>
    unfold digits
    cases e : digitVal c with
    | none => rfl
    | some d =>
      dsimp only
      rw [if_neg]
      exact fun hd => h c (by simp) d hd (digitVal_digitIs e)

theorem digits_writes {b : Nat} {s rest : List Char} {ds : List Nat} (w : Writes b s ds) (h : Stops b rest)
    (acc n : Nat) : digits b acc n (s ++ rest) = (acc * b ^ ds.length + valueOf b ds, n + ds.length) := by
  obtain ⟨w, wb⟩ := w
  induction w generalizing acc n with
  | nil => simpa [valueOf] using digits_stops h acc n
  | @cons c d s ds hc _ ih =>
    rw [List.cons_append, digits, (digitIs_digitVal hc).1]
    dsimp only
    rw [if_pos (wb d (by simp)), ih _ _ (fun d hd => wb d (by simp [hd]))]
    simp only [valueOf, List.length_cons, pow_succ]
    refine Prod.ext ?_ ?_ <;> dsimp only
    · ring
    · omega

theorem strtolMag_starts {s : List Char} {n : Nat} (h : Starts s n) : strtolMag s = some n := by
  cases h with
  | @dec s ds rest w h r =>
    obtain ⟨d, hd, h0⟩ := h
    obtain ⟨w1, w2⟩ := w
    cases w1 with
    | nil => simp at hd
    | @cons c d' s ds hc hs =>
      simp only [List.head?_cons, Option.mem_some_iff] at hd
      subst hd
      have hc0 : c ≠ '0' := by
        rintro rfl
        have := (digitIs_digitVal hc).1
        have e : digitVal '0' = some 0 := rfl
        rw [e] at this
        exact h0 (by simpa using this.symm)
      have hw : Writes 10 (c :: s) (d' :: ds) := ⟨.cons hc hs, w2⟩
      have e := digits_writes hw r 0 0
      unfold strtolMag
      split
      · rename_i x s' e'
        simp only [List.cons_append, List.cons.injEq] at e'
        exact absurd e'.1 hc0
      · rw [e]
        simp
  | @oct s ds rest w r x =>
    have e0 : digits 8 0 0 ('0' :: s ++ rest) = digits 8 0 1 (s ++ rest) := rfl
    have e := digits_writes w r 0 1
    rw [List.cons_append] at e0 ⊢
    unfold strtolMag
    split
    · rename_i y s' e'
      simp only [List.cons.injEq, true_and] at e'
      rw [if_neg]
      · rw [e0, e]; simp
      · rintro ⟨hy, -⟩
        obtain ⟨w1, w2⟩ := w
        cases w1 with
        | nil =>
          rw [List.nil_append] at e'
          obtain ⟨h1, h2⟩ := x rfl y (by rw [e']; simp)
          rcases hy with rfl | rfl
          · exact h1 rfl
          · exact h2 rfl
        | @cons c d s ds hc hs =>
          simp only [List.cons_append, List.cons.injEq] at e'
          have := (digitIs_digitVal hc).1
          rw [e'.1] at this
          rcases hy with rfl | rfl
          · exact absurd this (by rw [show digitVal 'x' = none from rfl]; simp)
          · exact absurd this (by rw [show digitVal 'X' = none from rfl]; simp)
    · rename_i hno
      have hz : s ++ rest = [] := by
        cases hsr : s ++ rest with
        | nil => rfl
        | cons y s' => exact absurd (by rw [hsr]) (hno y s')
      obtain ⟨hs, hr⟩ := List.append_eq_nil_iff.1 hz
      subst hs; subst hr
      obtain ⟨w1, -⟩ := w
      cases w1
      rfl
  | @hex s ds rest c x w h r =>
    have e := digits_writes w r 0 0
    have : 0 < ds.length := List.length_pos_iff.2 h
    show strtolMag ('0' :: c :: (s ++ rest)) = _
    have hd : strtolMag ('0' :: c :: (s ++ rest)) =
        if (c = 'x' ∨ c = 'X') ∧ 0 < (digits 16 0 0 (s ++ rest)).2 then some (digits 16 0 0 (s ++ rest)).1
        else some (digits 8 0 0 ('0' :: c :: (s ++ rest))).1 := rfl
    rw [hd, if_pos ⟨x, by rw [e]; simpa using this⟩, e]
    simp

theorem starts_head {s : List Char} {n : Nat} (h : Starts s n) : ∃ c s', s = c :: s' ∧ c ≠ '-' ∧ c ≠ '+' ∧
    isspace c = false := by
  have key : ∀ {c d}, DigitIs c d → c ≠ '-' ∧ c ≠ '+' ∧ isspace c = false := by
    intro c d h
    have h16 := (digitIs_digitVal h).2
    rcases h with h | h
    · interval_cases d <;> simp only [List.getElem?_cons_zero, List.getElem?_cons_succ, Option.some.injEq] at h <;>
        subst h <;> decide
    · interval_cases d <;> simp only [List.getElem?_cons_zero, List.getElem?_cons_succ, Option.some.injEq] at h <;>
        subst h <;> decide
  cases h with
  | @dec s ds rest w h r =>
    obtain ⟨d, hd, h0⟩ := h
    obtain ⟨w1, w2⟩ := w
    cases w1 with
    | nil => simp at hd
    | @cons c d' s ds hc hs => exact ⟨c, _, rfl, key hc⟩
  | oct => exact ⟨'0', _, rfl, by decide⟩
  | hex => exact ⟨'0', _, rfl, by decide⟩

theorem nearestLong_eq (n : Int) : clampLong n = nearestLong n := by
  unfold clampLong nearestLong longMin longMax
  split_ifs <;> omega

/-- **C33 (integers).** If the value stored for a key is white space, a sign or none, a number in the decimal,
octal or hexadecimal notation of C, and text that does not continue the number, the key is read as this number
(the nearest one that fits in 64 bits). -/
theorem C33_integer_notation (r : Reader) (sec name : List Char) (dflt : Int) {ws sg txt : List Char} {σ : Int}
    {n : Nat} (h : r.getString sec name [] = ws ++ (sg ++ txt)) (hnul : '\x00' ∉ ws ++ (sg ++ txt))
    (hw : Blank ws) (hs : Sign sg σ) (ht : Starts txt n) :
    r.getInteger sec name dflt = nearestLong (σ * n) := by
  unfold Reader.getInteger
  rw [h, cstr_eq (fun c hc e => hnul (e ▸ hc))]
  obtain ⟨c, s', rfl, n1, n2, n3⟩ := starts_head ht
  have hm := strtolMag_starts ht
  have hl : ∀ (x : Char) (l : List Char), isspace x = false → lskip (ws ++ x :: l) = x :: l := by
    intro x l hx
    unfold lskip
    rw [List.dropWhile_append_of_pos hw, List.dropWhile_cons, if_neg (by simp [hx])]
  unfold strtol
  cases hs with
  | none =>
    rw [List.nil_append, hl c s' n3]
    split
    · rename_i e; simp only [List.cons.injEq] at e; exact absurd e.1 n1
    · rename_i e; simp only [List.cons.injEq] at e; exact absurd e.1 n2
    · rw [hm]; simp [nearestLong_eq]
  | plus =>
    rw [List.cons_append, List.nil_append, hl '+' _ (by decide)]
    show ((strtolMag (c :: s')).map _).getD dflt = _
    rw [hm]; simp [nearestLong_eq]
  | minus =>
    rw [List.cons_append, List.nil_append, hl '-' _ (by decide)]
    show ((strtolMag (c :: s')).map _).getD dflt = _
    rw [hm]; simp [nearestLong_eq]

theorem digits_none {c : Char} (h : ∀ d < 10, ¬ DigitIs c d) (s : List Char) : (digits 10 0 0 (c :: s)).2 = 0 := by
  rw [digits_stops (rest := c :: s) (fun c' hc d hd => by
    simp only [List.head?_cons, Option.mem_some_iff] at hc; exact hc ▸ h d hd)]

/-- **C33 (not an integer).** If, after white space and a sign or none, the value stored for a key has no
decimal digit next, the key is read as the default. -/
theorem C33_integer_default (r : Reader) (sec name : List Char) (dflt : Int) {ws sg txt : List Char} {σ : Int}
    (h : r.getString sec name [] = ws ++ (sg ++ txt)) (hnul : '\x00' ∉ ws ++ (sg ++ txt))
    (hw : Blank ws) (hs : Sign sg σ) (ht : Stops 10 txt)
    (h1 : sg = [] → ∀ c ∈ txt.head?, isspace c = false ∧ c ≠ '-' ∧ c ≠ '+') :
    r.getInteger sec name dflt = dflt := by
  unfold Reader.getInteger
  rw [h, cstr_eq (fun c hc e => hnul (e ▸ hc))]
  have hm : strtolMag txt = none := by
    unfold strtolMag
    split
    · exact absurd (Or.inl rfl) (ht '0' (by simp) 0 (by omega))
    · rw [digits_stops ht]; simp
  have hl : ∀ (x : Char) (l : List Char), isspace x = false → lskip (ws ++ x :: l) = x :: l := by
    intro x l hx
    unfold lskip
    rw [List.dropWhile_append_of_pos hw, List.dropWhile_cons, if_neg (by simp [hx])]
  unfold strtol
  cases hs with
  | none =>
    rw [List.nil_append]
    cases txt with
    | nil =>
      have : lskip (ws ++ []) = [] := by
        unfold lskip; rw [List.dropWhile_append_of_pos hw]; rfl
      rw [this]
      rfl
    | cons c s' =>
      obtain ⟨n3, n1, n2⟩ := h1 rfl c (by simp)
      rw [hl c s' n3]
      split
      · rename_i e; simp only [List.cons.injEq] at e; exact absurd e.1 n1
      · rename_i e; simp only [List.cons.injEq] at e; exact absurd e.1 n2
      · rw [hm]; rfl
  | plus =>
    rw [List.cons_append, List.nil_append, hl '+' _ (by decide)]
    show ((strtolMag txt).map _).getD dflt = _
    rw [hm]; rfl
  | minus =>
    rw [List.cons_append, List.nil_append, hl '-' _ (by decide)]
    show ((strtolMag txt).map _).getD dflt = _
    rw [hm]; rfl

/-- non-vacuity: `-0x1F;` is -31, `017` is 15, `1e5` is 1 -/
example (r : Reader) (s n : List Char) (d : Int) :
    (r.setString s n "-0x1F;".toList).getInteger s n d = -31 ∧
    (r.setString s n "017".toList).getInteger s n d = 15 ∧
    (r.setString s n " 1e5".toList).getInteger s n d = 1 := by
  have get : ∀ v, (r.setString s n v).getString s n [] = v := fun v => (C33_set_string r s n v s n []).1 rfl
  have hx : DigitIs '1' 1 := .inl rfl
  have hF : DigitIs 'F' 15 := .inr rfl
  have h7 : DigitIs '7' 7 := .inl rfl
  have stop : ∀ {b : Nat} {c : Char} {s : List Char}, digitVal c = none → Stops b (c :: s) := by
    intro b c s hc c' hc' d _ hd
    simp only [List.head?_cons, Option.mem_some_iff] at hc'
    subst hc'
    rw [(digitIs_digitVal hd).1] at hc
    cases hc
  refine ⟨?_, ?_, ?_⟩
  · have := C33_integer_notation (r.setString s n "-0x1F;".toList) s n d (ws := []) (sg := ['-'])
      (txt := '0' :: 'x' :: ['1', 'F'] ++ [';']) (get _) (by decide) (by simp [Blank]) .minus
      (.hex (.inl rfl) ⟨.cons hx (.cons hF .nil), by simp⟩ (by simp) (stop rfl))
    rw [this]; decide
  · have := C33_integer_notation (r.setString s n "017".toList) s n d (ws := []) (sg := [])
      (txt := '0' :: ['1', '7'] ++ []) (get _) (by decide) (by simp [Blank]) .none
      (.oct ⟨.cons hx (.cons h7 .nil), by simp⟩ (fun c hc => by simp at hc) (by simp))
    rw [this]; decide
  · have := C33_integer_notation (r.setString s n " 1e5".toList) s n d (ws := [' ']) (sg := [])
      (txt := ['1'] ++ ['e', '5']) (get _) (by decide) (by simp [Blank, isspace]) .none
      (.dec ⟨.cons hx .nil, by simp⟩ ⟨1, by simp, by simp⟩ (fun c hc d hd h => by
        simp only [List.head?_cons, Option.mem_some_iff] at hc
        subst hc
        have := (digitIs_digitVal h).1
        rw [show digitVal 'e' = some 14 from rfl] at this
        simp only [Option.some.injEq] at this
        omega))
    rw [this]; decide

end EulerKokkos.Ini
