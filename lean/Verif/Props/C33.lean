import Verif.Props.C34

/-!
# C33 — configuration lookup: case-insensitive, last assignment wins, defaults
-/

set_option linter.unusedSimpArgs false

namespace EulerKokkos.Ini
open Spec

namespace Spec
/-- equal up to the case of ASCII letters -/
def CaseEq (a b : List Char) : Prop := a.map Char.toLower = b.map Char.toLower

/-- same key, up to case -/
def SameKey (s n s' n' : List Char) : Prop := CaseEq (s ++ '.' :: n) (s' ++ '.' :: n')

instance (a b : List Char) : Decidable (CaseEq a b) := inferInstanceAs (Decidable (_ = _))
instance (s n s' n' : List Char) : Decidable (SameKey s n s' n') := inferInstanceAs (Decidable (CaseEq _ _))

/-- the last value reported for a key, if any -/
def lastValue (evs : List (List Char × List Char × List Char)) (s n : List Char) :
    Option (List Char) :=
  ((evs.filter fun e => SameKey e.1 e.2.1 s n).getLast?).map fun e => e.2.2
end Spec

theorem tolower_eq (c : Char) : tolower c = c.toLower := by
  unfold tolower Char.toLower
  have hA : ('A' ≤ c ∧ c ≤ 'Z') ↔ (c.val ≥ 'A'.val ∧ c.val ≤ 'Z'.val) := by
    constructor <;> rintro ⟨h1, h2⟩ <;> exact ⟨h1, h2⟩
  by_cases h : 'A' ≤ c ∧ c ≤ 'Z'
  · rw [if_pos h, dif_pos (hA.1 h)]
    have hn : c.toNat + 32 ≤ 122 ∧ 97 ≤ c.toNat + 32 := by
      obtain ⟨h1, h2⟩ := h
      have e1 : (65 : Nat) ≤ c.toNat := h1
      have e2 : c.toNat ≤ (90 : Nat) := h2
      omega
    apply Char.ext
    apply UInt32.toNat_inj.1
    have hv : (c.toNat + 32).isValidChar := Or.inl (by omega)
    have e1 : (Char.ofNat (c.toNat + 32)).val.toNat = c.toNat + 32 := by
      have : Char.ofNat (c.toNat + 32) = Char.ofNatAux (c.toNat + 32) hv := by
        unfold Char.ofNat
        rw [dif_pos hv]
      rw [this]
      show (c.toNat + 32) = _
      rfl
    rw [e1]
    have : c.val.toNat = c.toNat := rfl
    simp only [UInt32.toNat_add]
    rw [this]
    have : ('a'.val - 'A'.val).toNat = 32 := by decide
    omega
  · rw [if_neg h, dif_neg (fun hc => h (hA.2 hc))]

theorem sameKey_iff (s n s' n' : List Char) : SameKey s n s' n' ↔ makeKey s n = makeKey s' n' := by
  unfold SameKey CaseEq makeKey
  have : tolower = Char.toLower := funext tolower_eq
  rw [this]
  simp

/-! ## Lookup -/

theorem filter_getLast_cons {α} (p : α → Bool) (e : α) (l : List α) :
    ((e :: l).filter p).getLast? = ((l.filter p).getLast?).or (if p e then some e else none) := by
  rw [List.filter_cons]
  split
  · rw [List.getLast?_cons]
    cases (l.filter p).getLast? <;> simp
  · simp

theorem valueHandler_foldl (evs : List (List Char × List Char × List Char)) (m : Values)
    (s n : List Char) :
    (evs.foldl (report valueHandler) m) (makeKey s n) =
      (lastValue evs s n).or (m (makeKey s n)) := by
  induction evs generalizing m with
  | nil => simp [lastValue]
  | cons e evs ih =>
    rw [List.foldl_cons, ih]
    unfold lastValue
    rw [filter_getLast_cons]
    have hr : report valueHandler m e = m.set (makeKey e.1 e.2.1) e.2.2 := rfl
    rw [hr]
    unfold Values.set
    by_cases h : SameKey e.1 e.2.1 s n
    · have h' := (sameKey_iff _ _ _ _).1 h
      simp only [h, decide_true, if_true, h']
      cases (evs.filter fun e => decide (SameKey e.1 e.2.1 s n)).getLast? <;> simp
    · have h' : ¬ makeKey s n = makeKey e.1 e.2.1 := fun hc => h ((sameKey_iff _ _ _ _).2 hc.symm)
      simp only [h, decide_false, if_neg h']
      simp

theorem valueHandler_succeeds : Succeeds valueHandler := fun _ _ _ _ => rfl

/-- **C33 (last assignment wins, missing keys give the default)**: looking up a key returns the last
value the file gives for that key (up to letter case), or the default when the file gives none; for the
buffer-based reader of the MPI build, and for the file-based reader of the serial build when no line is
longer than 198 characters. -/
theorem C33_last_wins {ls : List Line} (hl : ∀ l ∈ ls, l.OK) (s n d : List Char) :
    (Reader.ofBuffer (fileText ls)).getString s n d =
      (lastValue (events ⟨[], []⟩ ls) s n).getD d ∧
    ((∀ l ∈ ls, l.render.length ≤ 198) →
      (Reader.ofFile (some (fileText ls))).getString s n d =
        (lastValue (events ⟨[], []⟩ ls) s n).getD d) := by
  refine ⟨?_, fun hlen => ?_⟩
  · unfold Reader.ofBuffer Reader.getString
    rw [C34_parse_buffer valueHandler_succeeds hl]
    simp only [valueHandler_foldl, Option.or_none]
  · unfold Reader.ofFile Reader.getString
    rw [C34_parse_file valueHandler_succeeds hl hlen]
    simp only [valueHandler_foldl, Option.or_none]

/-- In the words of the file: if an entry is the last one with its key, looking it up in any letter case
gives its value, whatever the default. -/
theorem C33_found {ls : List Line} {d₁ d₂ : List (List Char × List Char × List Char)}
    {s n v : List Char} (hl : ∀ l ∈ ls, l.OK) (h : Says [] ls (d₁ ++ (s, n, v) :: d₂))
    (hlast : ∀ e ∈ d₂, ¬ SameKey e.1 e.2.1 s n) {s' n' : List Char} (hs : CaseEq s s')
    (hn : CaseEq n n') (d : List Char) :
    (Reader.ofBuffer (fileText ls)).getString s' n' d = v := by
  rw [(C33_last_wins hl s' n' d).1, (says_events h [] 0).1]
  have key : SameKey s n s' n' := by
    unfold SameKey CaseEq at *
    simp only [List.map_append, List.map_cons, hs, hn]
  have tr : ∀ a b, SameKey a b s' n' → SameKey a b s n := by
    intro a b h
    unfold SameKey CaseEq at *
    rw [h, key]
  unfold lastValue
  rw [List.filter_append, List.filter_cons]
  simp only [key, decide_true, if_true]
  have h2 : d₂.filter (fun e => decide (SameKey e.1 e.2.1 s' n')) = [] := by
    rw [List.filter_eq_nil_iff]
    intro e he hc
    exact hlast e he (tr _ _ (by simpa using hc))
  rw [h2]
  simp

/-- A key the file does not mention gives the default. -/
theorem C33_default {ls : List Line} {doc : List (List Char × List Char × List Char)}
    {s n : List Char} (hl : ∀ l ∈ ls, l.OK) (h : Says [] ls doc)
    (hno : ∀ e ∈ doc, ¬ SameKey e.1 e.2.1 s n) (d : List Char) (k : Int) (b : Bool) :
    (Reader.ofBuffer (fileText ls)).getString s n d = d ∧
    (Reader.ofBuffer (fileText ls)).getInteger s n k = k ∧
    (Reader.ofBuffer (fileText ls)).getBool s n b = b := by
  have key : ∀ d, (Reader.ofBuffer (fileText ls)).getString s n d = d := by
    intro d
    rw [(C33_last_wins hl s n d).1, (says_events h [] 0).1]
    unfold lastValue
    rw [List.filter_eq_nil_iff.2]
    · simp
    · intro e he hc
      exact hno e he (by simpa using hc)
  refine ⟨key d, ?_, ?_⟩
  · unfold Reader.getInteger
    rw [key]
    rfl
  · unfold Reader.getBool
    rw [key]
    simp

/-- **C33 (letter case)**: keys equal up to case are the same key, for every reader and accessor. -/
theorem C33_case_insensitive (r : Reader) {s s' n n' : List Char} (hs : CaseEq s s')
    (hn : CaseEq n n') :
    (∀ d, r.getString s n d = r.getString s' n' d) ∧
    (∀ d, r.getInteger s n d = r.getInteger s' n' d) ∧
    (∀ d, r.getBool s n d = r.getBool s' n' d) ∧
    (∀ (R : Type) (strtof : List Char → Option R) d,
      r.getFloat strtof s n d = r.getFloat strtof s' n' d) := by
  have : makeKey s n = makeKey s' n' := by
    rw [← sameKey_iff]
    unfold SameKey CaseEq at *
    simp only [List.map_append, List.map_cons, hs, hn]
  have key : ∀ d, r.getString s n d = r.getString s' n' d := by
    intro d; unfold Reader.getString; rw [this]
  refine ⟨key, fun d => ?_, fun d => ?_, fun R f d => ?_⟩
  · unfold Reader.getInteger; rw [key]
  · unfold Reader.getBool; rw [key]
  · unfold Reader.getFloat; rw [key]

/-! ## set then get -/

/-- **C33 (setString)**: the value set is read back under the same key up to case, and every other key
keeps its value. -/
theorem C33_set_string (r : Reader) (s n v : List Char) (s' n' d : List Char) :
    (SameKey s n s' n' → (r.setString s n v).getString s' n' d = v) ∧
    (¬ SameKey s n s' n' → (r.setString s n v).getString s' n' d = r.getString s' n' d) := by
  rw [sameKey_iff]
  unfold Reader.setString Reader.getString Values.set
  refine ⟨fun h => by simp [h], fun h => ?_⟩
  have : ¬ makeKey s' n' = makeKey s n := fun hc => h hc.symm
  simp [this]

/-- **C33 (setBool)** -/
theorem C33_set_bool (r : Reader) (s n : List Char) (v d : Bool) :
    (r.setBool s n v).getBool s n d = v := by
  unfold Reader.setBool Reader.getBool
  cases v
  · simp only [Bool.false_eq_true, if_false]
    rw [(C33_set_string r s n _ s n _).1 rfl]
    simp
  · simp only [if_true]
    rw [(C33_set_string r s n _ s n _).1 rfl]
    simp

/-! decimal text -/

theorem digitVal_digitChar {d : Nat} (h : d < 10) : digitVal (digitChar d) = some d := by
  have : ∀ d : Fin 10, digitVal (digitChar d) = some d.1 := by decide
  exact this ⟨d, h⟩

theorem digits_append_decimal (m : Nat) (acc n : Nat) (s : List Char) :
    ∃ k, 0 < k ∧ digits 10 acc n (decimal m ++ s) = digits 10 (acc * 10 ^ k + m) (n + k) s := by
  induction m using Nat.strong_induction_on generalizing acc n s with
  | _ m ih =>
    rw [decimal]
    split
    · rename_i h
      refine ⟨1, by omega, ?_⟩
      simp only [List.cons_append, List.nil_append, digits, digitVal_digitChar h, h, if_true,
        Nat.pow_one]
    · rename_i h
      obtain ⟨k, hk, e⟩ := ih (m / 10) (by omega) acc n ([digitChar (m % 10)] ++ s)
      refine ⟨k + 1, by omega, ?_⟩
      rw [List.append_assoc, e]
      have h10 : m % 10 < 10 := Nat.mod_lt _ (by omega)
      simp only [List.cons_append, List.nil_append, digits, digitVal_digitChar h10, h10, if_true]
      congr 1
      rw [Nat.add_mul, Nat.pow_succ, ← Nat.mul_assoc]
      omega

theorem digits_decimal (m : Nat) : (digits 10 0 0 (decimal m)).1 = m ∧
    0 < (digits 10 0 0 (decimal m)).2 := by
  obtain ⟨k, hk, e⟩ := digits_append_decimal m 0 0 []
  rw [List.append_nil] at e
  rw [e]
  simp [digits, hk]

theorem digitChar_ne {d : Nat} (h : d < 10) :
    (digitChar d = '0' → d = 0) ∧ digitChar d ≠ '-' ∧ digitChar d ≠ '+' ∧ digitChar d ≠ '\x00' ∧
    isspace (digitChar d) = false := by
  have : ∀ d : Fin 10, (digitChar d = '0' → d.1 = 0) ∧ digitChar d ≠ '-' ∧ digitChar d ≠ '+' ∧
      digitChar d ≠ '\x00' ∧ isspace (digitChar d) = false := by decide
  exact this ⟨d, h⟩

theorem decimal_head (m : Nat) : ∃ d s, d < 10 ∧ decimal m = digitChar d :: s ∧ (0 < m → 0 < d) ∧
    (m = 0 → s = []) := by
  induction m using Nat.strong_induction_on with
  | _ m ih =>
    rw [decimal]
    split
    · exact ⟨m, [], by assumption, rfl, id, fun _ => rfl⟩
    · rename_i h
      obtain ⟨d, s, h1, h2, h3, _⟩ := ih (m / 10) (by omega)
      exact ⟨d, s ++ [digitChar (m % 10)], h1, by rw [h2]; rfl, fun _ => h3 (by omega), by omega⟩

theorem strtolMag_decimal (m : Nat) : strtolMag (decimal m) = some m := by
  obtain ⟨d, s, hd, e, hpos, hz⟩ := decimal_head m
  obtain ⟨h1, h2⟩ := digits_decimal m
  unfold strtolMag
  split
  · rename_i x s' e'
    exfalso
    rw [e'] at e
    simp only [List.cons.injEq] at e
    have := (digitChar_ne hd).1 e.1.symm
    rcases Nat.eq_zero_or_pos m with h | h
    · have := hz h
      rw [this] at e
      simp at e
    · have := hpos h
      omega
  · rw [if_pos h2, h1]

theorem decimal_no_nul (m : Nat) : ∀ c ∈ decimal m, c ≠ '\x00' := by
  induction m using Nat.strong_induction_on with
  | _ m ih =>
    rw [decimal]
    split
    · rename_i h
      intro c hc
      simp only [List.mem_singleton] at hc
      subst hc
      exact (digitChar_ne h).2.2.2.1
    · intro c hc
      simp only [List.mem_append, List.mem_singleton] at hc
      rcases hc with hc | rfl
      · exact ih (m / 10) (by omega) c hc
      · exact (digitChar_ne (Nat.mod_lt _ (by omega))).2.2.2.1

theorem cstr_eq {s : List Char} (h : ∀ c ∈ s, c ≠ '\x00') : cstr s = s := by
  unfold cstr
  rw [List.takeWhile_eq_self_iff]
  simpa using h

theorem strtol_decimalInt {k : Int} (h1 : longMin ≤ k) (h2 : k ≤ longMax) :
    strtol (cstr (decimalInt k)) = some k := by
  have hc : clampLong k = k := by
    unfold clampLong
    rw [if_neg (by omega), if_neg (by omega)]
  unfold decimalInt
  split
  · rename_i hk
    rw [cstr_eq (by
      intro c hc
      simp only [List.mem_cons] at hc
      rcases hc with rfl | hc
      · decide
      · exact decimal_no_nul _ c hc)]
    unfold strtol
    have : lskip ('-' :: decimal k.natAbs) = '-' :: decimal k.natAbs := by
      simp [lskip, isspace]
    rw [this]
    simp only [strtolMag_decimal, Option.map_some]
    congr 1
    rw [← hc]
    congr 1
    omega
  · rename_i hk
    rw [cstr_eq (decimal_no_nul _)]
    obtain ⟨d, s, hd, e, -, -⟩ := decimal_head k.natAbs
    have hm := strtolMag_decimal k.natAbs
    obtain ⟨-, n1, n2, -, n3⟩ := digitChar_ne hd
    unfold strtol
    have : lskip (decimal k.natAbs) = decimal k.natAbs := by
      rw [e]; simp [lskip, n3]
    rw [this]
    split
    · rename_i e'
      rw [e] at e'
      simp only [List.cons.injEq] at e'
      exact absurd e'.1 n1
    · rename_i e'
      rw [e] at e'
      simp only [List.cons.injEq] at e'
      exact absurd e'.1 n2
    · rw [hm, Option.map_some]
      congr 1
      rw [← hc]
      congr 1
      omega

/-- **C33 (setInteger)**: every `long` is read back. -/
theorem C33_set_integer (r : Reader) (s n : List Char) {v : Int} (d : Int)
    (h1 : -2 ^ 63 ≤ v) (h2 : v < 2 ^ 63) :
    (r.setInteger s n v).getInteger s n d = v := by
  unfold Reader.setInteger Reader.getInteger
  rw [(C33_set_string r s n _ s n _).1 rfl, strtol_decimalInt]
  · rfl
  · unfold longMin; omega
  · unfold longMax; omega

/-! ## When two keys are the same key -/

theorem append_dot_inj {a b a' b' : List Char} (ha : '.' ∉ a) (ha' : '.' ∉ a')
    (h : a ++ '.' :: b = a' ++ '.' :: b') : a = a' ∧ b = b' := by
  induction a generalizing a' with
  | nil =>
    cases a' with
    | nil => simpa using h
    | cons c a' =>
      simp only [List.nil_append, List.cons_append, List.cons.injEq] at h
      exact absurd (by simp [← h.1]) ha'
  | cons c a ih =>
    cases a' with
    | nil =>
      simp only [List.nil_append, List.cons_append, List.cons.injEq] at h
      exact absurd (by simp [h.1]) ha
    | cons c' a' =>
      simp only [List.cons_append, List.cons.injEq] at h
      simp only [List.mem_cons, not_or] at ha ha'
      obtain ⟨e1, e2⟩ := ih ha.2 ha'.2 h.2
      exact ⟨by rw [h.1, e1], e2⟩

theorem tolower_dot {c : Char} (h : c.toLower = '.') : c = '.' := by
  rw [← tolower_eq] at h
  unfold tolower at h
  split at h
  · rename_i hc
    exfalso
    obtain ⟨h1, h2⟩ := hc
    have e1 : (65 : Nat) ≤ c.toNat := h1
    have e2 : c.toNat ≤ (90 : Nat) := h2
    have hv : (c.toNat + 32).isValidChar := Or.inl (by omega)
    have : (Char.ofNat (c.toNat + 32)).toNat = c.toNat + 32 := by
      have : Char.ofNat (c.toNat + 32) = Char.ofNatAux (c.toNat + 32) hv := by
        unfold Char.ofNat
        rw [dif_pos hv]
      rw [this]
      rfl
    rw [h] at this
    have : (46 : Nat) = c.toNat + 32 := this
    omega
  · exact h

/-- **C33 (distinct keys)**: section names without a dot keep distinct (section, name) pairs distinct;
a section name containing a dot may collide with another pair. -/
theorem C33_distinct_keys {s n s' n' : List Char} (h : '.' ∉ s) (h' : '.' ∉ s') :
    SameKey s n s' n' ↔ CaseEq s s' ∧ CaseEq n n' := by
  unfold SameKey CaseEq
  simp only [List.map_append, List.map_cons]
  have hd : ('.' : Char).toLower = '.' := by decide
  constructor
  · intro e
    rw [hd] at e
    refine append_dot_inj ?_ ?_ e
    · intro hc
      obtain ⟨c, hc, e⟩ := List.mem_map.1 hc
      rw [tolower_dot e] at hc
      exact h hc
    · intro hc
      obtain ⟨c, hc, e⟩ := List.mem_map.1 hc
      rw [tolower_dot e] at hc
      exact h' hc
  · rintro ⟨e1, e2⟩
    rw [e1, e2]

/-- the collision: section `a.b` name `c`, and section `a` name `b.c` -/
theorem C33_dotted_sections_collide (r : Reader) (d : List Char) (v : List Char) :
    (r.setString ['a', '.', 'b'] ['c'] v).getString ['a'] ['b', '.', 'c'] d = v :=
  (C33_set_string r _ _ v _ _ d).1 rfl

/-- the sample file of `C34.lean`: `NX=128` follows `nx = 64`, and is what `Mesh.Nx` returns -/
example : (Reader.ofBuffer (fileText sampleLines)).getString "Mesh".toList "Nx".toList [] =
    "128".toList :=
  C33_found (d₁ := [("mesh".toList, "nx".toList, "64".toList)]) (d₂ := []) sampleLines_ok
    sampleLines_says (by simp) (by decide) (by decide) []

/-- … and `mesh.ny` is missing, hence the default -/
example : (Reader.ofBuffer (fileText sampleLines)).getInteger "mesh".toList "ny".toList 7 = 7 :=
  (C33_default sampleLines_ok sampleLines_says (by decide) [] 7 true).2.1

end EulerKokkos.Ini
