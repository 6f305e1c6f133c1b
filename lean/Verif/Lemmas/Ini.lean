import Verif.Spec.Ini
import Mathlib.Data.List.TakeWhile
import Mathlib.Order.Basic

/-!
# Facts about the INI parser
-/

set_option linter.unusedSimpArgs false

namespace EulerKokkos.Ini
open Spec

variable {σ : Type}

/-! ### Lines -/

theorem getLines_line {l : List Char} (hl : '\n' ∉ l) (rest : List Char) :
    getLines (l ++ '\n' :: rest) = l :: getLines rest := by
  have e1 : (l ++ '\n' :: rest).takeWhile (· != '\n') = l := by
    rw [List.takeWhile_append_of_pos]
    · simp
    · intro a ha; simp only [bne_iff_ne, ne_eq]; rintro rfl; exact hl ha
  have e2 : (l ++ '\n' :: rest).dropWhile (· != '\n') = '\n' :: rest := by
    rw [List.dropWhile_append_of_pos]
    · simp
    · intro a ha; simp only [bne_iff_ne, ne_eq]; rintro rfl; exact hl ha
  cases h : l ++ '\n' :: rest with
  | nil => simp at h
  | cons c s =>
    rw [getLines, ← h, e1, e2]
    rfl

theorem getLines_last {l : List Char} (hl : '\n' ∉ l) (hne : l ≠ []) : getLines l = [l] := by
  have h : ∀ a ∈ l, (a != '\n') = true := by
    intro a ha; simp only [bne_iff_ne, ne_eq]; rintro rfl; exact hl ha
  have e1 : l.takeWhile (· != '\n') = l := List.takeWhile_eq_self_iff.2 h
  have e2 : l.dropWhile (· != '\n') = [] := List.dropWhile_eq_nil_iff.2 h
  cases hc : l with
  | nil => exact absurd hc hne
  | cons c s =>
    rw [getLines, ← hc, e1, e2]
    simp [getLines]

theorem getLines_nil : getLines [] = [] := by rw [getLines]

theorem fgets_line {n : Nat} {l : List Char} (hl : '\n' ∉ l) (rest : List Char)
    (hn : l.length < n) : fgets n (l ++ '\n' :: rest) = (l ++ ['\n'], rest) := by
  induction l generalizing n with
  | nil =>
    cases n with
    | zero => simp at hn
    | succ n => simp [fgets]
  | cons c l ih =>
    cases n with
    | zero => simp at hn
    | succ n =>
      simp only [List.mem_cons, not_or] at hl
      simp only [List.cons_append, fgets]
      rw [if_neg (fun h => hl.1 h.symm), ih hl.2 (by simpa using hn)]

theorem fgets_last {n : Nat} {l : List Char} (hl : '\n' ∉ l) (hn : l.length ≤ n) :
    fgets n l = (l, []) := by
  induction l generalizing n with
  | nil => cases n <;> simp [fgets]
  | cons c l ih =>
    cases n with
    | zero => simp at hn
    | succ n =>
      simp only [List.mem_cons, not_or] at hl
      simp only [fgets]
      rw [if_neg (fun h => hl.1 h.symm), ih hl.2 (by simpa using hn)]

theorem fgetsLines_nil : fgetsLines [] = [] := by rw [fgetsLines]

theorem fgetsLines_line {l : List Char} (hl : '\n' ∉ l) (rest : List Char) (hn : l.length ≤ 198) :
    fgetsLines (l ++ '\n' :: rest) = (l ++ ['\n']) :: fgetsLines rest := by
  cases h : l ++ '\n' :: rest with
  | nil => simp at h
  | cons c s =>
    rw [fgetsLines, ← h, fgets_line hl rest (by unfold maxLine; omega)]

theorem fgetsLines_last {l : List Char} (hl : '\n' ∉ l) (hne : l ≠ []) (hn : l.length ≤ 199) :
    fgetsLines l = [l] := by
  cases h : l with
  | nil => exact absurd h hne
  | cons c s =>
    rw [fgetsLines, ← h, fgets_last hl (by unfold maxLine; omega)]
    simp [fgetsLines]

/-- a file is empty, or a last line without newline, or a line and the rest -/
theorem file_cases (s : List Char) : s = [] ∨ (s ≠ [] ∧ '\n' ∉ s) ∨
    ∃ l rest, '\n' ∉ l ∧ s = l ++ '\n' :: rest := by
  induction s with
  | nil => exact Or.inl rfl
  | cons c s ih =>
    right
    by_cases hc : c = '\n'
    · right; exact ⟨[], s, by simp, by simp [hc]⟩
    · rcases ih with rfl | ⟨_, h⟩ | ⟨l, rest, hl, rfl⟩
      · left; simp [Ne.symm hc]
      · left; simp [Ne.symm hc, h]
      · right; exact ⟨c :: l, rest, by simp [Ne.symm hc, hl], rfl⟩

/-! ### Stripping -/

theorem rstrip_append_blank {a b : List Char} (hb : Blank b) : rstrip (a ++ b) = rstrip a := by
  unfold rstrip
  rw [List.reverse_append, List.dropWhile_append_of_pos]
  intro c hc
  exact hb c (List.mem_reverse.1 hc)

theorem rstrip_of_last {a : List Char} (h : LastOK a) : rstrip a = a := by
  unfold rstrip
  have : a.reverse.dropWhile isspace = a.reverse := by
    cases hr : a.reverse with
    | nil => rfl
    | cons c s =>
      have : a.getLast? = some c := by
        rw [List.getLast?_eq_head?_reverse, hr]; rfl
      rw [List.dropWhile_cons_of_neg]
      rw [h c this]; simp
  rw [this, List.reverse_reverse]

theorem rstrip_blank {a : List Char} (h : Blank a) : rstrip a = [] := by
  have := rstrip_append_blank (a := []) h
  simpa [rstrip] using this

theorem lskip_blank_append {a b : List Char} (h : Blank a) : lskip (a ++ b) = lskip b := by
  unfold lskip
  rw [List.dropWhile_append_of_pos]
  exact h

theorem lskip_of_head {a : List Char} (h : HeadOK a) : lskip a = a := by
  unfold lskip
  cases a with
  | nil => rfl
  | cons c s =>
    rw [List.dropWhile_cons_of_neg]
    rw [h c rfl]; simp

theorem rstrip_last (a : List Char) : LastOK (rstrip a) := by
  intro c hc
  unfold rstrip at hc
  rw [List.getLast?_reverse] at hc
  have := List.head?_dropWhile_not isspace a.reverse
  rw [hc] at this
  simpa using this

theorem lskip_head (a : List Char) : HeadOK (lskip a) := by
  intro c hc
  unfold lskip at hc
  have := List.head?_dropWhile_not isspace a
  rw [hc] at this
  simpa using this

theorem rstrip_split (a : List Char) : ∃ t, Blank t ∧ a = rstrip a ++ t := by
  refine ⟨(a.reverse.takeWhile isspace).reverse, ?_, ?_⟩
  · intro c hc
    rw [List.mem_reverse] at hc
    exact List.mem_takeWhile_imp hc
  · unfold rstrip
    rw [← List.reverse_append, List.takeWhile_append_dropWhile, List.reverse_reverse]

theorem lskip_split (a : List Char) : ∃ t, Blank t ∧ a = t ++ lskip a :=
  ⟨a.takeWhile isspace, fun _ hc => List.mem_takeWhile_imp hc,
    (List.takeWhile_append_dropWhile).symm⟩

theorem cstr_of_no_nul {a : List Char} (h : '\x00' ∉ a) : cstr a = a := by
  unfold cstr
  refine List.takeWhile_eq_self_iff.2 fun c hc => ?_
  simp only [bne_iff_ne, ne_eq]
  rintro rfl
  exact h hc

/-- the newline kept by `fgets` makes no difference -/
theorem rstrip_cstr_newline (l : List Char) : rstrip (cstr (l ++ ['\n'])) = rstrip (cstr l) := by
  by_cases h : '\x00' ∈ l
  · have : cstr (l ++ ['\n']) = cstr l := by
      obtain ⟨a, b, rfl⟩ := List.append_of_mem h
      unfold cstr
      simp only [List.append_assoc, List.cons_append, List.takeWhile_append]
      split <;> simp
    rw [this]
  · rw [cstr_of_no_nul h, cstr_of_no_nul (by simp [h])]
    exact rstrip_append_blank (by intro c hc; simp at hc; subst hc; rfl)

theorem parseLine_congr (h : Handler σ) {a b : List Char} (hab : rstrip (cstr a) = rstrip (cstr b))
    (st : PState σ) : parseLine h a st = parseLine h b st := by
  unfold parseLine
  rw [hab]

/-- the two ways of cutting a file into lines agree up to what the parser ignores -/
theorem parse_lines_eq (h : Handler σ) (s : List Char) (hs : ∀ l ∈ getLines s, l.length ≤ 198)
    (st : PState σ) : parseLines h (fgetsLines s) st = parseLines h (getLines s) st := by
  induction hn : s.length using Nat.strong_induction_on generalizing s st with
  | _ n ih =>
    subst hn
    rcases file_cases s with rfl | ⟨hne, hl⟩ | ⟨l, rest, hl, rfl⟩
    · rw [getLines_nil, fgetsLines_nil]
    · rw [getLines_last hl hne] at hs ⊢
      rw [fgetsLines_last hl hne (by have := hs s (by simp); omega)]
    · rw [getLines_line hl] at hs ⊢
      have hlen := hs l (by simp)
      rw [fgetsLines_line hl rest hlen]
      simp only [parseLines, List.foldl_cons]
      rw [parseLine_congr h (rstrip_cstr_newline l)]
      exact ih rest.length (by simp; omega) rest (fun l hl => hs l (by simp [hl])) _ rfl

/-! ### Searching -/

/-- no comment starts, given that the character before was a space (`w`) -/
def Clean (w : Bool) : List Char → Prop
  | [] => True
  | a :: s => ¬ (w = true ∧ a = ';') ∧ Clean (isspace a) s

theorem clean_of {s : List Char} {w : Bool} (h : NoComment s)
    (hw : w = true → s.head? ≠ some ';') : Clean w s := by
  induction s generalizing w with
  | nil => trivial
  | cons a s ih =>
    refine ⟨fun hc => hw hc.1 (by rw [hc.2]; rfl), ih (fun b w c e => h (a :: b) w c (by rw [e]; rfl)) ?_⟩
    intro ha hs
    cases s with
    | nil => simp at hs
    | cons b s =>
      simp only [List.head?_cons, Option.some.injEq] at hs
      subst hs
      rw [h [] a s rfl] at ha
      exact absurd ha (by simp)

/-- is the last character (or, for the empty list, `w`) a space? -/
def lastSpace (w : Bool) (a : List Char) : Bool :=
  match a.getLast? with
  | none => w
  | some c => isspace c

theorem lastSpace_cons (w : Bool) (c : Char) (a : List Char) :
    lastSpace w (c :: a) = lastSpace (isspace c) a := by
  cases a with
  | nil => rfl
  | cons d a =>
    unfold lastSpace
    rw [List.getLast?_cons_cons]
    cases h : (d :: a).getLast? with
    | none => simp at h
    | some y => rfl

theorem findFrom_all {c : Option Char} {a : List Char} {w : Bool} (hc : ∀ x ∈ a, some x ≠ c)
    (h : Clean w a) : findFrom w c a = (a, []) := by
  induction a generalizing w with
  | nil => rfl
  | cons x a ih =>
    unfold findFrom
    rw [if_neg]
    · simp only [ih (fun y hy => hc y (by simp [hy])) h.2]
    · rintro (h1 | h1)
      · exact hc x (by simp) h1
      · exact h.1 h1

theorem findFrom_hit {c : Option Char} {a b : List Char} {x : Char} {w : Bool}
    (hc : ∀ x ∈ a, some x ≠ c) (h : Clean w a)
    (hx : some x = c ∨ (lastSpace w a = true ∧ x = ';')) :
    findFrom w c (a ++ x :: b) = (a, x :: b) := by
  induction a generalizing w with
  | nil =>
    simp only [List.nil_append]
    unfold findFrom
    rw [if_pos]
    simpa [lastSpace] using hx
  | cons y a ih =>
    simp only [List.cons_append]
    unfold findFrom
    rw [if_neg]
    · rw [lastSpace_cons] at hx
      simp only [ih (fun y hy => hc y (by simp [hy])) h.2 hx]
    · rintro (h1 | h1)
      · exact hc y (by simp) h1
      · exact h.1 h1

theorem findFrom_lacks {c : Char} {t : List Char} (h : Lacks c t) (hc : c ≠ ';') :
    ∀ r, (findCharOrComment (some c) t).2 ≠ c :: r := by
  obtain ⟨a, b, rfl, h1, h2, h3⟩ := h
  have hcl : Clean false a := clean_of h2 (by simp)
  have hm : ∀ x ∈ a, some x ≠ some c := by
    rintro x hx ⟨⟩; exact h1 hx
  unfold findCharOrComment
  rcases h3 with rfl | ⟨a', w, b', ha, hw, rfl⟩
  · rw [List.append_nil, findFrom_all hm hcl]; simp
  · rw [findFrom_hit hm hcl (Or.inr ⟨by rw [ha]; simp [lastSpace, hw], rfl⟩)]
    intro r hr
    simp only [List.cons.injEq] at hr
    exact hc hr.1.symm

theorem noComment_append_blank {a g : List Char} (ha : NoComment a) (hg : Blank g) :
    NoComment (a ++ g) := by
  intro x w y e
  have hs : ';' ∉ g := fun h => absurd (hg _ h) (by decide)
  rcases List.append_eq_append_iff.1 e with ⟨z, rfl, hz⟩ | ⟨z, rfl, hz⟩
  · -- a ++ z = x, g = z ++ w :: ';' :: y
    exact absurd (show ';' ∈ g by rw [hz]; simp) hs
  · -- a = x ++ z, w :: ';' :: y = z ++ g
    cases z with
    | nil =>
      simp only [List.nil_append] at hz
      exact absurd (show ';' ∈ g by rw [← hz]; simp) hs
    | cons w' z =>
      simp only [List.cons_append, List.cons.injEq] at hz
      obtain ⟨rfl, hz⟩ := hz
      cases z with
      | nil =>
        simp only [List.nil_append] at hz
        exact absurd (show ';' ∈ g by rw [← hz]; simp) hs
      | cons s z =>
        simp only [List.cons_append, List.cons.injEq] at hz
        obtain ⟨rfl, _⟩ := hz
        exact ha x w z rfl

theorem not_mem_blank {g : List Char} (hg : Blank g) {c : Char} (hc : isspace c = false) : c ∉ g :=
  fun h => by rw [hg c h] at hc; exact absurd hc (by simp)

/-- the name of an entry -/
theorem find_name {n g r : List Char} (h1 : '=' ∉ n) (h2 : NoComment n) (hg : Blank g) :
    findCharOrComment (some '=') (n ++ g ++ '=' :: r) = (n ++ g, '=' :: r) := by
  refine findFrom_hit ?_ (clean_of (noComment_append_blank h2 hg) (by simp)) (Or.inl rfl)
  rintro x hx ⟨⟩
  rcases List.mem_append.1 hx with hx | hx
  · exact h1 hx
  · exact not_mem_blank hg (by decide) hx

/-! ### One line -/

theorem body_head {b : Body} (hb : b.OK) : ∃ c r, b.text = c :: r ∧ isspace c = false := by
  obtain ⟨h1, h2, h3⟩ := hb
  have : b.text ≠ [] := by
    cases b with
    | comment m t => simp [Body.text]
    | heading n r => simp [Body.text]
    | badHeading t => simp [Body.text]
    | entry n g g' v c =>
      rcases c with _ | ⟨g'', t⟩ <;> simp [Body.text]
    | badEntry t => exact h3.1
  cases hb : b.text with
  | nil => exact absurd hb this
  | cons c r => exact ⟨c, r, rfl, h1 c (by rw [hb]; rfl)⟩

/-- what the parser sees of a line of text -/
theorem line_strip {i t : List Char} {b : Body} (hn : '\x00' ∉ i ++ b.text ++ t) (hi : Blank i)
    (hb : b.OK) (ht : Blank t) : rstrip (cstr (i ++ b.text ++ t)) = i ++ b.text ∧
      lskip (i ++ b.text) = b.text := by
  obtain ⟨c, r, e, hc⟩ := body_head hb
  refine ⟨?_, ?_⟩
  · rw [cstr_of_no_nul hn, rstrip_append_blank ht]
    refine rstrip_of_last ?_
    intro d hd
    rw [List.getLast?_append_of_ne_nil _ (by rw [e]; simp)] at hd
    exact hb.2.1 d hd
  · rw [lskip_blank_append hi, lskip_of_head hb.1]

theorem entry_head {n g g' v : List Char} {c : Option (List Char × List Char)}
    (h : (Body.entry n g g' v c).OK) :
    ∃ a r, (Body.entry n g g' v c).text = a :: r ∧ a ≠ ';' ∧ a ≠ '#' ∧ a ≠ '[' := by
  obtain ⟨h1, h2, h3⟩ := h
  cases n with
  | cons a n =>
    rcases c with _ | ⟨g'', t⟩ <;> exact ⟨a, _, rfl, h3.2.2.2.1 a rfl⟩
  | nil =>
    cases g with
    | cons a g =>
      have hs := h3.2.2.2.2.1 a (by simp)
      have : isspace a = false := by
        refine h1 a ?_
        rcases c with _ | ⟨g'', t⟩ <;> rfl
      rw [hs] at this; exact absurd this (by simp)
    | nil =>
      rcases c with _ | ⟨g'', t⟩ <;> exact ⟨'=', _, rfl, by decide⟩

/-- the value of an entry -/
theorem entry_value {n g g' v : List Char} {c : Option (List Char × List Char)}
    (h : (Body.entry n g g' v c).OK) : ∃ after,
    findCharOrComment (some '=') (Body.entry n g g' v c).text = (n ++ g, '=' :: after) ∧
    rstrip (findCharOrComment none (lskip after)).1 = v := by
  obtain ⟨h1, h2, h3, h4, h5, h6, h7, h8, h9, h10, h11, h12⟩ := h
  rcases c with _ | ⟨g'', t⟩
  · refine ⟨g' ++ v, find_name h3 h4 h7, ?_⟩
    rw [lskip_blank_append h8, lskip_of_head h9]
    unfold findCharOrComment
    rw [findFrom_all (by simp) (clean_of h11 (by simp))]
    exact rstrip_of_last h10
  · obtain ⟨hv, hg, hb⟩ := h12
    refine ⟨g' ++ (v ++ (g'' ++ ';' :: t)), find_name h3 h4 h7, ?_⟩
    have hh : HeadOK (v ++ (g'' ++ ';' :: t)) := by
      intro d hd
      cases v with
      | nil => exact absurd rfl hv
      | cons a v => exact h9 d hd
    rw [lskip_blank_append h8, lskip_of_head hh, ← List.append_assoc]
    unfold findCharOrComment
    rw [findFrom_hit (by simp) (clean_of (noComment_append_blank h11 hb) (by simp))]
    · rw [rstrip_append_blank hb]
      exact rstrip_of_last h10
    · refine Or.inr ⟨?_, rfl⟩
      unfold lastSpace
      rw [List.getLast?_append_of_ne_nil _ hg]
      cases hl : g''.getLast? with
      | none => rw [List.getLast?_eq_none_iff] at hl; exact absurd hl hg
      | some d => exact hb d (List.mem_of_getLast? hl)

/-- handlers that never report failure, such as `INIReader::valueHandler` -/
def Succeeds (h : Handler σ) : Prop := ∀ s n v u, (h s n v u).2 = true

/-- apply the handler to a reported value -/
def report (h : Handler σ) (u : σ) (e : List Char × List Char × List Char) : σ :=
  (h e.1 e.2.1 e.2.2 u).1

theorem call_ok {h : Handler σ} (hh : Succeeds h) (n v : List Char) (st : PState σ) :
    st.call h n v = { st with user := report h st.user (st.section_, n, v) } := by
  unfold PState.call report
  have := hh st.section_ n v st.user
  simp [this]

theorem parseLine_render {h : Handler σ} (hh : Succeeds h) {l : Line} (hl : l.OK) (x : Ctx)
    (k e : Nat) (u : σ) :
    parseLine h l.render ⟨x.sec, x.last, k, e, u⟩ =
      ⟨(l.effect x).1.sec, (l.effect x).1.last, k + 1,
        if (l.effect x).2.2 = true ∧ e = 0 then k + 1 else e,
        (l.effect x).2.1.toList.foldl (report h) u⟩ := by
  obtain ⟨_, h0, hl⟩ := hl
  cases l with
  | blank s =>
    have hb : rstrip (cstr s) = [] := by
      rw [cstr_of_no_nul (show '\x00' ∉ s from h0)]; exact rstrip_blank hl
    unfold parseLine
    simp only [Line.render, hb, Line.effect]
    simp [lskip]
  | text i b t =>
    obtain ⟨hi, hb, ht⟩ := hl
    obtain ⟨e1, e2⟩ := line_strip h0 hi hb ht
    obtain ⟨c, r, eb, hc⟩ := body_head hb
    have hne : b.text ≠ [] := by rw [eb]; simp
    unfold parseLine
    simp only [Line.render, e1, e2]
    have hlen : b.text.length < (i ++ b.text).length ↔ i ≠ [] := by
      rw [List.length_append]
      constructor
      · rintro hlt rfl; simp at hlt
      · intro hi; have := List.length_pos_iff.2 hi; omega
    simp only [hlen]
    by_cases hcont : i ≠ [] ∧ x.last ≠ []
    · have hE : Line.effect x (.text i b t) = (x, some (x.sec, x.last, b.text), false) := by
        simp only [Line.effect, if_pos hcont]
      rw [if_pos ⟨hcont.2, hne, hcont.1⟩, call_ok hh]
      simp only [hE]
      simp
    · rw [if_neg (fun hx => hcont ⟨hx.2.2, hx.1⟩)]
      simp only [Line.effect, if_neg hcont]
      cases b with
      | comment m tx =>
        have hm : m = ';' ∨ m = '#' := hb.2.2
        simp only [Body.text, if_pos hm]
        simp
      | heading n rs =>
        obtain ⟨h1, h2⟩ := hb.2.2
        have hf : findCharOrComment (some ']') (n ++ ']' :: rs) = (n, ']' :: rs) := by
          refine findFrom_hit ?_ (clean_of h2 (by simp)) (Or.inl rfl)
          rintro y hy ⟨⟩; exact h1 hy
        simp only [Body.text, hf]
        simp [strncpy0, maxSection]
      | badHeading tx =>
        have hf := findFrom_lacks (show Lacks ']' tx from hb.2.2) (by decide)
        simp only [Body.text]
        cases hr : (findCharOrComment (some ']') tx).2 with
        | nil => simp [hr, PState.fail]
        | cons d s =>
          have : d ≠ ']' := by rintro rfl; exact hf s hr
          simp only [show ¬ ('[' = ';' ∨ '[' = '#') by decide, if_false, if_true]
          simp [PState.fail]
      | entry n g g' v cm =>
        obtain ⟨a, rs, ea, a1, a2, a3⟩ := entry_head hb
        obtain ⟨after, f1, f2⟩ := entry_value hb
        have hname : rstrip (n ++ g) = n := by
          rw [rstrip_append_blank hb.2.2.2.2.2.2.1]
          exact rstrip_of_last hb.2.2.2.2.1
        rw [ea] at f1 ⊢
        simp only [a1, a2, a3, or_self, if_false, f1, f2, hname]
        rw [call_ok hh]
        simp [strncpy0, maxName]
      | badEntry tx =>
        obtain ⟨h1, h2, h3⟩ := hb.2.2
        have hf := findFrom_lacks h3 (by decide)
        cases tx with
        | nil => exact absurd rfl h1
        | cons a tx =>
          obtain ⟨a1, a2, a3⟩ := h2 a rfl
          simp only [Body.text, a1, a2, a3, or_self, if_false]
          cases hr : (findCharOrComment (some '=') (a :: tx)).2 with
          | nil => simp [hr, PState.fail]
          | cons d s =>
            have : d ≠ '=' := by rintro rfl; exact hf s hr
            simp [PState.fail]

end EulerKokkos.Ini
