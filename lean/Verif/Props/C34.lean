import Verif.Lemmas.Ini

/-!
# C34, C35 — the INI parser recovers what a file says, in both builds
-/

set_option linter.unusedSimpArgs false

namespace EulerKokkos.Ini
open Spec

variable {σ : Type}

theorem parseLines_spec {h : Handler σ} (hh : Succeeds h) (ls : List Line) (hl : ∀ l ∈ ls, l.OK)
    (x : Ctx) (k e : Nat) (u : σ) :
    (parseLines h (ls.map Line.render) ⟨x.sec, x.last, k, e, u⟩).user =
      (events x ls).foldl (report h) u ∧
    (parseLines h (ls.map Line.render) ⟨x.sec, x.last, k, e, u⟩).error =
      if e = 0 then firstBad x k ls else e := by
  induction ls generalizing x k e u with
  | nil => simp [parseLines, events, firstBad]
  | cons l ls ih =>
    simp only [parseLines, List.map_cons, List.foldl_cons]
    rw [parseLine_render hh (hl l (by simp))]
    obtain ⟨i1, i2⟩ := ih (fun l h => hl l (by simp [h])) (l.effect x).1 (k + 1)
      (if (l.effect x).2.2 = true ∧ e = 0 then k + 1 else e)
      ((l.effect x).2.1.toList.foldl (report h) u)
    refine ⟨?_, ?_⟩
    · rw [events, List.foldl_append]
      exact i1
    · rw [firstBad]
      refine i2.trans ?_
      by_cases h1 : (l.effect x).2.2 = true <;> by_cases h2 : e = 0 <;> simp [h1, h2]

theorem getLines_fileText {ls : List Line} (hl : ∀ l ∈ ls, l.OK) :
    getLines (fileText ls) = ls.map Line.render := by
  induction ls with
  | nil => exact getLines_nil
  | cons l ls ih =>
    have : fileText (l :: ls) = l.render ++ '\n' :: fileText ls := by
      simp [fileText]
    rw [this, getLines_line (hl l (by simp)).1, ih fun l h => hl l (by simp [h])]
    rfl

/-- **C34 (buffer parser, MPI build).** The values reported for a file are exactly those its lines
mean, in order, and the return value is the number of the first malformed line (0: none). -/
theorem C34_parse_buffer {h : Handler σ} (hh : Succeeds h) {ls : List Line}
    (hl : ∀ l ∈ ls, l.OK) (u : σ) :
    iniParseBuffer h (fileText ls) u =
      ((events ⟨[], []⟩ ls).foldl (report h) u, (firstBad ⟨[], []⟩ 0 ls : Int)) := by
  unfold iniParseBuffer
  rw [getLines_fileText hl]
  obtain ⟨h1, h2⟩ := parseLines_spec hh ls hl ⟨[], []⟩ 0 0 u
  simp only [initState, h1, h2, if_true]

/-- **C34 (file parser, serial build)**: the same, provided no line is longer than 198 characters. -/
theorem C34_parse_file {h : Handler σ} (hh : Succeeds h) {ls : List Line}
    (hl : ∀ l ∈ ls, l.OK) (hlen : ∀ l ∈ ls, l.render.length ≤ 198) (u : σ) :
    iniParse h (some (fileText ls)) u =
      ((events ⟨[], []⟩ ls).foldl (report h) u, (firstBad ⟨[], []⟩ 0 ls : Int)) := by
  rw [← C34_parse_buffer hh hl]
  unfold iniParse iniParseBuffer
  simp only
  rw [parse_lines_eq]
  rw [getLines_fileText hl]
  intro l h
  obtain ⟨l', h', rfl⟩ := List.mem_map.1 h
  exact hlen l' h'

/-! ### Every file is generated by the grammar -/

theorem noComment_of_clean {w : Bool} {s : List Char} (h : Clean w s) : NoComment s := by
  intro a x b e
  induction a generalizing s w with
  | nil =>
    subst e
    have := h.2.1
    simp only [and_true] at this
    simpa using this
  | cons c a ih =>
    subst e
    exact ih h.2 rfl

theorem findFrom_props (w : Bool) (c : Option Char) (s : List Char) :
    s = (findFrom w c s).1 ++ (findFrom w c s).2 ∧ (∀ x ∈ (findFrom w c s).1, some x ≠ c) ∧
    Clean w (findFrom w c s).1 ∧
    ((findFrom w c s).2 = [] ∨ ∃ x r, (findFrom w c s).2 = x :: r ∧
      (some x = c ∨ (lastSpace w (findFrom w c s).1 = true ∧ x = ';'))) := by
  induction s generalizing w with
  | nil => simp [findFrom, Clean]
  | cons a s ih =>
    unfold findFrom
    split
    · rename_i h
      exact ⟨rfl, by simp, trivial, Or.inr ⟨a, s, rfl, by simpa [lastSpace] using h⟩⟩
    · rename_i h
      obtain ⟨h1, h2, h3, h4⟩ := ih (isspace a)
      refine ⟨by simp only [List.cons_append, ← h1], ?_, ⟨fun hc => h (Or.inr hc), h3⟩, ?_⟩
      · intro x hx
        rcases List.mem_cons.1 hx with rfl | hx
        · exact fun hc => h (Or.inl hc)
        · exact h2 x hx
      · rcases h4 with h4 | ⟨x, r, e, h4⟩
        · exact Or.inl h4
        · exact Or.inr ⟨x, r, e, by simp only [lastSpace_cons]; exact h4⟩

theorem last_of_lastSpace {a : List Char} (h : lastSpace false a = true) :
    ∃ a' w, a = a' ++ [w] ∧ isspace w = true := by
  unfold lastSpace at h
  cases hl : a.getLast? with
  | none => rw [hl] at h; simp at h
  | some w =>
    rw [hl] at h
    obtain ⟨a', rfl⟩ := List.getLast?_eq_some_iff.1 hl
    exact ⟨a', w, rfl, h⟩

theorem lacks_of {c : Char} {t : List Char}
    (h : ∀ r, (findCharOrComment (some c) t).2 ≠ c :: r) : Lacks c t := by
  obtain ⟨h1, h2, h3, h4⟩ := findFrom_props false (some c) t
  refine ⟨_, _, h1, fun hc => h2 c hc rfl, noComment_of_clean h3, ?_⟩
  rcases h4 with h4 | ⟨x, r, e, h4⟩
  · exact Or.inl h4
  · rcases h4 with h4 | ⟨h4, rfl⟩
    · simp only [Option.some.injEq] at h4
      subst h4
      exact absurd e (h r)
    · obtain ⟨a', w, ha, hw⟩ := last_of_lastSpace h4
      exact Or.inr ⟨a', w, r, ha, hw, e⟩

theorem noComment_prefix {a b : List Char} (h : NoComment (a ++ b)) : NoComment a := by
  intro x w y e
  exact h x w (y ++ b) (by rw [e]; simp)

theorem lastOK_suffix {a b : List Char} (h : LastOK (a ++ b)) : LastOK b := by
  intro c hc
  refine h c ?_
  rw [List.getLast?_append_of_ne_nil _ (by rintro rfl; simp at hc)]
  exact hc

theorem headOK_prefix {a b : List Char} (h : HeadOK (a ++ b)) : HeadOK a := by
  intro c hc
  refine h c ?_
  cases a with
  | nil => simp at hc
  | cons d a => exact hc

theorem body_exists {t : List Char} (hne : t ≠ []) (hh : HeadOK t) (hl : LastOK t) :
    ∃ b : Body, b.OK ∧ b.text = t := by
  cases t with
  | nil => exact absurd rfl hne
  | cons c r =>
    by_cases h1 : c = ';' ∨ c = '#'
    · exact ⟨.comment c r, ⟨hh, hl, h1⟩, rfl⟩
    · push Not at h1
      by_cases h2 : c = '['
      · subst h2
        by_cases h3 : ∃ s, (findCharOrComment (some ']') r).2 = ']' :: s
        · obtain ⟨s, hs⟩ := h3
          obtain ⟨f1, f2, f3, _⟩ := findFrom_props false (some ']') r
          have e : r = (findFrom false (some ']') r).1 ++ ']' :: s := by
            have hs' : (findFrom false (some ']') r).2 = ']' :: s := hs
            rw [hs'] at f1; exact f1
          have ht : Body.text (.heading (findFrom false (some ']') r).1 s) = '[' :: r := by
            simp only [Body.text, ← e]
          refine ⟨.heading (findFrom false (some ']') r).1 s, ⟨?_, ?_, ?_⟩, ht⟩
          · rw [ht]; exact hh
          · rw [ht]; exact hl
          · exact ⟨fun hc => f2 _ hc rfl, noComment_of_clean f3⟩
        · push Not at h3
          exact ⟨.badHeading r, ⟨hh, hl, lacks_of h3⟩, rfl⟩
      · by_cases h3 : ∃ s, (findCharOrComment (some '=') (c :: r)).2 = '=' :: s
        · obtain ⟨s, hs⟩ := h3
          obtain ⟨f1, f2, f3, _⟩ := findFrom_props false (some '=') (c :: r)
          have hs' : (findFrom false (some '=') (c :: r)).2 = '=' :: s := hs
          rw [hs'] at f1
          generalize (findFrom false (some '=') (c :: r)).1 = ng at f1 f2 f3
          obtain ⟨g, hg, eg⟩ := rstrip_split ng
          obtain ⟨g', hg', eg'⟩ := lskip_split s
          have hn := rstrip_last ng
          have hv := lskip_head s
          generalize rstrip ng = n at eg hn
          generalize lskip s = val at eg' hv
          subst eg eg'
          have n1 : '=' ∉ n := fun hc => f2 '=' (by simp [hc]) rfl
          have n2 : NoComment n := noComment_prefix (noComment_of_clean f3)
          have n3 : ∀ a, n.head? = some a → a ≠ ';' ∧ a ≠ '#' ∧ a ≠ '[' := by
            intro a ha
            have : a = c := by
              cases n with
              | nil => simp at ha
              | cons d n =>
                simp only [List.cons_append, List.cons.injEq] at f1
                simp only [List.head?_cons, Option.some.injEq] at ha
                rw [f1.1, ha]
            subst this
            exact ⟨h1.1, h1.2, h2⟩
          obtain ⟨q1, q2, q3, q4⟩ := findFrom_props false none val
          have hlv : LastOK val := by
            rw [f1] at hl
            have := lastOK_suffix hl
            exact lastOK_suffix (a := '=' :: g') (by simpa using this)
          rcases q4 with q4 | ⟨x, t, q5, q4⟩
          · rw [q4, List.append_nil] at q1
            have ht : Body.text (.entry n g g' val none) = c :: r := by
              rw [f1]; rfl
            refine ⟨.entry n g g' val none, ⟨?_, ?_, ?_⟩, ht⟩
            · rw [ht]; exact hh
            · rw [ht]; exact hl
            · exact ⟨n1, n2, hn, n3, hg, hg', hv, hlv, by rw [q1]; exact noComment_of_clean q3,
                trivial⟩
          · rcases q4 with q4 | ⟨q4, rfl⟩
            · simp at q4
            rw [q5] at q1
            generalize (findFrom false none val).1 = vg at q1 q2 q3 q4
            obtain ⟨a', w, ha, hw⟩ := last_of_lastSpace q4
            obtain ⟨g'', hg'', eg''⟩ := rstrip_split vg
            have hv2 := rstrip_last vg
            have hne2 : vg ≠ [] := by rw [ha]; simp
            have hvne : rstrip vg ≠ [] := by
              intro hc
              rw [hc, List.nil_append] at eg''
              cases hvg : vg with
              | nil => exact hne2 hvg
              | cons d vg' =>
                have e1 := hv d (by rw [q1, hvg]; rfl)
                have e2 := hg'' d (by rw [← eg'', hvg]; simp)
                rw [e2] at e1; exact absurd e1 (by simp)
            have hgne : g'' ≠ [] := by
              rintro rfl
              rw [List.append_nil] at eg''
              have := hv2 w (by rw [← eg'', ha]; simp)
              rw [hw] at this; exact absurd this (by simp)
            have ht : Body.text (.entry n g g' (rstrip vg) (some (g'', t))) = c :: r := by
              rw [f1, q1]
              conv_rhs => rw [eg'']
              simp [Body.text]
            refine ⟨.entry n g g' (rstrip vg) (some (g'', t)), ⟨?_, ?_, ?_⟩, ht⟩
            · rw [ht]; exact hh
            · rw [ht]; exact hl
            · refine ⟨n1, n2, hn, n3, hg, hg', ?_, hv2, ?_, hvne, hgne, hg''⟩
              · refine headOK_prefix (b := g'' ++ ';' :: t) ?_
                have : rstrip vg ++ (g'' ++ ';' :: t) = val := by
                  rw [q1]; conv_rhs => rw [eg'']
                  simp
                rw [this]; exact hv
              · refine noComment_prefix (b := g'') ?_
                rw [← eg'']; exact noComment_of_clean q3
        · push Not at h3
          refine ⟨.badEntry (c :: r), ⟨hh, hl, by simp, ?_, lacks_of h3⟩, rfl⟩
          intro a ha
          simp only [List.head?_cons, Option.some.injEq] at ha
          subst ha
          exact ⟨h1.1, h1.2, h2⟩

/-- **C34, completeness of the grammar**: every line of text is a line of the grammar, so the theorems
above speak about every file. -/
theorem C34_every_line {l : List Char} (h1 : '\n' ∉ l) (h2 : '\x00' ∉ l) :
    ∃ L : Line, L.OK ∧ L.render = l := by
  obtain ⟨t, ht, e⟩ := rstrip_split l
  obtain ⟨i, hi, e'⟩ := lskip_split (rstrip l)
  by_cases hb : lskip (rstrip l) = []
  · refine ⟨.blank l, ⟨h1, h2, ?_⟩, rfl⟩
    rw [hb, List.append_nil] at e'
    show Blank l
    rw [e, e']
    intro c hc
    rcases List.mem_append.1 hc with hc | hc
    · exact hi c hc
    · exact ht c hc
  · obtain ⟨b, ob, eb⟩ := body_exists hb (lskip_head _)
      (lastOK_suffix (a := i) (by rw [← e']; exact rstrip_last l))
    have hr : (Line.text i b t).render = l := by
      simp only [Line.render, eb]
      rw [← e', ← e]
    exact ⟨.text i b t, ⟨by rw [hr]; exact h1, by rw [hr]; exact h2, hi, ob, ht⟩, hr⟩

theorem lines_exist (s : List Char) (hs : '\x00' ∉ s) :
    ∃ ls : List Line, (∀ l ∈ ls, l.OK) ∧ getLines s = ls.map Line.render := by
  induction hn : s.length using Nat.strong_induction_on generalizing s with
  | _ n ih =>
    subst hn
    rcases file_cases s with rfl | ⟨hne, hl⟩ | ⟨l, rest, hl, rfl⟩
    · exact ⟨[], by simp, by rw [getLines_nil]; rfl⟩
    · obtain ⟨L, oL, eL⟩ := C34_every_line hl hs
      exact ⟨[L], by simpa using oL, by rw [getLines_last hl hne, List.map_singleton, eL]⟩
    · simp only [List.mem_append, List.mem_cons, not_or] at hs
      obtain ⟨L, oL, eL⟩ := C34_every_line hl hs.1
      obtain ⟨ls, h1, h2⟩ := ih rest.length (by simp; omega) rest hs.2.2 rfl
      refine ⟨L :: ls, ?_, by rw [getLines_line hl, h2, List.map_cons, eL]⟩
      intro l hl
      rcases List.mem_cons.1 hl with rfl | hl
      · exact oL
      · exact h1 l hl

/-- **C34 for every file** (no NUL bytes; last line with or without newline): its lines are lines of
the grammar and the parser reports what they mean. -/
theorem C34_every_file {h : Handler σ} (hh : Succeeds h) {s : List Char} (hs : '\x00' ∉ s) (u : σ) :
    ∃ ls : List Line, (∀ l ∈ ls, l.OK) ∧ getLines s = ls.map Line.render ∧
      iniParseBuffer h s u =
        ((events ⟨[], []⟩ ls).foldl (report h) u, (firstBad ⟨[], []⟩ 0 ls : Int)) := by
  obtain ⟨ls, h1, h2⟩ := lines_exist s hs
  refine ⟨ls, h1, h2, ?_⟩
  unfold iniParseBuffer
  rw [h2]
  obtain ⟨h1, h2⟩ := parseLines_spec hh ls h1 ⟨[], []⟩ 0 0 u
  simp only [initState, h1, h2, if_true]

/-! ### Round trip -/

/-- the handler that collects what is reported -/
def collect : Handler (List (List Char × List Char × List Char)) :=
  fun s n v l => (l ++ [(s, n, v)], true)

theorem collect_foldl (d acc : List (List Char × List Char × List Char)) :
    d.foldl (report collect) acc = acc ++ d := by
  induction d generalizing acc with
  | nil => simp
  | cons e d ih => rw [List.foldl_cons, ih]; simp [report, collect]

theorem says_events {sec : List Char} {ls : List Line} {d : List (List Char × List Char × List Char)}
    (h : Says sec ls d) (last : List Char) (k : Nat) :
    events ⟨sec, last⟩ ls = d ∧ firstBad ⟨sec, last⟩ k ls = 0 := by
  induction h generalizing last k with
  | nil => simp [events, firstBad]
  | blank _ ih =>
    simp only [events, firstBad, Line.effect]
    simpa using ih last (k + 1)
  | comment _ ih =>
    simp only [events, firstBad, Line.effect]
    simpa using ih last (k + 1)
  | heading hn _ ih =>
    simp only [events, firstBad, Line.effect]
    rw [List.take_of_length_le hn]
    simpa using ih [] (k + 1)
  | entry _ ih =>
    rename_i n g g' v c tr ls d _
    simp only [events, firstBad, Line.effect]
    have := ih (n.take 49) (k + 1)
    simpa using this

/-- **C34, round trip.** A file that lists the entries `doc` under section headings of at most 49
characters, unindented, with arbitrary spacing around `=`, blank lines, comment lines and trailing
comments, is read back as exactly `doc`, without error — from a buffer, and from a file whose lines
have at most 198 characters. -/
theorem C34_roundtrip {ls : List Line} {doc : List (List Char × List Char × List Char)}
    (hl : ∀ l ∈ ls, l.OK) (h : Says [] ls doc) :
    iniParseBuffer collect (fileText ls) [] = (doc, 0) ∧
    ((∀ l ∈ ls, l.render.length ≤ 198) →
      iniParse collect (some (fileText ls)) [] = (doc, 0)) := by
  have hc : Succeeds collect := fun _ _ _ _ => rfl
  obtain ⟨e1, e2⟩ := says_events h [] 0
  refine ⟨?_, fun hlen => ?_⟩
  · rw [C34_parse_buffer hc hl, e1, e2, collect_foldl]; simp
  · rw [C34_parse_file hc hl hlen, e1, e2, collect_foldl]; simp

/-! ### Malformed lines -/

theorem events_append (x : Ctx) (a b : List Line) :
    ∃ y, events x (a ++ b) = events x a ++ events y b ∧ ∀ c, events x (a ++ c) = events x a ++ events y c := by
  induction a generalizing x with
  | nil => exact ⟨x, by simp [events], by simp [events]⟩
  | cons l a ih =>
    obtain ⟨y, h1, h2⟩ := ih (l.effect x).1
    refine ⟨y, ?_, fun c => ?_⟩
    · simp only [List.cons_append, events, h1, List.append_assoc]
    · simp only [List.cons_append, events, h2, List.append_assoc]

theorem firstBad_append (x : Ctx) (k : Nat) (a b : List Line) (h : firstBad x k a = 0) :
    ∃ y, firstBad x k (a ++ b) = firstBad y (k + a.length) b := by
  induction a generalizing x k with
  | nil => exact ⟨x, by simp⟩
  | cons l a ih =>
    rw [firstBad] at h
    split at h
    · omega
    · rename_i hl
      obtain ⟨y, hy⟩ := ih _ _ h
      refine ⟨y, ?_⟩
      rw [List.cons_append, firstBad, if_neg hl, hy, List.length_cons]
      congr 1; omega

/-- **C34, malformed lines.** An unindented line `[...` without `]`, or without `=`, changes none of the
other values; if it is the first malformed line its number is returned. -/
theorem C34_malformed {h : Handler σ} (hh : Succeeds h) {a b : List Line} {B : Body}
    {tr : List Char} (hB : (∃ t, B = .badHeading t) ∨ ∃ t, B = .badEntry t)
    (hl : ∀ l ∈ a ++ [.text [] B tr] ++ b, l.OK) (u : σ) :
    (iniParseBuffer h (fileText (a ++ [.text [] B tr] ++ b)) u).1 =
      (iniParseBuffer h (fileText (a ++ b)) u).1 ∧
    ((iniParseBuffer h (fileText a) u).2 = 0 →
      (iniParseBuffer h (fileText (a ++ [.text [] B tr] ++ b)) u).2 = a.length + 1) := by
  have ha : ∀ l ∈ a, l.OK := fun l h => hl l (by simp [h])
  have hab : ∀ l ∈ a ++ b, l.OK := by
    intro l h
    refine hl l ?_
    rcases List.mem_append.1 h with h | h <;> simp [h]
  have heff : ∀ y : Ctx, Line.effect y (.text [] B tr) = (y, none, true) := by
    intro y
    rcases hB with ⟨t, rfl⟩ | ⟨t, rfl⟩ <;> simp [Line.effect]
  rw [C34_parse_buffer hh hl, C34_parse_buffer hh hab, C34_parse_buffer hh ha]
  refine ⟨?_, fun h0 => ?_⟩
  · simp only [List.append_assoc]
    obtain ⟨y, _, h2⟩ := events_append ⟨[], []⟩ a b
    rw [h2, h2, List.singleton_append, events, heff]
    simp
  · simp only [Int.natCast_eq_zero] at h0
    obtain ⟨y, hy⟩ := firstBad_append _ _ a ([.text [] B tr] ++ b) h0
    simp only [List.append_assoc]
    rw [hy, List.singleton_append, firstBad, heff]
    simp

/-- **C34, finding: an indented line below an entry replaces its value** — even a comment or another
`name = value` — because `INIReader` keeps the last value reported for a name. -/
theorem C34_indented_line_replaces {h : Handler σ} (hh : Succeeds h) {n g g' v i tr tr' : List Char}
    {c : Option (List Char × List Char)} {B : Body} (hn : n ≠ []) (hn' : n.length ≤ 49) (hi : i ≠ [])
    (h1 : (Line.text [] (.entry n g g' v c) tr).OK) (h2 : (Line.text i B tr').OK) (u : σ) :
    (iniParseBuffer h (fileText [.text [] (.entry n g g' v c) tr, .text i B tr']) u).1 =
      report h (report h u ([], n, v)) ([], n, B.text) := by
  rw [C34_parse_buffer hh (by
    intro l hl
    simp only [List.mem_cons, List.not_mem_nil, or_false] at hl
    rcases hl with rfl | rfl
    · exact h1
    · exact h2)]
  simp [events, Line.effect, List.take_of_length_le hn', hn, hi]

/-! ## C35 -/

/-- **C35.** The file parser (serial build) and the buffer parser (MPI build) give the same reports and
the same return value for every file (NUL bytes included) without lines of more than 198 characters. -/
theorem C35_same_parse (h : Handler σ) {s : List Char} (hs : ∀ l ∈ getLines s, l.length ≤ 198)
    (u : σ) : iniParse h (some s) u = iniParseBuffer h s u := by
  unfold iniParse iniParseBuffer
  simp only
  rw [parse_lines_eq h s hs]

/-- **C35, the configuration of the run**: `broadcast_parameters` of the two builds. -/
theorem C35_same_configuration {s : List Char} (hs : ∀ l ∈ getLines s, l.length ≤ 198) :
    broadcastSerial (some s) = broadcastMpi (some s) := by
  have h : broadcastSerial (some s) = Reader.ofBuffer s := by
    unfold broadcastSerial Reader.ofFile Reader.ofBuffer
    rw [C35_same_parse valueHandler hs]
  rw [h]
  cases s <;> rfl

/-- a missing file: both builds give the empty configuration; only the serial build reports -1 -/
theorem C35_missing_file : (broadcastSerial none).values = (broadcastMpi none).values ∧
    (broadcastSerial none).error = -1 ∧ (broadcastMpi none).error = 0 := by
  refine ⟨?_, rfl, ?_⟩ <;>
    simp [broadcastSerial, broadcastMpi, Reader.ofFile, Reader.ofBuffer, iniParse, iniParseBuffer,
      getLines_nil, parseLines, initState]

theorem fgets_long {n : Nat} {a b : List Char} (ha : '\n' ∉ a) (hn : a.length = n) :
    fgets n (a ++ b) = (a, b) := by
  induction a generalizing n with
  | nil => subst hn; rfl
  | cons c a ih =>
    subst hn
    simp only [List.mem_cons, not_or] at ha
    simp only [List.length_cons, List.cons_append, fgets]
    rw [if_neg (Ne.symm ha.1), ih ha.2 rfl]

/-- a one-line file `k=aaa…a` with 198 `a`s: 200 characters -/
def longFile : List Char := 'k' :: '=' :: List.replicate 198 'a'

/-- **C35, finding: the bound is sharp.**  With a line of 200 characters the serial build cuts the
value and reports an error on "line 2", the MPI build reads the line as written. -/
theorem C35_long_line_differs :
    (broadcastMpi (some longFile)).getString [] ['k'] [] = List.replicate 198 'a' ∧
    (broadcastMpi (some longFile)).error = 0 ∧
    (broadcastSerial (some longFile)).getString [] ['k'] [] = List.replicate 197 'a' ∧
    (broadcastSerial (some longFile)).error = 2 := by
  have hg : getLines longFile = [longFile] := getLines_last (by decide) (by decide)
  have e : longFile = ('k' :: '=' :: List.replicate 197 'a') ++ ['a'] := by decide +kernel
  have hf : fgetsLines longFile = ['k' :: '=' :: List.replicate 197 'a', ['a']] := by
    have h1 : fgets (maxLine - 1) longFile = ('k' :: '=' :: List.replicate 197 'a', ['a']) := by
      rw [e]; exact fgets_long (by decide +kernel) (by decide +kernel)
    have h2 : fgetsLines ['a'] = [['a']] := fgetsLines_last (by decide) (by decide) (by decide)
    have h3 : fgetsLines longFile =
        (fgets (maxLine - 1) longFile).1 :: fgetsLines (fgets (maxLine - 1) longFile).2 := by
      unfold longFile
      rw [fgetsLines]
    rw [h3, h1, h2]
  have hb : broadcastMpi (some longFile) = Reader.ofBuffer longFile := rfl
  rw [hb]
  unfold broadcastSerial Reader.ofBuffer Reader.ofFile Reader.getString iniParse iniParseBuffer
  rw [hg]
  simp only
  rw [hf]
  refine ⟨by decide +kernel, by decide +kernel, by decide +kernel, by decide +kernel⟩

/-! ## A concrete file

```
# a mesh
[mesh]
nx = 64 ; cells

NX=128
```
-/

/-- the lines of the sample file -/
def sampleLines : List Line :=
  [.text [] (.comment '#' " a mesh".toList) [],
   .text [] (.heading "mesh".toList []) [' '],
   .text [] (.entry "nx".toList [' '] [' '] "64".toList (some ([' '], " cells".toList))) [],
   .blank ['\t'],
   .text [] (.entry "NX".toList [] [] "128".toList none) []]

theorem sampleLines_ok : ∀ l ∈ sampleLines, l.OK := by
  intro l hl
  have nc : ∀ s, Clean false s → NoComment s := fun s h => noComment_of_clean h
  simp only [sampleLines, List.mem_cons, List.not_mem_nil, or_false] at hl
  rcases hl with rfl | rfl | rfl | rfl | rfl
  all_goals refine ⟨by decide, by decide, ?_⟩
  · refine ⟨by simp [Blank], ⟨?_, ?_, Or.inr rfl⟩, by simp [Blank]⟩ <;>
      simp [HeadOK, LastOK, Body.text, isspace]
  · refine ⟨by simp [Blank], ⟨?_, ?_, by decide, nc _ ?_⟩, by simp [Blank, isspace]⟩ <;>
      simp [HeadOK, LastOK, Body.text, isspace, Clean]
  · refine ⟨by simp [Blank], ⟨?_, ?_, by decide, nc _ ?_, ?_, ?_, ?_, ?_, ?_, ?_, nc _ ?_, ?_⟩,
      by simp [Blank]⟩ <;>
      simp [HeadOK, LastOK, Body.text, isspace, Clean, Blank]
  · simp [Blank, isspace]
  · refine ⟨by simp [Blank], ⟨?_, ?_, by decide, nc _ ?_, ?_, ?_, ?_, ?_, ?_, ?_, nc _ ?_, ?_⟩,
      by simp [Blank]⟩ <;>
      simp [HeadOK, LastOK, Body.text, isspace, Clean, Blank]

theorem sampleLines_says : Says [] sampleLines
    [("mesh".toList, "nx".toList, "64".toList), ("mesh".toList, "NX".toList, "128".toList)] :=
  .comment (.heading (by decide) (.entry (.blank (.entry (.nil _)))))

/-- the hypotheses of C34 and C35 are met by the sample file, by both parsers -/
example : iniParse collect (some (fileText sampleLines)) [] =
    ([("mesh".toList, "nx".toList, "64".toList), ("mesh".toList, "NX".toList, "128".toList)], 0) :=
  (C34_roundtrip sampleLines_ok sampleLines_says).2 (by decide)

example : broadcastSerial (some (fileText sampleLines)) = broadcastMpi (some (fileText sampleLines)) :=
  C35_same_configuration (by rw [getLines_fileText sampleLines_ok]; decide)

/-- a malformed line (`oops`) after the heading of the sample file: reported as line 3, and ignored -/
example : (iniParseBuffer collect (fileText (sampleLines.take 2 ++ [.text [] (.badEntry "oops".toList) []] ++
    sampleLines.drop 2)) []).2 = 3 := by
  have hb : Line.OK (.text [] (.badEntry "oops".toList) []) := by
    refine ⟨by decide, by decide, by simp [Blank], ⟨?_, ?_, by decide, ?_, ?_⟩, by simp [Blank]⟩
    · simp [HeadOK, Body.text, isspace]
    · simp [LastOK, Body.text, isspace]
    · simp
    · exact ⟨"oops".toList, [], by simp, by decide, noComment_of_clean (w := false) (by simp [Clean, isspace]),
        Or.inl rfl⟩
  refine (C34_malformed (h := collect) (fun _ _ _ _ => rfl) (Or.inr ⟨_, rfl⟩) ?_ _).2 ?_
  · intro l hl
    simp only [List.append_assoc, List.mem_append, List.mem_singleton] at hl
    rcases hl with hl | rfl | hl
    · exact sampleLines_ok l (List.mem_of_mem_take hl)
    · exact hb
    · exact sampleLines_ok l (List.mem_of_mem_drop hl)
  · rw [C34_parse_buffer (fun _ _ _ _ => rfl) fun l hl => sampleLines_ok l (List.mem_of_mem_take hl)]
    rfl

end EulerKokkos.Ini
