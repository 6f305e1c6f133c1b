import Verif.Model.Ini

/-!
# What a configuration file says

Independent of the parser: the lines of a file are generated by a grammar (`Line.render`), and the
meaning of a line (`Line.effect`) is given on the grammar, not on characters.  Only `isspace` is shared
with the model.
-/

namespace EulerKokkos.Ini.Spec

/-- no `;` preceded by whitespace -/
def NoComment (s : List Char) : Prop := ∀ a w b, s = a ++ w :: ';' :: b → isspace w = false

/-- only whitespace -/
def Blank (s : List Char) : Prop := ∀ c ∈ s, isspace c = true

/-- does not start with whitespace -/
def HeadOK (s : List Char) : Prop := ∀ c, s.head? = some c → isspace c = false

/-- does not end with whitespace -/
def LastOK (s : List Char) : Prop := ∀ c, s.getLast? = some c → isspace c = false

/-- the visible part of a non-blank line -/
inductive Body
  /-- `; text` or `# text` -/
  | comment (mark : Char) (text : List Char)
  /-- `[name] rest` -/
  | heading (name rest : List Char)
  /-- `[text` without closing bracket -/
  | badHeading (text : List Char)
  /-- `name = value` with spaces around `=`, and possibly a comment ` ; text` -/
  | entry (name gap gap' value : List Char) (comment : Option (List Char × List Char))
  /-- a line without `=` -/
  | badEntry (text : List Char)

/-- the characters of the visible part -/
def Body.text : Body → List Char
  | .comment m t => m :: t
  | .heading n r => '[' :: (n ++ ']' :: r)
  | .badHeading t => '[' :: t
  | .entry n g g' v none => n ++ g ++ '=' :: (g' ++ v)
  | .entry n g g' v (some (g'', t)) => n ++ g ++ '=' :: (g' ++ (v ++ (g'' ++ ';' :: t)))
  | .badEntry t => t

/-- the text contains no `c` before a comment starts -/
def Lacks (c : Char) (t : List Char) : Prop :=
  ∃ a b, t = a ++ b ∧ c ∉ a ∧ NoComment a ∧
    (b = [] ∨ ∃ a' w b', a = a' ++ [w] ∧ isspace w = true ∧ b = ';' :: b')

/-- well-formedness of the parts -/
def Body.OK (x : Body) : Prop :=
  HeadOK x.text ∧ LastOK x.text ∧
  match x with
  | .comment m _ => m = ';' ∨ m = '#'
  | .heading n _ => ']' ∉ n ∧ NoComment n
  | .badHeading t => Lacks ']' t
  | .entry n g g' v c =>
    '=' ∉ n ∧ NoComment n ∧ LastOK n ∧ (∀ a, n.head? = some a → a ≠ ';' ∧ a ≠ '#' ∧ a ≠ '[') ∧
    Blank g ∧ Blank g' ∧ HeadOK v ∧ LastOK v ∧ NoComment v ∧
    match c with
    | none => True
    | some (g'', _) => v ≠ [] ∧ g'' ≠ [] ∧ Blank g''
  | .badEntry t => t ≠ [] ∧ (∀ a, t.head? = some a → a ≠ ';' ∧ a ≠ '#' ∧ a ≠ '[') ∧ Lacks '=' t

/-- a line of a file -/
inductive Line
  | blank (space : List Char)
  | text (indent : List Char) (body : Body) (trail : List Char)

/-- the characters of a line (without the newline) -/
def Line.render : Line → List Char
  | .blank s => s
  | .text i b t => i ++ b.text ++ t

/-- well-formed line: a line of text of a file -/
def Line.OK (l : Line) : Prop :=
  '\n' ∉ l.render ∧ '\x00' ∉ l.render ∧
  match l with
  | .blank s => Blank s
  | .text i b t => Blank i ∧ b.OK ∧ Blank t

/-- the section and the name to which an indented line is a continuation -/
structure Ctx where
  sec : List Char
  last : List Char

/-- what a line means: the new context, the value it reports (section, name, value), whether it is
malformed.  Section headings and continued names are cut to 49 characters.  An indented line below an
entry is a continuation: it reports the whole line as a further value of that entry. -/
def Line.effect (x : Ctx) : Line → Ctx × Option (List Char × List Char × List Char) × Bool
  | .blank _ => (x, none, false)
  | .text i b _ =>
    if i ≠ [] ∧ x.last ≠ [] then (x, some (x.sec, x.last, b.text), false)
    else
      match b with
      | .comment _ _ => (x, none, false)
      | .heading n _ => (⟨n.take 49, []⟩, none, false)
      | .badHeading _ => (x, none, true)
      | .entry n _ _ v _ => (⟨x.sec, n.take 49⟩, some (x.sec, n, v), false)
      | .badEntry _ => (x, none, true)

/-- the values reported by the lines of a file, in order -/
def events (x : Ctx) : List Line → List (List Char × List Char × List Char)
  | [] => []
  | l :: ls => (l.effect x).2.1.toList ++ events (l.effect x).1 ls

/-- number of the first malformed line (counting from `n + 1`), 0 if there is none -/
def firstBad (x : Ctx) (n : Nat) : List Line → Nat
  | [] => 0
  | l :: ls => if (l.effect x).2.2 = true then n + 1 else firstBad (l.effect x).1 (n + 1) ls

/-- the text of a file: each line ended by a newline -/
def fileText (ls : List Line) : List Char := ls.flatMap fun l => l.render ++ ['\n']

/-- Lines in which nothing is indented, malformed or cut say what one expects.  `Says sec ls doc`: in
section `sec` the lines `ls` list the entries `doc` (section, name, value), with blank lines, comments,
any spacing and trailing comments. -/
inductive Says : List Char → List Line → List (List Char × List Char × List Char) → Prop
  | nil (sec) : Says sec [] []
  | blank {sec s ls d} : Says sec ls d → Says sec (.blank s :: ls) d
  | comment {sec m t tr ls d} : Says sec ls d → Says sec (.text [] (.comment m t) tr :: ls) d
  | heading {sec n r tr ls d} : n.length ≤ 49 → Says n ls d →
      Says sec (.text [] (.heading n r) tr :: ls) d
  | entry {sec n g g' v c tr ls d} : Says sec ls d →
      Says sec (.text [] (.entry n g g' v c) tr :: ls) ((sec, n, v) :: d)

end EulerKokkos.Ini.Spec
