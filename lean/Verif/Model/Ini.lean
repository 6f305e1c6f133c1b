import Mathlib.Data.List.Basic

/-!
# Configuration files: `ini.cpp`, `INIReader`, `ConfigMap`

Models `/repo/src/utils/config/inih/ini.cpp`, `/repo/src/utils/config/inih/INIReader.cpp` and
`/repo/src/utils/config/ConfigMap.cpp`.

A C string is the list of its characters without the terminating NUL; a file is the list of its
bytes (as `Char`s).  A pointer into the line buffer returned by `lskip`/`find_char_or_comment` is
modelled by the list it points to.  `isspace`/`tolower` are those of the "C" locale.
`istringstream::rdbuf()->pubsetbuf(buffer, size)` is taken to make the stream read the buffer, which
is what libstdc++ does (the standard leaves it implementation defined; libc++ ignores the call).
-/

namespace EulerKokkos.Ini

/-- `isspace` -/
def isspace (c : Char) : Bool :=
  c == ' ' || c == '\t' || c == '\n' || c == '\x0b' || c == '\x0c' || c == '\r'

/-- the C string stored in an array of characters: up to the first NUL -/
def cstr (s : List Char) : List Char := s.takeWhile (· != '\x00')

/-- `rstrip`, `ini.cpp:26-33`: strip whitespace off the end -/
def rstrip (s : List Char) : List Char := (s.reverse.dropWhile isspace).reverse

/-- `lskip`, `ini.cpp:36-42`: skip leading whitespace -/
def lskip (s : List Char) : List Char := s.dropWhile isspace

/-- the loop of `find_char_or_comment`, `ini.cpp:47-57`: the characters before, and from, the first
`c` or whitespace-preceded `;`.  `none` stands for `c = '\0'`. -/
def findFrom (wasSpace : Bool) (c : Option Char) : List Char → List Char × List Char
  | [] => ([], [])
  | a :: s =>
    if some a = c ∨ (wasSpace = true ∧ a = ';') then ([], a :: s)
    else
      let r := findFrom (isspace a) c s
      (a :: r.1, r.2)

/-- `find_char_or_comment` -/
def findCharOrComment (c : Option Char) (s : List Char) : List Char × List Char :=
  findFrom false c s

/-- `strncpy0(dest, src, size)`, `ini.cpp:60-66` -/
def strncpy0 (src : List Char) (size : Nat) : List Char := src.take (size - 1)

/-- `MAX_LINE`, `MAX_SECTION`, `MAX_NAME`, `ini.cpp:22-24` -/
def maxLine : Nat := 200
def maxSection : Nat := 50
def maxName : Nat := 50

/-- the `handler` callback with its `user` data: section, name, value; `true`: success -/
abbrev Handler (σ : Type) := List Char → List Char → List Char → σ → σ × Bool

/-- the local variables of the parser -/
structure PState (σ : Type) where
  section_ : List Char
  prevName : List Char
  lineno : Nat
  error : Nat
  user : σ

variable {σ : Type}

/-- `if (!handler(...) && !error) error = lineno;` -/
def PState.call (h : Handler σ) (name value : List Char) (st : PState σ) : PState σ :=
  let r := h st.section_ name value st.user
  { st with user := r.1, error := if r.2 = false ∧ st.error = 0 then st.lineno else st.error }

/-- `else if (!error) error = lineno;` -/
def PState.fail (st : PState σ) : PState σ :=
  { st with error := if st.error = 0 then st.lineno else st.error }

/-- Body of the loop over lines, `ini.cpp:96-155` and `:194-256` (the same text twice); `buf` is the
content of the line buffer. -/
def parseLine (h : Handler σ) (buf : List Char) (st0 : PState σ) : PState σ :=
  let st := { st0 with lineno := st0.lineno + 1 }
  let line := rstrip (cstr buf)
  let start := lskip line
  if st.prevName ≠ [] ∧ start ≠ [] ∧ start.length < line.length then
    st.call h st.prevName start
  else
    match start with
    | [] => st
    | c :: rest =>
      if c = ';' ∨ c = '#' then st
      else if c = '[' then
        let e := findCharOrComment (some ']') rest
        match e.2 with
        | ']' :: _ => { st with section_ := strncpy0 e.1 maxSection, prevName := [] }
        | _ => st.fail
      else
        let e := findCharOrComment (some '=') (c :: rest)
        match e.2 with
        | '=' :: after =>
          let name := rstrip e.1
          let value := lskip after
          let e2 := findCharOrComment none value
          let value := rstrip e2.1
          { st with prevName := strncpy0 name maxName }.call h name value
        | _ => st.fail

/-- `fgets(line, n + 1, file)`: at most `n` characters, up to and including a newline -/
def fgets : Nat → List Char → List Char × List Char
  | 0, s => ([], s)
  | _ + 1, [] => ([], [])
  | n + 1, c :: s =>
    if c = '\n' then ([c], s)
    else
      let r := fgets n s
      (c :: r.1, r.2)

theorem fgets_rest (n : Nat) (s : List Char) : (fgets n s).2.length ≤ s.length := by
  induction n generalizing s with
  | zero => simp [fgets]
  | succ n ih =>
    cases s with
    | nil => simp [fgets]
    | cons c s =>
      unfold fgets
      split
      · simp
      · have := ih s
        simp only [List.length_cons]
        omega

theorem fgets_lt (n : Nat) (c : Char) (s : List Char) :
    (fgets (n + 1) (c :: s)).2.length < (c :: s).length := by
  have := fgets_rest n s
  unfold fgets
  split
  · simp
  · simp only [List.length_cons]; omega

/-- the lines seen by `while (fgets(line, sizeof(line), file) != NULL)`, `ini.cpp:94` -/
def fgetsLines : List Char → List (List Char)
  | [] => []
  | c :: s =>
    have : (fgets (maxLine - 1) (c :: s)).2.length < (c :: s).length := fgets_lt 198 c s
    (fgets (maxLine - 1) (c :: s)).1 :: fgetsLines (fgets (maxLine - 1) (c :: s)).2
termination_by s => s.length

/-- the lines seen by `std::getline(strs, linestr)`, `ini.cpp:190` -/
def getLines : List Char → List (List Char)
  | [] => []
  | c :: s =>
    (c :: s).takeWhile (· != '\n') :: getLines (((c :: s).dropWhile (· != '\n')).drop 1)
termination_by s => s.length
decreasing_by
  simp only [List.length_drop, List.length_cons]
  have := (List.dropWhile_sublist (l := c :: s) (· != '\n')).length_le
  simp only [List.length_cons] at this
  omega

/-- the local variables at the start, `ini.cpp:81-91` -/
def initState (u : σ) : PState σ := ⟨[], [], 0, 0, u⟩

/-- the loop over the lines -/
def parseLines (h : Handler σ) (lines : List (List Char)) (st : PState σ) : PState σ :=
  lines.foldl (fun st l => parseLine h l st) st

/-- `ini_parse`, `ini.cpp:71-161`: the user data and the return value; `none` is a file that cannot be
opened. -/
def iniParse (h : Handler σ) (file : Option (List Char)) (u : σ) : σ × Int :=
  match file with
  | none => (u, -1)
  | some s =>
    let st := parseLines h (fgetsLines s) (initState u)
    (st.user, st.error)

/-- `ini_parse_buffer`, `ini.cpp:166-263` -/
def iniParseBuffer (h : Handler σ) (buffer : List Char) (u : σ) : σ × Int :=
  let st := parseLines h (getLines buffer) (initState u)
  (st.user, st.error)

/-! ### INIReader -/

/-- `std::map<std::string, std::string>` -/
abbrev Values := List Char → Option (List Char)

/-- `_values[key] = value` -/
def Values.set (m : Values) (key value : List Char) : Values :=
  fun k => if k = key then some value else m k

/-- an `INIReader`/`ConfigMap` object -/
structure Reader where
  values : Values
  error : Int

/-- `tolower` -/
def tolower (c : Char) : Char :=
  if 'A' ≤ c ∧ c ≤ 'Z' then Char.ofNat (c.toNat + 32) else c

/-- `makeKey`, `INIReader.cpp:99-107` -/
def makeKey (sec name : List Char) : List Char := (sec ++ ['.'] ++ name).map tolower

/-- `valueHandler`, `INIReader.cpp:111-117` -/
def valueHandler : Handler Values :=
  fun sec name value m => (m.set (makeKey sec name) value, true)

/-- `INIReader(std::string filename)`, `INIReader.cpp:17-20` -/
def Reader.ofFile (file : Option (List Char)) : Reader :=
  let r := iniParse valueHandler file (fun _ => none)
  ⟨r.1, r.2⟩

/-- `INIReader(char*& buffer, int buffer_size)`, `INIReader.cpp:24-27` -/
def Reader.ofBuffer (buffer : List Char) : Reader :=
  let r := iniParseBuffer valueHandler buffer (fun _ => none)
  ⟨r.1, r.2⟩

/-- `getString`, `INIReader.cpp:42-48` -/
def Reader.getString (r : Reader) (sec name dflt : List Char) : List Char :=
  (r.values (makeKey sec name)).getD dflt

/-- `setString`, `INIReader.cpp:52-57` -/
def Reader.setString (r : Reader) (sec name value : List Char) : Reader :=
  { r with values := r.values.set (makeKey sec name) value }

/-! `strtol(value, &end, 0)` on a 64-bit `long` (glibc). -/

/-- value of a digit in bases up to 16 -/
def digitVal (c : Char) : Option Nat :=
  if '0' ≤ c ∧ c ≤ '9' then some (c.toNat - '0'.toNat)
  else if 'a' ≤ c ∧ c ≤ 'f' then some (c.toNat - 'a'.toNat + 10)
  else if 'A' ≤ c ∧ c ≤ 'F' then some (c.toNat - 'A'.toNat + 10)
  else none

/-- leading digits in base `b`: their value, and how many were read -/
def digits (b : Nat) (acc n : Nat) : List Char → Nat × Nat
  | [] => (acc, n)
  | c :: s =>
    match digitVal c with
    | some d => if d < b then digits b (acc * b + d) (n + 1) s else (acc, n)
    | none => (acc, n)

def longMax : Int := 9223372036854775807
def longMin : Int := -9223372036854775808

/-- saturation of an out-of-range conversion -/
def clampLong (x : Int) : Int := if x < longMin then longMin else if longMax < x then longMax else x

/-- unsigned part after the sign: base from the prefix; `none`: no conversion.  `0x` without a hex
digit converts just the `0`. -/
def strtolMag (s : List Char) : Option Nat :=
  match s with
  | '0' :: x :: s' =>
    if (x = 'x' ∨ x = 'X') ∧ 0 < (digits 16 0 0 s').2 then some (digits 16 0 0 s').1
    else some (digits 8 0 0 s).1
  | _ => if 0 < (digits 10 0 0 s).2 then some (digits 10 0 0 s).1 else none

/-- `strtol(value, &end, 0)`: `none` when `end == value` -/
def strtol (value : List Char) : Option Int :=
  match lskip value with
  | '-' :: s => (strtolMag s).map fun (n : Nat) => clampLong (-(n : Int))
  | '+' :: s => (strtolMag s).map fun (n : Nat) => clampLong (n : Int)
  | s => (strtolMag s).map fun (n : Nat) => clampLong (n : Int)

/-- `getInteger`, `INIReader.cpp:61-70` -/
def Reader.getInteger (r : Reader) (sec name : List Char) (dflt : Int) : Int :=
  (strtol (cstr (r.getString sec name []))).getD dflt

/-- the digit `d < 10` -/
def digitChar (d : Nat) : Char := Char.ofNat (d + 48)

/-- decimal text of a natural number -/
def decimal (n : Nat) : List Char :=
  if n < 10 then [digitChar n] else decimal (n / 10) ++ [digitChar (n % 10)]

/-- `std::stringstream ss; ss << value;` for a `long` -/
def decimalInt (n : Int) : List Char :=
  if n < 0 then '-' :: decimal n.natAbs else decimal n.natAbs

/-- `setInteger`, `INIReader.cpp:74-81`: decimal text -/
def Reader.setInteger (r : Reader) (sec name : List Char) (value : Int) : Reader :=
  r.setString sec name (decimalInt value)

/-! ### ConfigMap -/

/-- `getBool`, `ConfigMap.cpp:64-83` -/
def Reader.getBool (r : Reader) (sec name : List Char) (dflt : Bool) : Bool :=
  let val := dflt
  let s := r.getString sec name []
  let val := if s = ['1'] ∨ s = ['y','e','s'] ∨ s = ['t','r','u','e'] ∨ s = ['o','n'] then true
    else val
  let val := if s = ['0'] ∨ s = ['n','o'] ∨ s = ['f','a','l','s','e'] ∨ s = ['o','f','f'] then false
    else val
  if s.length = 0 then dflt else val

/-- `setBool`, `ConfigMap.cpp:87-96` -/
def Reader.setBool (r : Reader) (sec name : List Char) (value : Bool) : Reader :=
  if value then r.setString sec name ['t','r','u','e']
  else r.setString sec name ['f','a','l','s','e']

/-- `getFloat`, `ConfigMap.cpp:37-46`; the library function `strtof` (`none`: no conversion) is a
parameter. -/
def Reader.getFloat {R : Type} (strtof : List Char → Option R) (r : Reader) (sec name : List Char)
    (dflt : R) : R :=
  (strtof (cstr (r.getString sec name []))).getD dflt

/-- `broadcast_parameters` of the serial build, `ConfigMap.cpp:168-170` -/
def broadcastSerial (file : Option (List Char)) : Reader := Reader.ofFile file

/-- `broadcast_parameters` of the MPI build on every rank, `ConfigMap.cpp:105-166`: rank 0 reads the
file into a buffer, `MPI_Bcast` of its size and then of its bytes; a buffer of size 0 (empty or missing
file) gives the empty map. -/
def broadcastMpi (file : Option (List Char)) : Reader :=
  match file with
  | some (c :: s) => Reader.ofBuffer (c :: s)
  | _ => Reader.ofBuffer []

end EulerKokkos.Ini
