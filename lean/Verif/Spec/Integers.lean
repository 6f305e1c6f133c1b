import Mathlib.Data.List.Forall2

/-!
# Specification: integers as the C language writes them

`digits` optionally signed; a leading `0x` or `0X` means base sixteen, another leading `0` base eight, otherwise base
ten.  Nothing is shared with the model.
-/

namespace EulerKokkos.Ini.Spec

/-- the character `c` is a digit of value `d` (letters of either case) -/
def DigitIs (c : Char) (d : Nat) : Prop :=
  ['0', '1', '2', '3', '4', '5', '6', '7', '8', '9', 'a', 'b', 'c', 'd', 'e', 'f'][d]? = some c ∨
  ['0', '1', '2', '3', '4', '5', '6', '7', '8', '9', 'A', 'B', 'C', 'D', 'E', 'F'][d]? = some c

/-- the value of a list of digits in base `b`, most significant first -/
def valueOf (b : Nat) : List Nat → Nat
  | [] => 0
  | d :: ds => d * b ^ ds.length + valueOf b ds

/-- the characters `s` are the digits `ds` in base `b` -/
def Writes (b : Nat) (s : List Char) (ds : List Nat) : Prop :=
  List.Forall₂ DigitIs s ds ∧ ∀ d ∈ ds, d < b

/-- the text `rest` does not continue a number in base `b` -/
def Stops (b : Nat) (rest : List Char) : Prop :=
  ∀ c ∈ rest.head?, ∀ d < b, ¬ DigitIs c d

/-- the text `s` begins with the number `n`, written without sign -/
inductive Starts : List Char → Nat → Prop
  /-- decimal: does not begin with the digit 0 -/
  | dec {s ds rest} (w : Writes 10 s ds) (h : ∃ d ∈ ds.head?, d ≠ 0) (r : Stops 10 rest) :
      Starts (s ++ rest) (valueOf 10 ds)
  /-- octal: `0` followed by octal digits; just `0` is zero -/
  | oct {s ds rest} (w : Writes 8 s ds) (r : Stops 8 rest)
      (x : ds = [] → ∀ c ∈ rest.head?, c ≠ 'x' ∧ c ≠ 'X') : Starts ('0' :: s ++ rest) (valueOf 8 ds)
  /-- hexadecimal -/
  | hex {s ds rest} {c : Char} (x : c = 'x' ∨ c = 'X') (w : Writes 16 s ds) (h : ds ≠ []) (r : Stops 16 rest) :
      Starts ('0' :: c :: s ++ rest) (valueOf 16 ds)

/-- a sign and its effect -/
inductive Sign : List Char → Int → Prop
  | none : Sign [] 1
  | plus : Sign ['+'] 1
  | minus : Sign ['-'] (-1)

/-- the nearest number that fits in 64 bits -/
def nearestLong (n : Int) : Int := max (-2 ^ 63) (min (2 ^ 63 - 1) n)

end EulerKokkos.Ini.Spec
