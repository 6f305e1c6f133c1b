import Mathlib.Data.EReal.Basic
import Mathlib.Data.Int.Log
import Mathlib.Algebra.Order.Floor.Ring
import Verif.Core.RealOps

/-!
# IEEE 754 arithmetic

The arithmetic `real_t` of the program really has (`/repo/src/shared/real_type.h:26-30`: `double`, or `float` when built
without `EULER_KOKKOS_USE_DOUBLE`): signed zeros, infinities, a NaN, gradual underflow, overflow, every operation correctly rounded to
nearest.  `Rounding` is what the standard says of rounding to nearest with any rule for ties; `binary` is the format with
`p` binary digits and ties to even, `binary64` is `double` and `binary32` is `float`.

Simplifications: one NaN (no payload, no sign); the order in which C's `fmax`/`fmin` treat `+0` and `-0`, which the C
standard leaves open, is fixed; products and sums are not fused.
-/

namespace EulerKokkos.Spec

/-- Rounding to nearest of magnitudes: `grid` are the magnitudes of the format with no upper bound on the exponent, `top` the
largest finite one. -/
structure Rounding where
  grid : Set ℝ
  rnd : ℝ → ℝ
  top : ℝ
  nonneg : ∀ x ∈ grid, 0 ≤ x
  mem : ∀ x, 0 ≤ x → rnd x ∈ grid
  nearest : ∀ x f, 0 ≤ x → f ∈ grid → |x - rnd x| ≤ |x - f|
  zero_mem : (0 : ℝ) ∈ grid
  one_mem : (1 : ℝ) ∈ grid
  two_mem : (2 : ℝ) ∈ grid
  top_mem : top ∈ grid
  two_le_top : 2 ≤ top
  /-- `1e-4` does not underflow -/
  eps_pos : 0 < rnd (1 / 10000)

/-- the finite magnitudes -/
abbrev Rounding.Mag (Φ : Rounding) : Type := { x : ℝ // x ∈ Φ.grid ∧ x ≤ Φ.top }

/-- IEEE 754 data: NaN, the infinities, and the finite numbers with a sign (so `+0` and `-0` differ); `neg = true` is the
sign bit set. -/
inductive Ieee (Φ : Rounding) where
  | nan
  | inf (neg : Bool)
  | fin (neg : Bool) (m : Φ.Mag)

namespace Ieee
variable {Φ : Rounding}

open Classical in
/-- the number nearest to the magnitude `a` (`0 ≤ a`), with sign `neg`; infinite on overflow -/
noncomputable def round (neg : Bool) (a : ℝ) : Ieee Φ :=
  if h : 0 ≤ a ∧ Φ.rnd a ≤ Φ.top then .fin neg ⟨Φ.rnd a, Φ.mem a h.1, h.2⟩ else .inf neg

/-- the real value of a finite number -/
def real (neg : Bool) (m : Φ.Mag) : ℝ := if neg then -m.1 else m.1

/-- the place on the extended real line (irrelevant for NaN) -/
noncomputable def key : Ieee Φ → EReal
  | .nan => 0
  | .inf true => ⊥
  | .inf false => ⊤
  | .fin s m => ((real s m : ℝ) : EReal)

/-- the sign bit is set -/
def negative : Ieee Φ → Bool
  | .nan => false
  | .inf s => s
  | .fin s _ => s

def isNan : Ieee Φ → Bool
  | .nan => true
  | _ => false

open Classical in
/-- `+`: exact sum rounded; an exact zero is `-0` only if both are negative zeros; `inf - inf` is NaN -/
noncomputable def add : Ieee Φ → Ieee Φ → Ieee Φ
  | .nan, _ => .nan
  | .inf _, .nan => .nan
  | .inf s, .inf t => if s = t then .inf s else .nan
  | .inf s, .fin _ _ => .inf s
  | .fin _ _, .nan => .nan
  | .fin _ _, .inf t => .inf t
  | .fin s a, .fin t b =>
    if real s a + real t b = 0 then round (s && t) 0
    else round (decide (real s a + real t b < 0)) |real s a + real t b|

def neg : Ieee Φ → Ieee Φ
  | .nan => .nan
  | .inf s => .inf !s
  | .fin s a => .fin (!s) a

open Classical in
/-- `*`: exact product rounded; `0 * inf` is NaN -/
noncomputable def mul : Ieee Φ → Ieee Φ → Ieee Φ
  | .nan, _ => .nan
  | .inf _, .nan => .nan
  | .inf s, .inf t => .inf (s ^^ t)
  | .inf s, .fin t b => if b.1 = 0 then .nan else .inf (s ^^ t)
  | .fin _ _, .nan => .nan
  | .fin s a, .inf t => if a.1 = 0 then .nan else .inf (s ^^ t)
  | .fin s a, .fin t b => round (s ^^ t) (a.1 * b.1)

open Classical in
/-- `/`: exact quotient rounded; `0/0` and `inf/inf` are NaN, `x/0` is infinite -/
noncomputable def div : Ieee Φ → Ieee Φ → Ieee Φ
  | .nan, _ => .nan
  | .inf _, .nan => .nan
  | .inf _, .inf _ => .nan
  | .inf s, .fin t _ => .inf (s ^^ t)
  | .fin _ _, .nan => .nan
  | .fin s _, .inf t => round (s ^^ t) 0
  | .fin s a, .fin t b =>
    if b.1 = 0 then (if a.1 = 0 then .nan else .inf (s ^^ t)) else round (s ^^ t) (a.1 / b.1)

open Classical in
/-- `sqrt`: exact root rounded; `sqrt (-0)` is `-0`, the root of another negative number is NaN -/
noncomputable def sqrt : Ieee Φ → Ieee Φ
  | .nan => .nan
  | .inf s => if s then .nan else .inf false
  | .fin s a => if a.1 = 0 then .fin s a else if s then .nan else round false (Real.sqrt a.1)

open Classical in
/-- `<`, false on NaN; `-0` and `+0` are equal -/
noncomputable def lt (a b : Ieee Φ) : Bool := !a.isNan && !b.isNan && decide (a.key < b.key)
open Classical in
noncomputable def le (a b : Ieee Φ) : Bool := !a.isNan && !b.isNan && decide (a.key ≤ b.key)
open Classical in
noncomputable def beq (a b : Ieee Φ) : Bool := !a.isNan && !b.isNan && decide (a.key = b.key)

/-- C `fmax`: the other argument if one is NaN -/
noncomputable def fmax (a b : Ieee Φ) : Ieee Φ :=
  if a.isNan then b else if b.isNan then a else if lt a b then b else a
/-- C `fmin` -/
noncomputable def fmin (a b : Ieee Φ) : Ieee Φ :=
  if a.isNan then b else if b.isNan then a else if lt b a then b else a

/-- the sign bit of the first argument replaced -/
def withSign (s : Bool) : Ieee Φ → Ieee Φ
  | .nan => .nan
  | .inf _ => .inf s
  | .fin _ a => .fin s a

noncomputable instance instOps : RealOps (Ieee Φ) where
  add := add
  sub a b := add a (neg b)
  mul := mul
  div := div
  neg := neg
  lit q := round (decide (q < 0)) |(q : ℝ)|
  fmax := fmax
  fmin := fmin
  fabs := withSign false
  sqrt := sqrt
  lt := lt
  le := le
  beq := beq
  copysign a b := withSign b.negative a

/-- neither a NaN nor the negative zero -/
def Num : Ieee Φ → Prop
  | .nan => False
  | .inf _ => True
  | .fin s m => m.1 = 0 → s = false

/-- a NaN, or the sign bit is clear -/
def Sg (x : Ieee Φ) : Prop := x.isNan = true ∨ x.negative = false

/-- not a NaN, sign bit clear: what the inverse time step of a cell should be -/
def Rate (x : Ieee Φ) : Prop := x.isNan = false ∧ x.negative = false

/-- the lowest finite number, the identity of `Kokkos::Max` (`-DBL_MAX`) -/
def lowest : Ieee Φ := .fin true ⟨Φ.top, Φ.top_mem, le_rfl⟩

end Ieee

/-! ### Binary formats, ties to even -/

/-- the integer nearest to `y`, the even one of two -/
noncomputable def roundEven (y : ℝ) : ℤ :=
  if y - ⌊y⌋ < 1 / 2 then ⌊y⌋ else if 1 / 2 < y - ⌊y⌋ then ⌊y⌋ + 1 else if ⌊y⌋ % 2 = 0 then ⌊y⌋ else ⌊y⌋ + 1

/-- exponent of the unit in the last place of a magnitude with `p` digits and smallest exponent `emin` -/
noncomputable def ulpExp (p : ℕ) (emin : ℤ) (x : ℝ) : ℤ := max emin (Int.log 2 x + 1 - p)

/-- rounding to nearest, ties to even -/
noncomputable def binaryRound (p : ℕ) (emin : ℤ) (x : ℝ) : ℝ :=
  roundEven (x / (2 : ℝ) ^ ulpExp p emin x) * (2 : ℝ) ^ ulpExp p emin x

/-- the magnitudes with `p` binary digits and exponents at least `emin` -/
def binaryGrid (p : ℕ) (emin : ℤ) : Set ℝ :=
  { x | ∃ m e : ℤ, 0 ≤ m ∧ m < 2 ^ p ∧ emin ≤ e ∧ x = m * (2 : ℝ) ^ e }

end EulerKokkos.Spec
