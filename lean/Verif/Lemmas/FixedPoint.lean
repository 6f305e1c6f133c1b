import Mathlib.Data.Nat.Sqrt
import Mathlib.Algebra.Order.Floor.Ring
import Mathlib.Data.Rat.Floor
import Mathlib.Tactic.NormNum
import Mathlib.Tactic.Positivity
import Mathlib.Tactic.Linarith
import Verif.Spec.FloatMax

/-!
# An arithmetic with rounding and a NaN that satisfies `MaxLaws`

Fixed point numbers with 20 binary digits after the point and a NaN, products and quotients and roots rounded down.
Not the arithmetic of any machine: it only shows that the hypothesis `MaxLaws` is met by arithmetics that round,
that are not associative and that have a NaN.
-/

namespace EulerKokkos
open Spec

/-- fixed point numbers; `none` is the NaN -/
abbrev Fix : Type := Option Int

namespace Fix

/-- the scale -/
abbrev unit : Int := 1048576

def map₂ (f : Int → Int → Option Int) : Fix → Fix → Fix
  | some a, some b => f a b
  | _, _ => none

instance instOps : RealOps Fix where
  add := map₂ fun a b => some (a + b)
  sub := map₂ fun a b => some (a - b)
  mul := map₂ fun a b => some (a * b / unit)
  div := map₂ fun a b => if b = 0 then none else some (a * unit / b)
  neg := fun a => Option.map (fun x => -x) a
  lit q := some ⌊q * unit⌋
  fmax
    | some a, some b => some (max a b)
    | some a, none => some a
    | none, b => b
  fmin
    | some a, some b => some (min a b)
    | some a, none => some a
    | none, b => b
  fabs a := Option.map (fun x => |x|) a
  sqrt
    | some a => if a < 0 then none else some (Nat.sqrt (a.toNat * 1048576))
    | none => none
  lt
    | some a, some b => decide (a < b)
    | _, _ => false
  le
    | some a, some b => decide (a ≤ b)
    | _, _ => false
  beq
    | some a, some b => decide (a = b)
    | _, _ => false
  copysign
    | some a, some b => if 0 ≤ b then some |a| else some (-|a|)
    | _, _ => none

/-- not a NaN -/
def IsNum (x : Fix) : Prop := ∃ a : Int, x = some a
/-- not negative, or a NaN -/
def Sg (x : Fix) : Prop := ∀ a : Int, x = some a → 0 ≤ a

theorem sg_some {a : Int} : Sg (some a) ↔ 0 ≤ a :=
  ⟨fun h => h a rfl, fun h _ e => by cases e; exact h⟩

theorem sg_none : Sg none := fun _ e => by cases e

theorem sqrt_cases (x : Fix) : RealOps.sqrt x = (none : Option Int) ∨ ∃ n : Nat, RealOps.sqrt x = some (n : Int) := by
  cases x with
  | none => exact .inl rfl
  | some a =>
    by_cases h : a < 0
    · exact .inl (if_pos h)
    · exact .inr ⟨_, if_neg h⟩

theorem floor_eps : ⌊((1 : ℚ) / 10000) * ((unit : Int) : ℚ)⌋ = 104 := by
  rw [Int.floor_eq_iff]; norm_num [unit]

theorem fmax_eps (x : Fix) : ∃ k : Int, 0 ≤ k ∧ fmax x (lit (1 / 10000)) = some k := by
  cases x with
  | none => exact ⟨104, by norm_num, congrArg some floor_eps⟩
  | some a =>
    refine ⟨max a 104, le_max_of_le_right (by norm_num), ?_⟩
    show some (max a ⌊((1 : ℚ) / 10000) * ((unit : Int) : ℚ)⌋) = _
    rw [floor_eps]

theorem maxLaws : MaxLaws Fix IsNum Sg where
  max_num a x ha hx := by
    obtain ⟨a, rfl⟩ := ha
    obtain ⟨x, rfl⟩ := hx
    show some (max a x) = if decide (a < x) = true then some x else some a
    by_cases h : a < x
    · rw [if_pos (decide_eq_true h), max_eq_right h.le]
    · rw [if_neg (by simpa using h), max_eq_left (not_lt.1 h)]
  max_nan a x ha hx _ := by
    obtain ⟨a, rfl⟩ := ha
    cases x with
    | none => rfl
    | some x => exact absurd ⟨x, rfl⟩ hx
  asymm a b ha hb h := by
    obtain ⟨a, rfl⟩ := ha
    obtain ⟨b, rfl⟩ := hb
    have h : a < b := of_decide_eq_true h
    exact decide_eq_false (by omega)
  trans a b c ha hb hc h h' := by
    obtain ⟨a, rfl⟩ := ha
    obtain ⟨b, rfl⟩ := hb
    obtain ⟨c, rfl⟩ := hc
    have h : a < b := of_decide_eq_true h
    have h' : b < c := of_decide_eq_true h'
    exact decide_eq_true (by omega)
  total a b ha hb h h' := by
    obtain ⟨a, rfl⟩ := ha
    obtain ⟨b, rfl⟩ := hb
    have h : ¬ a < b := of_decide_eq_false h
    have h' : ¬ b < a := of_decide_eq_false h'
    exact congrArg some (by omega)
  sg_zero := sg_some.2 (by norm_num)
  sg_speed x y := by
    rcases sqrt_cases x with e | ⟨n, e⟩
    · rw [e]; exact sg_none
    · rw [e]
      cases y with
      | none => exact sg_none
      | some b => exact sg_some.2 (add_nonneg (Int.natCast_nonneg n) (abs_nonneg b))
  sg_add x y hx hy := by
    cases x with
    | none => exact sg_none
    | some a =>
      cases y with
      | none => exact sg_none
      | some b => exact sg_some.2 (add_nonneg (sg_some.1 hx) (sg_some.1 hy))
  sg_mul x y hx hy := by
    cases x with
    | none => exact sg_none
    | some a =>
      cases y with
      | none => exact sg_none
      | some b =>
        exact sg_some.2 (Int.ediv_nonneg (mul_nonneg (sg_some.1 hx) (sg_some.1 hy)) (by norm_num))
  sg_div x y hx hy := by
    cases x with
    | none => exact sg_none
    | some a =>
      cases y with
      | none => exact sg_none
      | some b =>
        by_cases h : b = 0
        · have e : (some a : Option Int) / (some b : Option Int) = (none : Option Int) := if_pos h
          rw [e]; exact sg_none
        · have e : (some a : Option Int) / (some b : Option Int) = (some (a * unit / b) : Option Int) := if_neg h
          rw [e]
          exact sg_some.2 (Int.ediv_nonneg (mul_nonneg (sg_some.1 hx) (by decide)) (sg_some.1 hy))
  sg_min x y hx hy := by
    cases x with
    | none => exact hy
    | some a =>
      cases y with
      | none => exact hx
      | some b => exact sg_some.2 (le_min (sg_some.1 hx) (sg_some.1 hy))
  sg_floor x := by
    obtain ⟨k, hk, e⟩ := fmax_eps x
    rw [e]
    exact sg_some.2 hk
  sg_grav x := by
    obtain ⟨k, hk, e⟩ := fmax_eps x
    rw [e]
    have e1 : (lit 1 : Fix) = some 1048576 := by
      show some ⌊(1 : ℚ) * ((unit : Int) : ℚ)⌋ = _
      rw [one_mul, Int.floor_intCast]
    have e2 : (lit 2 : Fix) = some 2097152 := by
      show some ⌊(2 : ℚ) * ((unit : Int) : ℚ)⌋ = _
      rw [show (2 : ℚ) * ((unit : Int) : ℚ) = ((2097152 : Int) : ℚ) by norm_num [unit], Int.floor_intCast]
    rw [e1, e2]
    have e3 : (some 1048576 : Fix) + (some 2097152 : Fix) * (some k : Fix) = some (1048576 + 2 * k) := by
      show some (1048576 + 2097152 * k / 1048576) = _
      congr 2
      omega
    rw [e3]
    show Sg (map₂ _ (if 1048576 + 2 * k < 0 then none else some _) _)
    rw [if_neg (by omega)]
    refine sg_some.2 ?_
    have : 1048576 ≤ Nat.sqrt ((1048576 + 2 * k).toNat * 1048576) := by
      rw [Nat.le_sqrt]
      exact Nat.mul_le_mul_right _ (by omega)
    omega

end Fix
end EulerKokkos
