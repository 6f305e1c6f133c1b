import Verif.Core.Kernel

/-!
# C integers of fixed width

`i32 x` is the result of an `int` operation whose mathematical value is `x`: signed overflow and division by zero are
undefined behaviour, here `none`.  `i64` is the same for `int64_t`.  `launch` is a kernel whose trip count and body are
computed with such integers: its behaviour is defined when that of the trip count and of every iteration is.
-/

namespace EulerKokkos

open Prog (forRange)

/-- a value that must fit in an `int` (32 bits) -/
def i32 (x : Int) : Option Int := if -2147483648 ≤ x ∧ x ≤ 2147483647 then some x else none

/-- a value that must fit in an `int64_t` -/
def i64 (x : Int) : Option Int :=
  if -9223372036854775808 ≤ x ∧ x ≤ 9223372036854775807 then some x else none

/-- `a / b` of two `int`s -/
def div32 (a b : Int) : Option Int := if b = 0 then none else i32 (a.tdiv b)

/-- `a / b` in `int64_t` -/
def div64 (a b : Int) : Option Int := if b = 0 then none else i64 (a.tdiv b)

open Classical in
/-- `parallel_for(RangePolicy(0, n), body)` -/
noncomputable def launch {A R : Type} [DecidableEq A] [Add R] (n : Option Int)
    (body : Int → Option (Prog A R Unit)) : Option (Kern A R) :=
  match n with
  | none => none
  | some n =>
    if ∀ t ∈ range1 n, (body t).isSome then
      some (forRange (range1 n) fun t => (body t).getD (pure ()))
    else none

theorem i32_some {x : Int} (h1 : -2147483648 ≤ x) (h2 : x ≤ 2147483647) : i32 x = some x :=
  if_pos ⟨h1, h2⟩

theorem i32_none {x : Int} (h : 2147483647 < x) : i32 x = none := if_neg (by omega)

theorem i64_some {x : Int} (h1 : -9223372036854775808 ≤ x) (h2 : x ≤ 9223372036854775807) :
    i64 x = some x := if_pos ⟨h1, h2⟩

theorem div32_some {a b : Int} (ha : 0 ≤ a) (ha' : a ≤ 2147483647) (hb : 0 < b) :
    div32 a b = some (a.tdiv b) := by
  have h1 : 0 ≤ a.tdiv b := Int.tdiv_nonneg ha hb.le
  have h2 : a.tdiv b ≤ a := by
    rw [Int.tdiv_eq_ediv_of_nonneg ha]; exact Int.ediv_le_self _ ha
  rw [div32, if_neg (by omega), i32_some (by omega) (by omega)]

theorem div64_some {a b : Int} (ha : 0 ≤ a) (ha' : a ≤ 9223372036854775807) (hb : 0 < b) :
    div64 a b = some (a.tdiv b) := by
  have h1 : 0 ≤ a.tdiv b := Int.tdiv_nonneg ha hb.le
  have h2 : a.tdiv b ≤ a := by
    rw [Int.tdiv_eq_ediv_of_nonneg ha]; exact Int.ediv_le_self _ ha
  rw [div64, if_neg (by omega), i64_some (by omega) (by omega)]

theorem launch_some {A R : Type} [DecidableEq A] [Add R] {n : Option Int} {n' : Int}
    {body : Int → Option (Prog A R Unit)} {body' : Int → Prog A R Unit} (hn : n = some n')
    (h : ∀ t, 0 ≤ t → t < n' → body t = some (body' t)) :
    launch n body = some (forRange (range1 n') body') := by
  subst hn
  unfold launch
  dsimp only
  rw [if_pos]
  · congr 1
    unfold forRange
    funext m m'
    unfold Prog.ParFor
    congr 1
    funext t
    by_cases ht : t ∈ (range1 n' : Set Int)
    · rw [if_pos ht, if_pos ht]
      simp only [Finset.mem_coe, mem_range1] at ht
      dsimp only
      rw [h t ht.1 ht.2]
      rfl
    · rw [if_neg ht, if_neg ht]
  · intro t ht
    rw [mem_range1] at ht
    rw [h t ht.1 ht.2]
    rfl

end EulerKokkos
