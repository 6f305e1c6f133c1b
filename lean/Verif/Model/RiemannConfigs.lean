import Verif.Model.Arrays

/-!
# Four-quadrant Riemann problems

Tables of `/repo/src/shared/problems/initRiemannConfig2d.cpp` (copied from the source text by a script) and
`primToCons`, `/repo/src/shared/problems/initRiemannConfig2d.h:57-85`.  States are primitive:
density, pressure, velocity.
-/

namespace EulerKokkos

variable {R : Type} [RealOps R]

/-- `primToCons<2>`, `/repo/src/shared/problems/initRiemannConfig2d.h:57-73` -/
def primToCons2 (U : HS R) (gamma0 : R) : HS R :=
  ⟨U.d, U.p / (gamma0 - lit 1) + U.d * (U.u * U.u + U.v * U.v) * lit (1 / 2), U.u * U.d, U.v * U.d, U.w⟩

/-- `primToCons<3>`, `/repo/src/shared/problems/initRiemannConfig2d.h:74-83` -/
def primToCons3 (U : HS R) (gamma0 : R) : HS R :=
  ⟨U.d, U.p / (gamma0 - lit 1) + U.d * (U.u * U.u + U.v * U.v + U.w * U.w) * lit (1 / 2),
    U.u * U.d, U.v * U.d, U.w * U.d⟩

/-- `case 0`, `/repo/src/shared/problems/initRiemannConfig2d.cpp:24-45` -/
def lax2_0 : Nat → HS R
  | 0 => ⟨lit 1, lit 1, lit 0, lit 0, lit 0⟩
  | 1 => ⟨lit (5197 / 10000), lit (2 / 5), lit (-7259 / 10000), lit 0, lit 0⟩
  | 2 => ⟨lit (67 / 625), lit (439 / 10000), lit (-7259 / 10000), lit (-2809 / 2000), lit 0⟩
  | _ => ⟨lit (2579 / 10000), lit (3 / 20), lit 0, lit (-2809 / 2000), lit 0⟩

/-- `case 1`, `/repo/src/shared/problems/initRiemannConfig2d.cpp:47-68` -/
def lax2_1 : Nat → HS R
  | 0 => ⟨lit 1, lit 1, lit 0, lit 0, lit 0⟩
  | 1 => ⟨lit (5197 / 10000), lit (2 / 5), lit (-7259 / 10000), lit 0, lit 0⟩
  | 2 => ⟨lit 1, lit 1, lit (-7259 / 10000), lit (-7259 / 10000), lit 0⟩
  | _ => ⟨lit (5197 / 10000), lit (2 / 5), lit 0, lit (-7259 / 10000), lit 0⟩

/-- `case 2`, `/repo/src/shared/problems/initRiemannConfig2d.cpp:70-91` -/
def lax2_2 : Nat → HS R
  | 0 => ⟨lit (3 / 2), lit (3 / 2), lit 0, lit 0, lit 0⟩
  | 1 => ⟨lit (5323 / 10000), lit (3 / 10), lit (603 / 500), lit 0, lit 0⟩
  | 2 => ⟨lit (69 / 500), lit (29 / 1000), lit (603 / 500), lit (603 / 500), lit 0⟩
  | _ => ⟨lit (5323 / 10000), lit (3 / 10), lit 0, lit (603 / 500), lit 0⟩

/-- `case 3`, `/repo/src/shared/problems/initRiemannConfig2d.cpp:93-114` -/
def lax2_3 : Nat → HS R
  | 0 => ⟨lit (11 / 10), lit (11 / 10), lit 0, lit 0, lit 0⟩
  | 1 => ⟨lit (1013 / 2000), lit (7 / 20), lit (8939 / 10000), lit 0, lit 0⟩
  | 2 => ⟨lit (11 / 10), lit (11 / 10), lit (8939 / 10000), lit (8939 / 10000), lit 0⟩
  | _ => ⟨lit (1013 / 2000), lit (7 / 20), lit 0, lit (8939 / 10000), lit 0⟩

/-- `case 4`, `/repo/src/shared/problems/initRiemannConfig2d.cpp:116-137` -/
def lax2_4 : Nat → HS R
  | 0 => ⟨lit 1, lit 1, lit (-3 / 4), lit (-1 / 2), lit 0⟩
  | 1 => ⟨lit 2, lit 1, lit (-3 / 4), lit (1 / 2), lit 0⟩
  | 2 => ⟨lit 1, lit 1, lit (3 / 4), lit (1 / 2), lit 0⟩
  | _ => ⟨lit 3, lit 1, lit (3 / 4), lit (-1 / 2), lit 0⟩

/-- `case 5`, `/repo/src/shared/problems/initRiemannConfig2d.cpp:139-160` -/
def lax2_5 : Nat → HS R
  | 0 => ⟨lit 1, lit 1, lit (3 / 4), lit (-1 / 2), lit 0⟩
  | 1 => ⟨lit 2, lit (1 / 2), lit (3 / 4), lit (1 / 2), lit 0⟩
  | 2 => ⟨lit 1, lit 1, lit (-3 / 4), lit (1 / 2), lit 0⟩
  | _ => ⟨lit 3, lit 1, lit (-3 / 4), lit (-1 / 2), lit 0⟩

/-- `case 6`, `/repo/src/shared/problems/initRiemannConfig2d.cpp:162-183` -/
def lax2_6 : Nat → HS R
  | 0 => ⟨lit 1, lit 1, lit (1 / 10), lit (1 / 10), lit 0⟩
  | 1 => ⟨lit (5197 / 10000), lit (2 / 5), lit (-6259 / 10000), lit (1 / 10), lit 0⟩
  | 2 => ⟨lit (4 / 5), lit (2 / 5), lit (1 / 10), lit (1 / 10), lit 0⟩
  | _ => ⟨lit (5197 / 10000), lit (2 / 5), lit (1 / 10), lit (-6259 / 10000), lit 0⟩

/-- `case 7`, `/repo/src/shared/problems/initRiemannConfig2d.cpp:185-206` -/
def lax2_7 : Nat → HS R
  | 0 => ⟨lit (5197 / 10000), lit (2 / 5), lit (1 / 10), lit (1 / 10), lit 0⟩
  | 1 => ⟨lit 1, lit 1, lit (-6259 / 10000), lit (1 / 10), lit 0⟩
  | 2 => ⟨lit (4 / 5), lit 1, lit (1 / 10), lit (1 / 10), lit 0⟩
  | _ => ⟨lit 1, lit 1, lit (1 / 10), lit (-6259 / 10000), lit 0⟩

/-- `case 8`, `/repo/src/shared/problems/initRiemannConfig2d.cpp:208-229` -/
def lax2_8 : Nat → HS R
  | 0 => ⟨lit 1, lit 1, lit 0, lit (3 / 10), lit 0⟩
  | 1 => ⟨lit 2, lit 1, lit 0, lit (-3 / 10), lit 0⟩
  | 2 => ⟨lit (1039 / 1000), lit (2 / 5), lit 0, lit (-8133 / 10000), lit 0⟩
  | _ => ⟨lit (5197 / 10000), lit (2 / 5), lit 0, lit (-4259 / 10000), lit 0⟩

/-- `case 9`, `/repo/src/shared/problems/initRiemannConfig2d.cpp:231-252` -/
def lax2_9 : Nat → HS R
  | 0 => ⟨lit 1, lit 1, lit 0, lit (4297 / 10000), lit 0⟩
  | 1 => ⟨lit (1 / 2), lit 1, lit 0, lit (1519 / 2500), lit 0⟩
  | 2 => ⟨lit (2281 / 10000), lit (3333 / 10000), lit 0, lit (-1519 / 2500), lit 0⟩
  | _ => ⟨lit (2281 / 5000), lit (3333 / 10000), lit 0, lit (-4259 / 10000), lit 0⟩

/-- `case 10`, `/repo/src/shared/problems/initRiemannConfig2d.cpp:254-275` -/
def lax2_10 : Nat → HS R
  | 0 => ⟨lit 1, lit 1, lit (1 / 10), lit 0, lit 0⟩
  | 1 => ⟨lit (5313 / 10000), lit (2 / 5), lit (2069 / 2500), lit 0, lit 0⟩
  | 2 => ⟨lit (4 / 5), lit (2 / 5), lit (1 / 10), lit 0, lit 0⟩
  | _ => ⟨lit (5313 / 10000), lit (2 / 5), lit (1 / 10), lit (1819 / 2500), lit 0⟩

/-- `case 11`, `/repo/src/shared/problems/initRiemannConfig2d.cpp:277-298` -/
def lax2_11 : Nat → HS R
  | 0 => ⟨lit (5313 / 10000), lit (2 / 5), lit 0, lit 0, lit 0⟩
  | 1 => ⟨lit 1, lit 1, lit (1819 / 2500), lit 0, lit 0⟩
  | 2 => ⟨lit (4 / 5), lit 1, lit 0, lit 0, lit 0⟩
  | _ => ⟨lit 1, lit 1, lit 0, lit (1819 / 2500), lit 0⟩

/-- `case 12`, `/repo/src/shared/problems/initRiemannConfig2d.cpp:300-321` -/
def lax2_12 : Nat → HS R
  | 0 => ⟨lit 1, lit 1, lit 0, lit (-3 / 10), lit 0⟩
  | 1 => ⟨lit 2, lit 1, lit 0, lit (3 / 10), lit 0⟩
  | 2 => ⟨lit (17 / 16), lit (2 / 5), lit 0, lit (1629 / 2000), lit 0⟩
  | _ => ⟨lit (5313 / 10000), lit (2 / 5), lit 0, lit (1069 / 2500), lit 0⟩

/-- `case 13`, `/repo/src/shared/problems/initRiemannConfig2d.cpp:323-344` -/
def lax2_13 : Nat → HS R
  | 0 => ⟨lit 2, lit 8, lit 0, lit (-2803 / 5000), lit 0⟩
  | 1 => ⟨lit 1, lit 8, lit 0, lit (-3043 / 2500), lit 0⟩
  | 2 => ⟨lit (296 / 625), lit (26667 / 10000), lit 0, lit (3043 / 2500), lit 0⟩
  | _ => ⟨lit (4737 / 5000), lit (26667 / 10000), lit 0, lit (5803 / 5000), lit 0⟩

/-- `case 14`, `/repo/src/shared/problems/initRiemannConfig2d.cpp:346-367` -/
def lax2_14 : Nat → HS R
  | 0 => ⟨lit 1, lit 1, lit (1 / 10), lit (-3 / 10), lit 0⟩
  | 1 => ⟨lit (5197 / 10000), lit (2 / 5), lit (-6259 / 10000), lit (-3 / 10), lit 0⟩
  | 2 => ⟨lit (4 / 5), lit (2 / 5), lit (1 / 10), lit (-3 / 10), lit 0⟩
  | _ => ⟨lit (5313 / 10000), lit (2 / 5), lit (1 / 10), lit (1069 / 2500), lit 0⟩

/-- `case 15`, `/repo/src/shared/problems/initRiemannConfig2d.cpp:369-390` -/
def lax2_15 : Nat → HS R
  | 0 => ⟨lit (5313 / 10000), lit (2 / 5), lit (1 / 10), lit (1 / 10), lit 0⟩
  | 1 => ⟨lit (5111 / 5000), lit 1, lit (-6179 / 10000), lit (1 / 10), lit 0⟩
  | 2 => ⟨lit (4 / 5), lit 1, lit (1 / 10), lit (1 / 10), lit 0⟩
  | _ => ⟨lit 1, lit 1, lit (1 / 10), lit (2069 / 2500), lit 0⟩

/-- `case 16`, `/repo/src/shared/problems/initRiemannConfig2d.cpp:392-413` -/
def lax2_16 : Nat → HS R
  | 0 => ⟨lit 1, lit 1, lit 0, lit (-2 / 5), lit 0⟩
  | 1 => ⟨lit 2, lit 1, lit 0, lit (-3 / 10), lit 0⟩
  | 2 => ⟨lit (17 / 16), lit (2 / 5), lit 0, lit (429 / 2000), lit 0⟩
  | _ => ⟨lit (5197 / 10000), lit (2 / 5), lit 0, lit (-11259 / 10000), lit 0⟩

/-- `case 17`, `/repo/src/shared/problems/initRiemannConfig2d.cpp:415-436` -/
def lax2_17 : Nat → HS R
  | 0 => ⟨lit 1, lit 1, lit 0, lit 1, lit 0⟩
  | 1 => ⟨lit 2, lit 1, lit 0, lit (-3 / 10), lit 0⟩
  | 2 => ⟨lit (17 / 16), lit (2 / 5), lit 0, lit (429 / 2000), lit 0⟩
  | _ => ⟨lit (5197 / 10000), lit (2 / 5), lit 0, lit (2741 / 10000), lit 0⟩

/-- `case 18`, `/repo/src/shared/problems/initRiemannConfig2d.cpp:438-459` -/
def lax2_18 : Nat → HS R
  | 0 => ⟨lit 1, lit 1, lit 0, lit (3 / 10), lit 0⟩
  | 1 => ⟨lit 2, lit 1, lit 0, lit (-3 / 10), lit 0⟩
  | 2 => ⟨lit (17 / 16), lit (2 / 5), lit 0, lit (429 / 2000), lit 0⟩
  | _ => ⟨lit (5197 / 10000), lit (2 / 5), lit 0, lit (-4259 / 10000), lit 0⟩

/-- `default`, `/repo/src/shared/problems/initRiemannConfig2d.cpp:460-480` -/
def lax2_default : Nat → HS R
  | 0 => ⟨lit 1, lit 1, lit 0, lit 0, lit 0⟩
  | 1 => ⟨lit (5197 / 10000), lit (2 / 5), lit (-7259 / 10000), lit 0, lit 0⟩
  | 2 => ⟨lit (67 / 625), lit (439 / 10000), lit (-7259 / 10000), lit (-2809 / 2000), lit 0⟩
  | _ => ⟨lit (2579 / 10000), lit (3 / 20), lit 0, lit (-2809 / 2000), lit 0⟩

/-- the configurations the source text lists: `some` for each `case` label -/
def lax2 : Int → Option (Nat → HS R)
  | 0 => some lax2_0
  | 1 => some lax2_1
  | 2 => some lax2_2
  | 3 => some lax2_3
  | 4 => some lax2_4
  | 5 => some lax2_5
  | 6 => some lax2_6
  | 7 => some lax2_7
  | 8 => some lax2_8
  | 9 => some lax2_9
  | 10 => some lax2_10
  | 11 => some lax2_11
  | 12 => some lax2_12
  | 13 => some lax2_13
  | 14 => some lax2_14
  | 15 => some lax2_15
  | 16 => some lax2_16
  | 17 => some lax2_17
  | 18 => some lax2_18
  | _ => none

/-- `getRiemannConfig2d(numConfig)`, `/repo/src/shared/problems/initRiemannConfig2d.cpp:10-484`.  `case 18`
(line 438) has no `break`: control falls through into `default`, which overwrites the four states. -/
def getRiemannConfig2d (n : Int) : Nat → HS R :=
  if n = 18 then lax2_default
  else match lax2 n with
    | some c => c
    | none => lax2_default

/-- `case 2`, `/repo/src/shared/problems/initRiemannConfig2d.cpp:505-554` -/
def lax3_2 : Nat → HS R
  | 0 => ⟨lit (5323 / 10000), lit (3 / 10), lit 0, lit 0, lit (603 / 500)⟩
  | 1 => ⟨lit (69 / 500), lit (29 / 1000), lit (603 / 500), lit 0, lit (603 / 500)⟩
  | 2 => ⟨lit (69 / 500), lit (29 / 1000), lit (603 / 500), lit (603 / 500), lit (603 / 500)⟩
  | 3 => ⟨lit (69 / 500), lit (29 / 1000), lit 0, lit (603 / 500), lit (603 / 500)⟩
  | 4 => ⟨lit (3 / 2), lit (3 / 2), lit 0, lit 0, lit 0⟩
  | 5 => ⟨lit (5323 / 10000), lit (3 / 10), lit (603 / 500), lit 0, lit 0⟩
  | 6 => ⟨lit (69 / 500), lit (29 / 1000), lit (603 / 500), lit (603 / 500), lit 0⟩
  | _ => ⟨lit (5323 / 10000), lit (3 / 10), lit 0, lit (603 / 500), lit 0⟩

/-- `case 3`, `/repo/src/shared/problems/initRiemannConfig2d.cpp:556-605` -/
def lax3_3 : Nat → HS R
  | 0 => ⟨lit (11 / 10), lit (11 / 10), lit 0, lit 0, lit 0⟩
  | 1 => ⟨lit (1013 / 2000), lit (7 / 20), lit (8939 / 10000), lit 0, lit 0⟩
  | 2 => ⟨lit (11 / 10), lit (11 / 10), lit (8939 / 10000), lit (8939 / 10000), lit 0⟩
  | 3 => ⟨lit (1013 / 2000), lit (7 / 20), lit 0, lit (8939 / 10000), lit 0⟩
  | 4 => ⟨lit (1013 / 2000), lit (7 / 20), lit 0, lit 0, lit (8939 / 10000)⟩
  | 5 => ⟨lit (11 / 10), lit (11 / 10), lit (8939 / 10000), lit 0, lit (8939 / 10000)⟩
  | 6 => ⟨lit (11 / 10), lit (11 / 10), lit (8939 / 10000), lit (8939 / 10000), lit (8939 / 10000)⟩
  | _ => ⟨lit (1013 / 2000), lit (7 / 20), lit 0, lit (8939 / 10000), lit (8939 / 10000)⟩

/-- `default`, `/repo/src/shared/problems/initRiemannConfig2d.cpp:607-656` -/
def lax3_default : Nat → HS R
  | 0 => ⟨lit (11 / 10), lit (11 / 10), lit 0, lit 0, lit 0⟩
  | 1 => ⟨lit (1013 / 2000), lit (7 / 20), lit (8939 / 10000), lit 0, lit 0⟩
  | 2 => ⟨lit (11 / 10), lit (11 / 10), lit (8939 / 10000), lit (8939 / 10000), lit 0⟩
  | 3 => ⟨lit (1013 / 2000), lit (7 / 20), lit 0, lit (8939 / 10000), lit 0⟩
  | 4 => ⟨lit (1013 / 2000), lit (7 / 20), lit 0, lit 0, lit (8939 / 10000)⟩
  | 5 => ⟨lit (11 / 10), lit (11 / 10), lit (8939 / 10000), lit 0, lit (8939 / 10000)⟩
  | 6 => ⟨lit (11 / 10), lit (11 / 10), lit (8939 / 10000), lit (8939 / 10000), lit (8939 / 10000)⟩
  | _ => ⟨lit (1013 / 2000), lit (7 / 20), lit 0, lit (8939 / 10000), lit (8939 / 10000)⟩

/-- `getRiemannConfig3d(numConfig)`, `/repo/src/shared/problems/initRiemannConfig2d.cpp:488-659` -/
def getRiemannConfig3d (n : Int) : Nat → HS R :=
  if n = 2 then lax3_2 else if n = 3 then lax3_3 else lax3_default

end EulerKokkos
