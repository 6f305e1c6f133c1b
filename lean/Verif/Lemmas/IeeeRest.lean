import Verif.Spec.IeeeRest
import Verif.Lemmas.IeeeTwin
import Verif.Spec.Scheme2D

/-!
# Gas at rest in double precision: Riemann solver, slopes, traces
-/

set_option linter.constructorNameAsVariable false

namespace EulerKokkos
open Spec
namespace Ieee64

theorem hllc_rest {s : Settings Double} {r p : Double} (h : CalmState s r p) {ql qr : HS Double} (hl : AtRest r p ql)
    (hr : AtRest r p qr) : IsZero (riemannHLLC false s ql qr).d ∧ IsZero (riemannHLLC false s ql qr).p ∧
      (riemannHLLC false s ql qr).u = restPressure s r p ∧ IsZero (riemannHLLC false s ql qr).v := by
  obtain ⟨l1, l2, zl, zl'⟩ := hl
  obtain ⟨r1, r2, zr, zr'⟩ := hr
  have e1 : RealOps.fmax r s.smallr = r := fmax_left h.floor_r
  have e2 : RealOps.fmax p (r * s.smallp) = p := fmax_left h.floor_p
  have ec : RealOps.sqrt (RealOps.fmax (s.gamma0 * p / r) (s.smallc * s.smallc)) = restSound s r p := rfl
  have eSL : RealOps.fmin ql.u qr.u - restSound s r p = -restSound s r p := zero_sub_pos h.pos_c (zero_fmin zl zr)
  have eSR : RealOps.fmax ql.u qr.u + restSound s r p = restSound s r p := add_pos h.pos_c (zero_fmax zl zr)
  have eul : ql.u - -restSound s r p = restSound s r p := zero_sub_neg h.pos_c zl
  have eur : restSound s r p - qr.u = restSound s r p := pos_sub h.pos_c zr
  have zp : p - p = lit 0 := sub_self (pos_fin h.pos_p)
  have hus : IsZero ((r * restSound s r p * qr.u + r * restSound s r p * ql.u + lit 0) /
      (r * restSound s r p + r * restSound s r p)) :=
    zero_div (zero_add (zero_add (mul_zero (pos_fin h.rc) zr) (mul_zero (pos_fin h.rc) zl)) zero_lit) h.rcc
  have ePs : (r * restSound s r p * p + r * restSound s r p * p + r * restSound s r p * (r * restSound s r p) *
      (ql.u - qr.u)) / (r * restSound s r p + r * restSound s r p) = restPressure s r p := by
    rw [pos_add h.rcp (mul_zero h.rc2 (zero_sub zl zr))]
    rfl
  have ekr : IsZero (lit (1/2) * r * qr.u * qr.u + lit (1/2) * r * qr.v * qr.v) :=
    zero_add (zero_mul (mul_zero h.half_r zr) (IsZero.fin zr)) (zero_mul (mul_zero h.half_r zr') (IsZero.fin zr'))
  unfold riemannHLLC
  dsimp only
  simp only [l1, l2, r1, r2, e1, e2, ec, fmax_same, eSL, eSR, eul, eur, zp, ePs, Bool.false_eq_true, if_false]
  generalize hu : (r * restSound s r p * qr.u + r * restSound s r p * ql.u + lit 0) /
      (r * restSound s r p + r * restSound s r p) = us at hus
  have eu2 : restSound s r p - us = restSound s r p := pos_sub h.pos_c hus
  have een : p * (lit 1 / (s.gamma0 - lit 1)) + (lit (1/2) * r * qr.u * qr.u + lit (1/2) * r * qr.v * qr.v) =
      restEnergy s p := pos_add (x := restEnergy s p) h.pos_e ekr
  have eet : (restSound s r p * restEnergy s p - p * qr.u + restPressure s r p * us) / restSound s r p =
      restSound s r p * restEnergy s p / restSound s r p := by
    rw [pos_sub h.ce (mul_zero (pos_fin h.pos_p) zr), pos_add h.ce (mul_zero (pos_fin h.pressure) hus)]
  simp only [een, eu2, eet, neg_notgt h.pos_c, zero_notgt hus, pos_gt h.pos_c, Bool.false_eq_true, if_false, if_true]
  have hd : IsZero (r * restSound s r p / restSound s r p * us) := mul_zero h.density hus
  refine ⟨hd, mul_zero h.ep hus, add_pos h.pressure (zero_mul hd (IsZero.fin hus)), ?_⟩
  split
  · exact mul_zero (IsZero.fin hd) zl'
  · exact mul_zero (IsZero.fin hd) zr'

/-- slopes of a state that is at rest like its neighbours -/
theorem slopes_rest {s : Settings Double} {r p : Double} (hs : IsFin s.slope_type) (hr : IsFin r) (hp : IsFin p) {q a b c d : HS Double}
    (hq : AtRest r p q) (ha : AtRest r p a) (hb : AtRest r p b) (hc : AtRest r p c) (hd : AtRest r p d) :
    (∀ x ∈ [(slope2 s q a b c d HS.zero HS.zero).1, (slope2 s q a b c d HS.zero HS.zero).2],
      IsZero x.d ∧ IsZero x.p ∧ IsZero x.u ∧ IsZero x.v) := by
  have z : IsZero (HS.zero : HS Double).d ∧ IsZero (HS.zero : HS Double).p ∧ IsZero (HS.zero : HS Double).u ∧
      IsZero (HS.zero : HS Double).v := ⟨zero_lit, zero_lit, zero_lit, zero_lit⟩
  have hrr : IsZero (r - r) := by rw [sub_self hr]; exact zero_lit
  have hpp : IsZero (p - p) := by rw [sub_self hp]; exact zero_lit
  obtain ⟨q1, q2, q3, q4⟩ := hq
  obtain ⟨a1, a2, a3, a4⟩ := ha
  obtain ⟨b1, b2, b3, b4⟩ := hb
  obtain ⟨c1, c2, c3, c4⟩ := hc
  obtain ⟨d1, d2, d3, d4⟩ := hd
  intro x hx
  unfold slope2 slopeScalar2 at hx
  rw [q1, q2, a1, a2, b1, b2, c1, c2, d1, d2] at hx
  split_ifs at hx
  · simp only [List.mem_cons, List.not_mem_nil, or_false, or_self] at hx
    rw [hx]; exact z
  · simp only [List.mem_cons, List.not_mem_nil, or_false] at hx
    rcases hx with rfl | rfl
    · exact ⟨zero_slope hs hrr hrr hrr, zero_slope hs hpp hpp hpp,
        zero_slope hs (zero_sub q3 b3) (zero_sub a3 q3) (zero_sub a3 b3),
        zero_slope hs (zero_sub q4 b4) (zero_sub a4 q4) (zero_sub a4 b4)⟩
    · exact ⟨zero_slope hs hrr hrr hrr, zero_slope hs hpp hpp hpp,
        zero_slope hs (zero_sub q3 d3) (zero_sub c3 q3) (zero_sub c3 d3),
        zero_slope hs (zero_sub q4 d4) (zero_sub c4 q4) (zero_sub c4 d4)⟩
  · simp only [List.mem_cons, List.not_mem_nil, or_false, or_self] at hx
    rw [hx]; exact z

theorem trace_rest {s : Settings Double} {r p : Double} (h : CalmCell s r p) (hg : IsFin s.gamma0) {q dX dY : HS Double}
    (hq : AtRest r p q) (hX : IsZero dX.d ∧ IsZero dX.p ∧ IsZero dX.u ∧ IsZero dX.v)
    (hY : IsZero dY.d ∧ IsZero dY.p ∧ IsZero dY.u ∧ IsZero dY.v) {tx ty : Double} (htx : IsFin tx) (hty : IsFin ty)
    {f : Face} (hf : f ≠ .zmin ∧ f ≠ .zmax) : AtRest r p (traceAlongDir2 s q dX dY tx ty f) := by
  obtain ⟨q1, q2, q3, q4⟩ := hq
  obtain ⟨x1, x2, x3, x4⟩ := hX
  obtain ⟨y1, y2, y3, y4⟩ := hY
  have fr := pos_fin h.pos_r
  have fp := pos_fin h.pos_p
  have zu := zero_neg q3
  have sr0 : IsZero (-q.u * dX.d - q.v * dY.d - (dX.u + dY.v) * r) :=
    zero_sub (zero_sub (zero_mul zu (IsZero.fin x1)) (zero_mul q4 (IsZero.fin y1))) (zero_mul (zero_add x3 y4) fr)
  have sp0 : IsZero (-q.u * dX.p - q.v * dY.p - (dX.u + dY.v) * s.gamma0 * p) :=
    zero_sub (zero_sub (zero_mul zu (IsZero.fin x2)) (zero_mul q4 (IsZero.fin y2)))
      (zero_mul (zero_mul (zero_add x3 y4) hg) fp)
  have su0 : IsZero (-q.u * dX.u - q.v * dY.u - dX.p / r) :=
    zero_sub (zero_sub (zero_mul zu (IsZero.fin x3)) (zero_mul q4 (IsZero.fin y3))) (zero_div x2 h.pos_r)
  have sv0 : IsZero (-q.u * dX.v - q.v * dY.v - dY.p / r) :=
    zero_sub (zero_sub (zero_mul zu (IsZero.fin x4)) (zero_mul q4 (IsZero.fin y4))) (zero_div y2 h.pos_r)
  have hh := fun {x : Double} (hx : IsZero x) => mul_zero fin_half hx
  have ht := fun {x t : Double} (hx : IsZero x) (ht : IsFin t) => zero_mul (zero_mul hx ht) fin_half
  have e1 : RealOps.fmax s.smallr r = r := fmax_right h.floor_r
  unfold traceAlongDir2
  dsimp only
  rw [q1, q2]
  cases f with
  | zmin => exact absurd rfl hf.1
  | zmax => exact absurd rfl hf.2
  | xmin =>
    refine ⟨?_, ?_, zero_add (zero_sub q3 (hh x3)) (ht su0 htx), zero_add (zero_sub q4 (hh x4)) (ht sv0 htx)⟩
    · dsimp only; rw [pos_sub h.pos_r (hh x1), pos_add h.pos_r (ht sr0 htx), e1]
    · dsimp only; rw [pos_sub h.pos_p (hh x2), pos_add h.pos_p (ht sp0 htx)]
  | xmax =>
    refine ⟨?_, ?_, zero_add (zero_add q3 (hh x3)) (ht su0 htx), zero_add (zero_add q4 (hh x4)) (ht sv0 htx)⟩
    · dsimp only; rw [pos_add h.pos_r (hh x1), pos_add h.pos_r (ht sr0 htx), e1]
    · dsimp only; rw [pos_add h.pos_p (hh x2), pos_add h.pos_p (ht sp0 htx)]
  | ymin =>
    refine ⟨?_, ?_, zero_add (zero_sub q3 (hh y3)) (ht su0 hty), zero_add (zero_sub q4 (hh y4)) (ht sv0 hty)⟩
    · dsimp only; rw [pos_sub h.pos_r (hh y1), pos_add h.pos_r (ht sr0 hty), e1]
    · dsimp only; rw [pos_sub h.pos_p (hh y2), pos_add h.pos_p (ht sp0 hty)]
  | ymax =>
    refine ⟨?_, ?_, zero_add (zero_add q3 (hh y3)) (ht su0 hty), zero_add (zero_add q4 (hh y4)) (ht sv0 hty)⟩
    · dsimp only; rw [pos_add h.pos_r (hh y1), pos_add h.pos_r (ht sr0 hty), e1]
    · dsimp only; rw [pos_add h.pos_p (hh y2), pos_add h.pos_p (ht sp0 hty)]

/-! ## Three dimensions -/

theorem hllc_rest3 {s : Settings Double} {r p : Double} (h : CalmState s r p) {ql qr : HS Double} (hl : AtRest3 r p ql)
    (hr : AtRest3 r p qr) : IsZero (riemannHLLC true s ql qr).d ∧ IsZero (riemannHLLC true s ql qr).p ∧
      (riemannHLLC true s ql qr).u = restPressure s r p ∧ IsZero (riemannHLLC true s ql qr).v ∧
      IsZero (riemannHLLC true s ql qr).w := by
  obtain ⟨⟨l1, l2, zl, zl'⟩, zl''⟩ := hl
  obtain ⟨⟨r1, r2, zr, zr'⟩, zr''⟩ := hr
  have e1 : RealOps.fmax r s.smallr = r := fmax_left h.floor_r
  have e2 : RealOps.fmax p (r * s.smallp) = p := fmax_left h.floor_p
  have ec : RealOps.sqrt (RealOps.fmax (s.gamma0 * p / r) (s.smallc * s.smallc)) = restSound s r p := rfl
  have eSL : RealOps.fmin ql.u qr.u - restSound s r p = -restSound s r p := zero_sub_pos h.pos_c (zero_fmin zl zr)
  have eSR : RealOps.fmax ql.u qr.u + restSound s r p = restSound s r p := add_pos h.pos_c (zero_fmax zl zr)
  have eul : ql.u - -restSound s r p = restSound s r p := zero_sub_neg h.pos_c zl
  have eur : restSound s r p - qr.u = restSound s r p := pos_sub h.pos_c zr
  have zp : p - p = lit 0 := sub_self (pos_fin h.pos_p)
  have hus : IsZero ((r * restSound s r p * qr.u + r * restSound s r p * ql.u + lit 0) /
      (r * restSound s r p + r * restSound s r p)) :=
    zero_div (zero_add (zero_add (mul_zero (pos_fin h.rc) zr) (mul_zero (pos_fin h.rc) zl)) zero_lit) h.rcc
  have ePs : (r * restSound s r p * p + r * restSound s r p * p + r * restSound s r p * (r * restSound s r p) *
      (ql.u - qr.u)) / (r * restSound s r p + r * restSound s r p) = restPressure s r p := by
    rw [pos_add h.rcp (mul_zero h.rc2 (zero_sub zl zr))]
    rfl
  have ekr : IsZero (lit (1/2) * r * qr.u * qr.u + lit (1/2) * r * qr.v * qr.v +
      lit (1/2) * r * qr.w * qr.w) :=
    zero_add (zero_add (zero_mul (mul_zero h.half_r zr) (IsZero.fin zr)) (zero_mul (mul_zero h.half_r zr') (IsZero.fin zr')))
      (zero_mul (mul_zero h.half_r zr'') (IsZero.fin zr''))
  unfold riemannHLLC
  dsimp only
  simp only [l1, l2, r1, r2, e1, e2, ec, fmax_same, eSL, eSR, eul, eur, zp, ePs, if_true]
  generalize hu : (r * restSound s r p * qr.u + r * restSound s r p * ql.u + lit 0) /
      (r * restSound s r p + r * restSound s r p) = us at hus
  have eu2 : restSound s r p - us = restSound s r p := pos_sub h.pos_c hus
  have een : p * (lit 1 / (s.gamma0 - lit 1)) + (lit (1/2) * r * qr.u * qr.u + lit (1/2) * r * qr.v * qr.v +
      lit (1/2) * r * qr.w * qr.w) =
      restEnergy s p := pos_add (x := restEnergy s p) h.pos_e ekr
  have eet : (restSound s r p * restEnergy s p - p * qr.u + restPressure s r p * us) / restSound s r p =
      restSound s r p * restEnergy s p / restSound s r p := by
    rw [pos_sub h.ce (mul_zero (pos_fin h.pos_p) zr), pos_add h.ce (mul_zero (pos_fin h.pressure) hus)]
  simp only [een, eu2, eet, neg_notgt h.pos_c, zero_notgt hus, pos_gt h.pos_c, Bool.false_eq_true, if_false, if_true]
  have hd : IsZero (r * restSound s r p / restSound s r p * us) := mul_zero h.density hus
  refine ⟨hd, mul_zero h.ep hus, add_pos h.pressure (zero_mul hd (IsZero.fin hus)), ?_, ?_⟩
  · split
    · exact mul_zero (IsZero.fin hd) zl'
    · exact mul_zero (IsZero.fin hd) zr'
  · split
    · exact mul_zero (IsZero.fin hd) zl''
    · exact mul_zero (IsZero.fin hd) zr''

/-- slopes of a state that is at rest like its neighbours -/
theorem slopes_rest3 {s : Settings Double} {r p : Double} (hs : IsFin s.slope_type) (hr : IsFin r) (hp : IsFin p)
    {q a b c d e f : HS Double} (hq : AtRest3 r p q) (ha : AtRest3 r p a) (hb : AtRest3 r p b) (hc : AtRest3 r p c)
    (hd : AtRest3 r p d) (he : AtRest3 r p e) (hf : AtRest3 r p f) :
    (∀ x ∈ [(slope3 s q a b c d e f ⟨HS.zero, HS.zero, HS.zero⟩).x, (slope3 s q a b c d e f ⟨HS.zero, HS.zero, HS.zero⟩).y,
      (slope3 s q a b c d e f ⟨HS.zero, HS.zero, HS.zero⟩).z],
      IsZero x.d ∧ IsZero x.p ∧ IsZero x.u ∧ IsZero x.v ∧ IsZero x.w) := by
  have z : IsZero (HS.zero : HS Double).d ∧ IsZero (HS.zero : HS Double).p ∧ IsZero (HS.zero : HS Double).u ∧
      IsZero (HS.zero : HS Double).v ∧ IsZero (HS.zero : HS Double).w := ⟨zero_lit, zero_lit, zero_lit, zero_lit, zero_lit⟩
  have hrr : IsZero (r - r) := by rw [sub_self hr]; exact zero_lit
  have hpp : IsZero (p - p) := by rw [sub_self hp]; exact zero_lit
  obtain ⟨⟨q1, q2, q3, q4⟩, q5⟩ := hq
  obtain ⟨⟨a1, a2, a3, a4⟩, a5⟩ := ha
  obtain ⟨⟨b1, b2, b3, b4⟩, b5⟩ := hb
  obtain ⟨⟨c1, c2, c3, c4⟩, c5⟩ := hc
  obtain ⟨⟨d1, d2, d3, d4⟩, d5⟩ := hd
  obtain ⟨⟨e1, e2, e3, e4⟩, e5⟩ := he
  obtain ⟨⟨f1, f2, f3, f4⟩, f5⟩ := hf
  intro x hx
  unfold slope3 at hx
  dsimp only at hx
  rw [q1, q2, a1, a2, b1, b2, c1, c2, d1, d2, e1, e2, f1, f2] at hx
  split_ifs at hx
  · simp only [List.mem_cons, List.not_mem_nil, or_false, or_self] at hx
    rw [hx]; exact z
  · simp only [List.mem_cons, List.not_mem_nil, or_false] at hx
    rcases hx with rfl | rfl | rfl
    · exact ⟨zero_slope hs hrr hrr hrr, zero_slope hs hpp hpp hpp,
        zero_slope hs (zero_sub q3 b3) (zero_sub a3 q3) (zero_sub a3 b3),
        zero_slope hs (zero_sub q4 b4) (zero_sub a4 q4) (zero_sub a4 b4),
        zero_slope hs (zero_sub q5 b5) (zero_sub a5 q5) (zero_sub a5 b5)⟩
    · exact ⟨zero_slope hs hrr hrr hrr, zero_slope hs hpp hpp hpp,
        zero_slope hs (zero_sub q3 d3) (zero_sub c3 q3) (zero_sub c3 d3),
        zero_slope hs (zero_sub q4 d4) (zero_sub c4 q4) (zero_sub c4 d4),
        zero_slope hs (zero_sub q5 d5) (zero_sub c5 q5) (zero_sub c5 d5)⟩
    · exact ⟨zero_slope hs hrr hrr hrr, zero_slope hs hpp hpp hpp,
        zero_slope hs (zero_sub q3 f3) (zero_sub e3 q3) (zero_sub e3 f3),
        zero_slope hs (zero_sub q4 f4) (zero_sub e4 q4) (zero_sub e4 f4),
        zero_slope hs (zero_sub q5 f5) (zero_sub e5 q5) (zero_sub e5 f5)⟩
  · simp only [List.mem_cons, List.not_mem_nil, or_false, or_self] at hx
    rw [hx]; exact z

theorem trace_rest3 {s : Settings Double} {r p : Double} (h : CalmCell s r p) (hg : IsFin s.gamma0) {q : HS Double}
    {dq : Slopes3 Double} (hq : AtRest3 r p q)
    (hx : IsZero dq.x.d ∧ IsZero dq.x.p ∧ IsZero dq.x.u ∧ IsZero dq.x.v ∧ IsZero dq.x.w)
    (hy : IsZero dq.y.d ∧ IsZero dq.y.p ∧ IsZero dq.y.u ∧ IsZero dq.y.v ∧ IsZero dq.y.w)
    (hz : IsZero dq.z.d ∧ IsZero dq.z.p ∧ IsZero dq.z.u ∧ IsZero dq.z.v ∧ IsZero dq.z.w)
    {tx ty tz : Double} (htx : IsFin tx) (hty : IsFin ty) (htz : IsFin tz)
    {f : Face} : AtRest3 r p (traceAlongDir3 s q dq tx ty tz f) := by
  obtain ⟨⟨q1, q2, q3, q4⟩, q5⟩ := hq
  obtain ⟨x1, x2, x3, x4, x5⟩ := hx
  obtain ⟨y1, y2, y3, y4, y5⟩ := hy
  obtain ⟨z1, z2, z3, z4, z5⟩ := hz
  have fr := pos_fin h.pos_r
  have fp := pos_fin h.pos_p
  have zu := zero_neg q3
  have sr0 : IsZero (-q.u * dq.x.d - q.v * dq.y.d - q.w * dq.z.d - (dq.x.u + dq.y.v + dq.z.w) * r) :=
    zero_sub (zero_sub (zero_sub (zero_mul zu (IsZero.fin x1)) (zero_mul q4 (IsZero.fin y1))) (zero_mul q5 (IsZero.fin z1)))
      (zero_mul (zero_add (zero_add x3 y4) z5) fr)
  have sp0 : IsZero (-q.u * dq.x.p - q.v * dq.y.p - q.w * dq.z.p - (dq.x.u + dq.y.v + dq.z.w) * s.gamma0 * p) :=
    zero_sub (zero_sub (zero_sub (zero_mul zu (IsZero.fin x2)) (zero_mul q4 (IsZero.fin y2))) (zero_mul q5 (IsZero.fin z2)))
      (zero_mul (zero_mul (zero_add (zero_add x3 y4) z5) hg) fp)
  have su0 : IsZero (-q.u * dq.x.u - q.v * dq.y.u - q.w * dq.z.u - dq.x.p / r) :=
    zero_sub (zero_sub (zero_sub (zero_mul zu (IsZero.fin x3)) (zero_mul q4 (IsZero.fin y3))) (zero_mul q5 (IsZero.fin z3)))
      (zero_div x2 h.pos_r)
  have sv0 : IsZero (-q.u * dq.x.v - q.v * dq.y.v - q.w * dq.z.v - dq.y.p / r) :=
    zero_sub (zero_sub (zero_sub (zero_mul zu (IsZero.fin x4)) (zero_mul q4 (IsZero.fin y4))) (zero_mul q5 (IsZero.fin z4)))
      (zero_div y2 h.pos_r)
  have sw0 : IsZero (-q.u * dq.x.w - q.v * dq.y.w - q.w * dq.z.w - dq.z.p / r) :=
    zero_sub (zero_sub (zero_sub (zero_mul zu (IsZero.fin x5)) (zero_mul q4 (IsZero.fin y5))) (zero_mul q5 (IsZero.fin z5)))
      (zero_div z2 h.pos_r)
  have hh := fun {x : Double} (hx : IsZero x) => mul_zero fin_half hx
  have ht := fun {x t : Double} (hx : IsZero x) (ht : IsFin t) => zero_mul (zero_mul hx ht) fin_half
  have e1 : RealOps.fmax s.smallr r = r := fmax_right h.floor_r
  unfold traceAlongDir3
  dsimp only
  rw [q1, q2]
  cases f with
  | xmin =>
    refine ⟨⟨?_, ?_, zero_add (zero_sub q3 (hh x3)) (ht su0 htx), zero_add (zero_sub q4 (hh x4)) (ht sv0 htx)⟩,
      zero_add (zero_sub q5 (hh x5)) (ht sw0 htx)⟩
    · dsimp only; rw [pos_sub h.pos_r (hh x1), pos_add h.pos_r (ht sr0 htx), e1]
    · dsimp only; rw [pos_sub h.pos_p (hh x2), pos_add h.pos_p (ht sp0 htx)]
  | xmax =>
    refine ⟨⟨?_, ?_, zero_add (zero_add q3 (hh x3)) (ht su0 htx), zero_add (zero_add q4 (hh x4)) (ht sv0 htx)⟩,
      zero_add (zero_add q5 (hh x5)) (ht sw0 htx)⟩
    · dsimp only; rw [pos_add h.pos_r (hh x1), pos_add h.pos_r (ht sr0 htx), e1]
    · dsimp only; rw [pos_add h.pos_p (hh x2), pos_add h.pos_p (ht sp0 htx)]
  | ymin =>
    refine ⟨⟨?_, ?_, zero_add (zero_sub q3 (hh y3)) (ht su0 hty), zero_add (zero_sub q4 (hh y4)) (ht sv0 hty)⟩,
      zero_add (zero_sub q5 (hh y5)) (ht sw0 hty)⟩
    · dsimp only; rw [pos_sub h.pos_r (hh y1), pos_add h.pos_r (ht sr0 hty), e1]
    · dsimp only; rw [pos_sub h.pos_p (hh y2), pos_add h.pos_p (ht sp0 hty)]
  | ymax =>
    refine ⟨⟨?_, ?_, zero_add (zero_add q3 (hh y3)) (ht su0 hty), zero_add (zero_add q4 (hh y4)) (ht sv0 hty)⟩,
      zero_add (zero_add q5 (hh y5)) (ht sw0 hty)⟩
    · dsimp only; rw [pos_add h.pos_r (hh y1), pos_add h.pos_r (ht sr0 hty), e1]
    · dsimp only; rw [pos_add h.pos_p (hh y2), pos_add h.pos_p (ht sp0 hty)]
  | zmin =>
    refine ⟨⟨?_, ?_, zero_add (zero_sub q3 (hh z3)) (ht su0 htz), zero_add (zero_sub q4 (hh z4)) (ht sv0 htz)⟩,
      zero_add (zero_sub q5 (hh z5)) (ht sw0 htz)⟩
    · dsimp only; rw [pos_sub h.pos_r (hh z1), pos_add h.pos_r (ht sr0 htz), e1]
    · dsimp only; rw [pos_sub h.pos_p (hh z2), pos_add h.pos_p (ht sp0 htz)]
  | zmax =>
    refine ⟨⟨?_, ?_, zero_add (zero_add q3 (hh z3)) (ht su0 htz), zero_add (zero_add q4 (hh z4)) (ht sv0 htz)⟩,
      zero_add (zero_add q5 (hh z5)) (ht sw0 htz)⟩
    · dsimp only; rw [pos_add h.pos_r (hh z1), pos_add h.pos_r (ht sr0 htz), e1]
    · dsimp only; rw [pos_add h.pos_p (hh z2), pos_add h.pos_p (ht sp0 htz)]

/-! ## LLF and HLL -/

theorem cons_rest {s : Settings Double} {r p : Double} (h : CalmCell s r p) {d3 : Bool} {q : HS Double} (hq : AtRest r p q)
    (hw : d3 = true → IsZero q.w) :
    (consOf d3 (lit 1 / (s.gamma0 - lit 1)) q).d = r ∧ (consOf d3 (lit 1 / (s.gamma0 - lit 1)) q).p = restEnergy s p ∧
    IsZero (consOf d3 (lit 1 / (s.gamma0 - lit 1)) q).u ∧ IsZero (consOf d3 (lit 1 / (s.gamma0 - lit 1)) q).v ∧
    IsZero (consOf d3 (lit 1 / (s.gamma0 - lit 1)) q).w := by
  obtain ⟨q1, q2, q3, q4⟩ := hq
  have fr := pos_fin h.pos_r
  have z := fun {x : Double} (hx : IsZero x) => zero_mul (mul_zero h.half_r hx) (IsZero.fin hx)
  have e0 : p * (lit 1 / (s.gamma0 - lit 1)) = restEnergy s p := rfl
  unfold consOf
  dsimp only
  rw [q1, q2, e0, pos_add h.pos_e (z q3), pos_add h.pos_e (z q4)]
  refine ⟨rfl, ?_, mul_zero fr q3, mul_zero fr q4, ?_⟩
  · split
    · rename_i h3
      exact pos_add h.pos_e (z (hw h3))
    · rfl
  · split
    · rename_i h3
      exact mul_zero fr (hw h3)
    · exact zero_lit

theorem llf_rest {s : Settings Double} {r p : Double} (h : CalmLlf s r p) {d3 : Bool} {ql qr : HS Double}
    (hl : AtRest r p ql) (hr : AtRest r p qr) (hw : d3 = true → IsZero ql.w ∧ IsZero qr.w) :
    IsZero (riemannLLF d3 s ql qr).d ∧ IsZero (riemannLLF d3 s ql qr).p ∧
      (riemannLLF d3 s ql qr).u = lit (1/2) * (p + p) ∧ IsZero (riemannLLF d3 s ql qr).v ∧
      IsZero (riemannLLF d3 s ql qr).w := by
  obtain ⟨ul1, ul2, ul3, ul4, ul5⟩ := cons_rest h.toCalmCell hl (fun h3 => (hw h3).1)
  obtain ⟨ur1, ur2, ur3, ur4, ur5⟩ := cons_rest h.toCalmCell hr (fun h3 => (hw h3).2)
  obtain ⟨l1, l2, zl, zl'⟩ := hl
  obtain ⟨r1, r2, zr, zr'⟩ := hr
  have fr := pos_fin h.pos_r
  have e1 : RealOps.fmax r s.smallr = r := fmax_left h.floor_r
  have e2 : RealOps.fmax p (r * s.smallp) = p := fmax_left h.floor_p
  have ec : RealOps.sqrt (s.gamma0 * p / r) = cellSound s r p := rfl
  have fc := pos_fin h.pos_c
  have hrr : IsZero (r - r) := by rw [sub_self fr]; exact zero_lit
  have hee : IsZero (restEnergy s p - restEnergy s p) := by rw [sub_self (pos_fin h.pos_e)]; exact zero_lit
  have lf0 := fun {a b c : Double} (ha : IsZero a) (hb : IsZero b) (hc : IsZero c) =>
    mul_zero fin_half (zero_sub (zero_add ha hb) (mul_zero fc hc))
  unfold riemannLLF
  dsimp only
  rw [l1, l2, r1, r2, e1, e2, ec, add_pos h.pos_c (zero_fabs zl), add_pos h.pos_c (zero_fabs zr), fmax_same, ul1, ul2, ur1,
    ur2]
  refine ⟨lf0 (mul_zero fr zl) (mul_zero fr zr) hrr, lf0 (zero_mul zl h.ep) (zero_mul zr h.ep) hee, ?_,
    lf0 (zero_mul (mul_zero fr zl) (IsZero.fin zl')) (zero_mul (mul_zero fr zr) (IsZero.fin zr')) (zero_sub ur4 ul4), ?_⟩
  · rw [pos_add h.pos_p (zero_mul ul3 (IsZero.fin zl)), pos_add h.pos_p (zero_mul ur3 (IsZero.fin zr)),
      pos_sub h.pp (mul_zero fc (zero_sub ur3 ul3))]
  · split
    · rename_i h3
      exact lf0 (zero_mul (mul_zero fr zl) (IsZero.fin (hw h3).1)) (zero_mul (mul_zero fr zr) (IsZero.fin (hw h3).2))
        (zero_sub ur5 ul5)
    · exact zero_lit

theorem sub_neg_pos {x y : Double} (hy : FinitePos y) : x - -y = x + y := by
  obtain ⟨m, hm, rfl⟩ := hy
  rfl

theorem neg_mul_pos {x y : Double} (hx : FinitePos x) (hy : FinitePos y) : -x * y = -(x * y) := by
  obtain ⟨m, hm, rfl⟩ := hx
  obtain ⟨n, hn, rfl⟩ := hy
  show Spec.Ieee.round true (m.1 * n.1) = -(Spec.Ieee.round false (m.1 * n.1) : Double)
  unfold Spec.Ieee.round
  split <;> rfl

theorem hll_rest {s : Settings Double} {r p : Double} (h : CalmHll s r p) {ql qr : HS Double}
    (hl : AtRest r p ql) (hr : AtRest r p qr) :
    IsZero (riemannHLL false s ql qr).d ∧ IsZero (riemannHLL false s ql qr).p ∧
      (riemannHLL false s ql qr).u = (cellSound s r p * p + cellSound s r p * p) / (cellSound s r p + cellSound s r p) ∧
      IsZero (riemannHLL false s ql qr).v := by
  obtain ⟨ul1, ul2, ul3, ul4, -⟩ := cons_rest (d3 := false) h.toCalmCell hl (fun h3 => by cases h3)
  obtain ⟨ur1, ur2, ur3, ur4, -⟩ := cons_rest (d3 := false) h.toCalmCell hr (fun h3 => by cases h3)
  obtain ⟨l1, l2, zl, zl'⟩ := hl
  obtain ⟨r1, r2, zr, zr'⟩ := hr
  have fr := pos_fin h.pos_r
  have e1 : RealOps.fmax r s.smallr = r := fmax_left h.floor_r
  have e2 : RealOps.fmax p (r * s.smallp) = p := fmax_left h.floor_p
  have ec : RealOps.sqrt (s.gamma0 * p / r) = cellSound s r p := rfl
  have fc := pos_fin h.pos_c
  have fnc : IsFin (-cellSound s r p) := by
    obtain ⟨_, _, e⟩ := fc; rw [e]; exact ⟨_, _, rfl⟩
  have hrr : IsZero (r - r) := by rw [sub_self fr]; exact zero_lit
  have hee : IsZero (restEnergy s p - restEnergy s p) := by rw [sub_self (pos_fin h.pos_e)]; exact zero_lit
  have eSL : RealOps.fmin (RealOps.fmin ql.u qr.u - cellSound s r p) (lit 0) = -cellSound s r p := by
    rw [zero_sub_pos h.pos_c (zero_fmin zl zr)]
    obtain ⟨m, hm, e⟩ := h.pos_c
    rw [e, Ieee.lit_zero]
    show Spec.Ieee.fmin (.fin true m) _ = .fin true m
    have hz : Spec.Ieee.lt (.fin false ⟨0, binary64.zero_mem, binary64.zero_le_top⟩ : Double) (.fin true m) ≠ true := by
      intro hc
      have := EReal.coe_lt_coe_iff.1 (Ieee.lt_iff.1 hc).2.2
      have : (0 : ℝ) < -m.1 := this
      linarith
    exact if_neg hz
  have eSR : RealOps.fmax (RealOps.fmax ql.u qr.u + cellSound s r p) (lit 0) = cellSound s r p := by
    rw [add_pos h.pos_c (zero_fmax zl zr)]
    exact fmax_left (pos_gt h.pos_c)
  have z := fun {a b c : Double} (ha : IsZero a) (hb : IsZero b) (hc : IsZero c) =>
    zero_div (zero_add (zero_sub (mul_zero fc ha) (mul_zero fnc hb)) (mul_zero h.c2 hc)) h.cc
  unfold riemannHLL
  dsimp only
  rw [l1, l2, r1, r2, e1, e2, ec, fmax_same, eSL, eSR, ul1, ul2, ur1, ur2, sub_neg_pos h.pos_c]
  refine ⟨z ul3 ur3 hrr, z (zero_mul zl h.ep) (zero_mul zr h.ep) hee, ?_,
    z (zero_mul ul3 (IsZero.fin zl')) (zero_mul ur3 (IsZero.fin zr')) (zero_sub ur4 ul4)⟩
  rw [pos_add h.pos_p (zero_mul ul3 (IsZero.fin zl)), pos_add h.pos_p (zero_mul ur3 (IsZero.fin zr)),
    neg_mul_pos h.pos_c h.pos_p, sub_neg_pos h.cp, pos_add h.cpp (mul_zero h.c2 (zero_sub ur3 ul3))]

theorem fin_ne {x : Double} (h : FinitePos x) : NotMinus x := by
  obtain ⟨m, hm, rfl⟩ := h
  intro n hn h
  cases h

theorem zeros_around {x y z : Double} (hx : IsZero x) (hy : IsFin y) (hz : IsZero z) : IsZero (x + y + z - y) := by
  obtain ⟨s, m, hm, rfl⟩ := hx
  obtain ⟨u, k, rfl⟩ := hy
  obtain ⟨t, n, hn, rfl⟩ := hz
  by_cases hk : k.1 = 0
  · exact zero_sub (zero_add (zero_add ⟨s, m, hm, rfl⟩ ⟨u, k, hk, rfl⟩) ⟨t, n, hn, rfl⟩) ⟨u, k, hk, rfl⟩
  · rw [zero_fin_add hm hk, add_fin_zero hk hn, sub_self ⟨u, k, rfl⟩]
    exact zero_lit

theorem sign_fin (x : Double) : IsFin (RealOps.copysign (lit 1) x) := by
  rw [Ieee.lit_one]
  exact ⟨_, _, rfl⟩

theorem approx_state_rest {s : Settings Double} {r p : Double} (h : CalmApprox s r p) {d3 : Bool} {ql qr : HS Double}
    (hl : AtRest r p ql) (hr : AtRest r p qr) (hw : d3 = true → IsZero ql.w ∧ IsZero qr.w) :
    (approxState d3 s ql qr).d = starDensity s r p ∧ (approxState d3 s ql qr).p = restStar s r p ∧
      IsZero (approxState d3 s ql qr).u ∧ IsZero (approxState d3 s ql qr).v ∧ IsZero (approxState d3 s ql qr).w := by
  obtain ⟨l1, l2, zl, zl'⟩ := hl
  obtain ⟨r1, r2, zr, zr'⟩ := hr
  generalize hG : approxState d3 s ql qr = G
  unfold approxState at hG
  extract_lets rl ul pl rr ur pr cl cr wl wr ps pold pstar wl' wr' ustar sgnm left ro uo po wo co rstar cstar spout spin
    ushock shock spin' spout' scr frac frac' gd gu gp out gd' gu' gp' inn gd'' gu'' gp'' at hG
  have erl : rl = r := by show RealOps.fmax ql.d s.smallr = r; rw [l1]; exact fmax_left h.floor_r
  have err : rr = r := by show RealOps.fmax qr.d s.smallr = r; rw [r1]; exact fmax_left h.floor_r
  clear_value rl rr
  obtain rfl : rl = rr := erl.trans err.symm
  subst erl
  have epl : pl = p := by show RealOps.fmax ql.p (rl * s.smallp) = p; rw [l2]; exact fmax_left h.floor_p
  have epr : pr = p := by show RealOps.fmax qr.p (rl * s.smallp) = p; rw [r2]; exact fmax_left h.floor_p
  clear_value pl pr
  obtain rfl : pl = pr := epl.trans epr.symm
  subst epl
  have ecl : cl = restMass s rl pl := rfl
  have ecr : cr = restMass s rl pl := rfl
  have ef : ps = firstStar s rl pl := by
    show RealOps.fmax (((RealOps.sqrt (restMass s rl pl) * pl + RealOps.sqrt (restMass s rl pl) * pl) +
      RealOps.sqrt (restMass s rl pl) * RealOps.sqrt (restMass s rl pl) * (ql.u - qr.u)) /
        (RealOps.sqrt (restMass s rl pl) + RealOps.sqrt (restMass s rl pl))) (lit 0) = firstStar s rl pl
    rw [pos_add h.wpp (mul_zero h.w2 (zero_sub zl zr))]
    exact fmax_left (pos_gt h.first)
  clear_value ps cl cr
  subst ecl ecr ef
  have en : pold = restStar s rl pl := newton_signs zl zr 10 (fin_ne h.first) _
  have en' : pstar = restStar s rl pl := en
  clear_value pstar
  clear en
  clear_value pold
  subst en'
  have ewl : wl' = starWave s rl pl := rfl
  have ewr : wr' = starWave s rl pl := rfl
  clear_value wl' wr'
  obtain rfl : wl' = wr' := ewl.trans ewr.symm
  have zu : IsZero ustar := by
    show IsZero (lit (1/2) * (ql.u + (pl - restStar s rl pl) / wl' + qr.u - (pl - restStar s rl pl) / wl'))
    rw [ewl]
    exact mul_zero fin_half (zeros_around zl h.jump zr)
  clear_value ustar
  have hs : IsFin sgnm := sign_fin ustar
  clear_value sgnm
  clear_value left
  have ero : ro = rl := ite_self _
  have epo : po = pl := ite_self _
  have ewo : wo = wl' := ite_self _
  have zo : IsZero uo := by
    show IsZero (if left = true then ql.u else qr.u)
    split_ifs <;> assumption
  clear_value ro po wo uo
  subst ero epo ewo
  have ed : rstar = starDensity s ro po := by rw [starDensity, ← ewl]
  clear_value rstar
  have es : cstar = starSound s ro po := by
    show RealOps.fmax s.smallc (RealOps.sqrt (RealOps.fabs (s.gamma0 * restStar s ro po / rstar))) = _
    rw [ed]; rfl
  have ei : spin = cstar := by
    show cstar - sgnm * ustar = cstar
    rw [es, pos_sub h.sound (mul_zero hs zu)]
  have eo : ushock = wo / ro := by
    show wo / ro - sgnm * uo = wo / ro
    rw [ewl, pos_sub h.shock (mul_zero hs zo)]
  clear_value spin ushock shock
  have hin : inn = true := by
    show gtb (if shock = true then ushock else spin) (lit 0) = true
    split_ifs
    · rw [eo, ewl]; exact pos_gt h.shock
    · rw [ei, es]; exact pos_gt h.sound
  have e1 : gd'' = rstar := if_pos hin
  have e2 : gu'' = ustar := if_pos hin
  have e3 : gp'' = restStar s ro po := if_pos hin
  subst hG
  refine ⟨e1.trans ed, e3, ?_, ?_, ?_⟩
  · show IsZero gu''
    rw [e2]; exact zu
  · show IsZero (if left = true then ql.v else qr.v)
    split_ifs <;> assumption
  · show IsZero (if d3 = true then (if left = true then ql.w else qr.w) else lit 0)
    split_ifs with h3
    · exact (hw h3).1
    · exact (hw h3).2
    · exact zero_lit

theorem approx_rest {s : Settings Double} {r p : Double} (h : CalmApprox s r p) {d3 : Bool} {ql qr : HS Double}
    (hl : AtRest r p ql) (hr : AtRest r p qr) (hw : d3 = true → IsZero ql.w ∧ IsZero qr.w) :
    IsZero (riemannApprox d3 s ql qr).d ∧ IsZero (riemannApprox d3 s ql qr).p ∧
      (riemannApprox d3 s ql qr).u = restStar s r p ∧ IsZero (riemannApprox d3 s ql qr).v ∧
      IsZero (riemannApprox d3 s ql qr).w := by
  obtain ⟨a1, a2, a3, a4, a5⟩ := approx_state_rest h hl hr hw
  have zd : IsZero (starDensity s r p * (approxState d3 s ql qr).u) := mul_zero h.density a3
  have zz := fun {a : Double} (ha : IsZero a) => zero_mul ha (IsZero.fin ha)
  have k1 := mul_zero h.half_d (zero_add (zz a3) (zz a4))
  unfold riemannApprox cmpflx
  dsimp only
  rw [a1, a2]
  have zk : IsZero (if d3 = true then lit (1/2) * starDensity s r p * ((approxState d3 s ql qr).u * (approxState d3 s ql qr).u +
      (approxState d3 s ql qr).v * (approxState d3 s ql qr).v) + lit (1/2) * starDensity s r p *
        ((approxState d3 s ql qr).w * (approxState d3 s ql qr).w) else lit (1/2) * starDensity s r p *
      ((approxState d3 s ql qr).u * (approxState d3 s ql qr).u + (approxState d3 s ql qr).v * (approxState d3 s ql qr).v)) := by
    split_ifs
    · exact zero_add k1 (mul_zero h.half_d (zz a5))
    · exact k1
  refine ⟨zd, ?_, add_pos h.star (zero_mul zd (IsZero.fin a3)), zero_mul zd (IsZero.fin a4), ?_⟩
  · rw [show restStar s r p * (lit 1 / (s.gamma0 - lit 1)) = restEnergy s (restStar s r p) from rfl, pos_add h.energy zk]
    exact zero_mul a3 h.total
  · split_ifs
    · exact zero_mul zd (IsZero.fin a5)
    · exact zero_lit

/-- flux between two cells at rest, any of the four solvers -/
theorem flux_rest {rt : RiemannType} {s : Settings Double} {r p : Double} (h : CalmFace rt s r p) {ql qr f : HS Double}
    (hl : AtRest r p ql) (hr : AtRest r p qr) : IsZero (riemannHydro2 s rt ql qr f).d ∧
      IsZero (riemannHydro2 s rt ql qr f).p ∧ (riemannHydro2 s rt ql qr f).u = facePressure rt s r p ∧
      IsZero (riemannHydro2 s rt ql qr f).v := by
  cases rt with
  | hllc => exact hllc_rest h hl hr
  | llf =>
    have := llf_rest (d3 := false) h hl hr (fun h3 => by cases h3)
    exact ⟨this.1, this.2.1, this.2.2.1, this.2.2.2.1⟩
  | hll => exact hll_rest h hl hr
  | approx =>
    have := approx_rest (d3 := false) h hl hr (fun h3 => by cases h3)
    exact ⟨this.1, this.2.1, this.2.2.1, this.2.2.2.1⟩
  | hlld => exact h.elim

/-- the same in 3D, where the code has no HLL -/
theorem flux_rest3 {rt : RiemannType} (hrt : rt ≠ .hll) {s : Settings Double} {r p : Double} (h : CalmFace rt s r p)
    {ql qr f : HS Double} (hl : AtRest3 r p ql) (hr : AtRest3 r p qr) : IsZero (riemannHydro3 s rt ql qr f).d ∧
      IsZero (riemannHydro3 s rt ql qr f).p ∧ (riemannHydro3 s rt ql qr f).u = facePressure rt s r p ∧
      IsZero (riemannHydro3 s rt ql qr f).v ∧ IsZero (riemannHydro3 s rt ql qr f).w := by
  cases rt with
  | hllc => exact hllc_rest3 h hl hr
  | llf => exact llf_rest (d3 := true) h hl.1 hr.1 (fun _ => ⟨hl.2, hr.2⟩)
  | hll => exact absurd rfl hrt
  | approx => exact approx_rest (d3 := true) h hl.1 hr.1 (fun _ => ⟨hl.2, hr.2⟩)
  | hlld => exact h.elim

end Ieee64
end EulerKokkos
