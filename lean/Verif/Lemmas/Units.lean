import Verif.Spec.Units
import Verif.Props.C24
import Mathlib.Tactic.FieldSimp

/-!
# Change of units: conversions, slopes, Riemann solvers
-/

set_option linter.constructorNameAsVariable false
set_option linter.unusedSectionVars false
set_option linter.unusedSimpArgs false

namespace EulerKokkos
open Spec

theorem max_scale {c : ℝ} (hc : 0 < c) (a b : ℝ) : max (c * a) (c * b) = c * max a b :=
  (mul_max_of_nonneg a b hc.le).symm
theorem min_scale {c : ℝ} (hc : 0 < c) (a b : ℝ) : min (c * a) (c * b) = c * min a b :=
  (mul_min_of_nonneg a b hc.le).symm
theorem sqrt_scale {c x y : ℝ} (hc : 0 < c) (h : x = c ^ 2 * y) : Real.sqrt x = c * Real.sqrt y := by
  rw [h, Real.sqrt_mul (by positivity), Real.sqrt_sq hc.le]
theorem abs_scale {c : ℝ} (hc : 0 < c) (x : ℝ) : |c * x| = c * |x| := by
  rw [abs_mul, abs_of_pos hc]

/-- `max` of two numbers that scale alike -/
theorem max_sc {c x y a b : ℝ} (hc : 0 < c) (hx : x = c * a) (hy : y = c * b) :
    fmax x y = c * fmax a b := by
  rw [hx, hy]; exact max_scale hc a b
theorem min_sc {c x y a b : ℝ} (hc : 0 < c) (hx : x = c * a) (hy : y = c * b) :
    fmin x y = c * fmin a b := by
  rw [hx, hy]; exact min_scale hc a b
theorem abs_sc {c x a : ℝ} (hc : 0 < c) (hx : x = c * a) : fabs x = c * fabs a := by
  rw [hx]; exact abs_scale hc a
theorem sqrt_sc {c x a : ℝ} (hc : 0 < c) (hx : x = c ^ 2 * a) : RealOps.sqrt x = c * RealOps.sqrt a :=
  sqrt_scale hc hx
theorem ite_sc {c : ℝ} {b b' : Bool} {x y x' y' : ℝ} (hb : b = b') (hx : x = c * x') (hy : y = c * y') :
    (if b = true then x else y) = c * (if b' = true then x' else y') := by
  subst hb; cases b <;> simp [hx, hy]
theorem lt_sc {c x y a b : ℝ} (hc : 0 < c) (hx : x = c * a) (hy : y = c * b) :
    RealOps.lt x y = RealOps.lt a b := by
  rw [Bool.eq_iff_iff, RealOps.lt_real, RealOps.lt_real, hx, hy]; exact mul_lt_mul_iff_right₀ hc
theorem le_sc {c x y a b : ℝ} (hc : 0 < c) (hx : x = c * a) (hy : y = c * b) :
    RealOps.le x y = RealOps.le a b := by
  rw [Bool.eq_iff_iff, RealOps.le_real, RealOps.le_real, hx, hy]; exact mul_le_mul_iff_right₀ hc
theorem zero_sc (c : ℝ) : (lit 0 : ℝ) = c * lit 0 := by simp [RealOps.lit_real]
theorem div_sc {a b c x y x' y' : ℝ} (ha : 0 < a) (hb : 0 < b) (hx : x = a * x') (hy : y = b * y')
    (h : a = b * c) : x / y = c * (x' / y') := by
  subst hx hy h
  rw [mul_assoc b, mul_div_mul_left _ _ hb.ne', mul_div_assoc]
theorem copysign_sc {c x a : ℝ} (hc : 0 < c) (hx : x = c * a) (m : ℝ) :
    RealOps.copysign m x = RealOps.copysign m a := by
  subst hx
  have h : (0 ≤ c * a) ↔ 0 ≤ a := mul_nonneg_iff_of_pos_left hc
  simp only [RealOps.copysign_real, h]

variable (U : Units)

theorem approxNewton_units (s : Settings ℝ) (ul pl cl ur pr cr : ℝ) (n : Nat) (pold conv : ℝ) :
    approxNewton (U.settings s) (U.V * ul) (U.D * U.V ^ 2 * pl) (U.D ^ 2 * U.V ^ 2 * cl) (U.V * ur)
      (U.D * U.V ^ 2 * pr) (U.D ^ 2 * U.V ^ 2 * cr) n (U.D * U.V ^ 2 * pold) conv =
    U.D * U.V ^ 2 * approxNewton s ul pl cl ur pr cr n pold conv := by
  induction n generalizing pold conv with
  | zero => rfl
  | succ n ih =>
    have hD := U.hD
    have hV := U.hV
    have hDV : 0 < U.D * U.V := by positivity
    have hP : 0 < U.D * U.V ^ 2 := by positivity
    unfold approxNewton
    refine ite_sc rfl ?_ rfl
    extract_lets wwl wwr ql qr usl usr delp pold1 conv1 wwl' wwr' ql' qr' usl' usr' delp' pold1' conv1'
    have e1 : wwl = U.D * U.V * wwl' := by
      refine sqrt_sc hDV ?_
      have : (U.settings s).gamma6 * (U.D * U.V ^ 2 * pold - U.D * U.V ^ 2 * pl) / (U.D * U.V ^ 2 * pl) =
          s.gamma6 * (pold - pl) / pl := by
        rw [div_sc hP hP (x' := s.gamma6 * (pold - pl)) (y' := pl) (c := 1) (by simp only [Units.settings]; ring)
          rfl (by ring), one_mul]
      rw [this]; ring
    have e2 : wwr = U.D * U.V * wwr' := by
      refine sqrt_sc hDV ?_
      have : (U.settings s).gamma6 * (U.D * U.V ^ 2 * pold - U.D * U.V ^ 2 * pr) / (U.D * U.V ^ 2 * pr) =
          s.gamma6 * (pold - pr) / pr := by
        rw [div_sc hP hP (x' := s.gamma6 * (pold - pr)) (y' := pr) (c := 1) (by simp only [Units.settings]; ring)
          rfl (by ring), one_mul]
      rw [this]; ring
    have e3 : ql = U.D * U.V * ql' :=
      div_sc (a := (U.D * U.V) ^ 3) (b := (U.D * U.V) ^ 2) (by positivity) (by positivity)
        (by rw [e1]; ring) (by rw [e1]; ring) (by ring)
    have e4 : qr = U.D * U.V * qr' :=
      div_sc (a := (U.D * U.V) ^ 3) (b := (U.D * U.V) ^ 2) (by positivity) (by positivity)
        (by rw [e2]; ring) (by rw [e2]; ring) (by ring)
    have e5 : usl = U.V * usl' := by
      have := div_sc (x := U.D * U.V ^ 2 * pold - U.D * U.V ^ 2 * pl) (y := wwl) (x' := pold - pl)
        (y' := wwl') hP hDV (by ring) e1 (c := U.V) (by ring)
      simp only [usl, usl', this]; ring
    have e6 : usr = U.V * usr' := by
      have := div_sc (x := U.D * U.V ^ 2 * pold - U.D * U.V ^ 2 * pr) (y := wwr) (x' := pold - pr)
        (y' := wwr') hP hDV (by ring) e2 (c := U.V) (by ring)
      simp only [usr, usr', this]; ring
    have e7 : delp = U.D * U.V ^ 2 * delp' := by
      refine max_sc hP ?_ (by ring)
      have := div_sc (x := qr * ql) (y := qr + ql) (x' := qr' * ql') (y' := qr' + ql')
        (a := (U.D * U.V) ^ 2) (b := U.D * U.V) (by positivity) hDV
        (by rw [e3, e4]; ring) (by rw [e3, e4]; ring) (c := U.D * U.V) (by ring)
      rw [this, e5, e6]; ring
    have e8 : pold1 = U.D * U.V ^ 2 * pold1' := by simp only [pold1, pold1', e7]; ring
    have e9 : conv1 = conv1' := by
      have := div_sc (x := delp) (y := pold1 + (U.settings s).smallpp) (x' := delp') (y' := pold1' + s.smallpp)
        hP hP e7 (by rw [e8]; simp only [Units.settings]; ring) (c := 1) (by ring)
      simp only [conv1, conv1', this, one_mul]
    rw [e8, e9]
    exact ih pold1' conv1'

theorem approxState_units (d3 : Bool) (s : Settings ℝ) (l r : HS ℝ) :
    approxState d3 (U.settings s) (U.prim l) (U.prim r) = U.prim (approxState d3 s l r) := by
  have hD := U.hD
  have hV := U.hV
  have hDV : 0 < U.D * U.V := by positivity
  have hP : 0 < U.D * U.V ^ 2 := by positivity
  have hV2 : 0 < U.V ^ 2 := by positivity
  unfold approxState
  extract_lets rl ul pl rr ur pr cl cr wl0 wr0 pstar0 pold pstar wl wr ustar sgnm left ro uo po wo co rstar
    cstar spout0 spin0 ushock shock spin spout scr frac0 frac gd0 gu0 gp0 out gd1 gu1 gp1 inn gd gu gp gv gw
    rl' ul' pl' rr' ur' pr' cl' cr' wl0' wr0' pstar0' pold' pstar' wl' wr' ustar' sgnm' left' ro' uo' po' wo' co'
    rstar' cstar' spout0' spin0' ushock' shock' spin' spout' scr' frac0' frac' gd0' gu0' gp0' out' gd1' gu1'
    gp1' inn' gd' gu' gp' gv' gw'
  have h_rl : rl = U.D * rl' := max_sc hD rfl rfl
  have h_rr : rr = U.D * rr' := max_sc hD rfl rfl
  have h_ul : ul = U.V * ul' := rfl
  have h_ur : ur = U.V * ur' := rfl
  have h_pl : pl = U.D * U.V ^ 2 * pl' := max_sc hP rfl (by rw [h_rl]; simp only [Units.settings]; ring)
  have h_pr : pr = U.D * U.V ^ 2 * pr' := max_sc hP rfl (by rw [h_rr]; simp only [Units.settings]; ring)
  have h_cl : cl = U.D ^ 2 * U.V ^ 2 * cl' := by
    simp only [cl, cl', h_pl, h_rl, Units.settings]; ring
  have h_cr : cr = U.D ^ 2 * U.V ^ 2 * cr' := by
    simp only [cr, cr', h_pr, h_rr, Units.settings]; ring
  have h_wl0 : wl0 = U.D * U.V * wl0' := sqrt_sc hDV (by rw [h_cl]; ring)
  have h_wr0 : wr0 = U.D * U.V * wr0' := sqrt_sc hDV (by rw [h_cr]; ring)
  have h_pstar0 : pstar0 = U.D * U.V ^ 2 * pstar0' := by
    refine max_sc hP ?_ (zero_sc _)
    exact div_sc (a := U.D ^ 2 * U.V ^ 3) (by positivity) hDV
      (by rw [h_wr0, h_wl0, h_pl, h_pr, h_ul, h_ur]; ring) (by rw [h_wr0, h_wl0]; ring) (by ring)
  have h_pold : pold = U.D * U.V ^ 2 * pold' := by
    simp only [pold, pold']
    rw [h_ul, h_pl, h_cl, h_ur, h_pr, h_cr, h_pstar0]
    exact approxNewton_units U s _ _ _ _ _ _ _ _ _
  have h_pstar : pstar = U.D * U.V ^ 2 * pstar' := h_pold
  have h_wl : wl = U.D * U.V * wl' := by
    refine sqrt_sc hDV ?_
    rw [div_sc hP hP (x' := s.gamma6 * (pstar' - pl')) (y' := pl') (c := 1)
      (by rw [h_pstar, h_pl]; simp only [Units.settings]; ring) h_pl (by ring), h_cl]; ring
  have h_wr : wr = U.D * U.V * wr' := by
    refine sqrt_sc hDV ?_
    rw [div_sc hP hP (x' := s.gamma6 * (pstar' - pr')) (y' := pr') (c := 1)
      (by rw [h_pstar, h_pr]; simp only [Units.settings]; ring) h_pr (by ring), h_cr]; ring
  have h_ustar : ustar = U.V * ustar' := by
    have e1 := div_sc (x := pl - pstar) (y := wl) (x' := pl' - pstar') (y' := wl') hP hDV
      (by rw [h_pl, h_pstar]; ring) h_wl (c := U.V) (by ring)
    have e2 := div_sc (x := pr - pstar) (y := wr) (x' := pr' - pstar') (y' := wr') hP hDV
      (by rw [h_pr, h_pstar]; ring) h_wr (c := U.V) (by ring)
    simp only [ustar, ustar']
    rw [e1, e2, h_ul, h_ur]; ring
  have h_sgnm : sgnm = sgnm' := copysign_sc hV h_ustar _
  have h_left : left = left' := by simp only [left, left', h_sgnm]
  have h_ro : ro = U.D * ro' := ite_sc h_left h_rl h_rr
  have h_uo : uo = U.V * uo' := ite_sc h_left h_ul h_ur
  have h_po : po = U.D * U.V ^ 2 * po' := ite_sc h_left h_pl h_pr
  have h_wo : wo = U.D * U.V * wo' := ite_sc h_left h_wl h_wr
  have h_co : co = U.V * co' := by
    refine max_sc hV rfl (sqrt_sc hV (abs_sc hV2 ?_))
    exact div_sc hP hD (by rw [h_po]; simp only [Units.settings]; ring) h_ro (by ring)
  have h_rstar : rstar = U.D * rstar' := by
    refine max_sc hD ?_ rfl
    refine div_sc (b := 1) hD one_pos h_ro ?_ (by ring)
    rw [div_sc (a := U.D ^ 2 * U.V ^ 2) (b := U.D ^ 2 * U.V ^ 2) (by positivity) (by positivity)
      (x' := ro' * (po' - pstar')) (y' := wo' * wo') (c := 1)
      (by rw [h_ro, h_po, h_pstar]; ring) (by rw [h_wo]; ring) (by ring)]
    ring
  have h_cstar : cstar = U.V * cstar' := by
    refine max_sc hV rfl (sqrt_sc hV (abs_sc hV2 ?_))
    exact div_sc hP hD (by rw [h_pstar]; simp only [Units.settings]; ring) h_rstar (by ring)
  have h_spout0 : spout0 = U.V * spout0' := by simp only [spout0, spout0', h_co, h_uo, h_sgnm]; ring
  have h_spin0 : spin0 = U.V * spin0' := by simp only [spin0, spin0', h_cstar, h_ustar, h_sgnm]; ring
  have h_ushock : ushock = U.V * ushock' := by
    simp only [ushock, ushock']
    rw [div_sc hDV hD h_wo h_ro (c := U.V) (by ring), h_sgnm, h_uo]; ring
  have h_shock : shock = shock' := le_sc hP h_po h_pstar
  have h_spin : spin = U.V * spin' := ite_sc h_shock h_ushock h_spin0
  have h_spout : spout = U.V * spout' := ite_sc h_shock h_ushock h_spout0
  have h_scr : scr = U.V * scr' := by
    refine max_sc hV (by rw [h_spout, h_spin]; ring) ?_
    rw [abs_sc hV (x := spout + spin) (a := spout' + spin') (by rw [h_spout, h_spin]; ring)]
    simp only [Units.settings]; ring
  have h_frac0 : frac0 = frac0' := by
    simp only [frac0, frac0']
    rw [div_sc hV hV (x' := spout' + spin') (by rw [h_spout, h_spin]; ring) h_scr (c := 1) (by ring), one_mul]
  have h_frac : frac = frac' := by simp only [frac, frac', h_frac0]
  have h_gd0 : gd0 = U.D * gd0' := by simp only [gd0, gd0', h_frac, h_rstar, h_ro]; ring
  have h_gu0 : gu0 = U.V * gu0' := by simp only [gu0, gu0', h_frac, h_ustar, h_uo]; ring
  have h_gp0 : gp0 = U.D * U.V ^ 2 * gp0' := by simp only [gp0, gp0', h_frac, h_pstar, h_po]; ring
  have h_out : out = out' := lt_sc hV h_spout (zero_sc _)
  have h_gd1 : gd1 = U.D * gd1' := ite_sc h_out h_ro h_gd0
  have h_gu1 : gu1 = U.V * gu1' := ite_sc h_out h_uo h_gu0
  have h_gp1 : gp1 = U.D * U.V ^ 2 * gp1' := ite_sc h_out h_po h_gp0
  have h_inn : inn = inn' := lt_sc hV (zero_sc _) h_spin
  have h_gd : gd = U.D * gd' := ite_sc h_inn h_rstar h_gd1
  have h_gu : gu = U.V * gu' := ite_sc h_inn h_ustar h_gu1
  have h_gp : gp = U.D * U.V ^ 2 * gp' := ite_sc h_inn h_pstar h_gp1
  have h_gv : gv = U.V * gv' := ite_sc h_left rfl rfl
  have h_gw : gw = U.V * gw' := ite_sc (b := d3) rfl (ite_sc h_left rfl rfl) (zero_sc _)
  rw [h_gd, h_gp, h_gu, h_gv, h_gw]
  rfl

theorem cmpflx_units (d3 : Bool) (s : Settings ℝ) (q : HS ℝ) :
    cmpflx d3 (U.settings s) (U.prim q) = U.flux (cmpflx d3 s q) := by
  cases d3 <;> simp [cmpflx, Units.settings, Units.prim, Units.flux, RealOps.lit_real] <;> refine ⟨?_, ?_, ?_, ?_⟩ <;>
    ring_nf <;> trivial


theorem riemannApprox_units (d3 : Bool) (s : Settings ℝ) (l r : HS ℝ) :
    riemannApprox d3 (U.settings s) (U.prim l) (U.prim r) = U.flux (riemannApprox d3 s l r) := by
  unfold riemannApprox; rw [approxState_units, cmpflx_units]

theorem consOf_units (d3 : Bool) (entho : ℝ) (q : HS ℝ) :
    consOf d3 entho (U.prim q) = U.cons (consOf d3 entho q) := by
  cases d3 <;> simp only [consOf, Units.prim, Units.cons, RealOps.lit_real, if_true, if_false,
    Bool.false_eq_true] <;> ext <;> dsimp only <;> ring

theorem iteR_sc {c : ℝ} {P : Prop} [Decidable P] {x y x' y' : ℝ} (hx : x = c * x') (hy : y = c * y') :
    (if P then x else y) = c * (if P then x' else y') := by
  split_ifs <;> assumption

theorem riemannLLF_units (d3 : Bool) (s : Settings ℝ) (l r : HS ℝ) :
    riemannLLF d3 (U.settings s) (U.prim l) (U.prim r) = U.flux (riemannLLF d3 s l r) := by
  have hD := U.hD
  have hV := U.hV
  have hP : 0 < U.D * U.V ^ 2 := by positivity
  unfold riemannLLF
  extract_lets entho rl ul pl rr ur pr cl cr cmax uleft uright fdl fl fdr fr lf entho' rl' ul' pl' rr' ur' pr'
    cl' cr' cmax' uleft' uright' fdl' fl' fdr' fr' lf'
  have h_rl : rl = U.D * rl' := max_sc hD rfl rfl
  have h_rr : rr = U.D * rr' := max_sc hD rfl rfl
  have h_ul : ul = U.V * ul' := rfl
  have h_ur : ur = U.V * ur' := rfl
  have h_pl : pl = U.D * U.V ^ 2 * pl' := max_sc hP rfl (by rw [h_rl]; simp only [Units.settings]; ring)
  have h_pr : pr = U.D * U.V ^ 2 * pr' := max_sc hP rfl (by rw [h_rr]; simp only [Units.settings]; ring)
  have h_cl : cl = U.V * cl' := sqrt_sc hV
    (div_sc hP hD (by rw [h_pl]; simp only [Units.settings]; ring) h_rl (by ring))
  have h_cr : cr = U.V * cr' := sqrt_sc hV
    (div_sc hP hD (by rw [h_pr]; simp only [Units.settings]; ring) h_rr (by ring))
  have h_cmax : cmax = U.V * cmax' :=
    max_sc hV (by rw [abs_sc hV h_ul, h_cl]; ring) (by rw [abs_sc hV h_ur, h_cr]; ring)
  have h_uleft : uleft = U.cons uleft' := consOf_units U d3 _ l
  have h_uright : uright = U.cons uright' := consOf_units U d3 _ r
  have h_fl : fl = U.flux fl' := by
    simp only [fl, fl', fdl, fdl', h_uleft, Units.flux, Units.cons, Units.prim]
    cases d3 <;> simp only [if_true, if_false, Bool.false_eq_true, RealOps.lit_real] <;> ext <;> dsimp only <;> ring
  have h_fr : fr = U.flux fr' := by
    simp only [fr, fr', fdr, fdr', h_uright, Units.flux, Units.cons, Units.prim]
    cases d3 <;> simp only [if_true, if_false, Bool.false_eq_true, RealOps.lit_real] <;> ext <;> dsimp only <;> ring
  rw [h_fl, h_fr, h_uleft, h_uright]
  simp only [lf, lf', h_cmax, Units.flux, Units.cons]
  cases d3 <;> simp only [if_true, if_false, Bool.false_eq_true, RealOps.lit_real] <;> ext <;> dsimp only <;> ring

theorem riemannHLL_units (d3 : Bool) (s : Settings ℝ) (l r : HS ℝ) :
    riemannHLL d3 (U.settings s) (U.prim l) (U.prim r) = U.flux (riemannHLL d3 s l r) := by
  have hD := U.hD
  have hV := U.hV
  have hP : 0 < U.D * U.V ^ 2 := by positivity
  unfold riemannHLL
  extract_lets entho rl ul pl rr ur pr cl cr SL SR uleft uright fdl fl fdr fr hll entho' rl' ul' pl' rr' ur' pr'
    cl' cr' SL' SR' uleft' uright' fdl' fl' fdr' fr' hll'
  have h_rl : rl = U.D * rl' := max_sc hD rfl rfl
  have h_rr : rr = U.D * rr' := max_sc hD rfl rfl
  have h_ul : ul = U.V * ul' := rfl
  have h_ur : ur = U.V * ur' := rfl
  have h_pl : pl = U.D * U.V ^ 2 * pl' := max_sc hP rfl (by rw [h_rl]; simp only [Units.settings]; ring)
  have h_pr : pr = U.D * U.V ^ 2 * pr' := max_sc hP rfl (by rw [h_rr]; simp only [Units.settings]; ring)
  have h_cl : cl = U.V * cl' := sqrt_sc hV
    (div_sc hP hD (by rw [h_pl]; simp only [Units.settings]; ring) h_rl (by ring))
  have h_cr : cr = U.V * cr' := sqrt_sc hV
    (div_sc hP hD (by rw [h_pr]; simp only [Units.settings]; ring) h_rr (by ring))
  have h_SL : SL = U.V * SL' := min_sc hV
    (by rw [min_sc hV h_ul h_ur, max_sc hV h_cl h_cr]; ring) (zero_sc _)
  have h_SR : SR = U.V * SR' := max_sc hV
    (by rw [max_sc hV h_ul h_ur, max_sc hV h_cl h_cr]; ring) (zero_sc _)
  have h_uleft : uleft = U.cons uleft' := consOf_units U d3 _ l
  have h_uright : uright = U.cons uright' := consOf_units U d3 _ r
  have h_fl : fl = U.flux fl' := by
    simp only [fl, fl', fdl, fdl', h_uleft, Units.flux, Units.cons, Units.prim]
    cases d3 <;> simp only [if_true, if_false, Bool.false_eq_true, RealOps.lit_real] <;> ext <;> dsimp only <;> ring
  have h_fr : fr = U.flux fr' := by
    simp only [fr, fr', fdr, fdr', h_uright, Units.flux, Units.cons, Units.prim]
    cases d3 <;> simp only [if_true, if_false, Bool.false_eq_true, RealOps.lit_real] <;> ext <;> dsimp only <;> ring
  have key : ∀ {k : ℝ}, 0 < k → ∀ a b c d : ℝ,
      hll (k * U.V * a) (k * U.V * b) (k * c) (k * d) = k * U.V * hll' a b c d := by
    intro k hk a b c d
    simp only [hll, hll']
    rw [h_SL, h_SR]
    exact div_sc (a := k * U.V ^ 2) (b := U.V) (by positivity) hV (by ring) (by ring) (by ring)
  have k1 := key hD
  have k2 := key hP
  have k3 := key (k := U.D * U.V) (by positivity)
  have e2 : U.D * U.V ^ 2 * U.V = U.D * U.V ^ 3 := by ring
  have e3 : U.D * U.V * U.V = U.D * U.V ^ 2 := by ring
  rw [e2] at k2
  rw [e3] at k3
  rw [h_fl, h_fr, h_uleft, h_uright]
  simp only [Units.flux, Units.cons, k1, k2, k3]
  cases d3 <;> simp [RealOps.lit_real]

theorem riemannHLLC_units (d3 : Bool) (s : Settings ℝ) (l r : HS ℝ) :
    riemannHLLC d3 (U.settings s) (U.prim l) (U.prim r) = U.flux (riemannHLLC d3 s l r) := by
  have hD := U.hD
  have hV := U.hV
  have hDV : 0 < U.D * U.V := by positivity
  have hP : 0 < U.D * U.V ^ 2 := by positivity
  have hE : 0 < U.D * U.V ^ 3 := by positivity
  unfold riemannHLLC
  extract_lets entho rl pl ul ecl0 ecl1 ecl etl ptl rr pr ur ecr0 ecr1 ecr etr ptr cfl cfr SL SR rcl rcr ustar
    ptst rsl esl rsr esr
    entho' rl' pl' ul' ecl0' ecl1' ecl' etl' ptl' rr' pr' ur' ecr0' ecr1' ecr' etr' ptr' cfl' cfr' SL' SR' rcl'
    rcr' ustar' ptst' rsl' esl' rsr' esr'
  have h_rl : rl = U.D * rl' := max_sc hD rfl rfl
  have h_rr : rr = U.D * rr' := max_sc hD rfl rfl
  have h_ul : ul = U.V * ul' := rfl
  have h_ur : ur = U.V * ur' := rfl
  have h_pl : pl = U.D * U.V ^ 2 * pl' := max_sc hP rfl (by rw [h_rl]; simp only [Units.settings]; ring)
  have h_pr : pr = U.D * U.V ^ 2 * pr' := max_sc hP rfl (by rw [h_rr]; simp only [Units.settings]; ring)
  have h_ptl : ptl = U.D * U.V ^ 2 * ptl' := h_pl
  have h_ptr : ptr = U.D * U.V ^ 2 * ptr' := h_pr
  have h_ecl1 : ecl1 = U.D * U.V ^ 2 * ecl1' := by
    simp only [ecl1, ecl1', ecl0, ecl0']; rw [h_rl, h_ul]; simp only [Units.prim]; ring
  have h_ecr1 : ecr1 = U.D * U.V ^ 2 * ecr1' := by
    simp only [ecr1, ecr1', ecr0, ecr0']; rw [h_rr, h_ur]; simp only [Units.prim]; ring
  have h_ecl : ecl = U.D * U.V ^ 2 * ecl' := ite_sc rfl
    (by rw [h_ecl1, h_rl]; simp only [Units.prim]; ring) h_ecl1
  have h_ecr : ecr = U.D * U.V ^ 2 * ecr' := ite_sc rfl
    (by rw [h_ecr1, h_rr]; simp only [Units.prim]; ring) h_ecr1
  have h_entho : entho = entho' := rfl
  have h_etl : etl = U.D * U.V ^ 2 * etl' := by
    simp only [etl, etl']; rw [h_pl, h_ecl, h_entho]; ring
  have h_etr : etr = U.D * U.V ^ 2 * etr' := by
    simp only [etr, etr']; rw [h_pr, h_ecr, h_entho]; ring
  have h_cfl : cfl = U.V * cfl' := sqrt_sc hV (max_sc (by positivity)
    (div_sc hP hD (by rw [h_pl]; simp only [Units.settings]; ring) h_rl (by ring))
    (by simp only [Units.settings]; ring))
  have h_cfr : cfr = U.V * cfr' := sqrt_sc hV (max_sc (by positivity)
    (div_sc hP hD (by rw [h_pr]; simp only [Units.settings]; ring) h_rr (by ring))
    (by simp only [Units.settings]; ring))
  have h_SL : SL = U.V * SL' := by
    simp only [SL, SL']; rw [min_sc hV h_ul h_ur, max_sc hV h_cfl h_cfr]; ring
  have h_SR : SR = U.V * SR' := by
    simp only [SR, SR']; rw [max_sc hV h_ul h_ur, max_sc hV h_cfl h_cfr]; ring
  have h_rcl : rcl = U.D * U.V * rcl' := by simp only [rcl, rcl']; rw [h_rl, h_ul, h_SL]; ring
  have h_rcr : rcr = U.D * U.V * rcr' := by simp only [rcr, rcr']; rw [h_rr, h_ur, h_SR]; ring
  have h_ustar : ustar = U.V * ustar' := div_sc hP hDV
    (by rw [h_rcr, h_rcl, h_ur, h_ul, h_ptl, h_ptr]; ring) (by rw [h_rcr, h_rcl]; ring) (by ring)
  have h_ptst : ptst = U.D * U.V ^ 2 * ptst' := div_sc (a := U.D ^ 2 * U.V ^ 3) (by positivity) hDV
    (by rw [h_rcr, h_rcl, h_ur, h_ul, h_ptl, h_ptr]; ring) (by rw [h_rcr, h_rcl]; ring) (by ring)
  have h_rsl : rsl = U.D * rsl' := div_sc hDV hV (by rw [h_rl, h_SL, h_ul]; ring)
    (by rw [h_SL, h_ustar]; ring) (by ring)
  have h_rsr : rsr = U.D * rsr' := div_sc hDV hV (by rw [h_rr, h_SR, h_ur]; ring)
    (by rw [h_SR, h_ustar]; ring) (by ring)
  have h_esl : esl = U.D * U.V ^ 2 * esl' := div_sc hE hV
    (by rw [h_etl, h_SL, h_ul, h_ptl, h_ptst, h_ustar]; ring) (by rw [h_SL, h_ustar]; ring) (by ring)
  have h_esr : esr = U.D * U.V ^ 2 * esr' := div_sc hE hV
    (by rw [h_etr, h_SR, h_ur, h_ptr, h_ptst, h_ustar]; ring) (by rw [h_SR, h_ustar]; ring) (by ring)
  have c1 : gtb SL (lit 0) = gtb SL' (lit 0) := lt_sc hV (zero_sc _) h_SL
  have c2 : gtb ustar (lit 0) = gtb ustar' (lit 0) := lt_sc hV (zero_sc _) h_ustar
  have c3 : gtb SR (lit 0) = gtb SR' (lit 0) := lt_sc hV (zero_sc _) h_SR
  have key : ∀ ro uo po eo ro' uo' po' eo' : ℝ, ro = U.D * ro' → uo = U.V * uo' → po = U.D * U.V ^ 2 * po' →
      eo = U.D * U.V ^ 2 * eo' →
      (⟨ro * uo, (eo + po) * uo, ro * uo * uo + po,
        if gtb (ro * uo) (lit 0) = true then ro * uo * (U.prim l).v else ro * uo * (U.prim r).v,
        if d3 = true then (if gtb (ro * uo) (lit 0) = true then ro * uo * (U.prim l).w
          else ro * uo * (U.prim r).w) else lit 0⟩ : HS ℝ) =
      U.flux ⟨ro' * uo', (eo' + po') * uo', ro' * uo' * uo' + po',
        if gtb (ro' * uo') (lit 0) = true then ro' * uo' * l.v else ro' * uo' * r.v,
        if d3 = true then (if gtb (ro' * uo') (lit 0) = true then ro' * uo' * l.w
          else ro' * uo' * r.w) else lit 0⟩ := by
    intro ro uo po eo ro' uo' po' eo' h1 h2 h3 h4
    have hf : ro * uo = U.D * U.V * (ro' * uo') := by rw [h1, h2]; ring
    have hc : gtb (ro * uo) (lit 0) = gtb (ro' * uo') (lit 0) := lt_sc hDV (zero_sc _) hf
    have hv : ∀ a : ℝ, ro * uo * (U.V * a) = U.D * U.V ^ 2 * (ro' * uo' * a) := by
      intro a; rw [hf]; ring
    unfold Units.flux
    rw [HS.mk.injEq]
    refine ⟨hf, by rw [h2, h3, h4]; ring, by rw [h1, h2, h3]; ring, ite_sc hc (hv _) (hv _),
      ite_sc rfl (ite_sc hc (hv _) (hv _)) (zero_sc _)⟩
  rw [c1, c2, c3]
  by_cases b1 : gtb SL' (lit 0) = true
  · rw [if_pos b1, if_pos b1]
    exact key _ _ _ _ _ _ _ _ h_rl h_ul h_ptl h_etl
  rw [if_neg b1, if_neg b1]
  by_cases b2 : gtb ustar' (lit 0) = true
  · rw [if_pos b2, if_pos b2]
    exact key _ _ _ _ _ _ _ _ h_rsl h_ustar h_ptst h_esl
  rw [if_neg b2, if_neg b2]
  by_cases b3 : gtb SR' (lit 0) = true
  · rw [if_pos b3, if_pos b3]
    exact key _ _ _ _ _ _ _ _ h_rsr h_ustar h_ptst h_esr
  rw [if_neg b3, if_neg b3]
  exact key _ _ _ _ _ _ _ _ h_rr h_ur h_ptr h_etr

theorem flux_zero_units : U.flux HS.zero = HS.zero := by
  simp [Units.flux, HS.zero, RealOps.lit_real]

theorem riemannHydro2_units (s : Settings ℝ) (rt : RiemannType) (l r : HS ℝ) :
    riemannHydro2 (U.settings s) rt (U.prim l) (U.prim r) HS.zero = U.flux (riemannHydro2 s rt l r HS.zero) := by
  cases rt <;> simp only [riemannHydro2, riemannApprox_units, riemannHLL_units, riemannHLLC_units,
    riemannLLF_units, flux_zero_units]

theorem riemannHydro3_units (s : Settings ℝ) (rt : RiemannType) (l r : HS ℝ) :
    riemannHydro3 (U.settings s) rt (U.prim l) (U.prim r) HS.zero = U.flux (riemannHydro3 s rt l r HS.zero) := by
  cases rt <;> simp only [riemannHydro3, riemannApprox_units, riemannHLLC_units,
    riemannLLF_units, flux_zero_units]

/-! ## Conversions, slopes, reconstruction -/

theorem computePrimitives2_units (s : Settings ℝ) (u : HS ℝ) :
    computePrimitives2 (U.settings s) (U.cons u) =
      (U.prim (computePrimitives2 s u).1, U.V * (computePrimitives2 s u).2) := by
  have hD := U.hD
  have hV := U.hV
  have hDV : 0 < U.D * U.V := by positivity
  have hP : 0 < U.D * U.V ^ 2 := by positivity
  unfold computePrimitives2
  extract_lets d ux uy eken e p c d' ux' uy' eken' e' p' c'
  have h_d : d = U.D * d' := max_sc hD rfl rfl
  have h_ux : ux = U.V * ux' := div_sc hDV hD rfl h_d (by ring)
  have h_uy : uy = U.V * uy' := div_sc hDV hD rfl h_d (by ring)
  have h_eken : eken = U.V ^ 2 * eken' := by simp only [eken, eken', h_ux, h_uy]; ring
  have h_e : e = U.V ^ 2 * e' := by
    simp only [e, e']
    rw [h_eken, div_sc (x := (U.cons u).p) (x' := u.p) hP hD rfl h_d (c := U.V ^ 2) (by ring)]; ring
  have h_p : p = U.D * U.V ^ 2 * p' := max_sc hP
    (by rw [h_d, h_e]; simp only [Units.settings]; ring) (by rw [h_d]; simp only [Units.settings]; ring)
  have h_c : c = U.V * c' := sqrt_sc hV
    (div_sc hP hD (by rw [h_p]; simp only [Units.settings]; ring) h_d (by ring))
  rw [h_d, h_p, h_ux, h_uy, h_c]
  simp [Units.prim, RealOps.lit_real]

theorem computePrimitives3_units (s : Settings ℝ) (u : HS ℝ) :
    computePrimitives3 (U.settings s) (U.cons u) =
      (U.prim (computePrimitives3 s u).1, U.V * (computePrimitives3 s u).2) := by
  have hD := U.hD
  have hV := U.hV
  have hDV : 0 < U.D * U.V := by positivity
  have hP : 0 < U.D * U.V ^ 2 := by positivity
  unfold computePrimitives3
  extract_lets d ux uy uz eken e p c d' ux' uy' uz' eken' e' p' c'
  have h_d : d = U.D * d' := max_sc hD rfl rfl
  have h_ux : ux = U.V * ux' := div_sc hDV hD rfl h_d (by ring)
  have h_uy : uy = U.V * uy' := div_sc hDV hD rfl h_d (by ring)
  have h_uz : uz = U.V * uz' := div_sc hDV hD rfl h_d (by ring)
  have h_eken : eken = U.V ^ 2 * eken' := by simp only [eken, eken', h_ux, h_uy, h_uz]; ring
  have h_e : e = U.V ^ 2 * e' := by
    simp only [e, e']
    rw [h_eken, div_sc (x := (U.cons u).p) (x' := u.p) hP hD rfl h_d (c := U.V ^ 2) (by ring)]; ring
  have h_p : p = U.D * U.V ^ 2 * p' := max_sc hP
    (by rw [h_d, h_e]; simp only [Units.settings]; ring) (by rw [h_d]; simp only [Units.settings]; ring)
  have h_c : c = U.V * c' := sqrt_sc hV
    (div_sc hP hD (by rw [h_p]; simp only [Units.settings]; ring) h_d (by ring))
  rw [h_d, h_p, h_ux, h_uy, h_uz, h_c]
  simp [Units.prim]

theorem slopeScalarDir_scale {c : ℝ} (hc : 0 < c) (st q a b : ℝ) :
    slopeScalarDir st (c * q) (c * a) (c * b) = c * slopeScalarDir st q a b := by
  unfold slopeScalarDir
  extract_lets dl dr dc sg sl dm0 dm dl' dr' dc' sg' sl' dm0' dm'
  have h_dl : dl = c * dl' := by simp only [dl, dl']; ring
  have h_dr : dr = c * dr' := by simp only [dr, dr']; ring
  have h_dc : dc = c * dc' := by simp only [dc, dc']; ring
  have h_sg : sg = sg' := by
    simp only [sg, sg']
    rw [show geb dc (lit 0) = geb dc' (lit 0) from le_sc hc (zero_sc _) h_dc]
  have h_sl : sl = c * sl' := min_sc hc (abs_sc hc h_dl) (abs_sc hc h_dr)
  have h_dm : dm = c * dm' := ite_sc (le_sc (c := c ^ 2) (by positivity) (by rw [h_dl, h_dr]; ring) (zero_sc _))
    (zero_sc _) h_sl
  rw [h_sg, min_sc hc h_dm (abs_sc hc h_dc)]
  ring

theorem prim_zero_units : U.prim HS.zero = HS.zero := by
  simp [Units.prim, HS.zero, RealOps.lit_real]

theorem slope2_units (s : Settings ℝ) (q a b c d : HS ℝ) :
    slope2 (U.settings s) (U.prim q) (U.prim a) (U.prim b) (U.prim c) (U.prim d) HS.zero HS.zero =
      (U.prim (slope2 s q a b c d HS.zero HS.zero).1, U.prim (slope2 s q a b c d HS.zero HS.zero).2) := by
  have hD := U.hD
  have hV := U.hV
  have hP : 0 < U.D * U.V ^ 2 := by positivity
  have e : (U.settings s).slope_type = s.slope_type := rfl
  unfold slope2
  rw [e]
  split_ifs
  · simp only [prim_zero_units]
  · simp only [slopeScalar2, Units.prim, slopeScalarDir_scale hD, slopeScalarDir_scale hV,
      slopeScalarDir_scale hP, RealOps.lit_real]
    simp
  · simp only [prim_zero_units]

/-- slopes of primitive variables in the new units -/
noncomputable def Spec.Units.slopes (d : Slopes3 ℝ) : Slopes3 ℝ := ⟨U.prim d.x, U.prim d.y, U.prim d.z⟩

theorem slope3_units (s : Settings ℝ) (q a b c d e f : HS ℝ) :
    slope3 (U.settings s) (U.prim q) (U.prim a) (U.prim b) (U.prim c) (U.prim d) (U.prim e) (U.prim f)
      ⟨HS.zero, HS.zero, HS.zero⟩ = U.slopes (slope3 s q a b c d e f ⟨HS.zero, HS.zero, HS.zero⟩) := by
  have hD := U.hD
  have hV := U.hV
  have hP : 0 < U.D * U.V ^ 2 := by positivity
  have e' : (U.settings s).slope_type = s.slope_type := rfl
  unfold slope3 Spec.Units.slopes
  rw [e']
  split_ifs
  · simp only [prim_zero_units]
  · simp only [Units.prim, slopeScalarDir_scale hD, slopeScalarDir_scale hV, slopeScalarDir_scale hP]
  · simp only [prim_zero_units]

/-- half-step reconstruction of one number: value, slope and time derivative -/
theorem recon_scale {c v x d s k : ℝ} (hv : v ≠ 0) {x' d' s' k' h : ℝ} (hx : x = c * x') (hd : d = c * d')
    (hs : s = c * v * s') (hk : k = k' / v) :
    x - h * d + s * k * h = c * (x' - h * d' + s' * k' * h) ∧
    x + h * d + s * k * h = c * (x' + h * d' + s' * k' * h) := by
  subst hx hd hs hk
  constructor <;> field_simp

theorem traceAlongDir2_units (s : Settings ℝ) (q dx dy : HS ℝ) (a b : ℝ) (f : Face) :
    traceAlongDir2 (U.settings s) (U.prim q) (U.prim dx) (U.prim dy) (a / U.V) (b / U.V) f =
      U.prim (traceAlongDir2 s q dx dy a b f) := by
  have hD := U.hD
  have hV := U.hV
  have hDV : 0 < U.D * U.V := by positivity
  have hP : 0 < U.D * U.V ^ 2 := by positivity
  have hz := zero_sc U.V
  unfold traceAlongDir2
  extract_lets r p u v drx dpx dux dvx dry dpy duy dvy sr sp su sv half
    r' p' u' v' drx' dpx' dux' dvx' dry' dpy' duy' dvy' sr' sp' su' sv'
  have h_sr : sr = U.D * U.V * sr' := by
    simp only [sr, sr', r, u, v, drx, dry, dux, dvy, r', u', v', drx', dry', dux', dvy', Units.prim]; ring
  have h_sp : sp = U.D * U.V ^ 2 * U.V * sp' := by
    simp only [sp, sp', p, u, v, dpx, dpy, dux, dvy, p', u', v', dpx', dpy', dux', dvy', Units.prim,
      Units.settings]; ring
  have h_su : su = U.V * U.V * su' := by
    simp only [su, su']
    rw [div_sc (x := dpx) (y := r) (x' := dpx') (y' := r') hP hD rfl rfl (c := U.V ^ 2) (by ring)]
    simp only [u, v, dux, duy, u', v', dux', duy', Units.prim]; ring
  have h_sv : sv = U.V * U.V * sv' := by
    simp only [sv, sv']
    rw [div_sc (x := dpy) (y := r) (x' := dpy') (y' := r') hP hD rfl rfl (c := U.V ^ 2) (by ring)]
    simp only [u, v, dvx, dvy, u', v', dvx', dvy', Units.prim]; ring
  cases f <;> dsimp only
  · exact (HS.mk.injEq ..).mpr ⟨max_sc hD rfl (recon_scale hV.ne' rfl rfl h_sr rfl).1,
      (recon_scale hV.ne' rfl rfl h_sp rfl).1, (recon_scale hV.ne' rfl rfl h_su rfl).1,
      (recon_scale hV.ne' rfl rfl h_sv rfl).1, hz⟩
  · exact (HS.mk.injEq ..).mpr ⟨max_sc hD rfl (recon_scale hV.ne' rfl rfl h_sr rfl).2,
      (recon_scale hV.ne' rfl rfl h_sp rfl).2, (recon_scale hV.ne' rfl rfl h_su rfl).2,
      (recon_scale hV.ne' rfl rfl h_sv rfl).2, hz⟩
  · exact (HS.mk.injEq ..).mpr ⟨max_sc hD rfl (recon_scale hV.ne' rfl rfl h_sr rfl).1,
      (recon_scale hV.ne' rfl rfl h_sp rfl).1, (recon_scale hV.ne' rfl rfl h_su rfl).1,
      (recon_scale hV.ne' rfl rfl h_sv rfl).1, hz⟩
  · exact (HS.mk.injEq ..).mpr ⟨max_sc hD rfl (recon_scale hV.ne' rfl rfl h_sr rfl).2,
      (recon_scale hV.ne' rfl rfl h_sp rfl).2, (recon_scale hV.ne' rfl rfl h_su rfl).2,
      (recon_scale hV.ne' rfl rfl h_sv rfl).2, hz⟩

theorem traceAlongDir3_units (s : Settings ℝ) (q : HS ℝ) (d : Slopes3 ℝ) (a b c : ℝ) (f : Face) :
    traceAlongDir3 (U.settings s) (U.prim q) (U.slopes d) (a / U.V) (b / U.V) (c / U.V) f =
      U.prim (traceAlongDir3 s q d a b c f) := by
  have hD := U.hD
  have hV := U.hV
  have hDV : 0 < U.D * U.V := by positivity
  have hP : 0 < U.D * U.V ^ 2 := by positivity
  unfold traceAlongDir3
  extract_lets r p u v w drx dpx dux dvx dwx dry dpy duy dvy dwy drz dpz duz dvz dwz sr sp su sv sw half
    r' p' u' v' w' drx' dpx' dux' dvx' dwx' dry' dpy' duy' dvy' dwy' drz' dpz' duz' dvz' dwz' sr' sp' su' sv' sw'
  have h_sr : sr = U.D * U.V * sr' := by
    simp only [sr, sr', r, u, v, w, drx, dry, drz, dux, dvy, dwz, r', u', v', w', drx', dry', drz', dux', dvy',
      dwz', Units.prim, Units.slopes]; ring
  have h_sp : sp = U.D * U.V ^ 2 * U.V * sp' := by
    simp only [sp, sp', p, u, v, w, dpx, dpy, dpz, dux, dvy, dwz, p', u', v', w', dpx', dpy', dpz', dux', dvy',
      dwz', Units.prim, Units.slopes, Units.settings]; ring
  have h_su : su = U.V * U.V * su' := by
    simp only [su, su']
    rw [div_sc (x := dpx) (y := r) (x' := dpx') (y' := r') hP hD rfl rfl (c := U.V ^ 2) (by ring)]
    simp only [u, v, w, dux, duy, duz, u', v', w', dux', duy', duz', Units.prim, Units.slopes]; ring
  have h_sv : sv = U.V * U.V * sv' := by
    simp only [sv, sv']
    rw [div_sc (x := dpy) (y := r) (x' := dpy') (y' := r') hP hD rfl rfl (c := U.V ^ 2) (by ring)]
    simp only [u, v, w, dvx, dvy, dvz, u', v', w', dvx', dvy', dvz', Units.prim, Units.slopes]; ring
  have h_sw : sw = U.V * U.V * sw' := by
    simp only [sw, sw']
    rw [div_sc (x := dpz) (y := r) (x' := dpz') (y' := r') hP hD rfl rfl (c := U.V ^ 2) (by ring)]
    simp only [u, v, w, dwx, dwy, dwz, u', v', w', dwx', dwy', dwz', Units.prim, Units.slopes]; ring
  cases f <;> dsimp only
  all_goals first
  | exact (HS.mk.injEq ..).mpr ⟨max_sc hD rfl (recon_scale hV.ne' rfl rfl h_sr rfl).1,
      (recon_scale hV.ne' rfl rfl h_sp rfl).1, (recon_scale hV.ne' rfl rfl h_su rfl).1,
      (recon_scale hV.ne' rfl rfl h_sv rfl).1, (recon_scale hV.ne' rfl rfl h_sw rfl).1⟩
  | exact (HS.mk.injEq ..).mpr ⟨max_sc hD rfl (recon_scale hV.ne' rfl rfl h_sr rfl).2,
      (recon_scale hV.ne' rfl rfl h_sp rfl).2, (recon_scale hV.ne' rfl rfl h_su rfl).2,
      (recon_scale hV.ne' rfl rfl h_sv rfl).2, (recon_scale hV.ne' rfl rfl h_sw rfl).2⟩

end EulerKokkos
