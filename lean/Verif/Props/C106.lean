import Verif.Lemmas.IeeeRate
import Verif.Lemmas.IeeeCalc
import Verif.Lemmas.FloatMax
import Verif.Model.MhdUtils
import Verif.Lemmas.MhdStep3D

/-!
# C106: in double precision the fast magnetosonic speed of a sound state can be a NaN

`find_speed_fast` and `find_speed_info` take the root of `d2*d2 - c2*Bn*Bn/rho` unguarded.  In exact arithmetic this is never
negative; computed in double precision it can be, and then the speed is a NaN.  `fast_mhd_speed`, which the solvers do not
call, has a guard, and never gives a NaN.
-/

set_option linter.constructorNameAsVariable false

namespace EulerKokkos
open Spec
open Spec.Ieee (Rate Num Sg lowest)

namespace Ieee
variable {Φ : Rounding}

theorem nan_left (x : Ieee Φ) : Spec.Ieee.nan + x = Spec.Ieee.nan := rfl
theorem nan_right (x : Ieee Φ) : x + Spec.Ieee.nan = Spec.Ieee.nan := by cases x <;> rfl
theorem nan_mul (x : Ieee Φ) : Spec.Ieee.nan * x = Spec.Ieee.nan := rfl
theorem mul_nan (x : Ieee Φ) : x * Spec.Ieee.nan = Spec.Ieee.nan := by cases x <;> rfl
theorem nan_div (x : Ieee Φ) : Spec.Ieee.nan / x = Spec.Ieee.nan := rfl
theorem div_nan (x : Ieee Φ) : x / Spec.Ieee.nan = Spec.Ieee.nan := by cases x <;> rfl
theorem nan_sub (x : Ieee Φ) : Spec.Ieee.nan - x = Spec.Ieee.nan := rfl
theorem sub_nan (x : Ieee Φ) : x - Spec.Ieee.nan = Spec.Ieee.nan := by cases x <;> rfl
theorem sqrt_nan : RealOps.sqrt (Spec.Ieee.nan : Ieee Φ) = Spec.Ieee.nan := rfl
theorem fmax_nan : RealOps.fmax (Spec.Ieee.nan : Ieee Φ) Spec.Ieee.nan = Spec.Ieee.nan := rfl
theorem gtb_nan (x : Ieee Φ) : gtb Spec.Ieee.nan x = false := by
  unfold gtb
  show Spec.Ieee.lt x Spec.Ieee.nan = false
  cases x <;> rfl

theorem eq_nan {x : Ieee Φ} (h : x.isNan = true) : x = Spec.Ieee.nan := by
  cases x with
  | nan => rfl
  | inf s => cases h
  | fin s m => cases h

theorem notBelow_sq {x : Ieee Φ} (h : x.isNan = false) : NotBelow (x * x) := by
  cases x with
  | nan => cases h
  | inf s => cases s <;> exact ⟨rfl, le_top⟩
  | fin s m =>
    show NotBelow (Spec.Ieee.round (s ^^ s) (m.1 * m.1))
    rw [Bool.xor_self]
    exact notBelow_round _

/-- the guard `fmax(0, x)` -/
theorem notBelow_guard (x : Ieee Φ) : NotBelow (RealOps.fmax (lit 0) x) := by
  have h0 : NotBelow (lit 0 : Ieee Φ) := by
    rw [lit_zero]
    exact ⟨rfl, EReal.coe_le_coe_iff.2 le_rfl⟩
  show NotBelow (Spec.Ieee.fmax (lit 0) x)
  unfold Spec.Ieee.fmax
  split
  · rename_i h
    rw [h0.1] at h; cases h
  · split
    · exact h0
    · split
      · rename_i h1 h2 h3
        have := lt_iff.1 h3
        exact ⟨this.2.1, h0.2.trans this.2.2.le⟩
      · exact h0

end Ieee

/-- a sound magnetised state in double precision: finite positive density, pressure not below zero, no component of the field
a NaN -/
structure Spec.SoundMhd (s : Settings Double) (q : MS Double) : Prop where
  gamma0 : FinitePos s.gamma0
  d : FinitePos q.d
  p : NotBelow q.p
  a : q.a.isNan = false
  b : q.b.isNan = false
  c : q.c.isNan = false

theorem half_pos : FinitePos (lit (1/2) : Double) := by
  have h : Ieee64.Rep (1/2) := ⟨1, -1, by norm_num, by norm_num, by norm_num, by norm_num⟩
  rw [Ieee64.lit_rep h]
  exact ⟨_, by norm_num, rfl⟩

/-- **C106 (guarded formula).**  The guarded formula gives, for every sound state, whatever rounding, overflow and underflow
do, speeds that are not NaNs and not below zero, in all three directions. -/
theorem C106_guarded {s : Settings Double} {q : MS Double} (h : SoundMhd s q) :
    NotBelow (fastMhdSpeed s q).1 ∧ NotBelow (fastMhdSpeed s q).2.1 ∧ NotBelow (fastMhdSpeed s q).2.2 := by
  have hv : NotBelow (s.gamma0 * q.p / q.d) := Ieee.notBelow_div (Ieee.notBelow_mul h.gamma0 h.p) h.d
  have hs : NotBelow ((q.b * q.b + q.c * q.c) / q.d + q.a * q.a / q.d + s.gamma0 * q.p / q.d) :=
    Ieee.notBelow_add (Ieee.notBelow_add (Ieee.notBelow_div (Ieee.notBelow_add (Ieee.notBelow_sq h.b) (Ieee.notBelow_sq h.c)) h.d)
      (Ieee.notBelow_div (Ieee.notBelow_sq h.a) h.d)) hv
  have key : ∀ x, NotBelow (RealOps.sqrt (lit (1/2) * ((q.b * q.b + q.c * q.c) / q.d + q.a * q.a / q.d +
      s.gamma0 * q.p / q.d + RealOps.sqrt (fmax (lit 0) x)))) := fun x =>
    Ieee.notBelow_sqrt (Ieee.notBelow_mul half_pos (Ieee.notBelow_add hs (Ieee.notBelow_sqrt (Ieee.notBelow_guard _))))
  exact ⟨key _, key _, key _⟩

/-! ### The formula the solvers use -/

namespace Spec

/-- the two numbers whose difference is under the root -/
noncomputable def fastSquare (s : Settings Double) (q : MS Double) : Double :=
  let d2 := lit (1/2) * ((q.a * q.a + q.b * q.b + q.c * q.c) / q.d + s.gamma0 * q.p / q.d)
  d2 * d2

noncomputable def fastNormal (s : Settings Double) (n : Nat) (q : MS Double) : Double :=
  s.gamma0 * q.p / q.d * q.normalB n * q.normalB n / q.d

/-- not a NaN and not infinite -/
def Finite (x : Double) : Prop := ∃ s m, x = .fin s m

end Spec

/-- gradual underflow: two different numbers have a computed difference that is not zero -/
theorem diff_pos {σ τ : Bool} {x y : binary64.Mag} (h : Spec.Ieee.real σ x + -Spec.Ieee.real τ y < 0) :
    (2 : ℝ) ^ (-1074 : ℤ) ≤ |Spec.Ieee.real σ x + -Spec.Ieee.real τ y| := by
  have mult : ∀ (σ : Bool) (x : binary64.Mag), ∃ k : ℤ, Spec.Ieee.real σ x = k * (2 : ℝ) ^ (-1074 : ℤ) := by
    intro σ x
    obtain ⟨m, e, -, -, he, hx⟩ := x.2.1
    obtain ⟨n, hn⟩ := Int.eq_ofNat_of_zero_le (show 0 ≤ e - -1074 by omega)
    have hx : x.1 = ((m * 2 ^ n : ℤ) : ℝ) * (2 : ℝ) ^ (-1074 : ℤ) := by
      rw [hx, show e = (n : ℤ) + -1074 by omega, zpow_add₀ (by norm_num), zpow_natCast]
      push_cast
      ring
    cases σ
    · exact ⟨_, hx⟩
    · exact ⟨-(m * 2 ^ n), by rw [Ieee.real_true, hx]; push_cast; ring⟩
  obtain ⟨k, hk⟩ := mult σ x
  obtain ⟨l, hl⟩ := mult τ y
  have e : Spec.Ieee.real σ x + -Spec.Ieee.real τ y = ((k - l : ℤ) : ℝ) * (2 : ℝ) ^ (-1074 : ℤ) := by
    rw [hk, hl]; push_cast; ring
  have hp : (0 : ℝ) < (2 : ℝ) ^ (-1074 : ℤ) := zpow_pos two_pos _
  rw [e] at h ⊢
  have hkl : ((k - l : ℤ) : ℝ) < 0 := by
    by_contra h'
    exact absurd h (not_lt.2 (mul_nonneg (not_lt.1 h') hp.le))
  have hkl : k - l ≤ -1 := by
    have : k - l < 0 := by exact_mod_cast hkl
    omega
  have hkl : ((k - l : ℤ) : ℝ) ≤ -1 := by exact_mod_cast hkl
  rw [abs_mul, abs_of_pos hp]
  refine le_mul_of_one_le_left hp.le ?_
  rw [le_abs]
  right
  linarith

theorem sqrt_round_neg {r : ℝ} (h : (2 : ℝ) ^ (-1074 : ℤ) ≤ r) :
    RealOps.sqrt (Spec.Ieee.round true r : Double) = Spec.Ieee.nan := by
  have hp : (0 : ℝ) < (2 : ℝ) ^ (-1074 : ℤ) := zpow_pos two_pos _
  have hg : (2 : ℝ) ^ (-1074 : ℤ) ∈ binary64.grid := pow_mem (by norm_num) le_rfl
  have hr : 0 < binary64.rnd r := by
    refine hp.trans_le ?_
    have := binary64.rnd_mono hp.le h
    rwa [binary64.rnd_id hg] at this
  by_cases ht : binary64.rnd r ≤ binary64.top
  · rw [Ieee.round_fin (hp.le.trans h) ht]
    show Spec.Ieee.sqrt _ = _
    unfold Spec.Ieee.sqrt; dsimp only
    rw [if_neg hr.ne', if_pos rfl]
  · rw [Ieee.round_inf (not_le.1 ht)]
    rfl

/-- **C106 (when).**  If neither of the two numbers overflows, the speed the solvers use is a NaN exactly when the computed
value of `d2*d2` is below the computed value of `c2*Bn*Bn/rho` (in exact arithmetic it never is). -/
theorem C106_nan_iff {s : Settings Double} {q : MS Double} (h : SoundMhd s q) {n : Nat} (h1 : Finite (fastSquare s q))
    (h2 : Finite (fastNormal s n q)) :
    (findSpeedFast s n q).isNan = true ↔ RealOps.lt (fastSquare s q) (fastNormal s n q) = true := by
  have hd : NotBelow (lit (1/2) * ((q.a * q.a + q.b * q.b + q.c * q.c) / q.d + s.gamma0 * q.p / q.d)) :=
    Ieee.notBelow_mul half_pos (Ieee.notBelow_add (Ieee.notBelow_div (Ieee.notBelow_add (Ieee.notBelow_add
      (Ieee.notBelow_sq h.a) (Ieee.notBelow_sq h.b)) (Ieee.notBelow_sq h.c)) h.d)
      (Ieee.notBelow_div (Ieee.notBelow_mul h.gamma0 h.p) h.d))
  have e : findSpeedFast s n q = RealOps.sqrt (lit (1/2) * ((q.a * q.a + q.b * q.b + q.c * q.c) / q.d +
      s.gamma0 * q.p / q.d) + RealOps.sqrt (fastSquare s q - fastNormal s n q)) := rfl
  rw [e]
  obtain ⟨σ, x, hx⟩ := h1
  obtain ⟨τ, y, hy⟩ := h2
  rw [hx, hy]
  generalize (lit (1/2) * ((q.a * q.a + q.b * q.b + q.c * q.c) / q.d + s.gamma0 * q.p / q.d) : Double) = D at hd
  have lt_real : RealOps.lt (.fin σ x : Double) (.fin τ y) = true ↔ Spec.Ieee.real σ x < Spec.Ieee.real τ y := by
    refine Ieee.lt_iff.trans ⟨fun h => EReal.coe_lt_coe_iff.1 h.2.2, fun h => ⟨rfl, rfl, EReal.coe_lt_coe_iff.2 h⟩⟩
  rw [lt_real]
  have hsub : (.fin σ x - .fin τ y : Double) = Spec.Ieee.add (.fin σ x) (.fin (!τ) y) := rfl
  have hneg : Spec.Ieee.real (!τ) y = - Spec.Ieee.real τ y := by cases τ <;> simp [Spec.Ieee.real]
  rw [hsub]
  unfold Spec.Ieee.add; dsimp only
  rw [hneg]
  by_cases hlt : Spec.Ieee.real σ x < Spec.Ieee.real τ y
  · have hr : Spec.Ieee.real σ x + -Spec.Ieee.real τ y < 0 := by linarith
    rw [if_neg hr.ne, decide_eq_true hr]
    refine iff_of_true ?_ hlt
    have hnz : RealOps.sqrt (Spec.Ieee.round true |Spec.Ieee.real σ x + -Spec.Ieee.real τ y| : Double) = Spec.Ieee.nan := by
      exact sqrt_round_neg (diff_pos hr)
    rw [hnz, Ieee.nan_right]
    rfl
  · refine iff_of_false ?_ hlt
    have hr : ¬ Spec.Ieee.real σ x + -Spec.Ieee.real τ y < 0 := by linarith
    have : NotBelow (if Spec.Ieee.real σ x + -Spec.Ieee.real τ y = 0 then Spec.Ieee.round (σ && !τ) 0
        else Spec.Ieee.round (decide (Spec.Ieee.real σ x + -Spec.Ieee.real τ y < 0))
          |Spec.Ieee.real σ x + -Spec.Ieee.real τ y| : Double) := by
      split
      · exact Ieee.notBelow_round_zero _
      · rw [decide_eq_false hr]
        exact Ieee.notBelow_round _
    have := (Ieee.notBelow_sqrt (Ieee.notBelow_add hd (Ieee.notBelow_sqrt this))).1
    simpa using this

/-- the fast speed along axis `n` exists: nothing overflows and the computed `d2*d2` is not below the computed
`c2*Bn*Bn/rho` -/
def Spec.HasSpeed (s : Settings Double) (q : MS Double) (n : Nat) : Prop :=
  Finite (fastSquare s q) ∧ Finite (fastNormal s n q) ∧ RealOps.lt (fastSquare s q) (fastNormal s n q) = false

theorem speed_notBelow {s : Settings Double} {q : MS Double} (h : SoundMhd s q) {n : Nat} (hn : HasSpeed s q n) :
    NotBelow (findSpeedFast s n q) := by
  have h1 : (findSpeedFast s n q).isNan = false := by
    by_contra hc
    have := (C106_nan_iff h hn.1 hn.2.1).1 (by simpa using hc)
    rw [hn.2.2] at this
    cases this
  refine ⟨h1, ?_⟩
  unfold findSpeedFast at h1 ⊢
  dsimp only at h1 ⊢
  generalize (_ + RealOps.sqrt _ : Double) = x at h1 ⊢
  revert h1
  show (Spec.Ieee.sqrt x).isNan = false → 0 ≤ (Spec.Ieee.sqrt x).key
  intro h1
  cases x with
  | nan => cases h1
  | inf σ =>
    cases σ
    · exact le_top
    · cases h1
  | fin σ m =>
    unfold Spec.Ieee.sqrt at h1 ⊢
    dsimp only at h1 ⊢
    split at h1
    · rename_i hm
      rw [if_pos hm]
      refine EReal.coe_le_coe_iff.2 ?_
      cases σ <;> simp [Spec.Ieee.real, hm]
    · rename_i hm
      cases σ
      · rw [if_neg hm, if_neg (by decide)]
        exact (Ieee.notBelow_round _).2
      · cases h1

theorem rate_speed {s : Settings Double} {q : MS Double} {n : Nat} {u h : Double} (hc : NotBelow (findSpeedFast s n q))
    (hu : u.isNan = false) (hh : FinitePos h) : Rate ((findSpeedFast s n q + fabs u) / h) := by
  have hs : Sg h := by obtain ⟨m, _, rfl⟩ := hh; exact .inr rfl
  have hs' : Sg (findSpeedFast s n q + fabs u) := by
    unfold findSpeedFast
    exact Ieee.sg_speed _ _
  exact Ieee.rate_of_sg (Ieee.notNan_div (Ieee.notNan_add hc (Ieee.notBelow_fabs hu)) hh) (Ieee.sg_div _ _ hs' hs)

theorem speedInfo_eq {R : Type} [RealOps R] (s : Settings R) (q : MS R) : findSpeedInfo s q =
    (findSpeedFast s 0 q + fabs q.u, findSpeedFast s 1 q + fabs q.v, findSpeedFast s 2 q + fabs q.w) := rfl

/-- **C106 (cells with a rate, 2D).**  A sound cell that has fast speeds along x and y and whose velocity is not a NaN takes
part in the time step: its rate is not a NaN and has its sign bit clear (the condition of `C105_mpi_is_serial`). -/
theorem C106_alive_2d {p : Params Double} {q : MS Double} (h : SoundMhd p.settings q) (hx : FinitePos p.dx)
    (hy : FinitePos p.dy) (hu : q.u.isNan = false) (hv : q.v.isNan = false) (h0 : HasSpeed p.settings q 0)
    (h1 : HasSpeed p.settings q 1) : Rate (cellRateM2 p q) := by
  unfold cellRateM2
  rw [speedInfo_eq]
  exact Ieee.rate_add (rate_speed (speed_notBelow h h0) hu hx) (rate_speed (speed_notBelow h h1) hv hy)

/-- **C106 (cells with a rate, 3D).** -/
theorem C106_alive_3d {p : Params Double} {q : MS Double} (h : SoundMhd p.settings q) (hx : FinitePos p.dx)
    (hy : FinitePos p.dy) (hz : FinitePos p.dz) (hu : q.u.isNan = false) (hv : q.v.isNan = false)
    (hw : q.w.isNan = false) (h0 : HasSpeed p.settings q 0) (h1 : HasSpeed p.settings q 1) (h2 : HasSpeed p.settings q 2) :
    Rate (cellRateM3 p q) := by
  unfold cellRateM3
  rw [speedInfo_eq]
  exact Ieee.rate_add (Ieee.rate_add (rate_speed (speed_notBelow h h0) hu hx) (rate_speed (speed_notBelow h h1) hv hy))
    (rate_speed (speed_notBelow h h2) hw hz)

/-! ### A sound state without a speed -/

namespace Spec

/-- gas at rest, density 1, pressure `2.33563756942749`, field `1.97300004959106` along x (all numbers are also single
precision numbers, as `ConfigMap::getFloat` reads them) -/
noncomputable def tieState : MS Double :=
  ⟨lit 1, lit (4898187/2097152), lit 0, lit 0, lit 0, lit (4137681/2097152), lit 0, lit 0⟩

/-- the single precision number nearest to 5/3 -/
noncomputable def tieGamma : Double := lit (13981013/8388608)

end Spec

namespace Tie
open Ieee64

theorem r0 : Rep 0 := ⟨0, 0, by norm_num, by norm_num, by norm_num, by norm_num⟩
theorem r1 : Rep 1 := ⟨1, 0, by norm_num, by norm_num, by norm_num, by norm_num⟩
theorem rh : Rep (1/2) := ⟨1, -1, by norm_num, by norm_num, by norm_num, by norm_num⟩
theorem rg : Rep (13981013/8388608) := ⟨13981013, -23, by norm_num, by norm_num, by norm_num, by norm_num⟩
theorem rp : Rep (4898187/2097152) := ⟨4898187, -21, by norm_num, by norm_num, by norm_num, by norm_num⟩
theorem ra : Rep (4137681/2097152) := ⟨4137681, -21, by norm_num, by norm_num, by norm_num, by norm_num⟩
theorem rb2 : Rep (17120404057761/4398046511104) :=
  ⟨17120404057761, -42, by norm_num, by norm_num, by norm_num, by norm_num⟩
theorem rc2 : Rep (68481616123431/17592186044416) :=
  ⟨68481616123431, -44, by norm_num, by norm_num, by norm_num, by norm_num⟩
theorem rt : Rep (136963232354475/17592186044416) :=
  ⟨136963232354475, -44, by norm_num, by norm_num, by norm_num, by norm_num⟩
theorem rd : Rep (136963232354475/35184372088832) :=
  ⟨136963232354475, -45, by norm_num, by norm_num, by norm_num, by norm_num⟩
theorem ndd : Near (136963232354475/35184372088832 * (136963232354475/35184372088832)) (4265286183223431/281474976710656) :=
  ⟨8530572366446862, -49, by norm_num, by norm_num, by norm_num, by norm_num, by norm_num, by norm_num [abs_lt]⟩
theorem nca : Near (68481616123431/17592186044416 * (4137681/2097152)) (8647310848486759/1125899906842624) :=
  ⟨8647310848486759, -50, by norm_num, by norm_num, by norm_num, by norm_num, by norm_num, by norm_num [abs_lt]⟩
theorem ncaa : Near (8647310848486759/1125899906842624 * (4137681/2097152)) (8530572366446863/562949953421312) :=
  ⟨8530572366446863, -49, by norm_num, by norm_num, by norm_num, by norm_num, by norm_num, by norm_num [abs_lt]⟩

theorem c2 : tieGamma * tieState.p / tieState.d = lit (68481616123431/17592186044416) := by
  show (lit _ * lit _ / lit 1 : Double) = _
  rw [mul_rep rg rp (q := 68481616123431/17592186044416) (by norm_num) rc2, div_rep rc2 r1 (by norm_num) (by norm_num) rc2]

theorem square {s : Settings Double} (hs : s.gamma0 = tieGamma) :
    fastSquare s tieState = lit (4265286183223431/281474976710656) := by
  have h0 : (lit 0 * lit 0 : Double) = lit 0 := mul_rep r0 r0 (by norm_num) r0
  have hb : ((tieState.a * tieState.a + tieState.b * tieState.b + tieState.c * tieState.c) / tieState.d : Double) =
      lit (17120404057761/4398046511104) := by
    show ((lit _ * lit _ + lit 0 * lit 0 + lit 0 * lit 0) / lit 1 : Double) = _
    rw [mul_rep ra ra (q := 17120404057761/4398046511104) (by norm_num) rb2, h0, add_rep rb2 r0 (by norm_num) rb2,
      add_rep rb2 r0 (by norm_num) rb2, div_rep rb2 r1 (by norm_num) (by norm_num) rb2]
  unfold fastSquare
  dsimp only
  rw [hs, hb, c2, add_rep rb2 rc2 (q := 136963232354475/17592186044416) (by norm_num) rt,
    mul_rep rh rt (q := 136963232354475/35184372088832) (by norm_num) rd, mul_near rd rd ndd]

theorem normal {s : Settings Double} (hs : s.gamma0 = tieGamma) :
    fastNormal s 0 tieState = lit (8530572366446863/562949953421312) := by
  unfold fastNormal
  rw [hs, c2]
  show (lit _ * lit (4137681/2097152) * lit (4137681/2097152) / lit 1 : Double) = _
  rw [mul_near rc2 ra nca, mul_near nca.rep ra ncaa, div_rep ncaa.rep r1 (by norm_num) (by norm_num) ncaa.rep]

end Tie

theorem finitePos_lit {q : ℚ} (h : Ieee64.Rep q) (h0 : 0 < q) : FinitePos (lit q : Double) := by
  rw [Ieee64.lit_rep h]
  exact ⟨_, Rat.cast_pos.2 h0, rfl⟩

theorem notBelow_lit {q : ℚ} (h : Ieee64.Rep q) : NotBelow (lit q : Double) := by
  rw [Ieee64.lit_rep h]
  exact ⟨rfl, EReal.coe_le_coe_iff.2 (Rat.cast_nonneg.2 h.nonneg)⟩

/-- **C106 (a sound state without a speed).**  With the adiabatic index 5/3, gas at rest with density 1, a positive pressure
and a uniform field along x is a sound state, nothing overflows, and the speed the solvers use is a NaN. -/
theorem C106_witness {s : Settings Double} (hs : s.gamma0 = tieGamma) :
    SoundMhd s tieState ∧ FinitePos tieState.p ∧ Finite (fastSquare s tieState) ∧ Finite (fastNormal s 0 tieState) ∧
      findSpeedFast s 0 tieState = Spec.Ieee.nan := by
  have hok : SoundMhd s tieState :=
    ⟨hs ▸ finitePos_lit Tie.rg (by norm_num), finitePos_lit Tie.r1 (by norm_num), notBelow_lit Tie.rp,
      (notBelow_lit Tie.ra).1, (notBelow_lit Tie.r0).1, (notBelow_lit Tie.r0).1⟩
  have h1 : Finite (fastSquare s tieState) := ⟨_, _, (Tie.square hs).trans (Ieee64.lit_rep Tie.ndd.rep)⟩
  have h2 : Finite (fastNormal s 0 tieState) := ⟨_, _, (Tie.normal hs).trans (Ieee64.lit_rep Tie.ncaa.rep)⟩
  refine ⟨hok, finitePos_lit Tie.rp (by norm_num), h1, h2, Ieee.eq_nan ((C106_nan_iff hok h1 h2).2 ?_)⟩
  rw [Tie.square hs, Tie.normal hs, Ieee64.lit_rep Tie.ndd.rep, Ieee64.lit_rep Tie.ncaa.rep]
  refine Ieee.lt_iff.2 ⟨rfl, rfl, EReal.coe_lt_coe_iff.2 ?_⟩
  rw [Ieee.real_false, Ieee.real_false]
  norm_num

/-! ### What follows -/

theorem reduce_idle {ι : Type} {S : Finset ι} {f : ι → Double → Prog Arr Double Double} {m : Mem Arr Double} {r : Double}
    (hmax : IsMax Sg f m) (idle : ∀ t, ((f t lowest).run m).1 = lowest)
    (hr : ParReduce S f kokkosMaxJoin lowest m r) : r = lowest := by
  have hL : MaxLaws Double Num Sg := Ieee.maxLaws
  obtain ⟨l, _, hl, hr⟩ := hr
  obtain ⟨h1, h2, h3, h4⟩ := reduce_fmax hL hmax Ieee.num_lowest hr
  rcases h2 with e | ⟨t, _, x, hx, hxx, rfl⟩
  · exact e
  · have := (hxx lowest).symm.trans (idle t)
    rw [hL.max_num _ _ Ieee.num_lowest hx] at this
    split at this
    · exact this
    · rename_i hlt
      exact hL.total _ _ h1 Ieee.num_lowest h3 (by simpa using hlt)

theorem div_lowest_neg {c : Double} (hc : FinitePos c) : (c / lowest).negative = true := by
  obtain ⟨c, hc0, rfl⟩ := hc
  show (Spec.Ieee.div (.fin false c) lowest).negative = true
  unfold Spec.Ieee.div lowest
  dsimp only
  have := binary64.two_le_top
  rw [if_neg (by linarith)]
  rcases Ieee.round_cases (Φ := binary64) (false ^^ true) (c.1 / binary64.top) with ⟨k, ek⟩ | ek <;> rw [ek] <;> rfl

theorem rate_dead2 {p : Params Double} {q : MS Double} {n : Nat} (hn : n < 2)
    (h : findSpeedFast p.settings n q = Spec.Ieee.nan) :
    (findSpeedInfo p.settings q).1 / p.dx + (findSpeedInfo p.settings q).2.1 / p.dy = Spec.Ieee.nan := by
  match n, hn with
  | 0, _ =>
    have e : (findSpeedInfo p.settings q).1 = Spec.Ieee.nan := (congrArg (· + _) h).trans (Ieee.nan_left _)
    rw [e, Ieee.nan_div, Ieee.nan_left]
  | 1, _ =>
    have e : (findSpeedInfo p.settings q).2.1 = Spec.Ieee.nan := (congrArg (· + _) h).trans (Ieee.nan_left _)
    rw [e, Ieee.nan_div, Ieee.nan_right]

/-- **C106 (time step, 2D).**  If no cell of the domain has a fast speed along both axes (as when all hold `tieState`), the time
step of the 2D solver is `cfl / -DBL_MAX`, with the sign bit set: it is not a positive step. -/
theorem C106_dead_domain_2d {p : Params Double} (hw : p.WF) (hx : Sg p.dx) (hy : Sg p.dy) (hc : FinitePos p.settings.cfl)
    {m : Mem Arr Double} {dt : Double} (h : computeDtLocalMhd2 p lowest m dt)
    (hdead : ∀ i j, interior2 p i j → ∃ n < 2, findSpeedFast p.settings n (ms m .Q i j 0) = Spec.Ieee.nan) :
    dt = p.settings.cfl / lowest ∧ dt.negative = true := by
  obtain ⟨r, hr, rfl⟩ := h
  have idle : ∀ t, ((computeDtMhd2 p .Q t lowest).run m).1 = lowest := by
    intro t
    unfold computeDtMhd2
    split_ifs with ht
    · obtain ⟨n, hn, hd⟩ := hdead t.1 t.2 ((cellGuard2_iff hw t.1 t.2).1 ht)
      simp only [Prog.run_bind, run_getMS, Prog.run_pure, rate_dead2 hn hd]
      rfl
    · rfl
  rw [reduce_idle (isMax_mhd2 Ieee.maxLaws hx hy .Q m) idle hr]
  exact ⟨rfl, div_lowest_neg hc⟩

/-- **C106 (time step, 3D).** -/
theorem C106_dead_domain_3d {p : Params Double} (hw : p.WF) (hx : Sg p.dx) (hy : Sg p.dy) (hz : Sg p.dz)
    (hc : FinitePos p.settings.cfl) {m : Mem Arr Double} {dt : Double} (h : computeDtLocalMhd3 p lowest m dt)
    (hdead : ∀ i j k, interior3 p i j k → ∃ n < 3, findSpeedFast p.settings n (ms m .Q i j k) = Spec.Ieee.nan) :
    dt = p.settings.cfl / lowest ∧ dt.negative = true := by
  obtain ⟨r, hr, rfl⟩ := h
  have idle : ∀ t, ((computeDtMhd3 p .Q t lowest).run m).1 = lowest := by
    intro t
    unfold computeDtMhd3
    split_ifs with ht
    · obtain ⟨n, hn, hd⟩ := hdead t.1 t.2.1 t.2.2 ((cellGuard3_iff hw t.1 t.2.1 t.2.2).1 ht)
      simp only [Prog.run_bind, run_getMS, Prog.run_pure]
      match n, hn with
      | 0, _ => rw [rate_dead2 (n := 0) (by omega) hd, Ieee.nan_left]; rfl
      | 1, _ => rw [rate_dead2 (n := 1) (by omega) hd, Ieee.nan_left]; rfl
      | 2, _ =>
        have e : (findSpeedInfo p.settings (ms m .Q t.1 t.2.1 t.2.2)).2.2 = Spec.Ieee.nan :=
          (congrArg (· + _) hd).trans (Ieee.nan_left _)
        rw [e, Ieee.nan_div, Ieee.nan_right]; rfl
    · rfl
  rw [reduce_idle (isMax_mhd3 Ieee.maxLaws hx hy hz .Q m) idle hr]
  exact ⟨rfl, div_lowest_neg hc⟩

/-- **C106 (HLLD).**  If neither side of an interface has a fast speed, the HLLD solver returns the physical flux of the right
state, whatever the left state is: all its comparisons fail. -/
theorem C106_hlld_right {s : Settings Double} {ql qr : MS Double}
    (hl : findSpeedFast s 0 (hlldIn s (lit (1/2) * (ql.a + qr.a)) ql) = Spec.Ieee.nan)
    (hr : findSpeedFast s 0 (hlldIn s (lit (1/2) * (ql.a + qr.a)) qr) = Spec.Ieee.nan) :
    riemannMhdHlld s ql qr = hlldFlux (lit (1/2) * (ql.a + qr.a))
      (hlldSide (lit 1 / (s.gamma0 - lit 1)) (lit (1/2) * (ql.a + qr.a)) (hlldIn s (lit (1/2) * (ql.a + qr.a)) qr)) := by
  unfold riemannMhdHlld hlldBody hlldTail hlldSample
  dsimp only
  simp only [hl, hr, Ieee.fmax_nan, Ieee.sub_nan, Ieee.nan_right, Ieee.mul_nan, Ieee.nan_mul, Ieee.nan_sub, Ieee.nan_left,
    Ieee.nan_div, Ieee.div_nan, Ieee.gtb_nan]
  simp

/-- a NaN or a zero -/
def ZeroNan (x : Double) : Prop := x = Spec.Ieee.nan ∨ ∃ (s : Bool) (m : binary64.Mag), m.1 = 0 ∧ x = .fin s m

theorem zeroNan_mul {x y : Double} (h : ZeroNan x) : ZeroNan (x * y) := by
  rcases h with rfl | ⟨s, m, hm, rfl⟩
  · exact .inl rfl
  · cases y with
    | nan => exact .inl rfl
    | inf t => exact .inl (by show Spec.Ieee.mul _ _ = _; unfold Spec.Ieee.mul; dsimp only; rw [if_pos hm])
    | fin t n =>
      refine .inr ⟨s ^^ t, m, hm, ?_⟩
      show Spec.Ieee.round (s ^^ t) (m.1 * n.1) = _
      rw [show m.1 * n.1 = m.1 by rw [hm, zero_mul]]
      exact Ieee.round_mag m

theorem zeroNan_add {x y : Double} (hx : ZeroNan x) (hy : ZeroNan y) : ZeroNan (x + y) := by
  rcases hx with rfl | ⟨s, m, hm, rfl⟩
  · exact .inl rfl
  · rcases hy with rfl | ⟨t, n, hn, rfl⟩
    · exact .inl rfl
    · refine .inr ⟨s && t, m, hm, ?_⟩
      show Spec.Ieee.add _ _ = _
      unfold Spec.Ieee.add; dsimp only
      have hs : Spec.Ieee.real s m = 0 := by cases s <;> simp [Spec.Ieee.real, hm]
      have ht : Spec.Ieee.real t n = 0 := by cases t <;> simp [Spec.Ieee.real, hn]
      rw [if_pos (by rw [hs, ht, add_zero]), ← hm]
      exact Ieee.round_mag m

theorem zeroNan_sub {x y : Double} (hx : ZeroNan x) (hy : ZeroNan y) : ZeroNan (x - y) := by
  refine zeroNan_add (y := Spec.Ieee.neg y) hx ?_
  rcases hy with rfl | ⟨t, n, hn, rfl⟩
  · exact .inl rfl
  · exact .inr ⟨!t, n, hn, rfl⟩

theorem zeroNan_div {x y : Double} (hx : ZeroNan x) (hy : ZeroNan y) : x / y = Spec.Ieee.nan := by
  rcases hx with rfl | ⟨s, m, hm, rfl⟩
  · rfl
  · rcases hy with rfl | ⟨t, n, hn, rfl⟩
    · rfl
    · show Spec.Ieee.div _ _ = _
      unfold Spec.Ieee.div; dsimp only
      rw [if_pos hn, if_pos hm]

theorem zeroNan_zero : ZeroNan (lit 0) := .inr ⟨_, _, rfl, Ieee.lit_zero⟩

/-- **C106 (HLL).**  If neither side of an interface has a fast speed, every component of the HLL flux is a NaN. -/
theorem C106_hll_nan {s : Settings Double} {ql qr : MS Double}
    (hl : findSpeedFast s 0 { ql with a := lit (1/2) * (ql.a + qr.a) } = Spec.Ieee.nan)
    (hr : findSpeedFast s 0 { qr with a := lit (1/2) * (ql.a + qr.a) } = Spec.Ieee.nan) :
    riemannMhdHll s ql qr = ⟨.nan, .nan, .nan, .nan, .nan, .nan, .nan, .nan⟩ := by
  have key : ∀ fl fr ul ur : Double, (lit 0 * fl - lit 0 * fr + lit 0 * lit 0 * (ur - ul)) / (lit 0 - lit 0) =
      (Spec.Ieee.nan : Double) := fun fl fr ul ur =>
    zeroNan_div (zeroNan_add (zeroNan_sub (zeroNan_mul zeroNan_zero) (zeroNan_mul zeroNan_zero))
      (zeroNan_mul (zeroNan_mul zeroNan_zero))) (zeroNan_sub zeroNan_zero zeroNan_zero)
  have h0 : RealOps.fmin (Spec.Ieee.nan : Double) (lit 0) = lit 0 := rfl
  have h1 : RealOps.fmax (Spec.Ieee.nan : Double) (lit 0) = lit 0 := rfl
  unfold riemannMhdHll
  dsimp only
  simp only [hl, hr, Ieee.fmax_nan, Ieee.sub_nan, Ieee.nan_right, h0, h1, key]

/-! ### Concrete cases -/

/-- the mean of the two normal fields of an interface inside uniform gas -/
theorem tie_mean : (lit (1/2) * (tieState.a + tieState.a) : Double) = tieState.a := by
  have h2 : Ieee64.Rep (4137681/1048576) := ⟨4137681, -20, by norm_num, by norm_num, by norm_num, by norm_num⟩
  show (lit (1/2) * (lit (4137681/2097152) + lit (4137681/2097152)) : Double) = lit (4137681/2097152)
  rw [Ieee64.add_rep Tie.ra Tie.ra (q := 4137681/1048576) (by norm_num) h2,
    Ieee64.mul_rep Tie.rh h2 (by norm_num) Tie.ra]

/-- **C106 (uniform gas).**  Between two cells of uniform gas at rest in the state `tieState` the HLL flux is a NaN in every
component, so the HLL solver destroys an equilibrium; the HLLD flux is the physical flux. -/
theorem C106_uniform_gas {s : Settings Double} (hs : s.gamma0 = tieGamma) (hc : s.cIso = lit 0) :
    riemannMhdHll s tieState tieState = ⟨.nan, .nan, .nan, .nan, .nan, .nan, .nan, .nan⟩ ∧
    riemannMhdHlld s tieState tieState =
      hlldFlux tieState.a (hlldSide (lit 1 / (tieGamma - lit 1)) tieState.a tieState) := by
  have hn := (C106_witness hs).2.2.2.2
  have e : ({ tieState with a := lit (1/2) * (tieState.a + tieState.a) } : MS Double) = tieState := by
    rw [tie_mean]
  have hi : gtb s.cIso (lit 0) = false := by
    rw [hc, Ieee.lit_zero]
    show Spec.Ieee.lt _ _ = false
    rw [Bool.eq_false_iff]
    intro h
    exact absurd (Ieee.lt_iff.1 h).2.2 (lt_irrefl _)
  have e' : hlldIn s (lit (1/2) * (tieState.a + tieState.a)) tieState = tieState := by
    unfold hlldIn
    dsimp only
    rw [if_neg (by rw [hi]; decide)]
    exact e
  refine ⟨C106_hll_nan (by rw [e]; exact hn) (by rw [e]; exact hn), ?_⟩
  rw [C106_hlld_right (by rw [e']; exact hn) (by rw [e']; exact hn), e', tie_mean, hs]

/-- every cell of every array holds `tieState` -/
noncomputable def tieMem : Mem Arr Double := fun l =>
  if l.v = ID then tieState.d else if l.v = IP then tieState.p else if l.v = IA then tieState.a else lit 0

/-- a grid of four cells in each direction, unit cells -/
noncomputable def tieParams : Params Double where
  nStepmax := 10
  tEnd := lit 1
  nOutput := 1
  enableOutput := true
  mhdEnabled := true
  nlog := 1
  nx := 4
  ny := 4
  nz := 4
  ghostWidth := 3
  nbvar := 8
  dimType := .three
  imin := 0
  imax := 9
  jmin := 0
  jmax := 9
  kmin := 0
  kmax := 9
  isize := 10
  jsize := 10
  ksize := 10
  xmin := lit 0
  xmax := lit 1
  ymin := lit 0
  ymax := lit 1
  zmin := lit 0
  zmax := lit 1
  dx := lit 1
  dy := lit 1
  dz := lit 1
  boundary_type_xmin := .periodic
  boundary_type_xmax := .periodic
  boundary_type_ymin := .periodic
  boundary_type_ymax := .periodic
  boundary_type_zmin := .periodic
  boundary_type_zmax := .periodic
  settings := ⟨tieGamma, lit 0, lit (1/2), lit 1, lit 0, lit 0, lit 0, lit 0, lit 0⟩
  riemannSolverType := .hlld
  implementationVersion := 0

theorem tie_sg : Sg (lit 1 : Double) := by
  rw [Ieee.lit_one]
  exact .inr rfl

/-- the hypotheses of `C106_dead_domain_2d` and `_3d` hold of a uniform domain, and a time step is computed -/
example : (∃ dt, computeDtLocalMhd2 tieParams lowest tieMem dt ∧ dt.negative = true) ∧
    ∃ dt, computeDtLocalMhd3 tieParams lowest tieMem dt ∧ dt.negative = true := by
  have hw : tieParams.WF := by constructor <;> decide
  have hn := (C106_witness (s := tieParams.settings) rfl).2.2.2.2
  constructor
  · obtain ⟨r, hr⟩ := parReduce_exists (range2 tieParams.isize tieParams.jsize) (computeDtMhd2 tieParams .Q)
      kokkosMaxJoin lowest tieMem
    exact ⟨_, ⟨r, hr, rfl⟩, (C106_dead_domain_2d hw tie_sg tie_sg half_pos ⟨r, hr, rfl⟩ fun _ _ _ => ⟨0, by decide, hn⟩).2⟩
  · obtain ⟨r, hr⟩ := parReduce_exists (range3 tieParams.isize tieParams.jsize tieParams.ksize) (computeDtMhd3 tieParams .Q)
      kokkosMaxJoin lowest tieMem
    exact ⟨_, ⟨r, hr, rfl⟩, (C106_dead_domain_3d hw tie_sg tie_sg tie_sg half_pos ⟨r, hr, rfl⟩
      fun _ _ _ _ => ⟨0, by decide, hn⟩).2⟩

/-- the hypotheses of `C106_alive_2d` and `_3d` hold of gas at rest with a field along z, `B = 1`, adiabatic index 2 and
pressure 1/2: along x and y the fast speed is `sqrt 2`, along z `1` -/
example : let q : MS Double := ⟨lit 1, lit (1/2), lit 0, lit 0, lit 0, lit 0, lit 0, lit 1⟩
    let s : Settings Double := { tieParams.settings with gamma0 := lit 2 }
    SoundMhd s q ∧ HasSpeed s q 0 ∧ HasSpeed s q 1 ∧ HasSpeed s q 2 := by
  intro q s
  have r2 : Ieee64.Rep 2 := ⟨2, 0, by norm_num, by norm_num, by norm_num, by norm_num⟩
  have h00 : (lit 0 * lit 0 : Double) = lit 0 := Ieee64.mul_rep Tie.r0 Tie.r0 (by norm_num) Tie.r0
  have h01 : (lit 0 + lit 0 : Double) = lit 0 := Ieee64.add_rep Tie.r0 Tie.r0 (by norm_num) Tie.r0
  have h11 : (lit 1 * lit 1 : Double) = lit 1 := Ieee64.mul_rep Tie.r1 Tie.r1 (by norm_num) Tie.r1
  have h10 : (lit 0 + lit 1 : Double) = lit 1 := Ieee64.add_rep Tie.r0 Tie.r1 (by norm_num) Tie.r1
  have hd1 : (lit 1 / lit 1 : Double) = lit 1 := Ieee64.div_rep Tie.r1 Tie.r1 (by norm_num) (by norm_num) Tie.r1
  have hd0 : (lit 0 / lit 1 : Double) = lit 0 := Ieee64.div_rep Tie.r0 Tie.r1 (by norm_num) (by norm_num) Tie.r0
  have hm0 : (lit 1 * lit 0 : Double) = lit 0 := Ieee64.mul_rep Tie.r1 Tie.r0 (by norm_num) Tie.r0
  have hc : (lit 2 * lit (1/2) : Double) = lit 1 := Ieee64.mul_rep r2 Tie.rh (by norm_num) Tie.r1
  have ha : (lit 1 + lit 1 : Double) = lit 2 := Ieee64.add_rep Tie.r1 Tie.r1 (by norm_num) r2
  have hh : (lit (1/2) * lit 2 : Double) = lit 1 := Ieee64.mul_rep Tie.rh r2 (by norm_num) Tie.r1
  have e : fastSquare s q = lit 1 := by
    show ((lit (1/2) * ((lit 0 * lit 0 + lit 0 * lit 0 + lit 1 * lit 1) / lit 1 + lit 2 * lit (1/2) / lit 1)) *
      (lit (1/2) * ((lit 0 * lit 0 + lit 0 * lit 0 + lit 1 * lit 1) / lit 1 + lit 2 * lit (1/2) / lit 1)) : Double) = _
    rw [h00, h01, h11, h10, hd1, hc, hd1, ha, hh, h11]
  have e0 : fastNormal s 0 q = lit 0 := by
    show (lit 2 * lit (1/2) / lit 1 * lit 0 * lit 0 / lit 1 : Double) = _
    rw [hc, hd1, hm0, h00, hd0]
  have e1 : fastNormal s 1 q = lit 0 := e0
  have e2 : fastNormal s 2 q = lit 1 := by
    show (lit 2 * lit (1/2) / lit 1 * lit 1 * lit 1 / lit 1 : Double) = _
    rw [hc, hd1, h11, h11, hd1]
  have f1 : Finite (lit 1) := ⟨_, _, Ieee64.lit_rep Tie.r1⟩
  have f0 : Finite (lit 0) := ⟨_, _, Ieee64.lit_rep Tie.r0⟩
  have nlt : ∀ x y : ℚ, ∀ (hx : Ieee64.Rep x) (hy : Ieee64.Rep y), y ≤ x →
      RealOps.lt (lit x : Double) (lit y) = false := fun x y hx hy h => by
    rw [Bool.eq_false_iff]
    intro hc
    have := (Ieee.lt_iff.1 hc).2.2
    rw [Ieee64.lit_rep hx, Ieee64.lit_rep hy] at this
    have := EReal.coe_lt_coe_iff.1 this
    rw [Ieee.real_false, Ieee.real_false] at this
    exact absurd (Rat.cast_lt.1 this) (not_lt.2 h)
  refine ⟨⟨finitePos_lit r2 (by norm_num), finitePos_lit Tie.r1 (by norm_num), notBelow_lit Tie.rh,
    (notBelow_lit Tie.r0).1, (notBelow_lit Tie.r0).1, (notBelow_lit Tie.r1).1⟩, ?_, ?_, ?_⟩
  · rw [HasSpeed, e, e0]; exact ⟨f1, f0, nlt _ _ Tie.r1 Tie.r0 (by norm_num)⟩
  · rw [HasSpeed, e, e1]; exact ⟨f1, f0, nlt _ _ Tie.r1 Tie.r0 (by norm_num)⟩
  · rw [HasSpeed, e, e2]; exact ⟨f1, f1, nlt _ _ Tie.r1 Tie.r1 le_rfl⟩

end EulerKokkos
