import Verif.Props.C105
import Verif.Lemmas.IeeeGrav

/-!
# C105: rates under gravity

The time step functors with gravity correct the signal speed by a factor that depends on the ratio
`|g| * (cfl * h / v^2)`.  In double precision the rate of an alive cell is a NaN exactly when this ratio overflows.
-/

set_option linter.constructorNameAsVariable false

namespace EulerKokkos
open Spec
open Spec.Ieee (Rate)
variable {T : Topo}

namespace Spec

/-- sum of the signal speeds (sound plus flow) of a cell along x and y, as the functor computes it -/
noncomputable def signal2 (p : Params Double) (u : HS Double) : Double :=
  let q := computePrimitives2 p.settings u
  lit 0 + (q.2 + fabs q.1.u) + (q.2 + fabs q.1.v)

noncomputable def signal3 (p : Params Double) (u : HS Double) : Double :=
  let q := computePrimitives3 p.settings u
  lit 0 + (q.2 + fabs q.1.u) + (q.2 + fabs q.1.v) + (q.2 + fabs q.1.w)

/-- the ratio of the acceleration to the squared signal speed overflows -/
def GravOverflow2 (p : Params Double) (u : HS Double) (a : Double × Double) : Prop :=
  (fabs a.1 + fabs a.2) * (p.settings.cfl * fmin p.dx p.dy / (signal2 p u * signal2 p u)) = .inf false

def GravOverflow3 (p : Params Double) (u : HS Double) (a : Double × Double × Double) : Prop :=
  (fabs a.1 + fabs a.2.1 + fabs a.2.2) * (p.settings.cfl * fmin (fmin p.dx p.dy) p.dz / (signal3 p u * signal3 p u)) =
    .inf false

end Spec

namespace Ieee64

theorem fmin_pos {a b : Double} (ha : FinitePos a) (hb : FinitePos b) : FinitePos (RealOps.fmin a b) := by
  obtain ⟨m, hm, rfl⟩ := ha
  obtain ⟨n, hn, rfl⟩ := hb
  show FinitePos (Spec.Ieee.fmin _ _)
  unfold Spec.Ieee.fmin
  rw [if_neg (by simp [Spec.Ieee.isNan]), if_neg (by simp [Spec.Ieee.isNan])]
  split
  · exact ⟨n, hn, rfl⟩
  · exact ⟨m, hm, rfl⟩

theorem rate_zero : Rate (lit 0 : Double) := by
  rw [Ieee.lit_zero]
  exact ⟨rfl, rfl⟩

theorem rate_sig {γ p d u : Double} (hγ : FinitePos γ) (hp : NotBelow p) (hd : FinitePos d) (hu : u.isNan = false) :
    Rate (RealOps.sqrt (γ * p / d) + fabs (u / d)) :=
  Ieee.rate_of_sg (Ieee.notNan_add (Ieee.notBelow_sqrt (Ieee.notBelow_div (Ieee.notBelow_mul hγ hp) hd))
    (Ieee.notBelow_fabs (Ieee.notNan_div hu hd))) (Ieee.sg_speed _ _)

theorem rate_signal2 {p : Params Double} (hs : GasIeee p.settings) {u : HS Double} (hu : Alive u) : Rate (signal2 p u) := by
  obtain ⟨h1, h2, h3, -⟩ := hu
  have hd := Ieee.fmax_finitePos hs.smallr h1
  have hp : NotBelow (computePrimitives2 p.settings u).1.p := Ieee.notBelow_fmax (Ieee.notBelow_mul hd hs.smallp)
  exact Ieee.rate_add (Ieee.rate_add rate_zero (rate_sig hs.gamma0 hp hd h2)) (rate_sig hs.gamma0 hp hd h3)

theorem rate_signal3 {p : Params Double} (hs : GasIeee p.settings) {u : HS Double} (hu : Alive u) : Rate (signal3 p u) := by
  obtain ⟨h1, h2, h3, h4⟩ := hu
  have hd := Ieee.fmax_finitePos hs.smallr h1
  have hp : NotBelow (computePrimitives3 p.settings u).1.p := Ieee.notBelow_fmax (Ieee.notBelow_mul hd hs.smallp)
  exact Ieee.rate_add (Ieee.rate_add (Ieee.rate_add rate_zero (rate_sig hs.gamma0 hp hd h2)) (rate_sig hs.gamma0 hp hd h3))
    (rate_sig hs.gamma0 hp hd h4)

/-- an overflowing ratio gives `inf/inf` -/
theorem nan_gravRate {cfl h v a : Double} (hk : a * (cfl * h / (v * v)) = .inf false) : gravRate cfl h v a = .nan := by
  unfold gravRate
  dsimp only
  have e1 : RealOps.fmax (.inf false : Double) (lit (1/10000)) = .inf false := by
    obtain ⟨e, he, -⟩ := eps_between
    rw [he]
    show Spec.Ieee.fmax _ _ = _
    unfold Spec.Ieee.fmax
    rw [if_neg (by simp [Spec.Ieee.isNan]), if_neg (by simp [Spec.Ieee.isNan]), if_neg]
    intro h
    exact absurd (Ieee.lt_iff.1 h).2.2 (not_lt.2 le_top)
  have e2 : (lit 2 * .inf false : Double) = .inf false := by
    rw [Ieee.lit_two]
    show Spec.Ieee.mul _ _ = _
    unfold Spec.Ieee.mul; dsimp only
    rw [if_neg (by norm_num)]
    rfl
  have e3 : (lit 1 + .inf false : Double) = .inf false := by rw [Ieee.lit_one]; rfl
  have e4 : RealOps.sqrt (.inf false : Double) = .inf false := rfl
  have e5 : (.inf false - lit 1 : Double) = .inf false := by rw [Ieee.lit_one]; rfl
  have e6 : (.inf false / .inf false : Double) = .nan := rfl
  have e7 : (v * .nan : Double) = .nan := by cases v <;> rfl
  rw [hk, e1, e2, e3, e4, e5, e6, e7]
  rfl

theorem sg_gravRate {cfl h v a : Double} (hh : FinitePos h) (hv : Rate v) : Spec.Ieee.Sg (gravRate cfl h v a) := by
  have hL : MaxLaws Double Spec.Ieee.Num Spec.Ieee.Sg := Ieee.maxLaws
  have hs : Spec.Ieee.Sg h := by obtain ⟨m, _, rfl⟩ := hh; exact .inr rfl
  unfold gravRate
  dsimp only
  exact hL.sg_div _ _ (hL.sg_mul _ _ (.inr hv.2) (hL.sg_div _ _ (hL.sg_floor _) (hL.sg_grav _))) hs

end Ieee64

/-- **C105 (rates under gravity, 2D).**  The rate of an alive cell is a NaN exactly when the ratio of the acceleration to the
squared signal speed overflows; otherwise the cell takes part in the time step. -/
theorem C105_gravity_rate_2d {p : Params Double} (hs : GasIeee p.settings) (hc : FinitePos p.settings.cfl)
    (hx : FinitePos p.dx) (hy : FinitePos p.dy) {g : GravityParams} (hg : g.enabled = true) {u : HS Double} (hu : Alive u)
    (a : Double × Double) :
    ((cellRate2 p g u a).isNan = true ↔ GravOverflow2 p u a) ∧ (¬ GravOverflow2 p u a → Rate (cellRate2 p g u a)) := by
  have hh := Ieee64.fmin_pos hx hy
  have hv := Ieee64.rate_signal2 hs hu
  have e : cellRate2 p g u a = gravRate p.settings.cfl (fmin p.dx p.dy) (signal2 p u) (fabs a.1 + fabs a.2) := by
    unfold cellRate2 signal2
    dsimp only
    rw [if_pos hg]
  rw [e]
  refine ⟨⟨fun h => ?_, fun h => by rw [Ieee64.nan_gravRate h]; rfl⟩, fun h =>
    Ieee.rate_of_sg (Ieee64.notNan_gravRate hc hh hv h) (Ieee64.sg_gravRate hh hv)⟩
  by_contra h'
  rw [Ieee64.notNan_gravRate hc hh hv h'] at h
  cases h

/-- **C105 (rates under gravity, 3D).** -/
theorem C105_gravity_rate_3d {p : Params Double} (hs : GasIeee p.settings) (hc : FinitePos p.settings.cfl)
    (hx : FinitePos p.dx) (hy : FinitePos p.dy) (hz : FinitePos p.dz) {g : GravityParams} (hg : g.enabled = true)
    {u : HS Double} (hu : Alive u) (a : Double × Double × Double) :
    ((cellRate3 p g u a).isNan = true ↔ GravOverflow3 p u a) ∧ (¬ GravOverflow3 p u a → Rate (cellRate3 p g u a)) := by
  have hh := Ieee64.fmin_pos (Ieee64.fmin_pos hx hy) hz
  have hv := Ieee64.rate_signal3 hs hu
  have e : cellRate3 p g u a = gravRate p.settings.cfl (fmin (fmin p.dx p.dy) p.dz) (signal3 p u)
      (fabs a.1 + fabs a.2.1 + fabs a.2.2) := by
    unfold cellRate3 signal3
    dsimp only
    rw [if_pos hg]
  rw [e]
  refine ⟨⟨fun h => ?_, fun h => by rw [Ieee64.nan_gravRate h]; rfl⟩, fun h =>
    Ieee.rate_of_sg (Ieee64.notNan_gravRate hc hh hv h) (Ieee64.sg_gravRate hh hv)⟩
  by_contra h'
  rw [Ieee64.notNan_gravRate hc hh hv h'] at h
  cases h

/-- without acceleration nothing overflows -/
theorem Ieee64.zero_grav (x : Double) : (fabs (lit 0) + fabs (lit 0)) * x ≠ (.inf false : Double) := by
  have r0 : Rep 0 := ⟨0, 0, by norm_num, by norm_num, by norm_num, by norm_num⟩
  have e : (fabs (lit 0) : Double) = lit 0 := by rw [Ieee.lit_zero]; rfl
  rw [e, add_rep r0 r0 (by norm_num) r0, Ieee.lit_zero]
  show Spec.Ieee.mul _ x ≠ _
  cases x with
  | nan => exact fun h => by cases h
  | inf s => unfold Spec.Ieee.mul; dsimp only; rw [if_pos rfl]; exact fun h => by cases h
  | fin s n =>
    unfold Spec.Ieee.mul; dsimp only
    rw [zero_mul]
    have : (Spec.Ieee.round (false ^^ s) (0 : ℝ) : Double) = _ :=
      Ieee.round_mag (⟨0, binary64.zero_mem, binary64.zero_le_top⟩ : binary64.Mag)
    rw [this]
    exact fun h => by cases h

/-- the hypothesis `¬ GravOverflow2` holds for every cell where the acceleration vanishes, however slow the signals -/
example {p : Params Double} (hs : GasIeee p.settings) (hc : FinitePos p.settings.cfl) (hx : FinitePos p.dx)
    (hy : FinitePos p.dy) {u : HS Double} (hu : Alive u) :
    Rate (cellRate2 p ⟨true, false⟩ u (lit 0, lit 0)) :=
  (C105_gravity_rate_2d hs hc hx hy rfl hu (lit 0, lit 0)).2 (Ieee64.zero_grav _)

end EulerKokkos
