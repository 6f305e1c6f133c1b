import Verif.Props.C22

/-!
# C26 — the gravity source term keeps mass and internal energy
# C32 — which Riemann solver names define the flux
-/

set_option linter.constructorNameAsVariable false
set_option linter.unusedSectionVars false
set_option linter.unusedSimpArgs false

namespace EulerKokkos
open Spec

/-- internal energy per volume of conservative contents: total minus kinetic energy -/
noncomputable def Spec.eint (u : HS ℝ) : ℝ := u.p - (u.u ^ 2 + u.v ^ 2 + u.w ^ 2) / (2 * u.d)

/-- **C26 (2D).** The gravity kernel, in every schedule, on every cell of density at least the
floor: density and internal energy are unchanged, the momentum changes by
`dt · g · (ρ_old + ρ_new) / 2` (`ρ_old` from the input of the step), and nothing else changes
(ghost cells, other views). -/
theorem C26_gravity_source_2d {p : Params ℝ} (hw : p.WF) {g : GravityParams}
    (hg : g.enabled = true) (hr : 0 < p.settings.smallr) {dt : ℝ} {inA outA : Arr}
    (hpp : PingPong inA outA) {m m' : Mem Arr ℝ} (hm : gravityStep2 p g dt inA outA m m') :
    (∀ i j, interior2 p i j → p.settings.smallr ≤ m ⟨outA, i, j, 0, ID⟩ →
      let ρ := (m ⟨inA, i, j, 0, ID⟩ + m ⟨outA, i, j, 0, ID⟩) / 2
      m' ⟨outA, i, j, 0, ID⟩ = m ⟨outA, i, j, 0, ID⟩ ∧
      m' ⟨outA, i, j, 0, IU⟩ = m ⟨outA, i, j, 0, IU⟩ + dt * m ⟨.grav, i, j, 0, IX⟩ * ρ ∧
      m' ⟨outA, i, j, 0, IV⟩ = m ⟨outA, i, j, 0, IV⟩ + dt * m ⟨.grav, i, j, 0, IY⟩ * ρ ∧
      eint (hs2 m' outA i j) = eint (hs2 m outA i j)) ∧
    (∀ i j, ¬ interior2 p i j → hs2 m' outA i j = hs2 m outA i j) ∧
    (∀ l : Loc Arr, l.arr ≠ outA → m' l = m l) := by
  have n1 : inA ≠ outA := by rcases hpp with ⟨rfl, rfl⟩ | ⟨rfl, rfl⟩ <;> decide
  have n2 : Arr.grav ≠ outA := by rcases hpp with ⟨rfl, rfl⟩ | ⟨rfl, rfl⟩ <;> decide
  obtain ⟨h1, h2⟩ := gravityStep2_result hw n1 n2 hm
  have hi := hw.isize_eq
  have hj := hw.jsize_eq
  refine ⟨?_, ?_, fun l hl => h1 l hl⟩
  · intro i j hij hd ρ
    have hc : cellGuard2 p (i, j) := by
      obtain ⟨a, b, c, d⟩ := hij
      simp only [cellGuard2]; omega
    have := h2 i j
    rw [if_pos ⟨hc, hg⟩] at this
    have hmax : max p.settings.smallr (m ⟨outA, i, j, 0, ID⟩) = m ⟨outA, i, j, 0, ID⟩ :=
      max_eq_right hd
    refine ⟨?_, ?_, ?_, ?_⟩
    · have := congrArg HS.d this; simpa [hs2, gravity2] using this
    · have := congrArg HS.u this
      simp only [hs2, gravity2, gravOf, RealOps.fmax_real, hmax] at this
      rw [this]; simp only [ρ, RealOps.lit_real]; push_cast; ring
    · have := congrArg HS.v this
      simp only [hs2, gravity2, gravOf, RealOps.fmax_real, hmax] at this
      rw [this]; simp only [ρ, RealOps.lit_real]; push_cast; ring
    · rw [this]
      have hd0 : (m ⟨outA, i, j, 0, ID⟩) ≠ 0 := by linarith
      simp only [eint, gravity2, hs2, RealOps.fmax_real, hmax, RealOps.lit_real]
      push_cast
      field_simp
      ring
  · intro i j hij
    have := h2 i j
    rw [if_neg] at this
    · exact this
    · rintro ⟨hc, -⟩
      simp only [cellGuard2] at hc
      apply hij
      unfold interior2; omega

/-- **C26 (2D, below the floor).** On a cell whose density is below `smallr` the kernel uses the
floored density for the mass in the kick and in the kinetic energy: density unchanged, and the
energy changes by the change of `|ρu|²/(2 smallr)`. -/
theorem C26_gravity_below_floor_2d {p : Params ℝ} (hw : p.WF) {g : GravityParams}
    (hg : g.enabled = true) {dt : ℝ} {inA outA : Arr}
    (hpp : PingPong inA outA) {m m' : Mem Arr ℝ} (hm : gravityStep2 p g dt inA outA m m')
    (i j : Int) (hij : interior2 p i j) (hd : m ⟨outA, i, j, 0, ID⟩ ≤ p.settings.smallr) :
    m' ⟨outA, i, j, 0, ID⟩ = m ⟨outA, i, j, 0, ID⟩ ∧
    m' ⟨outA, i, j, 0, IP⟩ - m ⟨outA, i, j, 0, IP⟩ =
      ((m' ⟨outA, i, j, 0, IU⟩ ^ 2 + m' ⟨outA, i, j, 0, IV⟩ ^ 2) -
        (m ⟨outA, i, j, 0, IU⟩ ^ 2 + m ⟨outA, i, j, 0, IV⟩ ^ 2)) / (2 * p.settings.smallr) := by
  have n1 : inA ≠ outA := by rcases hpp with ⟨rfl, rfl⟩ | ⟨rfl, rfl⟩ <;> decide
  have n2 : Arr.grav ≠ outA := by rcases hpp with ⟨rfl, rfl⟩ | ⟨rfl, rfl⟩ <;> decide
  obtain ⟨h1, h2⟩ := gravityStep2_result hw n1 n2 hm
  have hi := hw.isize_eq
  have hj := hw.jsize_eq
  have hc : cellGuard2 p (i, j) := by
    obtain ⟨a, b, c, d⟩ := hij
    simp only [cellGuard2]; omega
  have := h2 i j
  rw [if_pos ⟨hc, hg⟩] at this
  have hmax : max p.settings.smallr (m ⟨outA, i, j, 0, ID⟩) = p.settings.smallr :=
    max_eq_left hd
  have e1 := congrArg HS.d this
  have e2 := congrArg HS.p this
  have e3 := congrArg HS.u this
  have e4 := congrArg HS.v this
  simp only [hs2, gravity2, gravOf, RealOps.fmax_real, hmax] at e1 e2 e3 e4
  refine ⟨e1, ?_⟩
  rw [e2, e3, e4]
  simp only [RealOps.lit_real]
  push_cast
  ring

/-- **C26 (3D).** Every cell of positive density. -/
theorem C26_gravity_source_3d {p : Params ℝ} (hw : p.WF) {g : GravityParams}
    (hg : g.enabled = true) {dt : ℝ} {inA outA : Arr}
    (hpp : PingPong inA outA) {m m' : Mem Arr ℝ} (hm : gravityStep3 p g dt inA outA m m') :
    (∀ i j k, interior3 p i j k → 0 < m ⟨outA, i, j, k, ID⟩ →
      let ρ := (m ⟨inA, i, j, k, ID⟩ + m ⟨outA, i, j, k, ID⟩) / 2
      m' ⟨outA, i, j, k, ID⟩ = m ⟨outA, i, j, k, ID⟩ ∧
      m' ⟨outA, i, j, k, IU⟩ = m ⟨outA, i, j, k, IU⟩ + dt * m ⟨.grav, i, j, k, IX⟩ * ρ ∧
      m' ⟨outA, i, j, k, IV⟩ = m ⟨outA, i, j, k, IV⟩ + dt * m ⟨.grav, i, j, k, IY⟩ * ρ ∧
      m' ⟨outA, i, j, k, IW⟩ = m ⟨outA, i, j, k, IW⟩ + dt * m ⟨.grav, i, j, k, IZ⟩ * ρ ∧
      eint (hs3 m' outA i j k) = eint (hs3 m outA i j k)) ∧
    (∀ i j k, ¬ interior3 p i j k → hs3 m' outA i j k = hs3 m outA i j k) ∧
    (∀ l : Loc Arr, l.arr ≠ outA → m' l = m l) := by
  have n1 : inA ≠ outA := by rcases hpp with ⟨rfl, rfl⟩ | ⟨rfl, rfl⟩ <;> decide
  have n2 : Arr.grav ≠ outA := by rcases hpp with ⟨rfl, rfl⟩ | ⟨rfl, rfl⟩ <;> decide
  obtain ⟨h1, h2⟩ := gravityStep3_result hw n1 n2 hm
  have hi := hw.isize_eq
  have hj := hw.jsize_eq
  have hk := hw.ksize_eq
  refine ⟨?_, ?_, fun l hl => h1 l hl⟩
  · intro i j k hij hd ρ
    have hc : cellGuard3 p (i, j, k) := by
      obtain ⟨⟨a, b⟩, ⟨c, d⟩, e, f⟩ := hij
      simp only [cellGuard3]; omega
    have := h2 i j k
    rw [if_pos ⟨hc, hg⟩] at this
    refine ⟨?_, ?_, ?_, ?_, ?_⟩
    · have := congrArg HS.d this; simpa [hs3, gravity3] using this
    · have := congrArg HS.u this
      simp only [hs3, gravity3, gravOf3] at this
      rw [this]; simp only [ρ, RealOps.lit_real]; push_cast; ring
    · have := congrArg HS.v this
      simp only [hs3, gravity3, gravOf3] at this
      rw [this]; simp only [ρ, RealOps.lit_real]; push_cast; ring
    · have := congrArg HS.w this
      simp only [hs3, gravity3, gravOf3] at this
      rw [this]; simp only [ρ, RealOps.lit_real]; push_cast; ring
    · rw [this]
      have hd0 : (m ⟨outA, i, j, k, ID⟩) ≠ 0 := by linarith
      simp only [eint, gravity3, hs3, RealOps.lit_real]
      push_cast
      field_simp
      ring
  · intro i j k hij
    have := h2 i j k
    rw [if_neg] at this
    · exact this
    · rintro ⟨hc, -⟩
      simp only [cellGuard3] at hc
      apply hij
      unfold interior3; omega

/-- Non-vacuity: a cell of density 1 (above the floor 1/1000) with gravity (0,-1), and the kernel has
an execution. -/
example : (sample .periodic .periodic).settings.smallr ≤ 1 ∧
    ∃ m', gravityStep2 (sample .periodic .periodic) ⟨true, false⟩ (1/100) .U .U2
      (fun l => if l.arr = .grav then -1 else 1) m' :=
  ⟨by norm_num [sample, rawSample, Params.init],
    (det_gravityStep2 _ _ _ (Or.inl ⟨rfl, rfl⟩) _).exists⟩

example : ∃ m', gravityStep3 (sample3 .periodic .periodic) ⟨true, false⟩ (1/100) .U .U2
      (fun l => if l.arr = .grav then -1 else 1) m' :=
  (det_gravityStep3 _ _ _ (Or.inl ⟨rfl, rfl⟩) _).exists

/-! ## C32 -/

/-- the flux computed for a solver type does not depend on the previous (uninitialised) content of
the flux variable -/
def Spec.DefinesFlux (f : HS ℝ → HS ℝ → HS ℝ → HS ℝ) : Prop :=
  ∀ ql qr junk junk', f ql qr junk = f ql qr junk'

/-- **C32 (2D).** In 2D exactly the types other than HLLD define the hydro flux: with HLLD the
result is whatever the flux variable contained. -/
theorem C32_defined_iff_2d (s : Settings ℝ) (rt : RiemannType) :
    DefinesFlux (riemannHydro2 s rt) ↔ rt ≠ .hlld := by
  constructor
  · rintro h rfl
    have := congrArg HS.d (h HS.zero HS.zero HS.zero ⟨1, 0, 0, 0, 0⟩)
    simp [riemannHydro2, HS.zero] at this
  · intro h ql qr a b
    cases rt <;> first | rfl | exact absurd rfl h

/-- **C32 (3D).** In 3D exactly LLF, HLLC and the approximate solver define the hydro flux: HLL,
accepted by the parameter file, leaves it unset (a defect of the code). -/
theorem C32_defined_iff_3d (s : Settings ℝ) (rt : RiemannType) :
    DefinesFlux (riemannHydro3 s rt) ↔ rt ≠ .hll ∧ rt ≠ .hlld := by
  constructor
  · intro h
    constructor <;> rintro rfl <;>
    · have := congrArg HS.d (h HS.zero HS.zero HS.zero ⟨1, 0, 0, 0, 0⟩)
      simp [riemannHydro3, HS.zero] at this
  · intro h ql qr a b
    cases rt <;> first | rfl | exact absurd rfl h.1 | exact absurd rfl h.2

end EulerKokkos
