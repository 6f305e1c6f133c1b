import Verif.Model.DriverMhd

/-!
# Settings for which no uninitialised local variable is read

In any arithmetic: with a slope type of 0, 1 or 2 (MHD: 1 or 2) and a Riemann solver the dispatcher knows, the
kernels do not depend on the contents of their uninitialised locals.
-/

set_option linter.constructorNameAsVariable false
set_option linter.unusedSectionVars false
set_option linter.unusedSimpArgs false

namespace EulerKokkos
open Prog (forRange)

variable {R : Type} [RealOps R]

namespace Spec

/-- the slope type is one the hydro solvers know -/
def SlopeKnown (s : Settings R) : Prop :=
  RealOps.beq s.slope_type (lit 0) = true ∨ RealOps.beq s.slope_type (lit 1) = true ∨
    RealOps.beq s.slope_type (lit 2) = true

/-- the slope type is one the MHD solvers know -/
def SlopeKnownM (s : Settings R) : Prop :=
  RealOps.beq s.slope_type (lit 1) = true ∨ RealOps.beq s.slope_type (lit 2) = true

/-- the Riemann solver is one the MHD solvers know -/
def RiemannKnownM (t : RiemannType) : Prop := t = .hll ∨ t = .llf ∨ t = .hlld

end Spec
open Spec

theorem slope2_junk {s : Settings R} (h : SlopeKnown s) :
    ∃ f : HS R → HS R → HS R → HS R → HS R → HS R × HS R,
      ∀ q a b c d x y, slope2 s q a b c d x y = f q a b c d := by
  refine ⟨fun q a b c d => slope2 s q a b c d HS.zero HS.zero, fun q a b c d x y => ?_⟩
  unfold slope2
  rcases h with h | h | h <;> simp only [h, if_true, Bool.true_or, Bool.or_true]

theorem slope3_junk {s : Settings R} (h : SlopeKnown s) :
    ∃ f : HS R → HS R → HS R → HS R → HS R → HS R → HS R → Slopes3 R,
      ∀ q a b c d e g x, slope3 s q a b c d e g x = f q a b c d e g := by
  refine ⟨fun q a b c d e g => slope3 s q a b c d e g ⟨HS.zero, HS.zero, HS.zero⟩, fun q a b c d e g x => ?_⟩
  unfold slope3
  rcases h with h | h | h <;> simp only [h, if_true, Bool.true_or, Bool.or_true]

theorem slopeM_junk {s : Settings R} (h : SlopeKnownM s) :
    ∃ f : MS R → MS R → MS R → MS R, ∀ q a b x, slopeM s q a b x = f q a b := by
  refine ⟨fun q a b => slopeM s q a b q, fun q a b x => ?_⟩
  unfold slopeM
  rcases h with h | h <;> simp only [h, if_true, Bool.true_or, Bool.or_true]

theorem riemann2_junk {s : Settings R} {t : RiemannType} (h : t ≠ .hlld) :
    ∃ f : HS R → HS R → HS R, ∀ a b x, riemannHydro2 s t a b x = f a b := by
  refine ⟨fun a b => riemannHydro2 s t a b a, fun a b x => ?_⟩
  cases t <;> first | rfl | exact absurd rfl h

theorem riemann3_junk {s : Settings R} {t : RiemannType} (h : t ≠ .hll ∧ t ≠ .hlld) :
    ∃ f : HS R → HS R → HS R, ∀ a b x, riemannHydro3 s t a b x = f a b := by
  refine ⟨fun a b => riemannHydro3 s t a b a, fun a b x => ?_⟩
  cases t <;> first | rfl | exact absurd rfl h.1 | exact absurd rfl h.2

theorem riemannM_junk {s : Settings R} {t : RiemannType} (h : RiemannKnownM t) :
    ∃ f : MS R → MS R → MS R, ∀ a b x, riemannMhd s t a b x = f a b := by
  refine ⟨fun a b => riemannMhd s t a b a, fun a b x => ?_⟩
  rcases h with rfl | rfl | rfl <;> rfl

theorem hydroOps2_junk {p : Params R} (hs : SlopeKnown p.settings) (hr : p.riemannSolverType ≠ .hlld)
    (g : GravityParams) (ident : R) (jk jk' : Junk R) : hydroOps2 p g ident jk = hydroOps2 p g ident jk' := by
  obtain ⟨S, hS⟩ := slope2_junk hs
  obtain ⟨F, hF⟩ := riemann2_junk (s := p.settings) hr
  unfold hydroOps2 godunov2 scheme2 computeAndStoreFluxes2 computeAllFluxesAndUpdate2 computeTraceAndFluxes2
    yInterface2 xInterface2
  simp only [hS, hF]

theorem hydroOps3_junk {p : Params R} (hs : SlopeKnown p.settings)
    (hr : p.riemannSolverType ≠ .hll ∧ p.riemannSolverType ≠ .hlld)
    (g : GravityParams) (ident : R) (jk jk' : Junk R) : hydroOps3 p g ident jk = hydroOps3 p g ident jk' := by
  obtain ⟨S, hS⟩ := slope3_junk hs
  obtain ⟨F, hF⟩ := riemann3_junk (s := p.settings) hr
  unfold hydroOps3 godunov3 scheme3 computeAndStoreFluxes3 computeAllFluxesAndUpdate3 computeTraceAndFluxes3
    yInterface3 xInterface3 zInterface3 computeSlopes3 stencilSlopes3
  simp only [hS, hF]

theorem mhdOps2_junk {p : Params R} (hs : SlopeKnownM p.settings) (hr : RiemannKnownM p.riemannSolverType)
    (ident : R) (jk jk' : JunkM R) : mhdOps2 p ident jk = mhdOps2 p ident jk' := by
  obtain ⟨S, hS⟩ := slopeM_junk hs
  obtain ⟨F, hF⟩ := riemannM_junk (s := p.settings) hr
  unfold mhdOps2 postMhd2 computeTraceMhd2 fluxesAndStoreMhd2 fluxesAndUpdateMhd2 computeSlopesMhd2 fluxAlongXMhd2
    fluxAlongYMhd2 traceMhd2
  simp only [hS, hF]

theorem mhdOps3_junk {p : Params R} (hs : SlopeKnownM p.settings) (hr : RiemannKnownM p.riemannSolverType)
    (ident : R) (jk jk' : JunkM R) : mhdOps3 p ident jk = mhdOps3 p ident jk' := by
  obtain ⟨S, hS⟩ := slopeM_junk hs
  obtain ⟨F, hF⟩ := riemannM_junk (s := p.settings) hr
  unfold mhdOps3 postMhd3 fluxesAndStoreMhd3 fluxesAndUpdateMhd3 computeSlopesMhd3 fluxAlongMhd3
  simp only [hS, hF]

end EulerKokkos
