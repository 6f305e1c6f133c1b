import Verif.Lemmas.MhdUnits3D
import Verif.Lemmas.MhdExchange

/-!
# Change of units: complete MHD runs
-/

set_option linter.constructorNameAsVariable false
set_option linter.unusedSectionVars false
set_option linter.unusedSimpArgs false

namespace EulerKokkos
open Spec

variable (U : MhdUnits)

theorem GoodGrid.mhdUnits {p : Params ℝ} (hg : GoodGrid p) : GoodGrid (U.params p) := hg.units U.units

theorem Mhd2.units {p : Params ℝ} (hp : Mhd2 p) : Mhd2 (U.params p) :=
  ⟨⟨hp.wf.1, hp.wf.2, hp.wf.3, hp.wf.4, hp.wf.5, hp.wf.6, hp.wf.7, hp.wf.8, hp.wf.9, hp.wf.10, hp.wf.11,
    hp.wf.12, hp.wf.13⟩, hp.gw, hp.nbvar, ⟨hp.valid.1, hp.valid.2⟩, hp.faces⟩

theorem Mhd3.units {p : Params ℝ} (hp : Mhd3 p) : Mhd3 (U.params p) :=
  ⟨⟨hp.wf.1, hp.wf.2, hp.wf.3, hp.wf.4, hp.wf.5, hp.wf.6, hp.wf.7, hp.wf.8, hp.wf.9, hp.wf.10, hp.wf.11,
    hp.wf.12, hp.wf.13⟩, hp.gw, hp.nbvar, ⟨hp.valid.1, hp.valid.2⟩, hp.faces⟩

/-- the CFL step depends on the interior cells only -/
theorem cflDtM2_congr {p : Params ℝ} (hp : Mhd2 p) {x y : FldM2 ℝ}
    (h : ∀ i j, interior2 p i j → x i j = y i j) : cflDtM2 p x = cflDtM2 p y := by
  unfold cflDtM2
  congr 2
  ext r
  refine exists_congr fun i => exists_congr fun j => and_congr_right fun hij => ?_
  obtain ⟨h1, h2, h3, h4⟩ := hij
  have hgw := hp.gw
  have e : ∀ a b, i ≤ a → a ≤ i + 1 → j ≤ b → b ≤ j + 1 → fillM2 p x a b = fillM2 p y a b :=
    fun a b k1 k2 k3 k4 => fillM2_congr hp.wf hp.faces h a b ⟨by omega, by omega, by omega, by omega⟩
  rw [primM2_congr e]

theorem scaled_mhd2 {p : Params ℝ} (hp : Mhd2 p) (ho : p.nOutput ≤ 0 ∨ U.T = 1) :
    Scaled U.T p (U.params p) (mhd2 p) (mhd2 (U.params p))
      (fun x y => ∀ i j, interior2 p i j → y i j = U.cons (x i j)) where
  pos := U.units.T_pos
  tEnd := rfl
  nOutput := rfl
  nStepmax := rfl
  out := ho
  dt x y h := (cflDtM2_congr (hp.units U) h).trans (cflDtM2_units U p x)
  adv d x y h i j hij := by
    show fullStepM2 (U.params p) (U.T * d) y i j = U.cons (fullStepM2 p d x i j)
    rw [← fullStepM2_units]
    exact fullStepM2_congr (hp.units U) h i j hij

theorem scaled_mhd3 {p : Params ℝ} (hp : Mhd3 p) (hv : p.implementationVersion = 2 ∨ U.r = 1)
    (ho : p.nOutput ≤ 0 ∨ U.T = 1) :
    Scaled U.T p (U.params p) (mhd3 p) (mhd3 (U.params p))
      (fun x y => ∀ i j k, interior3 p i j k → y i j k = U.cons (x i j k)) where
  pos := U.units.T_pos
  tEnd := rfl
  nOutput := rfl
  nStepmax := rfl
  out := ho
  dt x y h := (cflDtM3_congr (hp.units U) h).trans (cflDtM3_units U p x)
  adv d x y h i j k hij := by
    show fullStepM3 (U.params p) (U.T * d) y i j k = U.cons (fullStepM3 p d x i j k)
    rw [← fullStepM3_units U p hv]
    exact fullStepM3_congr (hp.units U) h i j k hij

end EulerKokkos
