import Verif.Spec.EulerPDE
import Mathlib.Tactic.LinearCombination
import Mathlib.Tactic.FieldSimp

/-!
# The Euler equations in primitive form
-/

namespace EulerKokkos.Spec

theorem HasDerivHS.unique {f : ℝ → HS ℝ} {a b : HS ℝ} {x : ℝ} (ha : HasDerivHS f a x)
    (hb : HasDerivHS f b x) : a = b :=
  HS.ext (ha.d.unique hb.d) (ha.p.unique hb.p) (ha.u.unique hb.u) (ha.v.unique hb.v)
    (ha.w.unique hb.w)

theorem hasDerivAt_sq {f : ℝ → ℝ} {f' x : ℝ} (h : HasDerivAt f f' x) :
    HasDerivAt (fun t => f t ^ 2) (2 * f x * f') x := by
  have e : (fun t => f t ^ 2) = fun t => f t * f t := by
    funext t
    ring
  rw [e]
  exact (h.mul h).congr_deriv (by ring)

section
variable {f : ℝ → HS ℝ} {g : HS ℝ} {x : ℝ}

/-- derivative of the total energy -/
noncomputable def dE (γ : ℝ) (q g : HS ℝ) : ℝ :=
  g.p / (γ - 1) + (g.d * (q.u ^ 2 + q.v ^ 2 + q.w ^ 2) +
    q.d * (2 * q.u * g.u + 2 * q.v * g.v + 2 * q.w * g.w)) / 2

theorem hasDeriv_energy (γ : ℝ) (h : HasDerivHS f g x) :
    HasDerivAt (fun t => (toCons γ (f t)).p) (dE γ (f x) g) x := by
  have h1 := (h.p.div_const (γ - 1)).add
    ((h.d.mul (((hasDerivAt_sq h.u).add (hasDerivAt_sq h.v)).add (hasDerivAt_sq h.w))).div_const 2)
  refine h1.congr_deriv ?_
  simp only [dE, Pi.add_apply]

theorem HasDerivHS.toCons (γ : ℝ) (h : HasDerivHS f g x) :
    HasDerivHS (fun t => toCons γ (f t))
      ⟨g.d, dE γ (f x) g, g.d * (f x).u + (f x).d * g.u, g.d * (f x).v + (f x).d * g.v,
        g.d * (f x).w + (f x).d * g.w⟩ x :=
  ⟨h.d, hasDeriv_energy γ h, h.d.mul h.u, h.d.mul h.v, h.d.mul h.w⟩

theorem HasDerivHS.fluxX (γ : ℝ) (h : HasDerivHS f g x) :
    HasDerivHS (fun t => eulerFlux γ (f t))
      ⟨g.d * (f x).u + (f x).d * g.u,
        g.u * ((Spec.toCons γ (f x)).p + (f x).p) + (f x).u * (dE γ (f x) g + g.p),
        g.d * (f x).u ^ 2 + (f x).d * (2 * (f x).u * g.u) + g.p,
        (g.d * (f x).u + (f x).d * g.u) * (f x).v + (f x).d * (f x).u * g.v,
        (g.d * (f x).u + (f x).d * g.u) * (f x).w + (f x).d * (f x).u * g.w⟩ x := by
  refine ⟨h.d.mul h.u, h.u.mul ((hasDeriv_energy γ h).add h.p), ?_, (h.d.mul h.u).mul h.v,
    (h.d.mul h.u).mul h.w⟩
  exact (h.d.mul (hasDerivAt_sq h.u)).add h.p

theorem HasDerivHS.fluxY (γ : ℝ) (h : HasDerivHS f g x) :
    HasDerivHS (fun t => eulerFluxY γ (f t))
      ⟨g.d * (f x).v + (f x).d * g.v,
        g.v * ((Spec.toCons γ (f x)).p + (f x).p) + (f x).v * (dE γ (f x) g + g.p),
        (g.d * (f x).u + (f x).d * g.u) * (f x).v + (f x).d * (f x).u * g.v,
        g.d * (f x).v ^ 2 + (f x).d * (2 * (f x).v * g.v) + g.p,
        (g.d * (f x).v + (f x).d * g.v) * (f x).w + (f x).d * (f x).v * g.w⟩ x := by
  refine ⟨h.d.mul h.v, h.v.mul ((hasDeriv_energy γ h).add h.p), (h.d.mul h.u).mul h.v, ?_,
    (h.d.mul h.v).mul h.w⟩
  exact (h.d.mul (hasDerivAt_sq h.v)).add h.p

theorem HasDerivHS.fluxZ (γ : ℝ) (h : HasDerivHS f g x) :
    HasDerivHS (fun t => eulerFluxZ γ (f t))
      ⟨g.d * (f x).w + (f x).d * g.w,
        g.w * ((Spec.toCons γ (f x)).p + (f x).p) + (f x).w * (dE γ (f x) g + g.p),
        (g.d * (f x).u + (f x).d * g.u) * (f x).w + (f x).d * (f x).u * g.w,
        (g.d * (f x).v + (f x).d * g.v) * (f x).w + (f x).d * (f x).v * g.w,
        g.d * (f x).w ^ 2 + (f x).d * (2 * (f x).w * g.w) + g.p⟩ x := by
  refine ⟨h.d.mul h.w, h.w.mul ((hasDeriv_energy γ h).add h.p), (h.d.mul h.u).mul h.w,
    (h.d.mul h.v).mul h.w, ?_⟩
  exact (h.d.mul (hasDerivAt_sq h.w)).add h.p
end

/-- **The Euler equations in primitive form**: the time derivative of the primitive variables is
determined by the gradients. -/
theorem EulerAt.primitive {γ : ℝ} {W : ℝ → ℝ → ℝ → ℝ → HS ℝ} {x y z t : ℝ} {gx gy gz gt : HS ℝ}
    (h : EulerAt γ W x y z t gx gy gz gt) (hγ : γ ≠ 1) (hd : (W x y z t).d ≠ 0) :
    let q := W x y z t
    gt = ⟨-q.u * gx.d - q.v * gy.d - q.w * gz.d - (gx.u + gy.v + gz.w) * q.d,
      -q.u * gx.p - q.v * gy.p - q.w * gz.p - (gx.u + gy.v + gz.w) * γ * q.p,
      -q.u * gx.u - q.v * gy.u - q.w * gz.u - gx.p / q.d,
      -q.u * gx.v - q.v * gy.v - q.w * gz.v - gy.p / q.d,
      -q.u * gx.w - q.v * gy.w - q.w * gz.w - gz.p / q.d⟩ := by
  obtain ⟨C, X, Y, Z, hC, hX, hY, hZ, hb⟩ := h.balance
  have eC := hC.unique (h.dt.toCons γ)
  have eX := hX.unique (h.dx.fluxX γ)
  have eY := hY.unique (h.dy.fluxY γ)
  have eZ := hZ.unique (h.dz.fluxZ γ)
  subst eC eX eY eZ
  simp only [hs_add, HS.mk.injEq] at hb
  obtain ⟨b1, b2, b3, b4, b5⟩ := hb
  clear hC hX hY hZ h
  revert hd b1 b2 b3 b4 b5
  generalize W x y z t = q
  intro hd b1 b2 b3 b4 b5
  dsimp only
  have hg : γ - 1 ≠ 0 := sub_ne_zero.mpr hγ
  have e1 : gt.d = -q.u * gx.d - q.v * gy.d - q.w * gz.d - (gx.u + gy.v + gz.w) * q.d := by
    linear_combination b1
  have e3 : q.d * gt.u = q.d * (-q.u * gx.u - q.v * gy.u - q.w * gz.u - gx.p / q.d) := by
    have : q.d * (gx.p / q.d) = gx.p := by field_simp
    linear_combination b3 - q.u * b1 + this
  have e4 : q.d * gt.v = q.d * (-q.u * gx.v - q.v * gy.v - q.w * gz.v - gy.p / q.d) := by
    have : q.d * (gy.p / q.d) = gy.p := by field_simp
    linear_combination b4 - q.v * b1 + this
  have e5 : q.d * gt.w = q.d * (-q.u * gx.w - q.v * gy.w - q.w * gz.w - gz.p / q.d) := by
    have : q.d * (gz.p / q.d) = gz.p := by field_simp
    linear_combination b5 - q.w * b1 + this
  have e3' := mul_left_cancel₀ hd e3
  have e4' := mul_left_cancel₀ hd e4
  have e5' := mul_left_cancel₀ hd e5
  have e2 : gt.p = -q.u * gx.p - q.v * gy.p - q.w * gz.p - (gx.u + gy.v + gz.w) * γ * q.p := by
    have hi : (γ - 1) * (γ - 1)⁻¹ = 1 := mul_inv_cancel₀ hg
    simp only [dE, Spec.toCons, div_eq_mul_inv] at b2
    linear_combination (γ - 1) * (b2 - q.u * b3 - q.v * b4 - q.w * b5 +
      (q.u ^ 2 + q.v ^ 2 + q.w ^ 2) / 2 * b1) -
      (gt.p + q.u * gx.p + q.v * gy.p + q.w * gz.p + (gx.u + gy.v + gz.w) * q.p) * hi
  exact HS.ext e1 e2 e3' e4' e5'

/-- time derivative of the primitive variables in the Euler equations -/
noncomputable def primRate (γ : ℝ) (q gx gy gz : HS ℝ) : HS ℝ :=
  ⟨-q.u * gx.d - q.v * gy.d - q.w * gz.d - (gx.u + gy.v + gz.w) * q.d,
    -q.u * gx.p - q.v * gy.p - q.w * gz.p - (gx.u + gy.v + gz.w) * γ * q.p,
    -q.u * gx.u - q.v * gy.u - q.w * gz.u - gx.p / q.d,
    -q.u * gx.v - q.v * gy.v - q.w * gz.v - gy.p / q.d,
    -q.u * gx.w - q.v * gy.w - q.w * gz.w - gz.p / q.d⟩

theorem hasDerivHS_line (q g : HS ℝ) : HasDerivHS (fun ξ => q + ξ • g) g 0 := by
  have key : ∀ a b : ℝ, HasDerivAt (fun ξ : ℝ => a + ξ * b) b 0 := fun a b => by
    simpa using ((hasDerivAt_id (0 : ℝ)).mul_const b).const_add a
  exact ⟨key _ _, key _ _, key _ _, key _ _, key _ _⟩

theorem hs_zero_smul (g q : HS ℝ) : q + (0 : ℝ) • g = q := by
  simp only [hs_add, hs_smul, zero_mul, add_zero]

/-- the affine field with value `q` and derivatives `gx, gy, gz, gt` at the origin -/
noncomputable def affineField (q gx gy gz gt : HS ℝ) (x y z t : ℝ) : HS ℝ :=
  q + x • gx + y • gy + z • gz + t • gt

theorem affineField_zero (q gx gy gz gt : HS ℝ) : affineField q gx gy gz gt 0 0 0 0 = q := by
  simp only [affineField, hs_zero_smul]

/-- any state and gradients are those of a field satisfying the Euler equations at a point -/
theorem affineField_euler {γ : ℝ} (hγ : γ ≠ 1) {q : HS ℝ} (hd : q.d ≠ 0) (gx gy gz : HS ℝ) :
    EulerAt γ (affineField q gx gy gz (primRate γ q gx gy gz)) 0 0 0 0 gx gy gz
      (primRate γ q gx gy gz) := by
  generalize hgt : primRate γ q gx gy gz = gt
  have ax : (fun ξ => affineField q gx gy gz gt ξ 0 0 0) = fun ξ => q + ξ • gx := by
    funext ξ
    simp only [affineField, hs_zero_smul]
  have ay : (fun ξ => affineField q gx gy gz gt 0 ξ 0 0) = fun ξ => q + ξ • gy := by
    funext ξ
    simp only [affineField, hs_zero_smul]
  have az : (fun ξ => affineField q gx gy gz gt 0 0 ξ 0) = fun ξ => q + ξ • gz := by
    funext ξ
    simp only [affineField, hs_zero_smul]
  have at' : (fun ξ => affineField q gx gy gz gt 0 0 0 ξ) = fun ξ => q + ξ • gt := by
    funext ξ
    simp only [affineField, hs_zero_smul]
  have dx : HasDerivHS (fun ξ => affineField q gx gy gz gt ξ 0 0 0) gx 0 := ax ▸ hasDerivHS_line q gx
  have dy : HasDerivHS (fun ξ => affineField q gx gy gz gt 0 ξ 0 0) gy 0 := ay ▸ hasDerivHS_line q gy
  have dz : HasDerivHS (fun ξ => affineField q gx gy gz gt 0 0 ξ 0) gz 0 := az ▸ hasDerivHS_line q gz
  have dt : HasDerivHS (fun ξ => affineField q gx gy gz gt 0 0 0 ξ) gt 0 := at' ▸ hasDerivHS_line q gt
  refine ⟨dx, dy, dz, dt, _, _, _, _, dt.toCons γ, dx.fluxX γ, dy.fluxY γ, dz.fluxZ γ, ?_⟩
  subst hgt
  simp only [affineField_zero, primRate, dE, Spec.toCons, hs_add, HS.mk.injEq]
  have hg : γ - 1 ≠ 0 := sub_ne_zero.mpr hγ
  refine ⟨?_, ?_, ?_, ?_, ?_⟩ <;> field_simp <;> ring

end EulerKokkos.Spec
