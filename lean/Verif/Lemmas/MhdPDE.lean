import Verif.Spec.MhdPDE
import Verif.Lemmas.EulerPDE

/-!
# The ideal MHD equations in primitive form
-/

namespace EulerKokkos.Spec

theorem HasDerivMS.unique {f : ℝ → MS ℝ} {a b : MS ℝ} {x : ℝ} (ha : HasDerivMS f a x)
    (hb : HasDerivMS f b x) : a = b :=
  MS.ext (ha.d.unique hb.d) (ha.p.unique hb.p) (ha.u.unique hb.u) (ha.v.unique hb.v)
    (ha.w.unique hb.w) (ha.a.unique hb.a) (ha.b.unique hb.b) (ha.c.unique hb.c)

section
variable {f : ℝ → MS ℝ} {g : MS ℝ} {x : ℝ}

/-- derivative of the total pressure -/
noncomputable def dPT (q g : MS ℝ) : ℝ :=
  g.p + (2 * q.a * g.a + 2 * q.b * g.b + 2 * q.c * g.c) / 2

/-- derivative of the total energy -/
noncomputable def dEM (γ : ℝ) (q g : MS ℝ) : ℝ :=
  g.p / (γ - 1) + (g.d * (q.u ^ 2 + q.v ^ 2 + q.w ^ 2) +
    q.d * (2 * q.u * g.u + 2 * q.v * g.v + 2 * q.w * g.w)) / 2 +
    (2 * q.a * g.a + 2 * q.b * g.b + 2 * q.c * g.c) / 2

/-- derivative of the product of velocity and field -/
noncomputable def dUB (q g : MS ℝ) : ℝ :=
  g.u * q.a + q.u * g.a + (g.v * q.b + q.v * g.b) + (g.w * q.c + q.w * g.c)

theorem hasDeriv_magPressure (h : HasDerivMS f g x) :
    HasDerivAt (fun t => magPressure (f t))
      ((2 * (f x).a * g.a + 2 * (f x).b * g.b + 2 * (f x).c * g.c) / 2) x :=
  (((hasDerivAt_sq h.a).add (hasDerivAt_sq h.b)).add (hasDerivAt_sq h.c)).div_const 2

theorem hasDeriv_totalPressure (h : HasDerivMS f g x) :
    HasDerivAt (fun t => totalPressure (f t)) (dPT (f x) g) x :=
  h.p.add (hasDeriv_magPressure h)

theorem hasDeriv_mhdEnergy (γ : ℝ) (h : HasDerivMS f g x) :
    HasDerivAt (fun t => mhdEnergy γ (f t)) (dEM γ (f x) g) x := by
  have h1 := ((h.p.div_const (γ - 1)).add
    ((h.d.mul (((hasDerivAt_sq h.u).add (hasDerivAt_sq h.v)).add (hasDerivAt_sq h.w))).div_const 2)).add
    (hasDeriv_magPressure h)
  refine h1.congr_deriv ?_
  simp only [dEM, Pi.add_apply]

theorem hasDeriv_dotUB (h : HasDerivMS f g x) :
    HasDerivAt (fun t => (f t).u * (f t).a + (f t).v * (f t).b + (f t).w * (f t).c) (dUB (f x) g) x :=
  ((h.u.mul h.a).add (h.v.mul h.b)).add (h.w.mul h.c)

theorem HasDerivMS.cons (γ : ℝ) (h : HasDerivMS f g x) :
    HasDerivMS (fun t => mhdCons γ (f t))
      ⟨g.d, dEM γ (f x) g, g.d * (f x).u + (f x).d * g.u, g.d * (f x).v + (f x).d * g.v,
        g.d * (f x).w + (f x).d * g.w, g.a, g.b, g.c⟩ x :=
  ⟨h.d, hasDeriv_mhdEnergy γ h, h.d.mul h.u, h.d.mul h.v, h.d.mul h.w, h.a, h.b, h.c⟩

theorem HasDerivMS.fluxX (γ : ℝ) (h : HasDerivMS f g x) :
    HasDerivMS (fun t => mhdFlux γ (f t))
      (let q := f x
       ⟨g.d * q.u + q.d * g.u,
        (dEM γ q g + dPT q g) * q.u + (mhdEnergy γ q + totalPressure q) * g.u -
          (g.a * (q.u * q.a + q.v * q.b + q.w * q.c) + q.a * dUB q g),
        g.d * q.u ^ 2 + q.d * (2 * q.u * g.u) + dPT q g - 2 * q.a * g.a,
        (g.d * q.u + q.d * g.u) * q.v + q.d * q.u * g.v - (g.a * q.b + q.a * g.b),
        (g.d * q.u + q.d * g.u) * q.w + q.d * q.u * g.w - (g.a * q.c + q.a * g.c),
        0,
        g.b * q.u + q.b * g.u - (g.a * q.v + q.a * g.v),
        g.c * q.u + q.c * g.u - (g.a * q.w + q.a * g.w)⟩) x := by
  refine ⟨h.d.mul h.u, ?_, ?_, ((h.d.mul h.u).mul h.v).sub (h.a.mul h.b),
    ((h.d.mul h.u).mul h.w).sub (h.a.mul h.c), hasDerivAt_const _ _, (h.b.mul h.u).sub (h.a.mul h.v),
    (h.c.mul h.u).sub (h.a.mul h.w)⟩
  · exact (((hasDeriv_mhdEnergy γ h).add (hasDeriv_totalPressure h)).mul h.u).sub
      (h.a.mul (hasDeriv_dotUB h))
  · exact ((h.d.mul (hasDerivAt_sq h.u)).add (hasDeriv_totalPressure h)).sub (hasDerivAt_sq h.a)

theorem HasDerivMS.fluxY (γ : ℝ) (h : HasDerivMS f g x) :
    HasDerivMS (fun t => mhdFluxY γ (f t))
      (let q := f x
       ⟨g.d * q.v + q.d * g.v,
        (dEM γ q g + dPT q g) * q.v + (mhdEnergy γ q + totalPressure q) * g.v -
          (g.b * (q.u * q.a + q.v * q.b + q.w * q.c) + q.b * dUB q g),
        (g.d * q.u + q.d * g.u) * q.v + q.d * q.u * g.v - (g.a * q.b + q.a * g.b),
        g.d * q.v ^ 2 + q.d * (2 * q.v * g.v) + dPT q g - 2 * q.b * g.b,
        (g.d * q.v + q.d * g.v) * q.w + q.d * q.v * g.w - (g.b * q.c + q.b * g.c),
        g.a * q.v + q.a * g.v - (g.b * q.u + q.b * g.u),
        0,
        g.c * q.v + q.c * g.v - (g.b * q.w + q.b * g.w)⟩) x := by
  refine ⟨h.d.mul h.v, ?_, ((h.d.mul h.u).mul h.v).sub (h.a.mul h.b), ?_,
    ((h.d.mul h.v).mul h.w).sub (h.b.mul h.c), (h.a.mul h.v).sub (h.b.mul h.u), hasDerivAt_const _ _,
    (h.c.mul h.v).sub (h.b.mul h.w)⟩
  · exact (((hasDeriv_mhdEnergy γ h).add (hasDeriv_totalPressure h)).mul h.v).sub
      (h.b.mul (hasDeriv_dotUB h))
  · exact ((h.d.mul (hasDerivAt_sq h.v)).add (hasDeriv_totalPressure h)).sub (hasDerivAt_sq h.b)

theorem HasDerivMS.fluxZ (γ : ℝ) (h : HasDerivMS f g x) :
    HasDerivMS (fun t => mhdFluxZ γ (f t))
      (let q := f x
       ⟨g.d * q.w + q.d * g.w,
        (dEM γ q g + dPT q g) * q.w + (mhdEnergy γ q + totalPressure q) * g.w -
          (g.c * (q.u * q.a + q.v * q.b + q.w * q.c) + q.c * dUB q g),
        (g.d * q.u + q.d * g.u) * q.w + q.d * q.u * g.w - (g.a * q.c + q.a * g.c),
        (g.d * q.v + q.d * g.v) * q.w + q.d * q.v * g.w - (g.b * q.c + q.b * g.c),
        g.d * q.w ^ 2 + q.d * (2 * q.w * g.w) + dPT q g - 2 * q.c * g.c,
        g.a * q.w + q.a * g.w - (g.c * q.u + q.c * g.u),
        g.b * q.w + q.b * g.w - (g.c * q.v + q.c * g.v),
        0⟩) x := by
  refine ⟨h.d.mul h.w, ?_, ((h.d.mul h.u).mul h.w).sub (h.a.mul h.c),
    ((h.d.mul h.v).mul h.w).sub (h.b.mul h.c), ?_, (h.a.mul h.w).sub (h.c.mul h.u),
    (h.b.mul h.w).sub (h.c.mul h.v), hasDerivAt_const _ _⟩
  · exact (((hasDeriv_mhdEnergy γ h).add (hasDeriv_totalPressure h)).mul h.w).sub
      (h.c.mul (hasDeriv_dotUB h))
  · exact ((h.d.mul (hasDerivAt_sq h.w)).add (hasDeriv_totalPressure h)).sub (hasDerivAt_sq h.c)
end

/-- time derivative of the primitive variables in the ideal MHD equations -/
noncomputable def mhdRate (γ : ℝ) (q gx gy gz : MS ℝ) : MS ℝ :=
  ⟨-q.u * gx.d - q.v * gy.d - q.w * gz.d - (gx.u + gy.v + gz.w) * q.d,
    -q.u * gx.p - q.v * gy.p - q.w * gz.p - (gx.u + gy.v + gz.w) * γ * q.p,
    -q.u * gx.u - q.v * gy.u - q.w * gz.u +
      (-gx.p - (q.b * gx.b + q.c * gx.c) + q.b * gy.a + q.c * gz.a) / q.d,
    -q.u * gx.v - q.v * gy.v - q.w * gz.v +
      (-gy.p - (q.a * gy.a + q.c * gy.c) + q.a * gx.b + q.c * gz.b) / q.d,
    -q.u * gx.w - q.v * gy.w - q.w * gz.w +
      (-gz.p - (q.a * gz.a + q.b * gz.b) + q.a * gx.c + q.b * gy.c) / q.d,
    gy.u * q.b + q.u * gy.b - gy.v * q.a - q.v * gy.a -
      (gz.w * q.a + q.w * gz.a - gz.u * q.c - q.u * gz.c),
    gz.v * q.c + q.v * gz.c - gz.w * q.b - q.w * gz.b -
      (gx.u * q.b + q.u * gx.b - gx.v * q.a - q.v * gx.a),
    gx.w * q.a + q.w * gx.a - gx.u * q.c - q.u * gx.c -
      (gy.v * q.c + q.v * gy.c - gy.w * q.b - q.w * gy.b)⟩

/-- the induction equation, wherever the MHD equations hold -/
theorem MhdAt.induction {γ : ℝ} {W : ℝ → ℝ → ℝ → ℝ → MS ℝ} {x y z t : ℝ} {gx gy gz gt : MS ℝ}
    (h : MhdAt γ W x y z t gx gy gz gt) :
    gt.a = (mhdRate γ (W x y z t) gx gy gz).a ∧ gt.b = (mhdRate γ (W x y z t) gx gy gz).b ∧
      gt.c = (mhdRate γ (W x y z t) gx gy gz).c := by
  obtain ⟨C, X, Y, Z, hC, hX, hY, hZ, hb⟩ := h.balance
  have eC := hC.unique (h.dt.cons γ)
  have eX := hX.unique (h.dx.fluxX γ)
  have eY := hY.unique (h.dy.fluxY γ)
  have eZ := hZ.unique (h.dz.fluxZ γ)
  subst eC eX eY eZ
  simp only [ms_add, MS.mk.injEq] at hb
  obtain ⟨_, _, _, _, _, b6, b7, b8⟩ := hb
  refine ⟨?_, ?_, ?_⟩ <;> simp only [mhdRate]
  · linear_combination b6
  · linear_combination b7
  · linear_combination b8

/-- **The ideal MHD equations in primitive form.** -/
theorem MhdAt.primitive {γ : ℝ} {W : ℝ → ℝ → ℝ → ℝ → MS ℝ} {x y z t : ℝ} {gx gy gz gt : MS ℝ}
    (h : MhdAt γ W x y z t gx gy gz gt) (hγ : γ ≠ 1) (hd : (W x y z t).d ≠ 0) :
    gt = mhdRate γ (W x y z t) gx gy gz := by
  obtain ⟨i1, i2, i3⟩ := h.induction
  have hdiv := h.divB
  obtain ⟨C, X, Y, Z, hC, hX, hY, hZ, hb⟩ := h.balance
  have eC := hC.unique (h.dt.cons γ)
  have eX := hX.unique (h.dx.fluxX γ)
  have eY := hY.unique (h.dy.fluxY γ)
  have eZ := hZ.unique (h.dz.fluxZ γ)
  subst eC eX eY eZ
  simp only [ms_add, MS.mk.injEq] at hb
  obtain ⟨b1, b2, b3, b4, b5, -, -, -⟩ := hb
  clear hC hX hY hZ h
  revert hd i1 i2 i3 b1 b2 b3 b4 b5
  generalize W x y z t = q
  intro hd i1 i2 i3 b1 b2 b3 b4 b5
  have hg : γ - 1 ≠ 0 := sub_ne_zero.mpr hγ
  simp only [dPT] at b3 b4 b5
  have e1 : gt.d = (mhdRate γ q gx gy gz).d := by
    simp only [mhdRate]
    linear_combination b1
  have e3 : q.d * gt.u = q.d * (mhdRate γ q gx gy gz).u := by
    simp only [mhdRate, mul_add, mul_div_cancel₀ _ hd]
    linear_combination b3 - q.u * b1 + q.a * hdiv
  have e4 : q.d * gt.v = q.d * (mhdRate γ q gx gy gz).v := by
    simp only [mhdRate, mul_add, mul_div_cancel₀ _ hd]
    linear_combination b4 - q.v * b1 + q.b * hdiv
  have e5 : q.d * gt.w = q.d * (mhdRate γ q gx gy gz).w := by
    simp only [mhdRate, mul_add, mul_div_cancel₀ _ hd]
    linear_combination b5 - q.w * b1 + q.c * hdiv
  have e2 : gt.p = (mhdRate γ q gx gy gz).p := by
    have hi : (γ - 1) * (γ - 1)⁻¹ = 1 := mul_inv_cancel₀ hg
    simp only [dEM, dPT, dUB, mhdEnergy, totalPressure, magPressure, div_eq_mul_inv] at b2
    simp only [mhdRate] at i1 i2 i3 ⊢
    linear_combination (γ - 1) * (b2 - q.u * b3 - q.v * b4 - q.w * b5 +
      (q.u ^ 2 + q.v ^ 2 + q.w ^ 2) / 2 * b1 - q.a * i1 - q.b * i2 - q.c * i3 -
      (q.u * q.a + q.v * q.b + q.w * q.c) * hdiv) -
      (gt.p + q.u * gx.p + q.v * gy.p + q.w * gz.p + (gx.u + gy.v + gz.w) * q.p) * hi
  exact MS.ext e1 e2 (mul_left_cancel₀ hd e3) (mul_left_cancel₀ hd e4) (mul_left_cancel₀ hd e5) i1 i2 i3

/-- the affine field with value `q` at the origin -/
noncomputable def affineM (q gx gy gz : MS ℝ) (x y z : ℝ) : MS ℝ := q + x • gx + y • gy + z • gz

/-- affine in space at time 0, with the time derivative required by the MHD equations -/
noncomputable def evolvingM (γ : ℝ) (q gx gy gz : MS ℝ) (x y z t : ℝ) : MS ℝ :=
  affineM q gx gy gz x y z + t • mhdRate γ (affineM q gx gy gz x y z) gx gy gz

theorem evolvingM_zero (γ : ℝ) (q gx gy gz : MS ℝ) (x y z : ℝ) :
    evolvingM γ q gx gy gz x y z 0 = affineM q gx gy gz x y z := by
  simp [evolvingM, ms_add, ms_smul]

theorem hasDerivMS_line (q g : MS ℝ) (x : ℝ) : HasDerivMS (fun ξ => q + ξ • g) g x := by
  have key : ∀ a b : ℝ, HasDerivAt (fun ξ : ℝ => a + ξ * b) b x := fun a b => by
    simpa using ((hasDerivAt_id x).mul_const b).const_add a
  exact ⟨key _ _, key _ _, key _ _, key _ _, key _ _, key _ _, key _ _, key _ _⟩

/-- the field `evolvingM` satisfies the MHD equations wherever its density is not zero -/
theorem evolvingM_mhd {γ : ℝ} (hγ : γ ≠ 1) (q gx gy gz : MS ℝ) (hdiv : gx.a + gy.b + gz.c = 0) (x y z : ℝ)
    (hd : (affineM q gx gy gz x y z).d ≠ 0) :
    MhdAt γ (evolvingM γ q gx gy gz) x y z 0 gx gy gz (mhdRate γ (affineM q gx gy gz x y z) gx gy gz) := by
  have dx : HasDerivMS (fun ξ => evolvingM γ q gx gy gz ξ y z 0) gx x := by
    have e : (fun ξ => evolvingM γ q gx gy gz ξ y z 0) = fun ξ => (q + y • gy + z • gz) + ξ • gx := by
      funext ξ
      simp only [evolvingM_zero, affineM, ms_add, ms_smul, MS.mk.injEq]
      refine ⟨?_, ?_, ?_, ?_, ?_, ?_, ?_, ?_⟩ <;> ring
    rw [e]
    exact hasDerivMS_line _ _ _
  have dy : HasDerivMS (fun η => evolvingM γ q gx gy gz x η z 0) gy y := by
    have e : (fun η => evolvingM γ q gx gy gz x η z 0) = fun η => (q + x • gx + z • gz) + η • gy := by
      funext ξ
      simp only [evolvingM_zero, affineM, ms_add, ms_smul, MS.mk.injEq]
      refine ⟨?_, ?_, ?_, ?_, ?_, ?_, ?_, ?_⟩ <;> ring
    rw [e]
    exact hasDerivMS_line _ _ _
  have dz : HasDerivMS (fun ζ => evolvingM γ q gx gy gz x y ζ 0) gz z := by
    have e : (fun ζ => evolvingM γ q gx gy gz x y ζ 0) = fun ζ => (q + x • gx + y • gy) + ζ • gz := by
      funext ξ
      simp only [evolvingM_zero, affineM, ms_add, ms_smul]
    rw [e]
    exact hasDerivMS_line _ _ _
  have dt : HasDerivMS (fun τ => evolvingM γ q gx gy gz x y z τ)
      (mhdRate γ (affineM q gx gy gz x y z) gx gy gz) 0 := hasDerivMS_line _ _ _
  refine ⟨dx, dy, dz, dt, hdiv, _, _, _, _, dt.cons γ, dx.fluxX γ, dy.fluxY γ, dz.fluxZ γ, ?_⟩
  simp only [evolvingM_zero]
  clear dx dy dz dt
  revert hd
  generalize affineM q gx gy gz x y z = c
  intro hd
  have hz : gz.c = -gx.a - gy.b := by linarith
  simp only [mhdRate, dEM, dPT, dUB, mhdEnergy, totalPressure, magPressure, ms_add, MS.mk.injEq, hz]
  have hg : γ - 1 ≠ 0 := sub_ne_zero.mpr hγ
  refine ⟨?_, ?_, ?_, ?_, ?_, ?_, ?_, ?_⟩ <;> field_simp <;> ring

theorem evolvingM_affine (γ : ℝ) (q gx gy gz : MS ℝ) :
    AffineAt (evolvingM γ q gx gy gz) 0 0 0 0 gx gy gz := fun ξ η ζ => by
  simp only [evolvingM_zero, affineM, ms_add, ms_smul, sub_zero, zero_mul, add_zero]

end EulerKokkos.Spec
