import Verif.Props.C99Mhd

/-!
# C99, 3D hydro — the implosion and the blast wave in a cube keep the symmetries of the cube
-/

set_option linter.constructorNameAsVariable false
set_option linter.unusedSectionVars false
set_option linter.unusedSimpArgs false

namespace EulerKokkos
open Spec Spmd

namespace Spec

/-- exchanging any two axes shows the same picture: density and energy agree in the exchanged cells, the momenta along the
two axes are exchanged and the third one agrees -/
def Cubic3 (p : Params ℝ) (o : Output ℝ) : Prop := ∀ i j k, interior3 p i j k →
  let at' := fun a b c v => o.data ⟨(), a, b, c, v⟩
  (∀ v ∈ [ID, IP], at' j i k v = at' i j k v ∧ at' k j i v = at' i j k v ∧ at' i k j v = at' i j k v) ∧
  (at' j i k IU = at' i j k IV ∧ at' j i k IV = at' i j k IU ∧ at' j i k IW = at' i j k IW) ∧
  (at' k j i IU = at' i j k IW ∧ at' k j i IV = at' i j k IV ∧ at' k j i IW = at' i j k IU) ∧
  (at' i k j IU = at' i j k IU ∧ at' i k j IV = at' i j k IW ∧ at' i k j IW = at' i j k IV)

/-- the picture is its own mirror image along each of the three axes: in the mirrored cell density and energy are the same,
the momentum along the axis is opposite, the other two are the same -/
def Mirrors3 (p : Params ℝ) (o : Output ℝ) : Prop := ∀ i j k, interior3 p i j k →
  let at' := fun a b c v => o.data ⟨(), a, b, c, v⟩
  (∀ i', i - p.ghostWidth = (p.ghostWidth + p.nx - 1) - i' → (∀ v ∈ [ID, IP, IV, IW], at' i' j k v = at' i j k v) ∧
    at' i' j k IU = - at' i j k IU) ∧
  (∀ j', j - p.ghostWidth = (p.ghostWidth + p.ny - 1) - j' → (∀ v ∈ [ID, IP, IU, IW], at' i j' k v = at' i j k v) ∧
    at' i j' k IV = - at' i j k IV) ∧
  (∀ k', k - p.ghostWidth = (p.ghostWidth + p.nz - 1) - k' → (∀ v ∈ [ID, IP, IU, IV], at' i j k' v = at' i j k v) ∧
    at' i j k' IW = - at' i j k IW)

/-- a cubic box with the same boundary conditions along the three axes -/
structure Cube (p : Params ℝ) : Prop where
  xy : p.nx = p.ny
  xz : p.nx = p.nz
  lo_xy : p.xmin = p.ymin
  lo_xz : p.xmin = p.zmin
  hi_xy : p.xmax = p.ymax
  hi_xz : p.xmax = p.zmax
  bmin_xy : p.boundary_type_xmin = p.boundary_type_ymin
  bmin_xz : p.boundary_type_xmin = p.boundary_type_zmin
  bmax_xy : p.boundary_type_xmax = p.boundary_type_ymax
  bmax_xz : p.boundary_type_xmax = p.boundary_type_zmax

end Spec

/-- the memory of a fresh 3D hydro run -/
theorem fresh_hydro3 {F : FloatLib ℝ} {M : MathLib ℝ} {e : Env ℝ} {file : Option (List Char)} {s' : RunState ℝ}
    (hs : Sets (Ini.broadcastSerial file) "run" "solver_name" "Hydro_Muscl_3D")
    (hr : cfgBool (Ini.broadcastSerial file) "run" "restart_enabled" false = false)
    (ho : Ordinary3 (hydroParams F (Ini.broadcastSerial file)))
    (h : serialMain F M e file (.finished s')) :
    let c := Ini.broadcastSerial file
    let p := hydroParams F c
    let q := hydroProblem3 F M c e.ju
    Hydro3 p ∧ GoodGrid p ∧ p.enableOutput = decide (p.nOutput ≠ 0) ∧
    (p.implementationVersion = 0 ∨ p.implementationVersion = 1 ∨ p.implementationVersion = 2) ∧
    ∃ m, runMain p (hydroOps3 p (gravityParams c) e.ident e.jk) m (cfgFloat F c "run" "tCurrent" 0) 0 s' ∧
      ∀ i j k s, inGrid3 p i j k → hydroCell3 M p (e.rnd i j k) (centre p.xmin p.dx p.ghostWidth i)
        (centre p.ymin p.dy p.ghostWidth j) (centre p.zmin p.dz p.ghostWidth k) q = some s → hs3 m .U i j k = s := by
  intro c p q
  have hk : findSolver (mainSolverName c) = some .hydro3 := findSolver_sets (by simp [solverRegistry]) hs
  obtain ⟨h1, h2, h3, h4⟩ := C36_runnable_3d F c (hs _) ho.nx ho.ny ho.nz ho.x ho.y ho.z ho.slope ho.riemann
    ho.gamma ho.smallr ho.smallc ho.cfl
  have h1 : Hydro3 p := h1
  obtain ⟨m, s'', e1, ⟨-, hm⟩, hrun⟩ := (serialMain_fresh hk hr _).1 h
  cases e1
  refine ⟨h1, h2, h3, h4, m, hrun, ?_⟩
  intro i j k s hij hc
  have hm' := (initHydro3_iff _ _ _ _ _ _ _).1 hm
  have hin : (i, j, k) ∈ range3 p.isize p.jsize p.ksize := by
    obtain ⟨⟨a, b⟩, ⟨c, d⟩, e, f⟩ := hij
    have := h1.wf.isize_eq
    have := h1.wf.jsize_eq
    have := h1.wf.ksize_eq
    rw [mem_range3]
    dsimp only
    omega
  have hv : ∀ v < 5, m ⟨.U, i, j, k, v⟩ = s.get v := by
    intro v hv
    rw [hm']
    beta_reduce
    rw [if_pos ⟨Or.inl rfl, hin⟩, run_hydroInit3_U _ _ _ _ _ _ _ _ _ _ hv, cellX_centre, cellY_centre, cellZ_centre, hc]
  exact HS.ext (hv ID (by decide)) (hv IP (by decide)) (hv IU (by decide)) (hv IV (by decide)) (hv IW (by decide))

theorem in_grid_of_interior3 {p : Params ℝ} (w : p.WF) {i j k : Int} (h : interior3 p i j k) : inGrid3 p i j k := by
  obtain ⟨⟨a, b⟩, ⟨c, d⟩, e, f⟩ := h
  have := w.gw_pos
  have := w.isize_eq
  have := w.jsize_eq
  have := w.ksize_eq
  exact ⟨⟨by omega, by omega⟩, ⟨by omega, by omega⟩, by omega, by omega⟩

theorem swapXY_same {p : Params ℝ} (w : p.WF) (h : Cube p) (hd : p.dx = p.dy) : swapXYParams p = p := by
  have h1 := h.xy; have h2 := h.lo_xy; have h3 := h.hi_xy; have h4 := h.bmin_xy; have h5 := h.bmax_xy
  have w1 := w.imin_eq; have w2 := w.jmin_eq; have w3 := w.imax_eq; have w4 := w.jmax_eq
  have w5 := w.isize_eq; have w6 := w.jsize_eq
  have k1 : p.imin = p.jmin := by omega
  have k2 : p.imax = p.jmax := by omega
  have k3 : p.isize = p.jsize := by omega
  clear w h w1 w2 w3 w4 w5 w6
  cases p
  simp only at h1 h2 h3 h4 h5 hd k1 k2 k3
  subst h1 h2 h3 h4 h5 hd k1 k2 k3
  rfl

theorem swapXZ_same {p : Params ℝ} (w : p.WF) (h : Cube p) (hd : p.dx = p.dz) : swapXZParams p = p := by
  have h1 := h.xz; have h2 := h.lo_xz; have h3 := h.hi_xz; have h4 := h.bmin_xz; have h5 := h.bmax_xz
  have w1 := w.imin_eq; have w2 := w.kmin_eq; have w3 := w.imax_eq; have w4 := w.kmax_eq
  have w5 := w.isize_eq; have w6 := w.ksize_eq
  have k1 : p.imin = p.kmin := by omega
  have k2 : p.imax = p.kmax := by omega
  have k3 : p.isize = p.ksize := by omega
  clear w h w1 w2 w3 w4 w5 w6
  cases p
  simp only at h1 h2 h3 h4 h5 hd k1 k2 k3
  subst h1 h2 h3 h4 h5 hd k1 k2 k3
  rfl

theorem cube_d {F : FloatLib ℝ} {c : Ini.Reader} (hq : Cube (hydroParams F c)) (hn : 2 ≤ (hydroParams F c).nx) :
    (hydroParams F c).dx = (hydroParams F c).dy ∧ (hydroParams F c).dx = (hydroParams F c).dz := by
  obtain ⟨h1, h2, h3⟩ := C36_cell_size F c ⟨1, 1, 1, by decide, by decide, by decide⟩
  have hny : (hydroParams F c).ny ≠ 0 := by rw [← hq.xy]; omega
  have hnz : (hydroParams F c).nz ≠ 0 := by rw [← hq.xz]; omega
  have a := (h1 (by omega)).1
  have b := (h2 hny).1
  have d := (h3 hnz).1
  have hx : ((hydroParams F c).nx : ℝ) ≠ 0 := by
    have : (hydroParams F c).nx ≠ 0 := by omega
    exact_mod_cast this
  refine ⟨mul_right_cancel₀ hx (a.trans ?_), mul_right_cancel₀ hx (a.trans ?_)⟩
  · rw [hq.hi_xy, hq.lo_xy, ← b, hq.xy]
  · rw [hq.hi_xz, hq.lo_xz, ← d, hq.xz]

/-- from data symmetric under the exchange of axes to files symmetric under the exchange of axes -/
theorem cubic_of {F : FloatLib ℝ} {M : MathLib ℝ} {e : Env ℝ} (hid : e.ident ≤ 0) {file : Option (List Char)}
    (hs : Sets (Ini.broadcastSerial file) "run" "solver_name" "Hydro_Muscl_3D")
    (hr : cfgBool (Ini.broadcastSerial file) "run" "restart_enabled" false = false)
    (hg : cfgBool (Ini.broadcastSerial file) "gravity" "enabled" false = false)
    (ho : Ordinary3 (hydroParams F (Ini.broadcastSerial file)))
    (hsq : Cube (hydroParams F (Ini.broadcastSerial file)))
    (f : ℝ → ℝ → ℝ → HS ℝ)
    (hf : ∀ n x y z, hydroCell3 M (hydroParams F (Ini.broadcastSerial file)) n x y z
      (hydroProblem3 F M (Ini.broadcastSerial file) e.ju) = some (f x y z))
    (hxy : ∀ x y z, f y x z = (f x y z).swapUV) (hxz : ∀ x y z, f z y x = (f x y z).swapUW)
    {s' : RunState ℝ} (h : serialMain F M e file (.finished s')) :
    ∀ o ∈ s'.outputs, Cubic3 (hydroParams F (Ini.broadcastSerial file)) o := by
  obtain ⟨h1, h2, h3, h4, m, hrun, hm⟩ := fresh_hydro3 hs hr ho h
  obtain ⟨d1, d2⟩ := cube_d hsq ho.nx
  generalize hydroParams F (Ini.broadcastSerial file) = p at *
  have hge : (gravityParams (Ini.broadcastSerial file)).enabled = false := hg
  have n1 := hsq.xy
  have n2 := hsq.xz
  have sxy : ∀ {i j k}, interior3 p i j k → interior3 p j i k := by
    rintro i j k ⟨⟨a, b⟩, ⟨c, d⟩, e, f⟩
    exact ⟨⟨by omega, by omega⟩, ⟨by omega, by omega⟩, by omega, by omega⟩
  have sxz : ∀ {i j k}, interior3 p i j k → interior3 p k j i := by
    rintro i j k ⟨⟨a, b⟩, ⟨c, d⟩, e, f⟩
    exact ⟨⟨by omega, by omega⟩, ⟨by omega, by omega⟩, by omega, by omega⟩
  have hU : ∀ i j k, interior3 p i j k → hs3 m .U i j k = f (centre p.xmin p.dx p.ghostWidth i)
      (centre p.xmin p.dx p.ghostWidth j) (centre p.xmin p.dx p.ghostWidth k) := by
    intro i j k hij
    rw [hm i j k _ (in_grid_of_interior3 h1.wf hij) (hf _ _ _ _), ← hsq.lo_xy, ← hsq.lo_xz, ← d1, ← d2]
  have kxy := (C70_axes_xy_3d h1 h4 h2 h3 (gravityParams (Ini.broadcastSerial file)) hid hid e.jk e.jk (m := m) (m' := m)
    (fun i j k hij => by rw [hU i j k hij, hU j i k (sxy hij), hxy])
    (fun hc => by rw [hge] at hc; cases hc) hrun (by rw [swapXY_same h1.wf hsq d1]; exact hrun)).2.2
  have kxz := (C70_axes_xz_3d h1 h4 h2 h3 (gravityParams (Ini.broadcastSerial file)) (Or.inr hge) hid hid e.jk e.jk
    (m := m) (m' := m)
    (fun i j k hij => by rw [hU i j k hij, hU k j i (sxz hij), hxz])
    (fun hc => by rw [hge] at hc; cases hc) hrun (by rw [swapXZ_same h1.wf hsq d2]; exact hrun)).2.2
  intro o hmem i j k hij
  have a := (forall₂_self kxy o hmem).2.2
  have b := (forall₂_self kxz o hmem).2.2
  have a1 := a i j k hij
  have b1 := b i j k hij
  have c1 : shown3 o.data i k j = (((shown3 o.data i j k).swapUV).swapUW).swapUV := by
    rw [a k i j (sxz (sxy hij)), b j i k (sxy hij), a i j k hij]
  unfold shown3 at a1 b1 c1
  unfold HS.swapUV at a1 c1
  unfold HS.swapUW at b1 c1
  injection a1 with a1 a2 a3 a4 a5
  injection b1 with b1 b2 b3 b4 b5
  injection c1 with c1 c2 c3 c4 c5
  refine ⟨fun v hv => ?_, ⟨a3, a4, a5⟩, ⟨b3, b4, b5⟩, c3, c4, c5⟩
  simp only [List.mem_cons, List.not_mem_nil, or_false] at hv
  rcases hv with rfl | rfl
  · exact ⟨a1, b1, c1⟩
  · exact ⟨a2, b2, c2⟩

/-- from mirror-symmetric data to mirror-symmetric files -/
theorem mirrors_of {F : FloatLib ℝ} {M : MathLib ℝ} {e : Env ℝ} (hid : e.ident ≤ 0) {file : Option (List Char)}
    (hs : Sets (Ini.broadcastSerial file) "run" "solver_name" "Hydro_Muscl_3D")
    (hr : cfgBool (Ini.broadcastSerial file) "run" "restart_enabled" false = false)
    (hg : cfgBool (Ini.broadcastSerial file) "gravity" "enabled" false = false)
    (ho : Ordinary3 (hydroParams F (Ini.broadcastSerial file)))
    (hM : (hydroParams F (Ini.broadcastSerial file)).riemannSolverType = .llf ∨
      (hydroParams F (Ini.broadcastSerial file)).riemannSolverType = .hllc)
    (f : ℝ → ℝ → ℝ → HS ℝ)
    (hf : ∀ n x y z, hydroCell3 M (hydroParams F (Ini.broadcastSerial file)) n x y z
      (hydroProblem3 F M (Ini.broadcastSerial file) e.ju) = some (f x y z))
    (hb : let p := hydroParams F (Ini.broadcastSerial file)
      p.boundary_type_xmin = p.boundary_type_xmax ∧ p.boundary_type_ymin = p.boundary_type_ymax ∧
      p.boundary_type_zmin = p.boundary_type_zmax)
    (h0 : let p := hydroParams F (Ini.broadcastSerial file)
      ∀ x y z, f (p.xmin + p.xmax - x) y z = mirror (f x y z) ∧ f x (p.ymin + p.ymax - y) z = flipV (f x y z) ∧
        f x y (p.zmin + p.zmax - z) = flipW (f x y z))
    {s' : RunState ℝ} (h : serialMain F M e file (.finished s')) :
    ∀ o ∈ s'.outputs, Mirrors3 (hydroParams F (Ini.broadcastSerial file)) o := by
  obtain ⟨h1, h2, h3, h4, m, hrun, hm⟩ := fresh_hydro3 hs hr ho h
  obtain ⟨c1, c2, c3⟩ := C36_cell_size F (Ini.broadcastSerial file) ⟨1, 1, 1, by decide, by decide, by decide⟩
  have hnx := ho.nx
  have hny := ho.ny
  have hnz := ho.nz
  have hdx := (c1 (by omega)).1
  have hdy := (c2 (by omega)).1
  have hdz := (c3 (by omega)).1
  clear c1 c2 c3
  simp only at hb h0
  generalize hydroParams F (Ini.broadcastSerial file) = p at *
  have hge : (gravityParams (Ini.broadcastSerial file)).enabled = false := hg
  have hU : ∀ i j k, interior3 p i j k → hs3 m .U i j k = f (centre p.xmin p.dx p.ghostWidth i)
      (centre p.ymin p.dy p.ghostWidth j) (centre p.zmin p.dz p.ghostWidth k) := by
    intro i j k hij
    rw [hm i j k _ (in_grid_of_interior3 h1.wf hij) (hf _ _ _ _)]
  have rx : ∀ {i j k}, interior3 p i j k → interior3 p (revIdx p.nx p.ghostWidth i) j k := by
    rintro i j k ⟨⟨a, b⟩, ⟨c, d⟩, e, f⟩
    unfold revIdx
    exact ⟨⟨by omega, by omega⟩, ⟨by omega, by omega⟩, by omega, by omega⟩
  have ry : ∀ {i j k}, interior3 p i j k → interior3 p i (revIdx p.ny p.ghostWidth j) k := by
    rintro i j k ⟨⟨a, b⟩, ⟨c, d⟩, e, f⟩
    unfold revIdx
    exact ⟨⟨by omega, by omega⟩, ⟨by omega, by omega⟩, by omega, by omega⟩
  have rz : ∀ {i j k}, interior3 p i j k → interior3 p i j (revIdx p.nz p.ghostWidth k) := by
    rintro i j k ⟨⟨a, b⟩, ⟨c, d⟩, e, f⟩
    unfold revIdx
    exact ⟨⟨by omega, by omega⟩, ⟨by omega, by omega⟩, by omega, by omega⟩
  have ex : reverseXParams p = p := reverseX_same hb.1
  have ey : reverseYParams p = p := reverseY_same hb.2.1
  have ez : reverseZParams p = p := by
    have := hb.2.2
    unfold reverseZParams; cases p; simp only at this; simp only [this]
  have kx := (C72_reverse_x_3d h1 h4 h2 h3 hM (gravityParams (Ini.broadcastSerial file)) hid hid e.jk e.jk (m := m)
    (m' := m) (fun i j k hij => by rw [hU i j k hij, hU _ j k (rx hij), centre_rev hdx, (h0 _ _ _).1])
    (fun hc => by rw [hge] at hc; cases hc) hrun (by rw [ex]; exact hrun)).2.2
  have ky := (C72_reverse_y_3d h1 h4 h2 h3 hM (gravityParams (Ini.broadcastSerial file)) hid hid e.jk e.jk (m := m)
    (m' := m) (fun i j k hij => by rw [hU i j k hij, hU i _ k (ry hij), centre_rev hdy, (h0 _ _ _).2.1])
    (fun hc => by rw [hge] at hc; cases hc) hrun (by rw [ey]; exact hrun)).2.2
  have kz := (C72_reverse_z_3d h1 h4 h2 h3 hM (gravityParams (Ini.broadcastSerial file)) (Or.inr hge) hid hid e.jk e.jk
    (m := m) (m' := m) (fun i j k hij => by rw [hU i j k hij, hU i j _ (rz hij), centre_rev hdz, (h0 _ _ _).2.2])
    (fun hc => by rw [hge] at hc; cases hc) hrun (by rw [ez]; exact hrun)).2.2
  intro o hmem i j k hij
  have a := (forall₂_self kx o hmem).2.2 i j k hij
  have b := (forall₂_self ky o hmem).2.2 i j k hij
  have c := (forall₂_self kz o hmem).2.2 i j k hij
  unfold shown3 at a b c
  unfold mirror at a
  unfold flipV at b
  unfold flipW at c
  injection a with a1 a2 a3 a4 a5
  injection b with b1 b2 b3 b4 b5
  injection c with c1 c2 c3 c4 c5
  refine ⟨fun i' hi' => ?_, fun j' hj' => ?_, fun k' hk' => ?_⟩
  · obtain rfl : i' = revIdx p.nx p.ghostWidth i := by unfold revIdx; omega
    refine ⟨fun v hv => ?_, a3⟩
    simp only [List.mem_cons, List.not_mem_nil, or_false] at hv
    rcases hv with rfl | rfl | rfl | rfl
    exacts [a1, a2, a4, a5]
  · obtain rfl : j' = revIdx p.ny p.ghostWidth j := by unfold revIdx; omega
    refine ⟨fun v hv => ?_, b4⟩
    simp only [List.mem_cons, List.not_mem_nil, or_false] at hv
    rcases hv with rfl | rfl | rfl | rfl
    exacts [b1, b2, b3, b5]
  · obtain rfl : k' = revIdx p.nz p.ghostWidth k := by unfold revIdx; omega
    refine ⟨fun v hv => ?_, c5⟩
    simp only [List.mem_cons, List.not_mem_nil, or_false] at hv
    rcases hv with rfl | rfl | rfl | rfl
    exacts [c1, c2, c3, c4]

/-- **C99 (3D implosion).** In a cube with the same boundary conditions along the axes, both shapes of the region. -/
theorem C99_implode_3d (F : FloatLib ℝ) (M : MathLib ℝ) (e : Env ℝ) (hid : e.ident ≤ 0) (file : Option (List Char)) :
    let c := Ini.broadcastSerial file
    let p := hydroParams F c
    Sets c "run" "solver_name" "Hydro_Muscl_3D" → cfgBool c "run" "restart_enabled" false = false →
    cfgBool c "gravity" "enabled" false = false → Ordinary3 p →
    Cube p → ∀ q, hydroProblem3 F M c e.ju = .implode q → q.u_in = q.v_in → q.u_in = q.w_in → q.u_out = q.v_out →
    q.u_out = q.w_out →
    ∀ s', serialMain F M e file (.finished s') → ∀ o ∈ s'.outputs, Cubic3 p o := by
  intro c p hs hr hg ho hsq q hq h1 h2 h3 h4 s' h
  refine cubic_of hid hs hr hg ho hsq (implode3 p q) (fun _ _ _ _ => by rw [hq]; rfl) (fun x y z => ?_) (fun x y z => ?_) h
  · have e : y + x + z = x + y + z := by ring
    unfold implode3
    rw [e]
    simp only [← h1, ← h2, ← h3, ← h4]
    split_ifs <;> rfl
  · have e : z + y + x = x + y + z := by ring
    unfold implode3
    rw [e]
    simp only [← h1, ← h2, ← h3, ← h4]
    split_ifs <;> rfl

/-- **C99 (3D blast wave, exchange of axes).** -/
theorem C99_blast_3d (F : FloatLib ℝ) (M : MathLib ℝ) (e : Env ℝ) (hid : e.ident ≤ 0) (file : Option (List Char)) :
    let c := Ini.broadcastSerial file
    let p := hydroParams F c
    Sets c "run" "solver_name" "Hydro_Muscl_3D" → cfgBool c "run" "restart_enabled" false = false →
    cfgBool c "gravity" "enabled" false = false → Ordinary3 p →
    Cube p → ∀ q, hydroProblem3 F M c e.ju = .blast q → q.center_x = q.center_y → q.center_x = q.center_z →
    ∀ s', serialMain F M e file (.finished s') → ∀ o ∈ s'.outputs, Cubic3 p o := by
  intro c p hs hr hg ho hsq q hq h1 h2 s' h
  refine cubic_of hid hs hr hg ho hsq (blast3 p q) (fun _ _ _ _ => by rw [hq]; rfl) (fun x y z => ?_) (fun x y z => ?_) h
  · unfold blast3
    simp only [← h1, ← h2]
    rw [add_comm ((y - q.center_x) * (y - q.center_x)) ((x - q.center_x) * (x - q.center_x))]
    split_ifs <;> rfl
  · unfold blast3
    simp only [← h1, ← h2]
    rw [show (z - q.center_x) * (z - q.center_x) + (y - q.center_x) * (y - q.center_x) +
      (x - q.center_x) * (x - q.center_x) = (x - q.center_x) * (x - q.center_x) + (y - q.center_x) * (y - q.center_x) +
      (z - q.center_x) * (z - q.center_x) by ring]
    split_ifs <;> rfl

/-- **C99 (3D blast wave, mirror images).** In the middle of a box with equal boundary conditions on opposite sides. -/
theorem C99_blast_mirrors_3d (F : FloatLib ℝ) (M : MathLib ℝ) (e : Env ℝ) (hid : e.ident ≤ 0) (file : Option (List Char)) :
    let c := Ini.broadcastSerial file
    let p := hydroParams F c
    Sets c "run" "solver_name" "Hydro_Muscl_3D" → cfgBool c "run" "restart_enabled" false = false →
    cfgBool c "gravity" "enabled" false = false → Ordinary3 p →
    (p.riemannSolverType = .llf ∨ p.riemannSolverType = .hllc) →
    p.boundary_type_xmin = p.boundary_type_xmax → p.boundary_type_ymin = p.boundary_type_ymax →
    p.boundary_type_zmin = p.boundary_type_zmax → ∀ q, hydroProblem3 F M c e.ju = .blast q →
    q.center_x = (p.xmin + p.xmax) / 2 → q.center_y = (p.ymin + p.ymax) / 2 → q.center_z = (p.zmin + p.zmax) / 2 →
    ∀ s', serialMain F M e file (.finished s') → ∀ o ∈ s'.outputs, Mirrors3 p o := by
  intro c p hs hr hg ho hM b1 b2 b3 q hq h1 h2 h3 s' h
  refine mirrors_of hid hs hr hg ho hM (blast3 p q) (fun _ _ _ _ => by rw [hq]; rfl) ⟨b1, b2, b3⟩ (fun x y z => ?_) h
  have hx : ∀ x, (p.xmin + p.xmax - x - q.center_x) * (p.xmin + p.xmax - x - q.center_x) =
      (x - q.center_x) * (x - q.center_x) := fun x => by rw [h1]; ring
  have hy : ∀ x, (p.ymin + p.ymax - x - q.center_y) * (p.ymin + p.ymax - x - q.center_y) =
      (x - q.center_y) * (x - q.center_y) := fun x => by rw [h2]; ring
  have hz : ∀ x, (p.zmin + p.zmax - x - q.center_z) * (p.zmin + p.zmax - x - q.center_z) =
      (x - q.center_z) * (x - q.center_z) := fun x => by rw [h3]; ring
  refine ⟨?_, ?_, ?_⟩
  · show blast3 p q (p.xmin + p.xmax - x) y z = _
    unfold blast3
    simp only [hx]
    split_ifs <;> simp [mirror]
  · show blast3 p q x (p.ymin + p.ymax - y) z = _
    unfold blast3
    simp only [hy]
    split_ifs <;> simp [flipV]
  · show blast3 p q x y (p.zmin + p.zmax - z) = _
    unfold blast3
    simp only [hz]
    split_ifs <;> simp [flipW]

/-! ### The same on any process grid -/

theorem onlyShown_cubic {p : Params ℝ} (hn : p.nbvar = 5) (hc : Cube p) :
    OnlyShown (SameFile3 p) (EachFile (Cubic3 p)) := by
  refine onlyShown_each fun o o' h hd i j k hij => ?_
  have h1 := hc.xy
  have h2 := hc.xz
  obtain ⟨⟨a, b⟩, ⟨c, d⟩, x, y⟩ := hij
  have e : ∀ v < 5, o'.data ⟨(), i, j, k, v⟩ = o.data ⟨(), i, j, k, v⟩ ∧ o'.data ⟨(), j, i, k, v⟩ = o.data ⟨(), j, i, k, v⟩ ∧
      o'.data ⟨(), k, j, i, v⟩ = o.data ⟨(), k, j, i, v⟩ ∧ o'.data ⟨(), i, k, j, v⟩ = o.data ⟨(), i, k, j, v⟩ := by
    intro v hv
    have hv' : v < p.nbvar := by omega
    refine ⟨(h.2.2 _ _ _ _ ?_ hv').symm, (h.2.2 _ _ _ _ ?_ hv').symm, (h.2.2 _ _ _ _ ?_ hv').symm,
      (h.2.2 _ _ _ _ ?_ hv').symm⟩ <;> exact ⟨⟨by omega, by omega⟩, ⟨by omega, by omega⟩, by omega, by omega⟩
  have := hd i j k ⟨⟨a, b⟩, ⟨c, d⟩, x, y⟩
  obtain ⟨d1, d2, d3, d4⟩ := e ID (by decide)
  obtain ⟨p1, p2, p3, p4⟩ := e IP (by decide)
  obtain ⟨u1, u2, u3, u4⟩ := e IU (by decide)
  obtain ⟨v1, v2, v3, v4⟩ := e IV (by decide)
  obtain ⟨w1, w2, w3, w4⟩ := e IW (by decide)
  simp only [List.mem_cons, List.not_mem_nil, or_false, forall_eq_or_imp, forall_eq] at this ⊢
  simp only [d1, d2, d3, d4, p1, p2, p3, p4, u1, u2, u3, u4, v1, v2, v3, v4, w1, w2, w3, w4]
  exact this

theorem onlyShown_mirrors {p : Params ℝ} (hn : p.nbvar = 5) :
    OnlyShown (SameFile3 p) (EachFile (Mirrors3 p)) := by
  refine onlyShown_each fun o o' h hd i j k hij => ?_
  obtain ⟨⟨a, b⟩, ⟨c, d⟩, x, y⟩ := hij
  have e : ∀ i j k v, interior3 p i j k → v < 5 → o'.data ⟨(), i, j, k, v⟩ = o.data ⟨(), i, j, k, v⟩ :=
    fun i j k v hi hv => (h.2.2 _ _ _ _ hi (by omega)).symm
  obtain ⟨g1, g2, g3⟩ := hd i j k ⟨⟨a, b⟩, ⟨c, d⟩, x, y⟩
  have m1 : ∀ v ∈ [ID, IP, IV, IW], v < 5 := by decide
  have m2 : ∀ v ∈ [ID, IP, IU, IW], v < 5 := by decide
  have m3 : ∀ v ∈ [ID, IP, IU, IV], v < 5 := by decide
  have hin : interior3 p i j k := ⟨⟨a, b⟩, ⟨c, d⟩, x, y⟩
  refine ⟨fun i' hi' => ?_, fun j' hj' => ?_, fun k' hk' => ?_⟩
  · have hin' : interior3 p i' j k := ⟨⟨by omega, by omega⟩, ⟨c, d⟩, x, y⟩
    refine ⟨fun v hv => ?_, ?_⟩
    · simp only [e _ _ _ v hin (m1 v hv), e _ _ _ v hin' (m1 v hv)]
      exact (g1 i' hi').1 v hv
    · simp only [e _ _ _ IU hin (by decide), e _ _ _ IU hin' (by decide)]
      exact (g1 i' hi').2
  · have hin' : interior3 p i j' k := ⟨⟨a, b⟩, ⟨by omega, by omega⟩, x, y⟩
    refine ⟨fun v hv => ?_, ?_⟩
    · simp only [e _ _ _ v hin (m2 v hv), e _ _ _ v hin' (m2 v hv)]
      exact (g2 j' hj').1 v hv
    · simp only [e _ _ _ IV hin (by decide), e _ _ _ IV hin' (by decide)]
      exact (g2 j' hj').2
  · have hin' : interior3 p i j k' := ⟨⟨a, b⟩, ⟨c, d⟩, by omega, by omega⟩
    refine ⟨fun v hv => ?_, ?_⟩
    · simp only [e _ _ _ v hin (m3 v hv), e _ _ _ v hin' (m3 v hv)]
      exact (g3 k' hk').1 v hv
    · simp only [e _ _ _ IW hin (by decide), e _ _ _ IW hin' (by decide)]
      exact (g3 k' hk').2

namespace Spec

variable {T : Topo}

/-- the processes have started in the 3D hydro solver, without gravity, with ordinary values, on the parameter text `file`
that gives the numbers of cells of a block; `file'` gives those of the whole domain -/
structure DistributedCase3 (F : FloatLib ℝ) (M : MathLib ℝ) (e : EnvMpi T ℝ) (file file' : Option (List Char))
    (st : T.Rank → RunState ℝ) (flow : Flow Ctl T.Rank (RunState ℝ) (Msg ℝ)) : Prop where
  whole : WholeDomain T (Ini.broadcastMpi file) (Ini.broadcastSerial file')
  solver : Sets (Ini.broadcastMpi file) "run" "solver_name" "Hydro_Muscl_3D"
  gravity : cfgBool (Ini.broadcastMpi file) "gravity" "enabled" false = false
  ordinary : Ordinary3 (hydroParamsMpi T F (Ini.broadcastMpi file))
  named : NamedBC3 T (hydroParamsMpi T F (Ini.broadcastMpi file))
  ident : e.ident ≤ 0
  starts : MpiStarts F M e file st flow

end Spec

variable {T : Topo}

theorem distributed_case3 {F : FloatLib ℝ} {M : MathLib ℝ} {e : EnvMpi T ℝ} {file file' : Option (List Char)}
    {st : T.Rank → RunState ℝ} {flow : Flow Ctl T.Rank (RunState ℝ) (Msg ℝ)}
    (h : DistributedCase3 F M e file file' st flow) :
    Sets (Ini.broadcastSerial file') "run" "solver_name" "Hydro_Muscl_3D" ∧
    cfgBool (Ini.broadcastSerial file') "run" "restart_enabled" false = false ∧
    cfgBool (Ini.broadcastSerial file') "gravity" "enabled" false = false ∧
    Ordinary3 (hydroParams F (Ini.broadcastSerial file')) ∧ (hydroParams F (Ini.broadcastSerial file')).nbvar = 5 := by
  have hs := sets_whole h.whole h.solver
  refine ⟨hs, ?_, ?_, ?_, (C36_solver_table F _ (List.mem_cons_of_mem _ (List.mem_cons_self ..)) (hs _)).1⟩
  · rw [whole_bool h.whole (by decide)]
    exact h.starts.2.1
  · rw [whole_bool h.whole (by decide)]
    exact h.gravity
  · rw [whole_params h.whole F]
    exact whole_ordinary3 h.ordinary

/-- **C100 (3D implosion).** -/
theorem C100_implode_3d (F : FloatLib ℝ) (M : MathLib ℝ) {file file' : Option (List Char)} {e : EnvMpi T ℝ}
    {st : T.Rank → RunState ℝ} {flow : Flow Ctl T.Rank (RunState ℝ) (Msg ℝ)} :
    let c := Ini.broadcastMpi file
    let p := hydroParams F (Ini.broadcastSerial file')
    DistributedCase3 F M e file file' st flow → Cube p →
    (∀ j, ∃ q, hydroProblem3 F M (Ini.broadcastSerial file') j = .implode q ∧ q.u_in = q.v_in ∧ q.u_in = q.w_in ∧
      q.u_out = q.v_out ∧ q.u_out = q.w_out) →
    Shows (SideBySide3 T (rawParams (lit 0) F c)) flow st (EachFile (Cubic3 p)) := by
  intro c p h hsq hq
  obtain ⟨a1, a2, ag, a3, a4⟩ := distributed_case3 h
  refine C100_hydro_3d F M _ h.whole h.solver h.ordinary h.named (fun j => ?_) h.ident h.starts (onlyShown_cubic a4 hsq)
    fun e' s' hid' hf => ?_
  · obtain ⟨q, hq, -⟩ := hq j
    rw [← whole_problem3 h.whole, hq]
    trivial
  · obtain ⟨q, hq, h1, h2, h3, h4⟩ := hq e'.ju
    exact C99_implode_3d F M e' hid' _ a1 a2 ag a3 hsq q hq h1 h2 h3 h4 s' hf

/-- **C100 (3D blast wave, exchange of axes).** -/
theorem C100_blast_3d (F : FloatLib ℝ) (M : MathLib ℝ) {file file' : Option (List Char)} {e : EnvMpi T ℝ}
    {st : T.Rank → RunState ℝ} {flow : Flow Ctl T.Rank (RunState ℝ) (Msg ℝ)} :
    let c := Ini.broadcastMpi file
    let p := hydroParams F (Ini.broadcastSerial file')
    DistributedCase3 F M e file file' st flow → Cube p →
    (∀ j, ∃ q, hydroProblem3 F M (Ini.broadcastSerial file') j = .blast q ∧ q.center_x = q.center_y ∧
      q.center_x = q.center_z) →
    Shows (SideBySide3 T (rawParams (lit 0) F c)) flow st (EachFile (Cubic3 p)) := by
  intro c p h hsq hq
  obtain ⟨a1, a2, ag, a3, a4⟩ := distributed_case3 h
  refine C100_hydro_3d F M _ h.whole h.solver h.ordinary h.named (fun j => ?_) h.ident h.starts (onlyShown_cubic a4 hsq)
    fun e' s' hid' hf => ?_
  · obtain ⟨q, hq, -⟩ := hq j
    rw [← whole_problem3 h.whole, hq]
    trivial
  · obtain ⟨q, hq, h1, h2⟩ := hq e'.ju
    exact C99_blast_3d F M e' hid' _ a1 a2 ag a3 hsq q hq h1 h2 s' hf

/-- **C100 (3D blast wave, mirror images).** -/
theorem C100_blast_mirrors_3d (F : FloatLib ℝ) (M : MathLib ℝ) {file file' : Option (List Char)} {e : EnvMpi T ℝ}
    {st : T.Rank → RunState ℝ} {flow : Flow Ctl T.Rank (RunState ℝ) (Msg ℝ)} :
    let c := Ini.broadcastMpi file
    let p := hydroParams F (Ini.broadcastSerial file')
    DistributedCase3 F M e file file' st flow → (p.riemannSolverType = .llf ∨ p.riemannSolverType = .hllc) →
    p.boundary_type_xmin = p.boundary_type_xmax → p.boundary_type_ymin = p.boundary_type_ymax →
    p.boundary_type_zmin = p.boundary_type_zmax →
    (∀ j, ∃ q, hydroProblem3 F M (Ini.broadcastSerial file') j = .blast q ∧ q.center_x = (p.xmin + p.xmax) / 2 ∧
      q.center_y = (p.ymin + p.ymax) / 2 ∧ q.center_z = (p.zmin + p.zmax) / 2) →
    Shows (SideBySide3 T (rawParams (lit 0) F c)) flow st (EachFile (Mirrors3 p)) := by
  intro c p h hM b1 b2 b3 hq
  obtain ⟨a1, a2, ag, a3, a4⟩ := distributed_case3 h
  refine C100_hydro_3d F M _ h.whole h.solver h.ordinary h.named (fun j => ?_) h.ident h.starts (onlyShown_mirrors a4)
    fun e' s' hid' hf => ?_
  · obtain ⟨q, hq, -⟩ := hq j
    rw [← whole_problem3 h.whole, hq]
    trivial
  · obtain ⟨q, hq, h1, h2, h3⟩ := hq e'.ju
    exact C99_blast_mirrors_3d F M e' hid' _ a1 a2 ag a3 hM b1 b2 b3 q hq h1 h2 h3 s' hf

/-! ### The hypotheses are met -/

/-- a blast wave in the middle of the unit cube -/
def blast3Ini : List String :=
  ["[run]", "solver_name=Hydro_Muscl_3D", "tEnd=0.2", "nStepmax=200", "nOutput=4", "",
   "[mesh]", "nx=64", "ny=64", "nz=64", "",
   "[hydro]", "problem=blast", "riemann=hllc", ""]

def blast3Cfg : Ini.Reader := Ini.broadcastSerial (some (textOf blast3Ini))

def blast3Cfg' : Ini.Reader :=
  let st := Ini.parseLines Ini.valueHandler (blast3Ini.map fun l => l.toList ++ ['\n'])
    (Ini.initState fun _ => none)
  ⟨st.user, st.error⟩

theorem blast3Cfg_eq : blast3Cfg = blast3Cfg' := by
  unfold blast3Cfg blast3Cfg' Ini.broadcastSerial Ini.Reader.ofFile Ini.iniParse
  simp only
  rw [fgetsLines_textOf (by decide +kernel)]

theorem blast3_values : let c := blast3Cfg
    let s := fun (a b : String) => ratOf (Ini.cstr (c.getString a.toList b.toList []))
    c.getString "run".toList "solver_name".toList "unknown".toList = "Hydro_Muscl_3D".toList ∧
    (s "mesh" "xmin" = none ∧ s "mesh" "xmax" = none ∧ s "mesh" "ymin" = none ∧ s "mesh" "ymax" = none ∧
      s "mesh" "zmin" = none ∧ s "mesh" "zmax" = none) ∧
    (s "hydro" "slope_type" = none ∧ s "hydro" "gamma0" = none ∧ s "hydro" "cfl" = none ∧ s "hydro" "smallr" = none ∧
      s "hydro" "smallc" = none) ∧
    (cfgInt c "mesh" "nx" 1 = 64 ∧ cfgInt c "mesh" "ny" 1 = 64 ∧ cfgInt c "mesh" "nz" 1 = 64 ∧
      cfgInt c "run" "nlog" 10 = 10) ∧
    riemannOf (cfgString c "hydro" "riemann" "approx") = .hllc ∧
    cfgBool c "run" "restart_enabled" false = false ∧ cfgBool c "gravity" "enabled" false = false ∧
    problemName c = "blast".toList ∧
    (s "blast" "center_x" = none ∧ s "blast" "center_y" = none ∧ s "blast" "center_z" = none) ∧
    (cfgInt c "mesh" "boundary_type_xmin" 1 = 1 ∧ cfgInt c "mesh" "boundary_type_xmax" 1 = 1 ∧
    cfgInt c "mesh" "boundary_type_ymin" 1 = 1 ∧ cfgInt c "mesh" "boundary_type_ymax" 1 = 1 ∧
    cfgInt c "mesh" "boundary_type_zmin" 1 = 1 ∧ cfgInt c "mesh" "boundary_type_zmax" 1 = 1) := by
  rw [blast3Cfg_eq]
  decide +kernel

theorem blast3_ordinary : Ordinary3 (hydroParams exactLib blast3Cfg) := by
  obtain ⟨sn, ⟨f1, f2, f3, f4, f5, f6⟩, ⟨f7, f8, f9, f10, f11⟩, ⟨n1, n2, n3, nl⟩, hr, -⟩ := blast3_values
  exact
    { x := by
        show cfgFloat exactLib blast3Cfg "mesh" "xmin" 0 < cfgFloat exactLib blast3Cfg "mesh" "xmax" 1
        rw [exact_float_default f1, exact_float_default f2]; norm_num
      y := by
        show cfgFloat exactLib blast3Cfg "mesh" "ymin" 0 < cfgFloat exactLib blast3Cfg "mesh" "ymax" 1
        rw [exact_float_default f3, exact_float_default f4]; norm_num
      z := by
        show cfgFloat exactLib blast3Cfg "mesh" "zmin" 0 < cfgFloat exactLib blast3Cfg "mesh" "zmax" 1
        rw [exact_float_default f5, exact_float_default f6]; norm_num
      gamma := by
        show 1 < cfgFloat exactLib blast3Cfg "hydro" "gamma0" (14 / 10)
        rw [exact_float_default f8]; norm_num
      smallr := by
        show 0 < cfgFloat exactLib blast3Cfg "hydro" "smallr" (1 / 10000000000)
        rw [exact_float_default f10]; norm_num
      smallc := by
        show 0 < cfgFloat exactLib blast3Cfg "hydro" "smallc" (1 / 10000000000)
        rw [exact_float_default f11]; norm_num
      cfl := by
        show 0 < cfgFloat exactLib blast3Cfg "hydro" "cfl" (5 / 10)
        rw [exact_float_default f9]; norm_num
      nlog := by
        show cfgInt blast3Cfg "run" "nlog" 10 ≠ 0
        rw [nl]; decide
      nx := by
        show 2 ≤ cfgInt blast3Cfg "mesh" "nx" 1
        rw [n1]; decide
      ny := by
        show 2 ≤ cfgInt blast3Cfg "mesh" "ny" 1
        rw [n2]; decide
      nz := by
        show 2 ≤ cfgInt blast3Cfg "mesh" "nz" 1
        rw [n3]; decide
      slope := by
        show cfgFloat exactLib blast3Cfg "hydro" "slope_type" 1 = 0 ∨
          cfgFloat exactLib blast3Cfg "hydro" "slope_type" 1 = 1 ∨
          cfgFloat exactLib blast3Cfg "hydro" "slope_type" 1 = 2
        rw [exact_float_default f7]; norm_num
      riemann := by
        show riemannOf (cfgString blast3Cfg "hydro" "riemann" "approx") ≠ .hll ∧
          riemannOf (cfgString blast3Cfg "hydro" "riemann" "approx") ≠ .hlld
        rw [hr]; decide }

/-- every execution of the program on this file writes files with all the symmetries of the cube, and there are such
executions -/
theorem blast3_symmetric (e : Env ℝ) (hid : e.ident ≤ 0) :
    let p := hydroParams exactLib blast3Cfg
    (∃ s', serialMain exactLib exactMath e (some (textOf blast3Ini)) (.finished s')) ∧
    ∀ s', serialMain exactLib exactMath e (some (textOf blast3Ini)) (.finished s') →
      ∀ o ∈ s'.outputs, Cubic3 p o ∧ Mirrors3 p o := by
  intro p
  obtain ⟨sn, ⟨f1, f2, f3, f4, f5, f6⟩, -, ⟨n1, n2, n3, -⟩, hr, rs, gr, pn, ⟨c1, c2, c3⟩, b1, b2, b3, b4, b5, b6⟩ :=
    blast3_values
  have hs : Sets blast3Cfg "run" "solver_name" "Hydro_Muscl_3D" := sets_of sn (by decide)
  have ho := blast3_ordinary
  have hq : ∀ ju, hydroProblem3 exactLib exactMath blast3Cfg ju = .blast (blastParams exactLib exactMath blast3Cfg ju) := by
    intro ju
    unfold hydroProblem3
    rw [pn]
    rfl
  have x0 : p.xmin = 0 := (exact_float_default f1).trans (by norm_num)
  have x1 : p.xmax = 1 := (exact_float_default f2).trans (by norm_num)
  have y0 : p.ymin = 0 := (exact_float_default f3).trans (by norm_num)
  have y1 : p.ymax = 1 := (exact_float_default f4).trans (by norm_num)
  have z0 : p.zmin = 0 := (exact_float_default f5).trans (by norm_num)
  have z1 : p.zmax = 1 := (exact_float_default f6).trans (by norm_num)
  have q1 : p.boundary_type_xmin = .dirichlet := congrArg BC.ofInt b1
  have q2 : p.boundary_type_xmax = .dirichlet := congrArg BC.ofInt b2
  have q3 : p.boundary_type_ymin = .dirichlet := congrArg BC.ofInt b3
  have q4 : p.boundary_type_ymax = .dirichlet := congrArg BC.ofInt b4
  have q5 : p.boundary_type_zmin = .dirichlet := congrArg BC.ofInt b5
  have q6 : p.boundary_type_zmax = .dirichlet := congrArg BC.ofInt b6
  have hsq : Cube p := ⟨n1.trans n2.symm, n1.trans n3.symm, x0.trans y0.symm, x0.trans z0.symm, x1.trans y1.symm,
    x1.trans z1.symm, q1.trans q3.symm, q1.trans q5.symm, q2.trans q4.symm, q2.trans q6.symm⟩
  have k1 : ∀ ju, (blastParams exactLib exactMath blast3Cfg ju).center_x = (p.xmin + p.xmax) / 2 := by
    intro ju
    show cfgFloatD exactLib exactMath blast3Cfg "blast" "center_x" ((p.xmin + p.xmax) / lit 2) = _
    rw [exact_floatD_default c1]
    simp only [RealOps.lit_real]
    norm_num
  have k2 : ∀ ju, (blastParams exactLib exactMath blast3Cfg ju).center_y = (p.ymin + p.ymax) / 2 := by
    intro ju
    show cfgFloatD exactLib exactMath blast3Cfg "blast" "center_y" ((p.ymin + p.ymax) / lit 2) = _
    rw [exact_floatD_default c2]
    simp only [RealOps.lit_real]
    norm_num
  have k3 : ∀ ju, (blastParams exactLib exactMath blast3Cfg ju).center_z = (p.zmin + p.zmax) / 2 := by
    intro ju
    show cfgFloatD exactLib exactMath blast3Cfg "blast" "center_z" ((p.zmin + p.zmax) / lit 2) = _
    rw [exact_floatD_default c3]
    simp only [RealOps.lit_real]
    norm_num
  constructor
  · have hk : findSolver (mainSolverName blast3Cfg) = some .hydro3 := findSolver_sets (by simp [solverRegistry]) hs
    obtain ⟨h1, -⟩ := C36_runnable_3d exactLib blast3Cfg (hs _) ho.nx ho.ny ho.nz ho.x ho.y ho.z ho.slope ho.riemann
      ho.gamma ho.smallr ho.smallc ho.cfl
    obtain ⟨m', hm'⟩ := launches_exists (initHydro3 exactMath p (0, 0, 0) e.rnd
      (hydroProblem3 exactLib exactMath blast3Cfg e.ju)) freshMem
    have hi : initProblem exactLib exactMath e blast3Cfg p m' .hydro3 := ⟨by rw [hq]; trivial, hm'⟩
    have hT := total_hydro3 h1.wf h1.faces (gravityParams blast3Cfg) e.ident e.jk
    obtain ⟨s, hs0⟩ := C14_starts (p := p) hT m' (cfgFloat exactLib blast3Cfg "run" "tCurrent" 0) 0
    obtain ⟨_, s₁, _, _, hrun⟩ := C14_completes hT ho.nlog hs0
    exact ⟨_, (serialMain_fresh hk rs _).2 ⟨m', _, rfl, hi, hrun⟩⟩
  · intro s' h o hm
    exact ⟨C99_blast_3d exactLib exactMath e hid _ hs rs gr ho hsq _ (hq _) (by rw [k1, k2, x0, x1, y0, y1])
        (by rw [k1, k3, x0, x1, z0, z1]) s' h o hm,
      C99_blast_mirrors_3d exactLib exactMath e hid _ hs rs gr ho (Or.inr hr) (q1.trans q2.symm) (q3.trans q4.symm)
        (q5.trans q6.symm) _ (hq _) (k1 _) (k2 _) (k3 _) s' h o hm⟩

end EulerKokkos
