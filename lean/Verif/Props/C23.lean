import Verif.Props.C22

/-!
# C23 — the 2D hydro scheme treats x and y alike
-/

set_option linter.constructorNameAsVariable false
set_option linter.unusedSectionVars false
set_option linter.unusedSimpArgs false

namespace EulerKokkos
open Spec

namespace Spec
/-- the same run with the axes exchanged -/
def transposeParams (p : Params ℝ) : Params ℝ :=
  { p with
    nx := p.ny, ny := p.nx, imin := p.jmin, jmin := p.imin, imax := p.jmax, jmax := p.imax
    isize := p.jsize, jsize := p.isize
    xmin := p.ymin, ymin := p.xmin, xmax := p.ymax, ymax := p.xmax, dx := p.dy, dy := p.dx
    boundary_type_xmin := p.boundary_type_ymin, boundary_type_ymin := p.boundary_type_xmin
    boundary_type_xmax := p.boundary_type_ymax, boundary_type_ymax := p.boundary_type_xmax }

/-- transposed field: the value at `(i,j)` is the value at `(j,i)` with exchanged velocities -/
def trF (u : Fld2 ℝ) : Fld2 ℝ := fun i j => (u j i).swapUV
/-- transposed gravity field -/
def trG (g : Grav2 ℝ) : Grav2 ℝ := fun i j => ((g j i).2, (g j i).1)

/-- the interior contents of view `A` in `m'` are those of `m` with the axes exchanged -/
def TransposedView (p : Params ℝ) (m m' : Mem Arr ℝ) (A : Arr) : Prop :=
  ∀ i j, interior2 p i j →
    m' ⟨A, j, i, 0, ID⟩ = m ⟨A, i, j, 0, ID⟩ ∧ m' ⟨A, j, i, 0, IP⟩ = m ⟨A, i, j, 0, IP⟩ ∧
    m' ⟨A, j, i, 0, IU⟩ = m ⟨A, i, j, 0, IV⟩ ∧ m' ⟨A, j, i, 0, IV⟩ = m ⟨A, i, j, 0, IU⟩

/-- the gravity field of `m'` is that of `m` with the axes exchanged, over the whole grid -/
def TransposedGravity (p : Params ℝ) (m m' : Mem Arr ℝ) : Prop :=
  ∀ i j, inGrid2 p i j →
    m' ⟨.grav, j, i, 0, IX⟩ = m ⟨.grav, i, j, 0, IY⟩ ∧
    m' ⟨.grav, j, i, 0, IY⟩ = m ⟨.grav, i, j, 0, IX⟩
end Spec

theorem trF_fill (p : Params ℝ) (u : Fld2 ℝ) :
    fill2 (transposeParams p) (trF u) = trF (fill2 p u) := by
  funext i j
  unfold fill2 trF transposeParams HS.swapUV
  rfl

theorem prim_swap (s : Settings ℝ) (u : HS ℝ) :
    (computePrimitives2 s u.swapUV).1 = (computePrimitives2 s u).1.swapUV := by
  unfold computePrimitives2 HS.swapUV
  simp only [add_comm (u.v / _ * _)]

theorem trF_prim (p : Params ℝ) (u : Fld2 ℝ) :
    prim2 (transposeParams p) (trF u) = trF (prim2 p u) := by
  funext i j
  exact prim_swap _ _

theorem trF_slopes (p : Params ℝ) (q : Fld2 ℝ) (i j : Int) :
    slopes2 (transposeParams p) (trF q) i j =
      ((slopes2 p q j i).2.swapUV, (slopes2 p q j i).1.swapUV) := by
  unfold slopes2 slope2 slopeScalar2 trF transposeParams HS.swapUV
  simp only
  split_ifs <;> rfl

theorem trace_swap_x (s : Settings ℝ) (q dqX dqY : HS ℝ) (a b : ℝ) :
    traceAlongDir2 s q.swapUV dqY.swapUV dqX.swapUV b a .xmin =
      (traceAlongDir2 s q dqX dqY a b .ymin).swapUV ∧
    traceAlongDir2 s q.swapUV dqY.swapUV dqX.swapUV b a .xmax =
      (traceAlongDir2 s q dqX dqY a b .ymax).swapUV ∧
    traceAlongDir2 s q.swapUV dqY.swapUV dqX.swapUV b a .ymin =
      (traceAlongDir2 s q dqX dqY a b .xmin).swapUV ∧
    traceAlongDir2 s q.swapUV dqY.swapUV dqX.swapUV b a .ymax =
      (traceAlongDir2 s q dqX dqY a b .xmax).swapUV := by
  unfold traceAlongDir2 HS.swapUV
  refine ⟨?_, ?_, ?_, ?_⟩ <;> simp only [RealOps.lit_real, RealOps.fmax_real] <;> ext <;>
    simp only <;> first | ring | (congr 1; ring)

/-- the face the transposition exchanges with `f` -/
def trFace : Face → Face
  | .xmin => .ymin
  | .xmax => .ymax
  | .ymin => .xmin
  | .ymax => .xmax
  | f => f

theorem kick_swap (g : GravityParams) (dt : ℝ) (a b : ℝ) (q : HS ℝ) :
    kick2 g dt (b, a) q.swapUV = (kick2 g dt (a, b) q).swapUV := by
  unfold kick2
  split_ifs <;> rfl

theorem trF_face (p : Params ℝ) (g : GravityParams) (dt : ℝ) (gf : Grav2 ℝ) (q : Fld2 ℝ) (f : Face)
    (hf : f = .xmin ∨ f = .xmax ∨ f = .ymin ∨ f = .ymax) (i j : Int) :
    face2 (transposeParams p) g dt (trG gf) (trF q) f i j =
      (face2 p g dt gf q (trFace f) j i).swapUV := by
  unfold face2
  rw [trF_slopes]
  obtain ⟨h1, h2, h3, h4⟩ := trace_swap_x p.settings (q j i) (slopes2 p q j i).1
    (slopes2 p q j i).2 (dt / p.dx) (dt / p.dy)
  have hG : trG gf i j = ((gf j i).2, (gf j i).1) := rfl
  rw [hG, ← kick_swap]
  rcases hf with rfl | rfl | rfl | rfl
  · exact congrArg _ h1
  · exact congrArg _ h2
  · exact congrArg _ h3
  · exact congrArg _ h4

theorem swapUV_swapUV (q : HS ℝ) : q.swapUV.swapUV = q := rfl

theorem trF_fluxX (p : Params ℝ) (g : GravityParams) (dt : ℝ) (gf : Grav2 ℝ) (q : Fld2 ℝ)
    (i j : Int) :
    fluxX2 (transposeParams p) g dt (trG gf) (trF q) i j = (fluxY2 p g dt gf q j i).swapUV := by
  unfold fluxX2 fluxY2
  rw [trF_face _ _ _ _ _ _ (by simp), trF_face _ _ _ _ _ _ (by simp)]
  rfl

theorem trF_fluxY (p : Params ℝ) (g : GravityParams) (dt : ℝ) (gf : Grav2 ℝ) (q : Fld2 ℝ)
    (i j : Int) :
    fluxY2 (transposeParams p) g dt (trG gf) (trF q) i j = (fluxX2 p g dt gf q j i).swapUV := by
  unfold fluxX2 fluxY2
  rw [trF_face _ _ _ _ _ _ (by simp), trF_face _ _ _ _ _ _ (by simp)]
  rfl

theorem gravity2_swap (p : Params ℝ) (dt a b : ℝ) (uOld u : HS ℝ) :
    gravity2 (transposeParams p) dt (b, a) uOld.swapUV u.swapUV =
      (gravity2 p dt (a, b) uOld u).swapUV := by
  unfold gravity2 HS.swapUV transposeParams
  simp only
  ext <;> simp only <;> ring

theorem trF_step (p : Params ℝ) (g : GravityParams) (dt : ℝ) (gf : Grav2 ℝ) (u : Fld2 ℝ) :
    step2 (transposeParams p) g dt (trG gf) (trF u) = trF (step2 p g dt gf u) := by
  funext i j
  have hint : interior2 (transposeParams p) i j ↔ interior2 p j i := by
    unfold interior2 transposeParams; simp only; tauto
  unfold trF
  unfold step2
  by_cases h : interior2 p j i
  · rw [if_pos (hint.2 h), if_pos h]
    simp only
    have e1 : prim2 (transposeParams p) (fun i j => (u j i).swapUV) = trF (prim2 p u) := trF_prim p u
    rw [e1]
    have e2 : fluxUpdate2 (fluxX2 (transposeParams p) g dt (trG gf) (trF (prim2 p u)))
        (fluxY2 (transposeParams p) g dt (trG gf) (trF (prim2 p u))) (u j i).swapUV i j =
        (fluxUpdate2 (fluxX2 p g dt gf (prim2 p u)) (fluxY2 p g dt gf (prim2 p u)) (u j i) j i).swapUV
        := by
      unfold fluxUpdate2
      rw [trF_fluxX, trF_fluxX, trF_fluxY, trF_fluxY]
      simp only [HS.swapUV, HS.add, HS.sub, HS.trunc]
      ext <;> simp only <;> ring
    rw [e2]
    split_ifs
    · exact gravity2_swap p dt (gf j i).1 (gf j i).2 _ _
    · rfl
  · rw [if_neg (fun h' => h (hint.1 h')), if_neg h]

theorem trF_fullStep (p : Params ℝ) (g : GravityParams) (dt : ℝ) (gf : Grav2 ℝ) (u : Fld2 ℝ) :
    fullStep2 (transposeParams p) g dt (trG gf) (trF u) = trF (fullStep2 p g dt gf u) := by
  unfold fullStep2
  rw [trF_fill, trF_step]

theorem trF_iterStep (p : Params ℝ) (g : GravityParams) (gf : Grav2 ℝ) (dts : List ℝ) (u : Fld2 ℝ) :
    iterStep2 (transposeParams p) g (trG gf) dts (trF u) = trF (iterStep2 p g gf dts u) := by
  induction dts generalizing u with
  | nil => rfl
  | cons dt dts ih => unfold iterStep2; rw [trF_fullStep]; exact ih _

theorem transpose_hydro2 {p : Params ℝ} (hp : Hydro2 p) : Hydro2 (transposeParams p) := by
  obtain ⟨⟨w1, w2, w3, w4, w5, w6, w7, w8, w9, w10, w11, w12, w13⟩, nb, ⟨v1, v2⟩, ⟨f1, f2, f3, f4⟩⟩ :=
    hp
  exact ⟨⟨w2, w1, w3, w4, w6, w5, w7, w9, w8, w10, w12, w11, w13⟩, nb, ⟨v1, v2⟩, ⟨f3, f4, f1, f2⟩⟩

/-- the reference step depends on the gravity field inside the grid only -/
theorem fullStep2_congr_grav {p : Params ℝ} (hp : Hydro2 p) {g : GravityParams} {dt : ℝ}
    {gf gf' : Grav2 ℝ} {u u' : Fld2 ℝ} (h : ∀ i j, interior2 p i j → u i j = u' i j)
    (hg : ∀ i j, inGrid2 p i j → gf i j = gf' i j) (i j : Int) (hij : interior2 p i j) :
    fullStep2 p g dt gf u i j = fullStep2 p g dt gf' u' i j := by
  have hgw := hp.wf.gw_pos
  obtain ⟨a, b, c, d⟩ := hij
  unfold fullStep2
  exact step2_congr (fun x y _ _ _ _ => fill2_congr_interior hp h x y
    ⟨by omega, by omega, by omega, by omega⟩)
    (fun _ x y _ _ _ _ => hg x y ⟨by omega, by omega, by omega, by omega⟩)

theorem iterStep2_congr_grav {p : Params ℝ} (hp : Hydro2 p) {g : GravityParams}
    {gf gf' : Grav2 ℝ} (hg : ∀ i j, inGrid2 p i j → gf i j = gf' i j) (dts : List ℝ)
    {u u' : Fld2 ℝ} (h : ∀ i j, interior2 p i j → u i j = u' i j) (i j : Int)
    (hij : interior2 p i j) : iterStep2 p g gf dts u i j = iterStep2 p g gf' dts u' i j := by
  induction dts generalizing u u' with
  | nil => exact h i j hij
  | cons dt dts ih => exact ih (fullStep2_congr_grav hp h hg)

/-- **C23.** Exchange the axes of a run: swap the grid sizes, spacings and boundary conditions,
transpose the initial contents (exchanging the momenta) and the gravity field.  Then the results of
the two runs, after any number of steps with the same `dt`s, are transposes of each other — for every
implementation version (they may differ), Riemann solver, boundary condition, gravity setting,
schedule and content of uninitialised locals. -/
theorem C23_xy_symmetry {p : Params ℝ} (hp : Hydro2 p)
    (hi : p.implementationVersion = 0 ∨ p.implementationVersion = 1 ∨
      p.implementationVersion = 2)
    (g : GravityParams) (jk jk' : Junk ℝ) (dts : List ℝ) (n : Nat) {m₁ m₁' m₂ m₂' : Mem Arr ℝ}
    (h0 : TransposedView p m₁ m₂ (pingIn n)) (hG : TransposedGravity p m₁ m₂)
    (h1 : hydroRun2 p g jk n dts m₁ m₁')
    (h2 : hydroRun2 (transposeParams p) g jk' n dts m₂ m₂') :
    TransposedView p m₁' m₂' (pingIn (n + dts.length)) := by
  have hp' := transpose_hydro2 hp
  have hint : ∀ i j, interior2 (transposeParams p) i j ↔ interior2 p j i := by
    intro i j; unfold interior2 transposeParams; simp only; tauto
  have hgr : ∀ i j, inGrid2 (transposeParams p) i j ↔ inGrid2 p j i := by
    intro i j; unfold inGrid2 transposeParams; simp only; tauto
  have hin : ∀ i j, interior2 p i j → inGrid2 p i j := by
    rintro i j ⟨a, b, c, d⟩
    have := hp.wf.gw_pos
    exact ⟨by omega, by omega, by omega, by omega⟩
  have e0 : ∀ i j, interior2 (transposeParams p) i j →
      hs2 m₂ (pingIn n) i j = trF (hs2 m₁ (pingIn n)) i j := by
    intro i j hij
    obtain ⟨x1, x2, x3, x4⟩ := h0 j i ((hint i j).1 hij)
    unfold hs2 trF HS.swapUV
    simp only
    rw [x1, x2, x3, x4]
  have eG : ∀ i j, inGrid2 (transposeParams p) i j →
      gravOf m₂ .grav i j = trG (gravOf m₁ .grav) i j := by
    intro i j hij
    obtain ⟨x1, x2⟩ := hG j i ((hgr i j).1 hij)
    unfold gravOf trG
    simp only
    rw [x1, x2]
  intro i j hij
  have hij' := (hint j i).2 hij
  have r1 := (hydroRun2_result hp signLaws_real (schemeOK2_real hp hi) dts n h1).1 i j (hin i j hij)
  have r2 := (hydroRun2_result hp' signLaws_real (schemeOK2_real hp' hi) dts n h2).1 j i
    ((hgr j i).2 (hin i j hij))
  rw [iterStep2_congr_grav hp' eG dts e0 j i hij', trF_iterStep] at r2
  have r3 : hs2 m₂' (pingIn (n + dts.length)) j i =
      (hs2 m₁' (pingIn (n + dts.length)) i j).swapUV := by rw [r2, r1]; rfl
  refine ⟨?_, ?_, ?_, ?_⟩
  · exact congrArg HS.d r3
  · exact congrArg HS.p r3
  · exact congrArg HS.u r3
  · exact congrArg HS.v r3

/-- Non-vacuity: contents and their transpose, on the (non-square) sample grid. -/
example : Hydro2 (sample .periodic .dirichlet) ∧
    (sample .periodic .dirichlet).nx ≠ (transposeParams (sample .periodic .dirichlet)).nx ∧
    ∀ m : Mem Arr ℝ, ∃ m₂, TransposedView (sample .periodic .dirichlet) m m₂ .U ∧
      TransposedGravity (sample .periodic .dirichlet) m m₂ :=
  ⟨sample_hydro2 _ _, by simp [sample, rawSample, Params.init, transposeParams],
    fun m => ⟨fun l => m ⟨l.arr, l.j, l.i, l.k,
        if l.arr = .grav then (if l.v = 0 then 1 else 0)
        else if l.v = 2 then 3 else if l.v = 3 then 2 else l.v⟩,
      fun i j _ => by simp [ID, IP, IU, IV], fun i j _ => by simp [IX, IY]⟩⟩

end EulerKokkos
