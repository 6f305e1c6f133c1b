import Verif.Props.C29
import Verif.Props.C15
import Verif.Lemmas.RunSymmetry

/-!
# C76 — the 3D hydro solver reduces to the 2D solver on states without z dependence
-/

set_option linter.constructorNameAsVariable false
set_option linter.unusedSectionVars false
set_option linter.unusedSimpArgs false

namespace EulerKokkos
open Spec

/-- The parameters `q` of a 2D run describe a slice `z = const` of the 3D run with parameters `p`: same
cells, spacings and boundary conditions along x and y, same physics and the same numerical options.
Nothing is asked of the z axis, of the time parameters or of the implementation version. -/
structure Spec.SliceOf (p q : Params ℝ) : Prop where
  nx : q.nx = p.nx
  ny : q.ny = p.ny
  gw : q.ghostWidth = p.ghostWidth
  dx : q.dx = p.dx
  dy : q.dy = p.dy
  xmin : q.boundary_type_xmin = p.boundary_type_xmin
  xmax : q.boundary_type_xmax = p.boundary_type_xmax
  ymin : q.boundary_type_ymin = p.boundary_type_ymin
  ymax : q.boundary_type_ymax = p.boundary_type_ymax
  settings : q.settings = p.settings
  riemann : q.riemannSolverType = p.riemannSolverType

/-- the 3D field which has in every slice the 2D field `u` and no z velocity -/
def stack (u : Fld2 ℝ) : Fld3 ℝ := fun i j _ => { u i j with w := 0 }

theorem HS.eta_w {q : HS ℝ} (h : q.w = 0) : ({ q with w := 0 } : HS ℝ) = q := by
  cases q; cases h; rfl

section
variable {p q : Params ℝ} (hs : SliceOf p q)
include hs

theorem prim3_stack (u : Fld2 ℝ) (i j k : Int) : prim3 p (stack u) i j k = prim2 q u i j := by
  simp [prim3, prim2, stack, computePrimitives3, computePrimitives2, hs.settings]

theorem slopes3_stack {v : Fld3 ℝ} {u : Fld2 ℝ} (h : ∀ i j k, v i j k = u i j)
    (h0 : ∀ i j, (u i j).w = 0) (i j k : Int) :
    slopes3 p v i j k = ⟨(slopes2 q u i j).1, (slopes2 q u i j).2, HS.zero⟩ := by
  unfold slopes3 slopes2 slope3 slope2
  simp only [h, hs.settings]
  split_ifs
  · rfl
  · simp only [h0, slopeScalarDir_const, slopeScalar2, HS.zero, RealOps.lit_real]
    simp
  · rfl

/-- at the x and y faces the traced states are those of the 2D solver; at the z faces, both traced
states are the same and have no z velocity -/
theorem trace3_stack {v : Fld3 ℝ} {u : Fld2 ℝ} (h : ∀ i j k, v i j k = u i j)
    (h0 : ∀ i j, (u i j).w = 0) (dt : ℝ) (i j k : Int) :
    (∀ f, f = .xmin ∨ f = .xmax ∨ f = .ymin ∨ f = .ymax → trace3 p dt v f i j k =
      traceAlongDir2 q.settings (u i j) (slopes2 q u i j).1 (slopes2 q u i j).2 (dt / q.dx) (dt / q.dy) f) ∧
    ∀ f k', trace3 p dt v f i j k = trace3 p dt v f i j k' := by
  have hw : (slopes2 q u i j).1.w = 0 ∧ (slopes2 q u i j).2.w = 0 := by
    unfold slopes2 slope2
    split_ifs <;> simp [HS.zero]
  constructor
  · intro f hf
    unfold trace3
    rw [slopes3_stack hs h h0, h i j k, hs.settings, hs.dx, hs.dy]
    rcases hf with rfl | rfl | rfl | rfl <;>
      simp [traceAlongDir3, traceAlongDir2, h0 i j, hw.1, hw.2, HS.zero]
  · intro f k'
    unfold trace3
    rw [slopes3_stack hs h h0, slopes3_stack hs h h0, h i j k, h i j k']
end

theorem riemann3_planar {s : Settings ℝ} {rt : RiemannType} (hr : rt ≠ .hll ∧ rt ≠ .hlld)
    {l r : HS ℝ} (hl : l.w = 0) (hr' : r.w = 0) (f f' : HS ℝ) :
    riemannHydro3 s rt l r f = riemannHydro2 s rt l r f' := by
  cases rt with
  | approx => 
    show riemannApprox true s l r = riemannApprox false s l r
    have e : approxState true s l r = approxState false s l r := by
      unfold approxState
      simp [hl, hr']
    have e0 : (approxState false s l r).w = 0 := by simp [approxState]
    unfold riemannApprox
    rw [e]
    simp [cmpflx, e0]
  | hllc =>
    show riemannHLLC true s l r = riemannHLLC false s l r
    unfold riemannHLLC
    simp [hl, hr']
  | llf =>
    show riemannLLF true s l r = riemannLLF false s l r
    unfold riemannLLF consOf
    simp [hl, hr']
  | hll => exact absurd rfl hr.1
  | hlld => exact absurd rfl hr.2

theorem riemann2_w {s : Settings ℝ} {rt : RiemannType} (hr : rt ≠ .hlld) (l r f : HS ℝ) :
    (riemannHydro2 s rt l r f).w = 0 := by
  cases rt with
  | hlld => exact absurd rfl hr
  | approx => simp [riemannHydro2, riemannApprox, cmpflx]
  | hll => simp [riemannHydro2, riemannHLL]
  | hllc => simp [riemannHydro2, riemannHLLC]
  | llf => simp [riemannHydro2, riemannLLF]

theorem traceAlongDir2_w (s : Settings ℝ) (q a b : HS ℝ) (h : q.w = 0) (x y : ℝ) (f : Face) :
    (traceAlongDir2 s q a b x y f).w = 0 := by
  cases f <;> simp [traceAlongDir2, h]

section
variable {p q : Params ℝ} (hs : SliceOf p q)
include hs

theorem fill3_stack (u : Fld2 ℝ) (i j k : Int) : fill3 p (stack u) i j k = fill2 q u i j := by
  unfold fill3 fill2 stack
  simp [hs.nx, hs.ny, hs.gw, hs.xmin, hs.xmax, hs.ymin, hs.ymax, signed]

/-- **One step.** -/
theorem fullStep3_stack (hr : p.riemannSolverType ≠ .hll ∧ p.riemannSolverType ≠ .hlld) (zk : Bool)
    {g g' : GravityParams} (hg : g.enabled = false)
    (hg' : g'.enabled = false) (dt : ℝ) (gf : Grav3 ℝ) (gf' : Grav2 ℝ)
    (u : Fld2 ℝ) {i j k : Int} (hij : interior3 p i j k) :
    fullStep3 zk p g dt gf (stack u) i j k = fullStep2 q g' dt gf' u i j := by
  have hij2 : interior2 q i j := by
    obtain ⟨⟨a, b⟩, ⟨c, d⟩, _⟩ := hij
    unfold interior2
    rw [hs.gw, hs.nx, hs.ny]
    exact ⟨a, b, c, d⟩
  have hf : fill3 p (stack u) = stack (fill2 q u) := by
    funext i j k
    rw [fill3_stack hs]
    exact (HS.eta_w (by simp [fill2])).symm
  have hw : ∀ i j, (fill2 q u i j).w = 0 := fun i j => by simp [fill2]
  have hq : ∀ i j k, prim3 p (stack (fill2 q u)) i j k = prim2 q (fill2 q u) i j :=
    fun i j k => prim3_stack hs _ i j k
  have hq0 : ∀ i j, (prim2 q (fill2 q u) i j).w = 0 := fun i j => by simp [prim2, computePrimitives2]
  have k3 : ∀ v (s : HS ℝ), kick3 g dt v s = s := fun v s => by simp [kick3, hg]
  have k2 : ∀ v (s : HS ℝ), kick2 g' dt v s = s := fun v s => by simp [kick2, hg']
  have tr := fun i j k => trace3_stack hs hq hq0 dt i j k
  have w2 : ∀ i j f, (face2 q g' dt gf' (prim2 q (fill2 q u)) f i j).w = 0 := fun i j f => by
    unfold face2; rw [k2]; exact traceAlongDir2_w _ _ _ _ (hq0 i j) _ _ _
  have fc : ∀ i j k f, f = .xmin ∨ f = .xmax ∨ f = .ymin ∨ f = .ymax →
      face3 p g dt gf (prim3 p (stack (fill2 q u))) f i j k =
        face2 q g' dt gf' (prim2 q (fill2 q u)) f i j := fun i j k f h => by
    unfold face3 face2; rw [k3, k2]; exact (tr i j k).1 f h
  have hr2 : q.riemannSolverType ≠ .hlld := by rw [hs.riemann]; exact hr.2
  have fx : ∀ i j k, fluxX3 p g dt gf (prim3 p (stack (fill2 q u))) i j k =
      fluxX2 q g' dt gf' (prim2 q (fill2 q u)) i j := by
    intro i j k
    unfold fluxX3 fluxX2
    rw [fc _ _ _ _ (by simp), fc _ _ _ _ (by simp), riemann3_planar hr (w2 _ _ _) (w2 _ _ _) _ HS.zero,
      hs.dx, hs.settings, hs.riemann]
    have := riemann2_w (s := q.settings) hr2 (face2 q g' dt gf' (prim2 q (fill2 q u)) .xmax (i - 1) j)
      (face2 q g' dt gf' (prim2 q (fill2 q u)) .xmin i j) HS.zero
    rw [hs.settings, hs.riemann] at this
    simp [HS.smul, HS.trunc, this]
  have fy : ∀ i j k, fluxY3 p g dt gf (prim3 p (stack (fill2 q u))) i j k =
      fluxY2 q g' dt gf' (prim2 q (fill2 q u)) i j := by
    intro i j k
    unfold fluxY3 fluxY2
    rw [fc _ _ _ _ (by simp), fc _ _ _ _ (by simp),
      riemann3_planar hr (l := HS.swapUV _) (r := HS.swapUV _) (w2 _ _ _) (w2 _ _ _) _ HS.zero,
      hs.dy, hs.settings, hs.riemann]
    have := riemann2_w (s := q.settings) hr2
      (face2 q g' dt gf' (prim2 q (fill2 q u)) .ymax i (j - 1)).swapUV
      (face2 q g' dt gf' (prim2 q (fill2 q u)) .ymin i j).swapUV HS.zero
    rw [hs.settings, hs.riemann] at this
    generalize riemannHydro2 (R := ℝ) _ _ _ _ _ = F at this ⊢
    simp [HS.smul, HS.trunc, HS.swapUV, this]
  have fz : fluxZ3 zk p g dt gf (prim3 p (stack (fill2 q u))) i j (k + 1) =
      fluxZ3 zk p g dt gf (prim3 p (stack (fill2 q u))) i j k := by
    unfold fluxZ3 face3
    simp only [k3]
    rw [(tr i j (k + 1 - 1)).2 _ (k - 1), (tr i j (k + 1)).2 _ k]
  unfold fullStep3 fullStep2 step3 step2
  rw [if_pos hij, if_pos hij2, hf]
  simp only [hg, hg', Bool.false_eq_true, if_false, fluxUpdate3, fluxUpdate2, fx, fy, fz]
  have a : ∀ i j, (fluxX2 q g' dt gf' (prim2 q (fill2 q u)) i j).w = 0 := fun i j => by
    simp [fluxX2, HS.trunc]
  have b : ∀ i j, (fluxY2 q g' dt gf' (prim2 q (fill2 q u)) i j).w = 0 := fun i j => by
    simp [fluxY2, HS.trunc]
  simp [HS.add, HS.sub, HS.trunc, stack, a, b]
end

/-- **C76.** Let a 2D run describe a slice of a 3D run, without gravity, with the same numbers of
iterations and the same time steps.  If initially every slice of the 3D state is the 2D state, without z
velocity, then so it is after all the steps, whatever the boundary conditions and the number of cells in
z, the implementation versions, the schedules and the contents of uninitialised memory. -/
theorem C76_planar_run {p q : Params ℝ} (hs : SliceOf p q) (hp : Hydro3 p) (hq : Hydro2 q)
    (hi : p.implementationVersion = 0 ∨ p.implementationVersion = 1 ∨ p.implementationVersion = 2)
    (hi' : q.implementationVersion = 0 ∨ q.implementationVersion = 1 ∨ q.implementationVersion = 2)
    {g g' : GravityParams} (hg : g.enabled = false) (hg' : g'.enabled = false) (jk jk' : Junk ℝ)
    (dts : List ℝ) (n : Nat) {m a m' a' : Mem Arr ℝ}
    (h0 : ∀ i j k, interior3 p i j k → hs3 m (pingIn n) i j k = { hs2 m' (pingIn n) i j with w := 0 })
    (ha : hydroRun3 p g jk n dts m a) (ha' : hydroRun2 q g' jk' n dts m' a') :
    ∀ i j k, interior3 p i j k → hs3 a (pingIn (n + dts.length)) i j k =
      { hs2 a' (pingIn (n + dts.length)) i j with w := 0 } := by
  induction dts generalizing n m m' with
  | nil => cases ha; cases ha'; exact h0
  | cons dt dts ih =>
    obtain ⟨m1, h1, h2⟩ := ha
    obtain ⟨m1', h1', h2'⟩ := ha'
    have e : n + (dt :: dts).length = n + 1 + dts.length := by simp [List.length_cons]; omega
    rw [e]
    refine ih (n + 1) (fun i j k hij => ?_) h2 h2'
    have hij2 : interior2 q i j := by
      obtain ⟨⟨a, b⟩, ⟨c, d⟩, _⟩ := hij
      unfold interior2
      rw [hs.gw, hs.nx, hs.ny]
      exact ⟨a, b, c, d⟩
    have r3 := (godunov3_result hp signLaws_real (schemeOK3_real hp hi) (pingPong n) h1).2.2 i j k
      (interior_inGrid3 hp.wf hij)
    have r2 := (godunov2_result hq signLaws_real (schemeOK2_real hq hi') (pingPong n) h1').2.2 i j
      (interior_inGrid2 hq.wf hij2)
    rw [← pingOut_succ, r3, r2, fullStep3_congr_grav hp (u' := stack (hs2 m' (pingIn n))) (fun i j k h => h0 i j k h)
      (gf' := gravOf3 m .grav) (by simp [hg]) i j k hij,
      fullStep3_stack hs hp.valid.riemann _ hg hg' dt _ (gravOf m' .grav) _ hij]
    exact (HS.eta_w (by rw [← r2]; simp [hs2])).symm

/-- The 2D scheme of the slice with the time step of the 3D solver: its rate has the additional term
`c/dz` for the sound waves along z. -/
noncomputable def Spec.planarMethod (p q : Params ℝ) (g : GravityParams) : Method (Fld2 ℝ) where
  cflDt u := cflDt3 p g (fun _ _ _ => (0, 0, 0)) (stack u)
  advance dt u := fullStep2 q g dt (fun _ _ => (0, 0)) u

theorem related_planar {p q : Params ℝ} (hs : SliceOf p q) (hp : Hydro3 p) {g : GravityParams}
    (hg : g.enabled = false) (zk : Bool) (gf : Grav3 ℝ) :
    Related p p (hydro3 zk p g gf) (planarMethod p q g)
      (fun x y => ∀ i j k, interior3 p i j k → x i j k = { y i j with w := 0 }) where
  tEnd := rfl
  nOutput := rfl
  nStepmax := rfl
  dt x y h := by
    show cflDt3 p g gf x = cflDt3 p g _ (stack y)
    exact cflDt3_congr_grav (by simp [hg]) h
  adv dt x y h i j k hij := by
    show fullStep3 zk p g dt gf x i j k = { fullStep2 q g dt _ y i j with w := 0 }
    rw [fullStep3_congr_grav hp (u' := stack y) h (gf' := gf) (by simp [hg]) i j k hij,
      fullStep3_stack hs hp.valid.riemann _ hg hg dt _ (fun _ _ => (0, 0)) _ hij]
    have hij2 : interior2 q i j := by
      obtain ⟨⟨a, b⟩, ⟨c, d⟩, _⟩ := hij
      unfold interior2
      rw [hs.gw, hs.nx, hs.ny]
      exact ⟨a, b, c, d⟩
    exact (HS.eta_w (by
      unfold fullStep2 step2
      rw [if_pos hij2]
      simp [hg, fluxUpdate2, HS.trunc])).symm

/-- **C76 (complete runs).** A complete 3D run without gravity from a state whose slices are all the 2D
state `u`, without z velocity, is the sequential algorithm of the 2D scheme with the time step of the
3D solver: it makes as many iterations, ends at the same time, and its files have the same numbers and
times and show the 2D field of that algorithm in every slice, and no z velocity. -/
theorem C76_planar_complete {p q : Params ℝ} (hs : SliceOf p q) (hp : Hydro3 p)
    (hi : p.implementationVersion = 0 ∨ p.implementationVersion = 1 ∨ p.implementationVersion = 2)
    (hgg : GoodGrid p) (he : p.enableOutput = decide (p.nOutput ≠ 0)) {g : GravityParams}
    (hg : g.enabled = false) {ident : ℝ} (hid : ident ≤ 0) (jk : Junk ℝ) {m : Mem Arr ℝ} {u : Fld2 ℝ}
    (h0 : ∀ i j k, interior3 p i j k → hs3 m .U i j k = { u i j with w := 0 })
    {t : ℝ} {sv : Int} {s' : RunState ℝ} (h : runMain p (hydroOps3 p g ident jk) m t sv s') :
    let r := Sim.result p (planarMethod p q g) u t sv s'.iteration
    Sim.Length p (planarMethod p q g) u t sv s'.iteration ∧ s'.t = r.t ∧
    List.Forall₂ (fun (o : Output ℝ) (f : Int × ℝ × Fld2 ℝ) => o.number = f.1 ∧ o.time = f.2.1 ∧
      ∀ i j k, interior3 p i j k → shown3 o.data i j k = { f.2.2 i j with w := 0 }) s'.outputs r.files := by
  obtain ⟨a1, a2, a3, _⟩ := C15_run_is_algorithm_3d hp hi hgg he g hid jk h
  have hR := related_planar hs hp hg (zKick p.implementationVersion) (gravOf3 m .grav)
  have hE : ∀ i j k, interior3 p i j k → fill3 p (hs3 m .U) i j k = { u i j with w := 0 } := by
    intro i j k hij
    rw [fill3_on_interior hij]
    exact h0 i j k hij
  have hres := SimRel.result hR hE t sv s'.iteration
  refine ⟨SimRel.length hR hE a1, a2.trans hres.t, ?_⟩
  have hcomp : ∀ {os : List (Output ℝ)} {fs : List (Int × ℝ × Fld3 ℝ)} {gs : List (Int × ℝ × Fld2 ℝ)},
      List.Forall₂ (fun (o : Output ℝ) (f : Int × ℝ × Fld3 ℝ) =>
        o.number = f.1 ∧ o.time = f.2.1 ∧ Shows3 p o.data f.2.2) os fs →
      List.Forall₂ (FileRel (fun x y => ∀ i j k, interior3 p i j k → x i j k = { y i j with w := 0 })) fs gs →
      List.Forall₂ (fun (o : Output ℝ) (f : Int × ℝ × Fld2 ℝ) => o.number = f.1 ∧ o.time = f.2.1 ∧
        ∀ i j k, interior3 p i j k → shown3 o.data i j k = { f.2.2 i j with w := 0 }) os gs := by
    intro os fs gs h1
    induction h1 generalizing gs with
    | nil => intro h2; cases h2; exact .nil
    | cons x _ ih =>
      intro h2
      cases h2 with
      | cons y z =>
        refine .cons ⟨x.1.trans y.1, x.2.1.trans y.2.1, fun i j k hij => ?_⟩ (ih z)
        exact (x.2.2 i j k (interior_inGrid3 hp.wf hij)).trans (y.2.2 i j k hij)
  exact hcomp a3 hres.files

/-! ## Non-vacuity -/

/-- a 2D and a 3D sample, slice of each other; z is reflecting at both ends -/
theorem sample_slice (a b : BC) : SliceOf (sample3 a b) (sample a b) :=
  ⟨rfl, rfl, rfl, rfl, rfl, rfl, rfl, rfl, rfl, rfl, rfl⟩

/-- from any 2D state, a planar 3D state and runs of both solvers with given time steps exist -/
example (m' : Mem Arr ℝ) (jk : Junk ℝ) (hj : m' ⟨.U, 3, 2, 0, ID⟩ ≠ m' ⟨.U, 2, 2, 0, ID⟩) :
    ∃ m a a' : Mem Arr ℝ, Hydro3 (sample3 .periodic .dirichlet) ∧ Hydro2 (sample .periodic .dirichlet) ∧
    SliceOf (sample3 .periodic .dirichlet) (sample .periodic .dirichlet) ∧
    (∀ i j k, hs3 m (pingIn 0) i j k = { hs2 m' (pingIn 0) i j with w := 0 }) ∧
    hs3 m (pingIn 0) 3 2 2 ≠ hs3 m (pingIn 0) 2 2 2 ∧
    hydroRun3 (sample3 .periodic .dirichlet) ⟨false, false⟩ jk 0 [1/10, 1/20] m a ∧
    hydroRun2 (sample .periodic .dirichlet) ⟨false, false⟩ jk 0 [1/10, 1/20] m' a' := by
  let m : Mem Arr ℝ := fun l => if l.v = 4 then 0 else m' ⟨l.arr, l.i, l.j, 0, l.v⟩
  have d3 := fun dt n mm => (C29_step_deterministic_3d (sample3_wf .periodic .dirichlet)
    (sample_hydro3 _ _).faces (Or.inl rfl) ⟨false, false⟩ dt jk (pingPong n) mm).exists
  have d2 := fun dt n mm => (C02_step_deterministic (sample_wf .periodic .dirichlet)
    (sample_hydro2 .periodic .dirichlet).faces (Or.inl rfl) ⟨false, false⟩ dt jk (pingPong n) mm).exists
  obtain ⟨a1, x1⟩ := d3 (1/10) 0 m
  obtain ⟨a2, x2⟩ := d3 (1/20) 1 a1
  obtain ⟨b1, y1⟩ := d2 (1/10) 0 m'
  obtain ⟨b2, y2⟩ := d2 (1/20) 1 b1
  refine ⟨m, a2, b2, sample_hydro3 _ _, sample_hydro2 _ _, sample_slice _ _, fun i j k => rfl, ?_,
    ⟨a1, x1, a2, x2, rfl⟩, ⟨b1, y1, b2, y2, rfl⟩⟩
  intro e
  exact hj (congrArg HS.d e)

end EulerKokkos
