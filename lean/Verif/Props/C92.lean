import Verif.Lemmas.MhdPlanar2
import Verif.Lemmas.MhdUnitsRun
import Verif.Props.C53
import Verif.Props.C91

/-!
# C92 — the 3D MHD solver reduces to the 2D solver on planar states

Planar: no z dependence, no momentum and no magnetic field along z.  (With a magnetic field along z the two solvers
differ: the 2D solver halves that component in its primitive variables.)
-/

set_option linter.constructorNameAsVariable false
set_option linter.unusedSectionVars false
set_option linter.unusedSimpArgs false

namespace EulerKokkos
open Spec

section
variable {p q : Params ℝ} (hs : SliceOf p q)
include hs

theorem primM3_stackM {u : FldM2 ℝ} (hu : ∀ i j, (u i j).Flat) : primM3 p (stackM u) = stackM (primM2 q u) := by
  funext i j k
  simp only [primM3, primM2, stackM, hs.settings, (hu i j).2]
  simp

omit hs in
theorem primM2_flat {u : FldM2 ℝ} (hu : ∀ i j, (u i j).Flat) (i j : Int) : (primM2 q u i j).Flat := by
  unfold primM2 constoprimMhd
  dsimp only
  split_ifs <;> simp [MS.Flat, (hu i j).1, (hu i j).2]

theorem fillM3_stackM {u : FldM2 ℝ} (hu : ∀ i j, (u i j).Flat) : fillM3 p (stackM u) = stackM (fillM2 q u) := by
  funext i j k
  unfold fillM3 fillM2 ghost3 ghost2 stackM
  simp [hs.nx, hs.ny, hs.gw, hs.xmin, hs.xmax, hs.ymin, hs.ymax, signed, normalVar, MS.get, ID, IP, IU, IV, IW, IA,
    IB, IC, (hu _ _).1, (hu _ _).2]

omit hs in
theorem fillM2_flat {u : FldM2 ℝ} (hu : ∀ i j, (u i j).Flat) (i j : Int) : (fillM2 q u i j).Flat := by
  unfold fillM2 ghost2 MS.Flat
  simp [signed, normalVar, MS.get, ID, IP, IU, IV, IW, IA, IB, IC, (hu _ _).1, (hu _ _).2]

omit hs in
theorem traceM2_flat (dt : ℝ) {Q u : FldM2 ℝ} (hQ : ∀ i j, (Q i j).Flat) (hu : ∀ i j, (u i j).Flat) (i j : Int) :
    (traceM2 q dt Q u i j).qmx.Flat ∧ (traceM2 q dt Q u i j).qpx.Flat ∧ (traceM2 q dt Q u i j).qmy.Flat ∧
      (traceM2 q dt Q u i j).qpy.Flat := by
  have h := midM2_flat (q := q) dt hQ hu i j
  have h1 := slopeM_flat q.settings (hQ i j) (hQ (i + 1) j) (hQ (i - 1) j)
  have h2 := slopeM_flat q.settings (hQ i j) (hQ i (j + 1)) (hQ i (j - 1))
  rw [traceM2_mid]
  refine ⟨?_, ?_, ?_, ?_⟩ <;> refine floored_flat _ ?_ <;>
    simp only [MS.Flat, MS.setMag, MS.addHalf, MS.subHalf, h.1, h.2, h1.1, h1.2, h2.1, h2.2] <;> simp

omit hs in
/-- the 2D step keeps planar states planar -/
theorem stepM2_flat (dt : ℝ) {u : FldM2 ℝ} (hu : ∀ i j, (u i j).Flat) (i j : Int) : (stepM2 q dt u i j).Flat := by
  have T := traceM2_flat (q := q) dt (primM2_flat (q := q) hu) hu
  have fx : ∀ i j, (fluxXM2 q (tracesM2 q dt u) i j).Flat := fun i j =>
    riemannMhd_flat _ _ (T (i - 1) j).1 (T i j).2.1
  have fy : ∀ i j, (fluxYM2 q (tracesM2 q dt u) i j).Flat := fun i j =>
    swapXY_flat (riemannMhd_flat _ _ (swapXY_flat (T i (j - 1)).2.2.1) (swapXY_flat (T i j).2.2.2))
  unfold stepM2
  split_ifs
  · simp only [MS.Flat, ctUpdate2, fluxUpdateM2, MS.plus6, MS.minus6, (fx _ _).1, (fx _ _).2, (fy _ _).1, (fy _ _).2,
      (hu _ _).1, (hu _ _).2]
    simp
  · exact hu i j

/-- the common shape of the two updates -/
theorem stepOf_stackM (dt : ℝ) {u : FldM2 ℝ} (hu : ∀ i j, (u i j).Flat) (F : FluxM3 ℝ) {i j k : Int}
    (hij : interior3 p i j k) (T : Int → Int → TraceM2 ℝ)
    (hT : ∀ i j, (T i j).qmx.Flat ∧ (T i j).qpx.Flat ∧ (T i j).qmy.Flat ∧ (T i j).qpy.Flat)
    (h : tracesM2 q dt u = T)
    (x0 : F.x i j k = fluxXM2 q T i j) (x1 : F.x (i + 1) j k = fluxXM2 q T (i + 1) j)
    (y0 : F.y i j k = fluxYM2 q T i j) (y1 : F.y i (j + 1) k = fluxYM2 q T i (j + 1))
    (z : F.z i j (k + 1) = F.z i j k)
    (e0 : F.e .z i j k = emfM2 q T i j) (e1 : F.e .z (i + 1) j k = emfM2 q T (i + 1) j)
    (e2 : F.e .z i (j + 1) k = emfM2 q T i (j + 1))
    (ey : F.e .y i j k = 0 ∧ F.e .y i j (k + 1) = 0 ∧ F.e .y (i + 1) j k = 0)
    (ex : F.e .x i j k = 0 ∧ F.e .x i j (k + 1) = 0 ∧ F.e .x i (j + 1) k = 0) :
    stepOfM3 p dt F (stackM u) i j k = stepM2 q dt u i j := by
  have hij2 : interior2 q i j := by
    obtain ⟨⟨a, b⟩, ⟨c, d⟩, _⟩ := hij
    unfold interior2
    rw [hs.gw, hs.nx, hs.ny]
    exact ⟨a, b, c, d⟩
  have fx : ∀ i j, (fluxXM2 q T i j).Flat := fun i j =>
    riemannMhd_flat _ _ (hT (i - 1) j).1 (hT i j).2.1
  have fy : ∀ i j, (fluxYM2 q T i j).Flat := fun i j =>
    swapXY_flat (riemannMhd_flat _ _ (swapXY_flat (hT i (j - 1)).2.2.1) (swapXY_flat (hT i j).2.2.2))
  unfold stepOfM3 stepM2
  rw [if_pos hij, if_pos hij2, h]
  unfold ctUpdate3 fluxUpdateM3 ctUpdate2 fluxUpdateM2
  rw [x0, x1, y0, y1, z, e0, e1, e2, ey.1, ey.2.1, ey.2.2, ex.1, ex.2.1, ex.2.2, hs.dx, hs.dy]
  simp only [stackM, MS.plus5, MS.minus5, MS.plus6, MS.minus6]
  refine MS.ext ?_ ?_ ?_ ?_ ?_ ?_ ?_ ?_ <;> dsimp only <;> try ring
  simp [(fx _ _).2, (fy _ _).2]

theorem fullStepM3_stackM (hv : ValidM p) (dt : ℝ) {u : FldM2 ℝ} (hu : ∀ i j, (u i j).Flat)
    (hc : p.implementationVersion = 2 ∨ StepClear q dt u) {i j k : Int} (hij : interior3 p i j k) :
    fullStepM3 p dt (stackM u) i j k = fullStepM2 q dt u i j := by
  unfold fullStepM3 fullStepM2
  rw [fillM3_stackM hs hu]
  have hu' := fillM2_flat (q := q) hu
  have hQ := primM2_flat (q := q) hu'
  have hT := traceM2_flat (q := q) dt hQ hu'
  unfold StepClear at hc
  generalize fillM2 q u = f at *
  unfold stepM3 schemeM3
  by_cases hi : p.implementationVersion = 2
  · rw [if_pos hi]
    unfold fluxesV2M3
    rw [primM3_stackM hs hu']
    have E := emfV2_stack hs dt hQ hu'
    exact stepOf_stackM hs dt hu' _ hij _ hT rfl (fluxV2_x hs dt hQ hu' _ _ _) (fluxV2_x hs dt hQ hu' _ _ _)
      (fluxV2_y hs dt hQ hu' _ _ _) (fluxV2_y hs dt hQ hu' _ _ _) (fluxV2_z hs dt hQ hu' _ _ _ _)
      (E _ _ _).1 (E _ _ _).1 (E _ _ _).1 ⟨(E _ _ _).2.1, (E _ _ _).2.1, (E _ _ _).2.1⟩
      ⟨(E _ _ _).2.2, (E _ _ _).2.2, (E _ _ _).2.2⟩
  · rw [if_neg hi]
    replace hc := hc.resolve_left hi
    have hsl : fmin p.settings.slope_type (lit 2) = p.settings.slope_type := by
      rcases hv.slope with h | h
      · have : p.settings.slope_type = 1 := by simpa using h
        rw [this]; simp [fmin]
      · have : p.settings.slope_type = 2 := by simpa using h
        rw [this]; simp [fmin]
    have H := fun i' j' (a : i - 1 ≤ i') (b : i' ≤ i + 1) (c : j - 1 ≤ j') (d : j' ≤ j + 1) =>
      traceM3_stack hs dt hQ hu' hsl i' j' (by
        obtain ⟨⟨a1, a2⟩, ⟨a3, a4⟩, _⟩ := hij
        have := hs.gw; have := hs.nx; have := hs.ny
        exact hc i' j' (by omega) (by omega) (by omega) (by omega))
    unfold fluxesM3
    rw [primM3_stackM hs hu']
    have dx : ∀ i' j', i ≤ i' → i' ≤ i + 1 → j ≤ j' → j' ≤ j + 1 → ∀ k',
        (fluxOfTraces p (traceM3 p dt (stackM (primM2 q f)) (stackM f))).e .z i' j' k' =
          emfM2 q (traceM2 q dt (primM2 q f) f) i' j' ∧
        (fluxOfTraces p (traceM3 p dt (stackM (primM2 q f)) (stackM f))).e .y i' j' k' = 0 ∧
        (fluxOfTraces p (traceM3 p dt (stackM (primM2 q f)) (stackM f))).e .x i' j' k' = 0 ∧
        (fluxOfTraces p (traceM3 p dt (stackM (primM2 q f)) (stackM f))).x i' j' k' =
          fluxXM2 q (traceM2 q dt (primM2 q f) f) i' j' ∧
        (fluxOfTraces p (traceM3 p dt (stackM (primM2 q f)) (stackM f))).y i' j' k' =
          fluxYM2 q (traceM2 q dt (primM2 q f) f) i' j' := by
      intro i' j' a b c d k'
      obtain ⟨T, X, Y, X', Y', ⟨x1, x2, x3, x4⟩, hk, t1, t2, t3, t4, t5, t6, t7⟩ :=
        H i' j' (by omega) (by omega) (by omega) (by omega)
      obtain ⟨Tx, Xx, Yx, Xx', Yx', ⟨xx1, xx2, xx3, xx4⟩, xhk, xt1, xt2, xt3, xt4, xt5, xt6, xt7⟩ :=
        H (i' - 1) j' (by omega) (by omega) (by omega) (by omega)
      obtain ⟨Ty, Xy, Yy, Xy', Yy', ⟨yx1, yx2, yx3, yx4⟩, yhk, yt1, yt2, yt3, yt4, yt5, yt6, yt7⟩ :=
        H i' (j' - 1) (by omega) (by omega) (by omega) (by omega)
      obtain ⟨Tz, _, _, _, _, _, zhk, _, _, _, _, zt5, _, _⟩ :=
        H (i' - 1) (j' - 1) (by omega) (by omega) (by omega) (by omega)
      unfold fluxOfTraces emfM2 fluxXM2 fluxYM2
      dsimp only
      rw [hk, hk, xhk, yhk, zhk, xhk, yhk, zt5, xt5, yt5, t5, t6, xt6, t7, yt7, xt1, t2, yt3, t4, hs.settings,
        hs.riemann]
      exact ⟨rfl, emfY_flat _ xx1 x2, emfX_flat _ yx3 x4, rfl, rfl⟩
    have dz : (fluxOfTraces p (traceM3 p dt (stackM (primM2 q f)) (stackM f))).z i j (k + 1) =
        (fluxOfTraces p (traceM3 p dt (stackM (primM2 q f)) (stackM f))).z i j k := by
      obtain ⟨T, _, _, _, _, _, hk, _⟩ := H i j (by omega) (by omega) (by omega) (by omega)
      unfold fluxOfTraces
      dsimp only
      rw [hk, hk, hk, hk]
    have D0 := dx i j (by omega) (by omega) (by omega) (by omega)
    have D1 := dx (i + 1) j (by omega) (by omega) (by omega) (by omega)
    have D2 := dx i (j + 1) (by omega) (by omega) (by omega) (by omega)
    exact stepOf_stackM hs dt hu' _ hij _ hT rfl (D0 k).2.2.2.1 (D1 k).2.2.2.1 (D0 k).2.2.2.2 (D2 k).2.2.2.2 dz
      (D0 k).1 (D1 k).1 (D2 k).1 ⟨(D0 k).2.1, (D0 (k + 1)).2.1, (D1 k).2.1⟩
      ⟨(D0 k).2.2.1, (D0 (k + 1)).2.2.1, (D2 k).2.2.1⟩

end

/-- in a run of the 2D scheme with time steps `dts` the pressure floors of the reconstructions never act -/
def Spec.ClearRun (q : Params ℝ) : List ℝ → FldM2 ℝ → Prop
  | [], _ => True
  | dt :: dts, u => StepClear q dt u ∧ ClearRun q dts (fullStepM2 q dt u)

theorem iterStepM3_stackM {p q : Params ℝ} (hs : SliceOf p q) (hp : Mhd3 p) (dts : List ℝ) {x : FldM3 ℝ} {u : FldM2 ℝ}
    (hu : ∀ i j, (u i j).Flat) (h : ∀ i j k, interior3 p i j k → x i j k = u i j)
    (hc : p.implementationVersion = 2 ∨ ClearRun q dts u) :
    (∀ i j, (iterStepM2 q dts u i j).Flat) ∧
    ∀ i j k, interior3 p i j k → iterStepM3 p dts x i j k = iterStepM2 q dts u i j := by
  induction dts generalizing x u with
  | nil => exact ⟨hu, h⟩
  | cons dt dts ih =>
    refine ih (x := fullStepM3 p dt x) (u := fullStepM2 q dt u)
      (fun i j => stepM2_flat (q := q) dt (fillM2_flat (q := q) hu) i j) ?_ (hc.imp id (fun h => h.2))
    intro i j k hij
    rw [fullStepM3_congr hp (u' := stackM u) h i j k hij]
    exact fullStepM3_stackM hs hp.valid dt hu (hc.imp id (fun h => h.1)) hij

/-- **C92 (given time steps).** Let a 2D MHD run describe a slice of a 3D MHD run, with the same time steps.  If
initially every slice of the 3D state is the 2D state `u`, without momentum and field along z, then so it is after
all the steps: in every interior cell the 3D state is that of the 2D run, without momentum and field along z.
Whatever the boundary conditions and the number of cells along z, the versions, the schedules and the contents of
uninitialised memory; in versions 0 and 1 of the 3D solver, as long as the pressure floors do not act (those
versions have another floor than the 2D solver). -/
theorem C92_planar_run {p q : Params ℝ} (hs : SliceOf p q) (hp : Mhd3 p) (hq : Mhd2 q)
    (hi : p.implementationVersion = 0 ∨ p.implementationVersion = 1 ∨ p.implementationVersion = 2)
    (hi' : q.implementationVersion = 0 ∨ q.implementationVersion = 1 ∨ q.implementationVersion = 2)
    (jk jk' : JunkM ℝ) (dts : List ℝ) (n : Nat) {m a m' a' : Mem Arr ℝ} {u : FldM2 ℝ}
    (hu : ∀ i j, (u i j).w = 0 ∧ (u i j).c = 0)
    (h2 : ∀ i j, interior2 q i j → ms2 m' (pingIn n) i j = u i j)
    (h3 : ∀ i j k, interior3 p i j k → ms m (pingIn n) i j k = u i j)
    (hc : p.implementationVersion = 2 ∨ ClearRun q dts u)
    (ha : mhdRun3 p jk n dts m a) (ha' : mhdRun2 q jk' n dts m' a') :
    ∀ i j k, interior3 p i j k →
      ms a (pingIn (n + dts.length)) i j k = ms2 a' (pingIn (n + dts.length)) i j ∧
      (ms a (pingIn (n + dts.length)) i j k).w = 0 ∧ (ms a (pingIn (n + dts.length)) i j k).c = 0 := by
  intro i j k hij
  have hij2 : interior2 q i j := by
    obtain ⟨⟨a, b⟩, ⟨c, d⟩, _⟩ := hij
    unfold interior2
    rw [hs.gw, hs.nx, hs.ny]
    exact ⟨a, b, c, d⟩
  have r3 := mhdRun3_result hp signLaws_real (mhdOK3_real hp hi) dts n ha i j k hij
  have r2 := mhdRun2_result hq signLaws_real (mhdOK2_real hq hi') dts n ha' i j hij2
  obtain ⟨e1, e2⟩ := iterStepM3_stackM hs hp dts hu h3 hc
  rw [r3, r2, e2 i j k hij, iterStepM2_congr hq dts h2 i j hij2]
  exact ⟨rfl, e1 i j⟩

/-- The 2D scheme of the slice with the time step of the 3D solver: its rate has the additional term
for the fast waves along z. -/
noncomputable def Spec.planarMhd (p q : Params ℝ) : Method (FldM2 ℝ) where
  cflDt u := cflDtM3 p (stackM u)
  advance dt u := fullStepM2 q dt u

theorem related_planar_mhd {p q : Params ℝ} (hs : SliceOf p q) (hp : Mhd3 p) (hi : p.implementationVersion = 2) :
    Related p p (mhd3 p) (planarMhd p q)
      (fun x y => (∀ i j, (y i j).Flat) ∧ ∀ i j k, interior3 p i j k → x i j k = y i j) where
  tEnd := rfl
  nOutput := rfl
  nStepmax := rfl
  dt x y h := cflDtM3_congr hp h.2
  adv dt x y h := by
    have := iterStepM3_stackM hs hp [dt] h.1 h.2 (Or.inl hi)
    exact this

/-- **C92 (complete runs).** A complete 3D run of version 2 from a state whose slices are all the 2D state `u`,
without momentum and field along z, is the sequential algorithm of the 2D scheme with the time step of the 3D
solver: it makes as many iterations, ends at the same time, and its files have the same numbers and times and show
the 2D field of that algorithm in every slice, without momentum and field along z; and so for the final state. -/
theorem C92_planar_complete {p q : Params ℝ} (hs : SliceOf p q) (hp : Mhd3 p) (hi : p.implementationVersion = 2)
    (hg : GoodGrid p) (he : p.enableOutput = decide (p.nOutput ≠ 0)) {ident : ℝ} (hid : ident ≤ 0) (jk : JunkM ℝ)
    {m : Mem Arr ℝ} {u : FldM2 ℝ} (hu : ∀ i j, (u i j).w = 0 ∧ (u i j).c = 0)
    (h0 : ∀ i j k, interior3 p i j k → ms m .U i j k = u i j)
    {t : ℝ} {sv : Int} {s' : RunState ℝ} (h : runMain p (mhdOps3 p ident jk) m t sv s') :
    let r := Sim.result p (planarMhd p q) u t sv s'.iteration
    Sim.Length p (planarMhd p q) u t sv s'.iteration ∧ s'.t = r.t ∧
    List.Forall₂ (fun (o : Output ℝ) (f : Int × ℝ × FldM2 ℝ) => o.number = f.1 ∧ o.time = f.2.1 ∧
      ∀ i j k, interior3 p i j k → shownM o.data i j k = f.2.2 i j ∧ (f.2.2 i j).w = 0 ∧ (f.2.2 i j).c = 0)
      s'.outputs r.files ∧
    ∀ i j k, interior3 p i j k →
      ms s'.mem (pingIn s'.iteration) i j k = r.x i j ∧ (r.x i j).w = 0 ∧ (r.x i j).c = 0 := by
  obtain ⟨a1, a2, a3, a4⟩ := C54_mhd_run_is_algorithm_3d hp (Or.inr (Or.inr hi)) hg he hid jk h
  have hR := related_planar_mhd hs hp hi
  have hE : (∀ i j, (u i j).Flat) ∧ ∀ i j k, interior3 p i j k → ms m .U i j k = u i j := ⟨hu, h0⟩
  have hres := SimRel.result hR hE t sv s'.iteration
  refine ⟨SimRel.length hR hE a1, a2.trans hres.t, ?_, fun i j k hij => ?_⟩
  · have hcomp : ∀ {os : List (Output ℝ)} {fs : List (Int × ℝ × FldM3 ℝ)} {gs : List (Int × ℝ × FldM2 ℝ)},
        List.Forall₂ (fun (o : Output ℝ) (f : Int × ℝ × FldM3 ℝ) =>
          o.number = f.1 ∧ o.time = f.2.1 ∧ ShowsM3 p o.data f.2.2) os fs →
        List.Forall₂ (FileRel (fun (x : FldM3 ℝ) (y : FldM2 ℝ) =>
          (∀ i j, (y i j).Flat) ∧ ∀ i j k, interior3 p i j k → x i j k = y i j)) fs gs →
        List.Forall₂ (fun (o : Output ℝ) (f : Int × ℝ × FldM2 ℝ) => o.number = f.1 ∧ o.time = f.2.1 ∧
          ∀ i j k, interior3 p i j k → shownM o.data i j k = f.2.2 i j ∧ (f.2.2 i j).w = 0 ∧ (f.2.2 i j).c = 0) os gs := by
      intro os fs gs h1
      induction h1 generalizing gs with
      | nil => intro h2; cases h2; exact .nil
      | cons x _ ih =>
        intro h2
        cases h2 with
        | cons y z =>
          refine .cons ⟨x.1.trans y.1, x.2.1.trans y.2.1, fun i j k hij => ?_⟩ (ih z)
          exact ⟨(x.2.2 i j k hij).trans (y.2.2.2 i j k hij), y.2.2.1 i j⟩
    exact hcomp a3 hres.files
  · exact ⟨(a4 i j k hij).trans (hres.x.2 i j k hij), hres.x.1 i j⟩

/-! ## Non-vacuity -/

/-- the floors do not act on a uniform planar state whose primitive pressure is above them -/
theorem stepClear_uniform {q : Params ℝ} {dt : ℝ} {U : MS ℝ} (hf : fillM2 q (fun _ _ => U) = fun _ _ => U)
    (hc : PressureClear q.settings
      (MS.floored q.settings (constoprimMhd q.settings U ⟨U.a, U.b, lit 0⟩).1)) : StepClear q dt (fun _ _ => U) := by
  intro i j _ _ _ _
  rw [hf]
  have hQ : primM2 q (fun _ _ => U) = fun _ _ => (constoprimMhd q.settings U ⟨U.a, U.b, lit 0⟩).1 := rfl
  unfold tracesM2
  rw [hQ]
  generalize (constoprimMhd q.settings U ⟨U.a, U.b, lit 0⟩).1 = Q at hc ⊢
  have hm : midM2 q dt (fun _ _ => Q) (fun _ _ => U) i j = Q := by
    unfold midM2
    simp only [slopeM_same, sub_self]
    simp [MS.sumM, sourceM2, MS.half, MS.zero]
  have key : ∀ (X : MS ℝ), X.d = Q.d → X.p = Q.p → PressureClear q.settings (MS.floored q.settings X) := by
    intro X h1 h2
    simpa only [PressureClear, MS.floored, h1, h2] using hc
  rw [traceM2_mid]
  simp only [hm, slopeM_same]
  constructor <;> refine key _ ?_ ?_ <;> simp [MS.setMag, MS.addHalf, MS.subHalf, MS.zero]

/-- From every planar 2D state the stacked 3D state, and steps of both solvers, exist (version 2 of the 3D solver,
version 0 of the 2D solver); for the three versions, from a uniform state with a magnetic field and a velocity in
the plane, for which the floors do not act. -/
example (m' : Mem Arr ℝ) (hm : ∀ i j k, m' ⟨.U, i, j, k, IW⟩ = 0 ∧ m' ⟨.U, i, j, k, IC⟩ = 0) :
    let p := sampleM .periodic .dirichlet 2
    let q := sampleM .periodic .dirichlet 0
    SliceOf p q ∧ Mhd3 p ∧ Mhd2 q ∧ p.implementationVersion = 2 ∧
    (∀ i j, (ms2 m' .U i j).w = 0 ∧ (ms2 m' .U i j).c = 0) ∧
    ∃ m a a', (∀ i j k, ms m .U i j k = ms2 m' .U i j) ∧
      mhdRun3 p (fun _ _ _ _ => MS.zero) 0 [1/100] m a ∧ mhdRun2 q (fun _ _ _ _ => MS.zero) 0 [1/100] m' a' := by
  intro p q
  refine ⟨⟨rfl, rfl, rfl, rfl, rfl, rfl, rfl, rfl, rfl, rfl, rfl⟩, sampleM_mhd3 _ _ _, sampleM_mhd2 _ _ _, rfl,
    fun i j => hm i j 0, ?_⟩
  let m : Mem Arr ℝ := fun l => m' ⟨l.arr, l.i, l.j, 0, l.v⟩
  obtain ⟨a, ha⟩ := sampleM_step3 .periodic .dirichlet 2 m
  obtain ⟨a', ha'⟩ := sampleM_step .periodic .dirichlet 0 m'
  exact ⟨m, a, a', fun i j k => rfl, ⟨a, ha, rfl⟩, ⟨a', ha', rfl⟩⟩

example (v : Int) :
    let U : MS ℝ := ⟨1, 10, 1, 1/2, 0, 1/3, 1/4, 0⟩
    ClearRun (sampleM .periodic .neumann v) [1/100] (fun _ _ => U) := by
  intro U
  refine ⟨stepClear_uniform ?_ ?_, trivial⟩
  · funext i j
    unfold fillM2 ghost2
    simp [signed, flips, MS.get, sampleM, sampleMHD, rawSample, Params.init, U, ID, IP, IU, IV, IW, IA, IB, IC]
  · simp [U, sampleM, sampleMHD, rawSample, Params.init, PressureClear, MS.floored, constoprimMhd, gtb]
    norm_num

end EulerKokkos
