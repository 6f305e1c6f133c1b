import Verif.Props.C67
import Verif.Props.C11

/-!
# C67, continued: gravity after a restart, restarts of distributed runs on other process grids
-/

set_option linter.constructorNameAsVariable false
set_option linter.unusedSectionVars false
set_option linter.unusedSimpArgs false

namespace EulerKokkos
open Spec Spmd

/-! ### gravity -/

/-- gravity switched off -/
abbrev noGravity (g : GravityParams) : GravityParams := { g with enabled := false }

theorem kick2_zero (g : GravityParams) (dt : ℝ) (gv : ℝ × ℝ) (q : HS ℝ) :
    kick2 g dt (0, 0) q = kick2 (noGravity g) dt gv q := by
  unfold kick2
  simp only [mul_zero, add_zero, Bool.false_and, Bool.false_eq_true, if_false, ite_self]

theorem gravity2_zero (p : Params ℝ) (dt : ℝ) (uOld u : HS ℝ) : gravity2 p dt (0, 0) uOld u = u := by
  unfold gravity2
  simp only [mul_zero, zero_mul, add_zero, sub_self]

theorem fullStep2_zero (p : Params ℝ) (g : GravityParams) (dt : ℝ) (gf : Grav2 ℝ) (u : Fld2 ℝ) :
    fullStep2 p g dt (fun _ _ => (0, 0)) u = fullStep2 p (noGravity g) dt gf u := by
  have hf : ∀ q f i j, face2 p g dt (fun _ _ => (0, 0)) q f i j = face2 p (noGravity g) dt gf q f i j :=
    fun q f i j => kick2_zero g dt _ _
  have hx : ∀ q, fluxX2 p g dt (fun _ _ => (0, 0)) q = fluxX2 p (noGravity g) dt gf q := by
    intro q; funext i j; unfold fluxX2; rw [hf, hf]
  have hy : ∀ q, fluxY2 p g dt (fun _ _ => (0, 0)) q = fluxY2 p (noGravity g) dt gf q := by
    intro q; funext i j; unfold fluxY2; rw [hf, hf]
  funext i j
  unfold fullStep2 step2
  simp only [hx, hy, gravity2_zero, ite_self, Bool.false_eq_true, if_false]

theorem kick3_zero (g : GravityParams) (dt : ℝ) (gv : ℝ × ℝ × ℝ) (q : HS ℝ) :
    kick3 g dt (0, 0, 0) q = kick3 (noGravity g) dt gv q := by
  unfold kick3
  simp only [mul_zero, add_zero, Bool.false_and, Bool.false_eq_true, if_false, ite_self]

theorem gravity3_zero (dt : ℝ) (uOld u : HS ℝ) : gravity3 dt (0, 0, 0) uOld u = u := by
  unfold gravity3
  simp only [mul_zero, zero_mul, add_zero, sub_self]

theorem fullStep3_zero (zk : Bool) (p : Params ℝ) (g : GravityParams) (dt : ℝ) (gf : Grav3 ℝ) (u : Fld3 ℝ) :
    fullStep3 zk p g dt (fun _ _ _ => (0, 0, 0)) u = fullStep3 zk p (noGravity g) dt gf u := by
  have hf : ∀ q f i j k, face3 p g dt (fun _ _ _ => (0, 0, 0)) q f i j k =
      face3 p (noGravity g) dt gf q f i j k := fun q f i j k => kick3_zero g dt _ _
  have hx : ∀ q, fluxX3 p g dt (fun _ _ _ => (0, 0, 0)) q = fluxX3 p (noGravity g) dt gf q := by
    intro q; funext i j k; unfold fluxX3; rw [hf, hf]
  have hy : ∀ q, fluxY3 p g dt (fun _ _ _ => (0, 0, 0)) q = fluxY3 p (noGravity g) dt gf q := by
    intro q; funext i j k; unfold fluxY3; rw [hf, hf]
  have hz : ∀ q, fluxZ3 zk p g dt (fun _ _ _ => (0, 0, 0)) q = fluxZ3 zk p (noGravity g) dt gf q := by
    intro q; funext i j k; unfold fluxZ3; rw [hf, hf]
  funext i j k
  unfold fullStep3 step3
  simp only [hx, hy, hz, gravity3_zero, ite_self, Bool.false_eq_true, if_false]

/-- the states of a run are made by steps of the method -/
theorem turns_steps {X : Type} {p : Params ℝ} {M M' : Method X} {E : X → X → Prop} (hA : Agree E M M')
    {s : Sim X} {x : X} (hx : E s.x x) (k : Nat) : ∃ dts : List ℝ, dts.length = k ∧
      E ((Sim.turn p M)^[k] s).x (dts.foldl (fun u d => M'.advance d u) x) := by
  induction k with
  | zero => exact ⟨[], rfl, hx⟩
  | succ k ih =>
    obtain ⟨l, h1, h2⟩ := ih
    refine ⟨l ++ [min (M.cflDt ((Sim.turn p M)^[k] s).x) (p.tEnd - ((Sim.turn p M)^[k] s).t)],
      by rw [List.length_append, h1]; rfl, ?_⟩
    rw [Function.iterate_succ_apply', Sim.turn_x, List.foldl_append]
    exact hA.adv _ _ _ h2

/-- **Gravity is lost in a restart** (2D): `init_restart` does not set the gravity field, which a new run
allocates filled with zeros.  The run then makes time steps of the scheme without gravity, even if
gravity is enabled: after any number of iterations the interior cells hold what that number of steps
without gravity (`fullStep2` with gravity off, whatever field) makes of the initial state. -/
theorem C67_gravity_lost_2d {p : Params ℝ} (hp : Hydro2 p)
    (hi : p.implementationVersion = 0 ∨ p.implementationVersion = 1 ∨ p.implementationVersion = 2)
    (hg : GoodGrid p) (he : p.enableOutput = decide (p.nOutput ≠ 0)) (g : GravityParams)
    {ident : ℝ} (hid : ident ≤ 0) {jk : Junk ℝ} {m : Mem Arr ℝ} {t : ℝ} {sv : Int} {B : RunState ℝ}
    (hz : ∀ i j (v : Nat), inGrid2 p i j → v < 2 → m ⟨.grav, i, j, 0, v⟩ = 0)
    (hB : runMain p (hydroOps2 p g ident jk) m t sv B) (gf : Grav2 ℝ) :
    ∃ dts : List ℝ, dts.length = B.iteration ∧ ∃ u : Fld2 ℝ, Shows2 p (viewOf B.mem (pingIn B.iteration)) u ∧
      ∀ i j, interior2 p i j → u i j =
        dts.foldl (fun u d => fullStep2 p (noGravity g) d gf u) (hs2 m .U) i j := by
  obtain ⟨b1, b2⟩ := refine_run (refines_hydro2 hp hi hg g hid jk _) he
    (fun m₁ h => setup_hydro2 hp h) hB
  have hA : Agree (fun x y => ∀ i j, interior2 p i j → x i j = y i j) (hydro2 p g (gravOf m .grav))
      (hydro2 p g (fun _ _ => (0, 0))) := agree_hydro2 hp fun _ i j hij => by
    unfold gravOf
    rw [hz i j _ hij (by decide), hz i j _ hij (by decide)]
  have h0 : ∀ i j, interior2 p i j →
      (Sim.start p (fill2 p (hs2 m .U)) t sv).x i j = hs2 m .U i j := by
    intro i j hij
    rw [(Sim.start_xtn ..).1]
    obtain ⟨a, b, c, d⟩ := hij
    unfold fill2
    simp only [srcCoord_self a b, srcCoord_self c d, signed, flips_not a b, flips_not c d, if_false, hs2]
  obtain ⟨dts, d1, d2⟩ := turns_steps (p := p) hA h0 B.iteration
  refine ⟨dts, d1, _, (refines_hydro2 hp hi hg g hid jk _).view _ _ _ b2.inv, fun i j hij => ?_⟩
  rw [(Sim.result_xt ..).1]
  refine (d2 i j hij).trans ?_
  have e : (fun u d => (hydro2 p g (fun _ _ => (0, 0))).advance d u) =
      fun u d => fullStep2 p (noGravity g) d gf u := by
    funext u d
    exact fullStep2_zero p g d gf u
  rw [e]

/-- the same in 3D -/
theorem C67_gravity_lost_3d {p : Params ℝ} (hp : Hydro3 p)
    (hi : p.implementationVersion = 0 ∨ p.implementationVersion = 1 ∨ p.implementationVersion = 2)
    (hg : GoodGrid p) (he : p.enableOutput = decide (p.nOutput ≠ 0)) (g : GravityParams)
    {ident : ℝ} (hid : ident ≤ 0) {jk : Junk ℝ} {m : Mem Arr ℝ} {t : ℝ} {sv : Int} {B : RunState ℝ}
    (hz : ∀ i j k (v : Nat), inGrid3 p i j k → v < 3 → m ⟨.grav, i, j, k, v⟩ = 0)
    (hB : runMain p (hydroOps3 p g ident jk) m t sv B) (gf : Grav3 ℝ) :
    ∃ dts : List ℝ, dts.length = B.iteration ∧ ∃ u : Fld3 ℝ, Shows3 p (viewOf B.mem (pingIn B.iteration)) u ∧
      ∀ i j k, interior3 p i j k → u i j k = dts.foldl
        (fun u d => fullStep3 (zKick p.implementationVersion) p (noGravity g) d gf u) (hs3 m .U) i j k := by
  obtain ⟨b1, b2⟩ := refine_run (refines_hydro3 hp hi hg g hid jk _) he
    (fun m₁ h => setup_hydro3 hp h) hB
  have hA : Agree (fun x y => ∀ i j k, interior3 p i j k → x i j k = y i j k)
      (hydro3 (zKick p.implementationVersion) p g (gravOf3 m .grav))
      (hydro3 (zKick p.implementationVersion) p g (fun _ _ _ => (0, 0, 0))) :=
    agree_hydro3 hp fun _ i j k hij => by
      unfold gravOf3
      rw [hz i j k _ hij (by decide), hz i j k _ hij (by decide), hz i j k _ hij (by decide)]
  have h0 : ∀ i j k, interior3 p i j k →
      (Sim.start p (fill3 p (hs3 m .U)) t sv).x i j k = hs3 m .U i j k := by
    intro i j k hij
    rw [(Sim.start_xtn ..).1, fill3_interior p _ hij]
  obtain ⟨dts, d1, d2⟩ := turns_steps (p := p) hA h0 B.iteration
  refine ⟨dts, d1, _, (refines_hydro3 hp hi hg g hid jk _).view _ _ _ b2.inv, fun i j k hij => ?_⟩
  rw [(Sim.result_xt ..).1]
  refine (d2 i j k hij).trans ?_
  have e : (fun u d => (hydro3 (zKick p.implementationVersion) p g (fun _ _ _ => (0, 0, 0))).advance d u) =
      fun u d => fullStep3 (zKick p.implementationVersion) p (noGravity g) d gf u := by
    funext u d
    exact fullStep3_zero _ p g d gf u
  rw [e]

/-! ### distributed runs -/

/-- the files that have the same rank in the lists of a process and of the whole domain correspond -/
theorem forall₂_get {α β : Type} {r : α → β → Prop} {l : List α} {m : List β} (h : List.Forall₂ r l m)
    {k : Nat} {a : α} (ha : l[k]? = some a) : ∃ b, m[k]? = some b ∧ r a b := by
  induction h generalizing k with
  | nil => simp at ha
  | cons h _ ih =>
    cases k with
    | zero => simp at ha; subst ha; exact ⟨_, rfl, h⟩
    | succ k => simpa using ih (by simpa using ha)

theorem split_at {α : Type} {l : List α} {k : Nat} {a : α} (h : l[k]? = some a) :
    l = l.take k ++ a :: l.drop (k + 1) := by
  obtain ⟨hk, e⟩ := List.getElem?_eq_some_iff.1 h
  rw [← e, List.cons_getElem_drop_succ, List.take_append_drop]

theorem same_whole {T T' : Topo} {p p' : Params ℝ} (h : globalParams T' p' = globalParams T p) :
    p'.nbvar = p.nbvar ∧ p'.ghostWidth = p.ghostWidth ∧ p'.nx * T'.mx = p.nx * T.mx ∧
    p'.ny * T'.my = p.ny * T.my ∧ p'.nz * T'.mz = p.nz * T.mz ∧ p'.dimType = p.dimType ∧
    p'.mhdEnabled = p.mhdEnabled ∧ p'.implementationVersion = p.implementationVersion ∧
    p'.enableOutput = p.enableOutput ∧ p'.nOutput = p.nOutput ∧ p'.nlog = p.nlog := by
  have h1 : (globalParams T' p').nbvar = (globalParams T p).nbvar := by rw [h]
  have h2 : (globalParams T' p').ghostWidth = (globalParams T p).ghostWidth := by rw [h]
  have h3 : (globalParams T' p').nx = (globalParams T p).nx := by rw [h]
  have h4 : (globalParams T' p').ny = (globalParams T p).ny := by rw [h]
  have h5 : (globalParams T' p').nz = (globalParams T p).nz := by rw [h]
  have h6 : (globalParams T' p').dimType = (globalParams T p).dimType := by rw [h]
  have h7 : (globalParams T' p').mhdEnabled = (globalParams T p).mhdEnabled := by rw [h]
  have h8 : (globalParams T' p').implementationVersion = (globalParams T p).implementationVersion := by rw [h]
  have h9 : (globalParams T' p').enableOutput = (globalParams T p).enableOutput := by rw [h]
  have h10 : (globalParams T' p').nOutput = (globalParams T p).nOutput := by rw [h]
  have h11 : (globalParams T' p').nlog = (globalParams T p).nlog := by rw [h]
  exact ⟨h1, h2, h3, h4, h5, h6, h7, h8, h9, h10, h11⟩

/-- the global memory that shows the file `g` and has the gravity field of `G` -/
def memOfFile (g : Output ℝ) (G : Mem Arr ℝ) : Mem Arr ℝ := fun l =>
  match l.arr with
  | .U => g.data ⟨(), l.i, l.j, l.k, l.v⟩
  | _ => G l

/-- **A distributed run restarted on another process grid continues the run** (2D hydro).  Run A makes
the whole domain on the process grid `T`, and ends because `tEnd` was reached.  Its processes write
their `k`-th files `o r` collectively as HDF5 file `f`.  Run B starts from it on the process grid `T'`, with the
same whole domain.  Then it is deadlock free, of bounded length, and what its processes write are
the blocks of the files of a serial run `B` that continues the serial run `A` whose blocks run A has
written, from its file `k` on. -/
theorem C67_restart_dist_hydro_2d {lay lay' : Layout} {T T' : Topo} {p p' : Params ℝ}
    (hp : Hydro2 (localParams T p)) (hp' : Hydro2 (localParams T' p'))
    (hwide : Wide2 (localParams T p)) (hwide' : Wide2 (localParams T' p'))
    (hbc : NamedBC2 T (localParams T p)) (hbc' : NamedBC2 T' (localParams T' p'))
    (hsame : globalParams T' p' = globalParams T p) (hd : p.dimType = .two) (hn : UsualFields p)
    (hi : p.implementationVersion = 0 ∨ p.implementationVersion = 1 ∨ p.implementationVersion = 2)
    (hg : GoodGrid (localParams T p)) (hg' : GoodGrid (localParams T' p'))
    (he : p.enableOutput = decide (p.nOutput ≠ 0)) (hne : p.nOutput ≠ 0)
    (hlog : p.nlog ≠ 0) {g : GravityParams} {ident ident' : ℝ} (hid : ident ≤ 0)
    (hid' : ident' ≤ 0) {jk : T.Rank → Junk ℝ} {jk' : T'.Rank → Junk ℝ} {G : Mem Arr ℝ} {t : ℝ} {sv : Int}
    -- run A
    {m : T.Rank → Mem Arr ℝ} (hm : HoldsBlock2 T p .U (interior2 (localParams T p)) m G)
    (hgr : g.enabled = true → HoldsGravity2 T p m G)
    {buf : Prop} {n : Nat} {y : FConfig Ctl T.Rank (RunState ℝ) (Msg ℝ)}
    (hy : FSteps buf (mpiMain (localParams T p) (mpiHydro2 lay T (localParams T p) g ident jk)) n
        (FConfig.init (.pre 0) (fun r => startState (m r) t sv)) y)
    (hdone : y.Done (mpiMain (localParams T p) (mpiHydro2 lay T (localParams T p) g ident jk)))
    (hend : ∀ r, p.tEnd - 1 / 100000000000000 ≤ (y.c.st r).t)
    -- its file `k`
    {k : Nat} {o : T.Rank → Output ℝ} (ho : ∀ r, (y.c.st r).outputs[k]? = some (o r))
    {lay₁ lay₂ : Layout} {num : Int} {tim : ℝ} (hnum : ∀ r, (o r).number = num ∧ (o r).time = tim)
    {f : H5File ℝ} (hs : saveH5Mpi lay₁ {} T (localParams T p) (fun r => (o r).data) num tim f)
    -- run B starts from it
    {m' : T'.Rank → Mem Arr ℝ} {name : List Char} {disk : List Char → Option (H5File ℝ)}
    {U₀ : T'.Rank → Loc Unit → ℝ} {tc t' : ℝ} {n' : Int}
    (hname : isHdf5 name = true) (hdisk : disk name = some f)
    (hr : ∀ r, initRestart true false name disk
      (fun f U => ∃ host, loadH5Mpi lay₂ {} T' (localParams T' p') r f host U) (U₀ r) tc
      (viewOf (m' r) .U) n' t')
    (hgr' : g.enabled = true → HoldsGravity2 T' p' m' G) :
    ∃ A B : RunState ℝ, ∃ pre go post, A.outputs = pre ++ go :: post ∧ pre.length = k ∧
      (∀ r, List.Forall₂ (BlockFile2 T p r) (y.c.st r).outputs A.outputs) ∧
      Continues (SameInterior2 (globalParams T p)) (globalParams T p) pre go post A B ∧
      ∃ N, ∀ (buf : Prop) n z,
        FSteps buf (mpiMain (localParams T' p') (mpiHydro2 lay' T' (localParams T' p') g ident' jk')) n
          (FConfig.init (.pre 0) (fun r => startState (m' r) t' n')) z →
        n ≤ N ∧
        (¬ z.Done (mpiMain (localParams T' p') (mpiHydro2 lay' T' (localParams T' p') g ident' jk')) →
          ∃ w, FStep False (mpiMain (localParams T' p') (mpiHydro2 lay' T' (localParams T' p') g ident' jk'))
            z w) ∧
        (z.Done (mpiMain (localParams T' p') (mpiHydro2 lay' T' (localParams T' p') g ident' jk')) →
          ∀ r, (z.c.st r).t = B.t ∧ List.Forall₂ (BlockFile2 T' p' r) (z.c.st r).outputs B.outputs) := by
  have hpg := hydro2_global hp hwide
  have hgg : GoodGrid (globalParams T p) := ⟨hg.settings, hg.cfl, hg.dx, hg.dy, hg.dz⟩
  obtain ⟨e1, e2, e3, e4, -, e5, e6, e7, e8, e9, e10⟩ := same_whole hsame
  have r₀ : T.Rank := T.cartRank 0 0 0
  have serial : ∀ (G : Mem Arr ℝ) (t : ℝ) (sv : Int), ∃ s',
      runMain (globalParams T p) (hydroOps2 (globalParams T p) g 0 (jk r₀)) G t sv s' := by
    intro G t sv
    have hT := total_hydro2 hpg.wf hpg.faces g 0 (jk r₀)
    obtain ⟨s, hs⟩ := C14_starts (p := globalParams T p) hT G t sv
    obtain ⟨_, s', _, _, h⟩ := C14_completes (p := globalParams T p) hT hlog hs
    exact ⟨_, h⟩
  obtain ⟨A, hA⟩ := serial G t sv
  obtain ⟨_, kA⟩ := C11_run_2d hp hwide hbc hi hg he hlog hid le_rfl (jk := jk) hA hm hgr
  obtain ⟨-, a1, -⟩ := (kA buf n y hy).2.2 hdone
  obtain ⟨go, g1, g2⟩ := forall₂_get (a1 r₀).2.2.2 (ho r₀)
  have hgo : ∀ r, BlockFile2 T p r (o r) go := by
    intro r
    obtain ⟨go', g1', g2'⟩ := forall₂_get (a1 r).2.2.2 (ho r)
    obtain rfl : go = go' := Option.some.inj (g1.symm.trans g1')
    exact g2'
  have q1 : num = go.number := (hnum r₀).1.symm.trans g2.1
  have q2 : tim = go.time := (hnum r₀).2.symm.trans g2.2.1
  rw [q1, q2] at hs
  have hm' : HoldsBlock2 T' p' .U (interior2 (localParams T' p')) m' (memOfFile go G) := by
    intro r i j v hij hv
    obtain ⟨host, hl, -, -⟩ := restart_reads hname hdisk (hr r)
    exact (C66_repartition_2d hp.wf hp'.wf hd (e5.trans hd) hn
      (by unfold UsualFields at hn ⊢; rw [e1, e5, e6]; exact hn) ⟨e1, e2, e3, e4⟩ hgo hs r hl).2.2 i j v hij hv
  have r₁ : T'.Rank := T'.cartRank 0 0 0
  obtain ⟨host, hl, c1, c2⟩ := restart_reads hname hdisk (hr r₁)
  have hst := (C66_repartition_2d hp.wf hp'.wf hd (e5.trans hd) hn
      (by unfold UsualFields at hn ⊢; rw [e1, e5, e6]; exact hn) ⟨e1, e2, e3, e4⟩ hgo hs r₁ hl)
  have c3 : n' = go.number := c1.trans hst.1
  have c4 : t' = go.time := c2.trans hst.2.1
  obtain ⟨B, hB⟩ := serial (memOfFile go G) go.time go.number
  have hspl := split_at g1
  refine ⟨A, B, _, _, _, hspl, ?_, fun r => (a1 r).2.2.2, ?_, ?_⟩
  · obtain ⟨hk, -⟩ := List.getElem?_eq_some_iff.1 g1
    rw [List.length_take]; omega
  · refine continues_hydro2 hpg hi hgg he hne g le_rfl le_rfl hA ?_ hspl (m' := memOfFile go G)
      (fun i j v _ _ => rfl) (fun _ _ _ _ => rfl) hB
    rw [← (a1 r₀).2.1]; exact hend r₀
  · rw [c3, c4]
    rw [← hsame] at hB
    obtain ⟨N, kB⟩ := C11_run_2d (lay := lay') hp' hwide' hbc' (by rw [e7]; exact hi) hg'
      (by rw [e8, e9]; exact he) (by rw [e10]; exact hlog) hid' le_rfl (jk := jk') hB hm' hgr'
    refine ⟨N, fun buf n z hz => ?_⟩
    obtain ⟨k1, k2, k3⟩ := kB buf n z hz
    exact ⟨k1, k2, fun hdz r => ⟨((k3 hdz).2.1 r).2.1, ((k3 hdz).2.1 r).2.2.2⟩⟩

/-- the same in 3D -/
theorem C67_restart_dist_hydro_3d {lay lay' : Layout} {T T' : Topo} {p p' : Params ℝ}
    (hp : Hydro3 (localParams T p)) (hp' : Hydro3 (localParams T' p'))
    (hwide : Wide3 (localParams T p)) (hwide' : Wide3 (localParams T' p'))
    (hbc : NamedBC3 T (localParams T p)) (hbc' : NamedBC3 T' (localParams T' p'))
    (hsame : globalParams T' p' = globalParams T p) (hd : p.dimType = .three) (hn : UsualFields p)
    (hi : p.implementationVersion = 0 ∨ p.implementationVersion = 1 ∨ p.implementationVersion = 2)
    (hg : GoodGrid (localParams T p)) (hg' : GoodGrid (localParams T' p'))
    (he : p.enableOutput = decide (p.nOutput ≠ 0)) (hne : p.nOutput ≠ 0)
    (hlog : p.nlog ≠ 0) {g : GravityParams} {ident ident' : ℝ} (hid : ident ≤ 0)
    (hid' : ident' ≤ 0) {jk : T.Rank → Junk ℝ} {jk' : T'.Rank → Junk ℝ} {G : Mem Arr ℝ} {t : ℝ} {sv : Int}
    -- run A
    {m : T.Rank → Mem Arr ℝ} (hm : HoldsBlock T p .U (interior3 (localParams T p)) m G)
    (hgr : g.enabled = true → HoldsGravity3 T p m G)
    {buf : Prop} {n : Nat} {y : FConfig Ctl T.Rank (RunState ℝ) (Msg ℝ)}
    (hy : FSteps buf (mpiMain (localParams T p) (mpiHydro3 lay T (localParams T p) g ident jk)) n
        (FConfig.init (.pre 0) (fun r => startState (m r) t sv)) y)
    (hdone : y.Done (mpiMain (localParams T p) (mpiHydro3 lay T (localParams T p) g ident jk)))
    (hend : ∀ r, p.tEnd - 1 / 100000000000000 ≤ (y.c.st r).t)
    -- its file `k`
    {k : Nat} {o : T.Rank → Output ℝ} (ho : ∀ r, (y.c.st r).outputs[k]? = some (o r))
    {lay₁ lay₂ : Layout} {num : Int} {tim : ℝ} (hnum : ∀ r, (o r).number = num ∧ (o r).time = tim)
    {f : H5File ℝ} (hs : saveH5Mpi lay₁ {} T (localParams T p) (fun r => (o r).data) num tim f)
    -- run B starts from it
    {m' : T'.Rank → Mem Arr ℝ} {name : List Char} {disk : List Char → Option (H5File ℝ)}
    {U₀ : T'.Rank → Loc Unit → ℝ} {tc t' : ℝ} {n' : Int}
    (hname : isHdf5 name = true) (hdisk : disk name = some f)
    (hr : ∀ r, initRestart true false name disk
      (fun f U => ∃ host, loadH5Mpi lay₂ {} T' (localParams T' p') r f host U) (U₀ r) tc
      (viewOf (m' r) .U) n' t')
    (hgr' : g.enabled = true → HoldsGravity3 T' p' m' G) :
    ∃ A B : RunState ℝ, ∃ pre go post, A.outputs = pre ++ go :: post ∧ pre.length = k ∧
      (∀ r, List.Forall₂ (BlockFile3 T p r) (y.c.st r).outputs A.outputs) ∧
      Continues (SameInterior3 (globalParams T p)) (globalParams T p) pre go post A B ∧
      ∃ N, ∀ (buf : Prop) n z,
        FSteps buf (mpiMain (localParams T' p') (mpiHydro3 lay' T' (localParams T' p') g ident' jk')) n
          (FConfig.init (.pre 0) (fun r => startState (m' r) t' n')) z →
        n ≤ N ∧
        (¬ z.Done (mpiMain (localParams T' p') (mpiHydro3 lay' T' (localParams T' p') g ident' jk')) →
          ∃ w, FStep False (mpiMain (localParams T' p') (mpiHydro3 lay' T' (localParams T' p') g ident' jk'))
            z w) ∧
        (z.Done (mpiMain (localParams T' p') (mpiHydro3 lay' T' (localParams T' p') g ident' jk')) →
          ∀ r, (z.c.st r).t = B.t ∧ List.Forall₂ (BlockFile3 T' p' r) (z.c.st r).outputs B.outputs) := by
  have hpg := hydro3_global hp hwide
  have hgg : GoodGrid (globalParams T p) := ⟨hg.settings, hg.cfl, hg.dx, hg.dy, hg.dz⟩
  obtain ⟨e1, e2, e3, e4, e4', e5, e6, e7, e8, e9, e10⟩ := same_whole hsame
  have r₀ : T.Rank := T.cartRank 0 0 0
  have serial : ∀ (G : Mem Arr ℝ) (t : ℝ) (sv : Int), ∃ s',
      runMain (globalParams T p) (hydroOps3 (globalParams T p) g 0 (jk r₀)) G t sv s' := by
    intro G t sv
    have hT := total_hydro3 hpg.wf hpg.faces g 0 (jk r₀)
    obtain ⟨s, hs⟩ := C14_starts (p := globalParams T p) hT G t sv
    obtain ⟨_, s', _, _, h⟩ := C14_completes (p := globalParams T p) hT hlog hs
    exact ⟨_, h⟩
  obtain ⟨A, hA⟩ := serial G t sv
  obtain ⟨_, kA⟩ := C11_run_3d hp hwide hbc hi hg he hlog hid le_rfl (jk := jk) hA hm hgr
  obtain ⟨-, a1, -⟩ := (kA buf n y hy).2.2 hdone
  obtain ⟨go, g1, g2⟩ := forall₂_get (a1 r₀).2.2.2 (ho r₀)
  have hgo : ∀ r, BlockFile3 T p r (o r) go := by
    intro r
    obtain ⟨go', g1', g2'⟩ := forall₂_get (a1 r).2.2.2 (ho r)
    obtain rfl : go = go' := Option.some.inj (g1.symm.trans g1')
    exact g2'
  have q1 : num = go.number := (hnum r₀).1.symm.trans g2.1
  have q2 : tim = go.time := (hnum r₀).2.symm.trans g2.2.1
  rw [q1, q2] at hs
  have hm' : HoldsBlock T' p' .U (interior3 (localParams T' p')) m' (memOfFile go G) := by
    intro r i j l v hij hv
    obtain ⟨host, hl, -, -⟩ := restart_reads hname hdisk (hr r)
    exact (C66_repartition_3d hp.wf hp'.wf hd (e5.trans hd) hn
      (by unfold UsualFields at hn ⊢; rw [e1, e5, e6]; exact hn) ⟨e1, e2, e3, e4, e4'⟩ hgo hs r hl).2.2 i j l v hij hv
  have r₁ : T'.Rank := T'.cartRank 0 0 0
  obtain ⟨host, hl, c1, c2⟩ := restart_reads hname hdisk (hr r₁)
  have hst := (C66_repartition_3d hp.wf hp'.wf hd (e5.trans hd) hn
      (by unfold UsualFields at hn ⊢; rw [e1, e5, e6]; exact hn) ⟨e1, e2, e3, e4, e4'⟩ hgo hs r₁ hl)
  have c3 : n' = go.number := c1.trans hst.1
  have c4 : t' = go.time := c2.trans hst.2.1
  obtain ⟨B, hB⟩ := serial (memOfFile go G) go.time go.number
  have hspl := split_at g1
  refine ⟨A, B, _, _, _, hspl, ?_, fun r => (a1 r).2.2.2, ?_, ?_⟩
  · obtain ⟨hk, -⟩ := List.getElem?_eq_some_iff.1 g1
    rw [List.length_take]; omega
  · refine continues_hydro3 hpg hi hgg he hne g le_rfl le_rfl hA ?_ hspl (m' := memOfFile go G)
      (fun i j l v _ _ => rfl) (fun _ _ _ _ _ => rfl) hB
    rw [← (a1 r₀).2.1]; exact hend r₀
  · rw [c3, c4]
    rw [← hsame] at hB
    obtain ⟨N, kB⟩ := C11_run_3d (lay := lay') hp' hwide' hbc' (by rw [e7]; exact hi) hg'
      (by rw [e8, e9]; exact he) (by rw [e10]; exact hlog) hid' le_rfl (jk := jk') hB hm' hgr'
    refine ⟨N, fun buf n z hz => ?_⟩
    obtain ⟨k1, k2, k3⟩ := kB buf n z hz
    exact ⟨k1, k2, fun hdz r => ⟨((k3 hdz).2.1 r).2.1, ((k3 hdz).2.1 r).2.2.2⟩⟩

/-- the same for 2D MHD -/
theorem C67_restart_dist_mhd_2d {lay lay' : Layout} {T T' : Topo} {p p' : Params ℝ}
    (hp : Mhd2 (localParams T p)) (hp' : Mhd2 (localParams T' p'))
    (hwide : Wide2 (localParams T p)) (hwide' : Wide2 (localParams T' p'))
    (hbc : NamedBC2 T (localParams T p)) (hbc' : NamedBC2 T' (localParams T' p'))
    (hsame : globalParams T' p' = globalParams T p) (hd : p.dimType = .two) (hn : UsualFields p)
    (hi : p.implementationVersion = 0 ∨ p.implementationVersion = 1 ∨ p.implementationVersion = 2)
    (hg : GoodGrid (localParams T p)) (hg' : GoodGrid (localParams T' p'))
    (he : p.enableOutput = decide (p.nOutput ≠ 0)) (hne : p.nOutput ≠ 0)
    (hlog : p.nlog ≠ 0) {ident ident' : ℝ} (hid : ident ≤ 0)
    (hid' : ident' ≤ 0) {jk : T.Rank → JunkM ℝ} {jk' : T'.Rank → JunkM ℝ} {G : Mem Arr ℝ} {t : ℝ} {sv : Int}
    -- run A
    {m : T.Rank → Mem Arr ℝ} (hm : HoldsBlock2 T p .U (interior2 (localParams T p)) m G)
    {buf : Prop} {n : Nat} {y : FConfig Ctl T.Rank (RunState ℝ) (Msg ℝ)}
    (hy : FSteps buf (mpiMain (localParams T p) (mpiMhd2 lay T (localParams T p) ident jk)) n
        (FConfig.init (.pre 0) (fun r => startState (m r) t sv)) y)
    (hdone : y.Done (mpiMain (localParams T p) (mpiMhd2 lay T (localParams T p) ident jk)))
    (hend : ∀ r, p.tEnd - 1 / 100000000000000 ≤ (y.c.st r).t)
    -- its file `k`
    {k : Nat} {o : T.Rank → Output ℝ} (ho : ∀ r, (y.c.st r).outputs[k]? = some (o r))
    {lay₁ lay₂ : Layout} {num : Int} {tim : ℝ} (hnum : ∀ r, (o r).number = num ∧ (o r).time = tim)
    {f : H5File ℝ} (hs : saveH5Mpi lay₁ {} T (localParams T p) (fun r => (o r).data) num tim f)
    -- run B starts from it
    {m' : T'.Rank → Mem Arr ℝ} {name : List Char} {disk : List Char → Option (H5File ℝ)}
    {U₀ : T'.Rank → Loc Unit → ℝ} {tc t' : ℝ} {n' : Int}
    (hname : isHdf5 name = true) (hdisk : disk name = some f)
    (hr : ∀ r, initRestart true false name disk
      (fun f U => ∃ host, loadH5Mpi lay₂ {} T' (localParams T' p') r f host U) (U₀ r) tc
      (viewOf (m' r) .U) n' t') :
    ∃ A B : RunState ℝ, ∃ pre go post, A.outputs = pre ++ go :: post ∧ pre.length = k ∧
      (∀ r, List.Forall₂ (BlockFile2 T p r) (y.c.st r).outputs A.outputs) ∧
      Continues (SameInterior2 (globalParams T p)) (globalParams T p) pre go post A B ∧
      ∃ N, ∀ (buf : Prop) n z,
        FSteps buf (mpiMain (localParams T' p') (mpiMhd2 lay' T' (localParams T' p') ident' jk')) n
          (FConfig.init (.pre 0) (fun r => startState (m' r) t' n')) z →
        n ≤ N ∧
        (¬ z.Done (mpiMain (localParams T' p') (mpiMhd2 lay' T' (localParams T' p') ident' jk')) →
          ∃ w, FStep False (mpiMain (localParams T' p') (mpiMhd2 lay' T' (localParams T' p') ident' jk'))
            z w) ∧
        (z.Done (mpiMain (localParams T' p') (mpiMhd2 lay' T' (localParams T' p') ident' jk')) →
          ∀ r, (z.c.st r).t = B.t ∧ List.Forall₂ (BlockFile2 T' p' r) (z.c.st r).outputs B.outputs) := by
  have hpg := mhd2_global hp hwide
  have hgg : GoodGrid (globalParams T p) := ⟨hg.settings, hg.cfl, hg.dx, hg.dy, hg.dz⟩
  obtain ⟨e1, e2, e3, e4, -, e5, e6, e7, e8, e9, e10⟩ := same_whole hsame
  have r₀ : T.Rank := T.cartRank 0 0 0
  have serial : ∀ (G : Mem Arr ℝ) (t : ℝ) (sv : Int), ∃ s',
      runMain (globalParams T p) (mhdOps2 (globalParams T p) 0 (jk r₀)) G t sv s' := by
    intro G t sv
    have hT := total_mhd2 hpg.wf hpg.faces 0 (jk r₀)
    obtain ⟨s, hs⟩ := C14_starts (p := globalParams T p) hT G t sv
    obtain ⟨_, s', _, _, h⟩ := C14_completes (p := globalParams T p) hT hlog hs
    exact ⟨_, h⟩
  obtain ⟨A, hA⟩ := serial G t sv
  obtain ⟨_, kA⟩ := C60_run_2d hp hwide hbc hi hg he hlog hid le_rfl (jk := jk) hA hm
  obtain ⟨-, a1, -⟩ := (kA buf n y hy).2.2 hdone
  obtain ⟨go, g1, g2⟩ := forall₂_get (a1 r₀).2.2.2 (ho r₀)
  have hgo : ∀ r, BlockFile2 T p r (o r) go := by
    intro r
    obtain ⟨go', g1', g2'⟩ := forall₂_get (a1 r).2.2.2 (ho r)
    obtain rfl : go = go' := Option.some.inj (g1.symm.trans g1')
    exact g2'
  have q1 : num = go.number := (hnum r₀).1.symm.trans g2.1
  have q2 : tim = go.time := (hnum r₀).2.symm.trans g2.2.1
  rw [q1, q2] at hs
  have hm' : HoldsBlock2 T' p' .U (interior2 (localParams T' p')) m' (memOfFile go G) := by
    intro r i j v hij hv
    obtain ⟨host, hl, -, -⟩ := restart_reads hname hdisk (hr r)
    exact (C66_repartition_2d hp.wf hp'.wf hd (e5.trans hd) hn
      (by unfold UsualFields at hn ⊢; rw [e1, e5, e6]; exact hn) ⟨e1, e2, e3, e4⟩ hgo hs r hl).2.2 i j v hij hv
  have r₁ : T'.Rank := T'.cartRank 0 0 0
  obtain ⟨host, hl, c1, c2⟩ := restart_reads hname hdisk (hr r₁)
  have hst := (C66_repartition_2d hp.wf hp'.wf hd (e5.trans hd) hn
      (by unfold UsualFields at hn ⊢; rw [e1, e5, e6]; exact hn) ⟨e1, e2, e3, e4⟩ hgo hs r₁ hl)
  have c3 : n' = go.number := c1.trans hst.1
  have c4 : t' = go.time := c2.trans hst.2.1
  obtain ⟨B, hB⟩ := serial (memOfFile go G) go.time go.number
  have hspl := split_at g1
  refine ⟨A, B, _, _, _, hspl, ?_, fun r => (a1 r).2.2.2, ?_, ?_⟩
  · obtain ⟨hk, -⟩ := List.getElem?_eq_some_iff.1 g1
    rw [List.length_take]; omega
  · refine continues_mhd2 hpg hi hgg he hne le_rfl le_rfl hA ?_ hspl (m' := memOfFile go G)
      (fun i j v _ _ => rfl) hB
    rw [← (a1 r₀).2.1]; exact hend r₀
  · rw [c3, c4]
    rw [← hsame] at hB
    obtain ⟨N, kB⟩ := C60_run_2d (lay := lay') hp' hwide' hbc' (by rw [e7]; exact hi) hg'
      (by rw [e8, e9]; exact he) (by rw [e10]; exact hlog) hid' le_rfl (jk := jk') hB hm'
    refine ⟨N, fun buf n z hz => ?_⟩
    obtain ⟨k1, k2, k3⟩ := kB buf n z hz
    exact ⟨k1, k2, fun hdz r => ⟨((k3 hdz).2.1 r).2.1, ((k3 hdz).2.1 r).2.2.2⟩⟩

/-- the same for 3D MHD -/
theorem C67_restart_dist_mhd_3d {lay lay' : Layout} {T T' : Topo} {p p' : Params ℝ}
    (hp : Mhd3 (localParams T p)) (hp' : Mhd3 (localParams T' p'))
    (hwide : Wide3 (localParams T p)) (hwide' : Wide3 (localParams T' p'))
    (hbc : NamedBC3 T (localParams T p)) (hbc' : NamedBC3 T' (localParams T' p'))
    (hsame : globalParams T' p' = globalParams T p) (hd : p.dimType = .three) (hn : UsualFields p)
    (hi : p.implementationVersion = 0 ∨ p.implementationVersion = 1 ∨ p.implementationVersion = 2)
    (hg : GoodGrid (localParams T p)) (hg' : GoodGrid (localParams T' p'))
    (he : p.enableOutput = decide (p.nOutput ≠ 0)) (hne : p.nOutput ≠ 0)
    (hlog : p.nlog ≠ 0) {ident ident' : ℝ} (hid : ident ≤ 0)
    (hid' : ident' ≤ 0) {jk : T.Rank → JunkM ℝ} {jk' : T'.Rank → JunkM ℝ} {G : Mem Arr ℝ} {t : ℝ} {sv : Int}
    -- run A
    {m : T.Rank → Mem Arr ℝ} (hm : HoldsBlock T p .U (interior3 (localParams T p)) m G)
    {buf : Prop} {n : Nat} {y : FConfig Ctl T.Rank (RunState ℝ) (Msg ℝ)}
    (hy : FSteps buf (mpiMain (localParams T p) (mpiMhd3 lay T (localParams T p) ident jk)) n
        (FConfig.init (.pre 0) (fun r => startState (m r) t sv)) y)
    (hdone : y.Done (mpiMain (localParams T p) (mpiMhd3 lay T (localParams T p) ident jk)))
    (hend : ∀ r, p.tEnd - 1 / 100000000000000 ≤ (y.c.st r).t)
    -- its file `k`
    {k : Nat} {o : T.Rank → Output ℝ} (ho : ∀ r, (y.c.st r).outputs[k]? = some (o r))
    {lay₁ lay₂ : Layout} {num : Int} {tim : ℝ} (hnum : ∀ r, (o r).number = num ∧ (o r).time = tim)
    {f : H5File ℝ} (hs : saveH5Mpi lay₁ {} T (localParams T p) (fun r => (o r).data) num tim f)
    -- run B starts from it
    {m' : T'.Rank → Mem Arr ℝ} {name : List Char} {disk : List Char → Option (H5File ℝ)}
    {U₀ : T'.Rank → Loc Unit → ℝ} {tc t' : ℝ} {n' : Int}
    (hname : isHdf5 name = true) (hdisk : disk name = some f)
    (hr : ∀ r, initRestart true false name disk
      (fun f U => ∃ host, loadH5Mpi lay₂ {} T' (localParams T' p') r f host U) (U₀ r) tc
      (viewOf (m' r) .U) n' t') :
    ∃ A B : RunState ℝ, ∃ pre go post, A.outputs = pre ++ go :: post ∧ pre.length = k ∧
      (∀ r, List.Forall₂ (BlockFile3 T p r) (y.c.st r).outputs A.outputs) ∧
      Continues (SameInterior3 (globalParams T p)) (globalParams T p) pre go post A B ∧
      ∃ N, ∀ (buf : Prop) n z,
        FSteps buf (mpiMain (localParams T' p') (mpiMhd3 lay' T' (localParams T' p') ident' jk')) n
          (FConfig.init (.pre 0) (fun r => startState (m' r) t' n')) z →
        n ≤ N ∧
        (¬ z.Done (mpiMain (localParams T' p') (mpiMhd3 lay' T' (localParams T' p') ident' jk')) →
          ∃ w, FStep False (mpiMain (localParams T' p') (mpiMhd3 lay' T' (localParams T' p') ident' jk'))
            z w) ∧
        (z.Done (mpiMain (localParams T' p') (mpiMhd3 lay' T' (localParams T' p') ident' jk')) →
          ∀ r, (z.c.st r).t = B.t ∧ List.Forall₂ (BlockFile3 T' p' r) (z.c.st r).outputs B.outputs) := by
  have hpg := mhd3_global hp hwide
  have hgg : GoodGrid (globalParams T p) := ⟨hg.settings, hg.cfl, hg.dx, hg.dy, hg.dz⟩
  obtain ⟨e1, e2, e3, e4, e4', e5, e6, e7, e8, e9, e10⟩ := same_whole hsame
  have r₀ : T.Rank := T.cartRank 0 0 0
  have serial : ∀ (G : Mem Arr ℝ) (t : ℝ) (sv : Int), ∃ s',
      runMain (globalParams T p) (mhdOps3 (globalParams T p) 0 (jk r₀)) G t sv s' := by
    intro G t sv
    have hT := total_mhd3 hpg.wf hpg.faces 0 (jk r₀)
    obtain ⟨s, hs⟩ := C14_starts (p := globalParams T p) hT G t sv
    obtain ⟨_, s', _, _, h⟩ := C14_completes (p := globalParams T p) hT hlog hs
    exact ⟨_, h⟩
  obtain ⟨A, hA⟩ := serial G t sv
  obtain ⟨_, kA⟩ := C60_run_3d hp hwide hbc hi hg he hlog hid le_rfl (jk := jk) hA hm
  obtain ⟨-, a1, -⟩ := (kA buf n y hy).2.2 hdone
  obtain ⟨go, g1, g2⟩ := forall₂_get (a1 r₀).2.2.2 (ho r₀)
  have hgo : ∀ r, BlockFile3 T p r (o r) go := by
    intro r
    obtain ⟨go', g1', g2'⟩ := forall₂_get (a1 r).2.2.2 (ho r)
    obtain rfl : go = go' := Option.some.inj (g1.symm.trans g1')
    exact g2'
  have q1 : num = go.number := (hnum r₀).1.symm.trans g2.1
  have q2 : tim = go.time := (hnum r₀).2.symm.trans g2.2.1
  rw [q1, q2] at hs
  have hm' : HoldsBlock T' p' .U (interior3 (localParams T' p')) m' (memOfFile go G) := by
    intro r i j l v hij hv
    obtain ⟨host, hl, -, -⟩ := restart_reads hname hdisk (hr r)
    exact (C66_repartition_3d hp.wf hp'.wf hd (e5.trans hd) hn
      (by unfold UsualFields at hn ⊢; rw [e1, e5, e6]; exact hn) ⟨e1, e2, e3, e4, e4'⟩ hgo hs r hl).2.2 i j l v hij hv
  have r₁ : T'.Rank := T'.cartRank 0 0 0
  obtain ⟨host, hl, c1, c2⟩ := restart_reads hname hdisk (hr r₁)
  have hst := (C66_repartition_3d hp.wf hp'.wf hd (e5.trans hd) hn
      (by unfold UsualFields at hn ⊢; rw [e1, e5, e6]; exact hn) ⟨e1, e2, e3, e4, e4'⟩ hgo hs r₁ hl)
  have c3 : n' = go.number := c1.trans hst.1
  have c4 : t' = go.time := c2.trans hst.2.1
  obtain ⟨B, hB⟩ := serial (memOfFile go G) go.time go.number
  have hspl := split_at g1
  refine ⟨A, B, _, _, _, hspl, ?_, fun r => (a1 r).2.2.2, ?_, ?_⟩
  · obtain ⟨hk, -⟩ := List.getElem?_eq_some_iff.1 g1
    rw [List.length_take]; omega
  · refine continues_mhd3 hpg hi hgg he hne le_rfl le_rfl hA ?_ hspl (m' := memOfFile go G)
      (fun i j l v _ _ => rfl) hB
    rw [← (a1 r₀).2.1]; exact hend r₀
  · rw [c3, c4]
    rw [← hsame] at hB
    obtain ⟨N, kB⟩ := C60_run_3d (lay := lay') hp' hwide' hbc' (by rw [e7]; exact hi) hg'
      (by rw [e8, e9]; exact he) (by rw [e10]; exact hlog) hid' le_rfl (jk := jk') hB hm'
    refine ⟨N, fun buf n z hz => ?_⟩
    obtain ⟨k1, k2, k3⟩ := kB buf n z hz
    exact ⟨k1, k2, fun hdz r => ⟨((k3 hdz).2.1 r).2.1, ((k3 hdz).2.1 r).2.2.2⟩⟩

/-! ### non-vacuity -/

/-- a run whose end is one CFL time step after its start reaches it -/
theorem Sim.one_step {X : Type} {p : Params ℝ} {M : Method X} {x : X} {sv : Int} {k : Nat}
    (hend : p.tEnd = M.cflDt x) (hs : 1 < p.nStepmax) (h : Sim.Length p M x 0 sv k) :
    p.tEnd - 1 / 100000000000000 ≤ (Sim.result p M x 0 sv k).t ∧ k ≤ 1 := by
  have h1 : ((Sim.turn p M)^[1] (Sim.start p x 0 sv)).t = p.tEnd := by
    rw [Function.iterate_one, Sim.turn_t, (Sim.start_xtn ..).2.1, (Sim.start_xtn ..).1, hend]
    simp
  have hk : k ≤ 1 := by
    by_contra hk
    exact h.2 1 (by omega) (Or.inl (by rw [h1]; norm_num))
  refine ⟨?_, hk⟩
  rw [(Sim.result_xt ..).2]
  rcases h.1 with h | h
  · exact h
  · rw [Sim.turns_n, (Sim.start_xtn ..).2.2] at h
    push_cast at h
    omega

/-- the sample parameters, with an end of the run -/
noncomputable def sampleEnd (tEnd : ℝ) : Params ℝ := { sample .periodic .dirichlet with tEnd := tEnd }

theorem sampleEnd_hydro2 (T : ℝ) : Hydro2 (sampleEnd T) :=
  have h := sample_hydro2 .periodic .dirichlet
  ⟨⟨h.wf.nx_pos, h.wf.ny_pos, h.wf.nz_pos, h.wf.gw_pos, h.wf.imin_eq, h.wf.jmin_eq, h.wf.kmin_eq,
    h.wf.imax_eq, h.wf.jmax_eq, h.wf.kmax_eq, h.wf.isize_eq, h.wf.jsize_eq, h.wf.ksize_eq⟩, h.nbvar,
    ⟨h.valid.slope, h.valid.riemann⟩, h.faces⟩

theorem sampleEnd_good (T : ℝ) : GoodGrid (sampleEnd T) :=
  have h := sample_goodGrid .periodic .dirichlet
  ⟨h.settings, h.cfl, h.dx, h.dy, h.dz⟩

/-- whatever the initial state there is a run that reaches its end, a file of it, and a run restarted from
that file: they meet the hypotheses of `C67_restart_hydro_2d` -/
example (m : Mem Arr ℝ) (jk : Junk ℝ) : ∃ T : ℝ, ∃ A B : RunState ℝ, ∃ pre o post, ∃ m' : Mem Arr ℝ,
    ∃ f, ∃ t' n,
    runMain (sampleEnd T) (hydroOps2 (sampleEnd T) ⟨false, false⟩ (-1) jk) m 0 0 A ∧
    (sampleEnd T).tEnd - 1 / 100000000000000 ≤ A.t ∧ A.outputs = pre ++ o :: post ∧
    saveH5 .left {} (sampleEnd T) o.data o.number o.time f ∧
    initRestart true false "a.h5".toList (fun _ => some f)
      (fun f U => ∃ host, loadH5 .right {} (sampleEnd T) f host U) (fun _ => 0) 0 (viewOf m' .U) n t' ∧
    runMain (sampleEnd T) (hydroOps2 (sampleEnd T) ⟨false, false⟩ (-1) jk) m' t' n B ∧
    Continues (SameInterior2 (sampleEnd T)) (sampleEnd T) pre o post A B := by
  obtain ⟨T, hT⟩ : ∃ T, T = cflDt2 (sample .periodic .dirichlet) ⟨false, false⟩ (gravOf m .grav)
    (fill2 (sample .periodic .dirichlet) (hs2 m .U)) := ⟨_, rfl⟩
  have hp := sampleEnd_hydro2 T
  have hg := sampleEnd_good T
  have he : (sampleEnd T).enableOutput = decide ((sampleEnd T).nOutput ≠ 0) := by
    simp [sampleEnd, sample, rawSample, Params.init]
  have hne : (sampleEnd T).nOutput ≠ 0 := by simp [sampleEnd, sample, rawSample, Params.init]
  have hi : (sampleEnd T).implementationVersion = 0 ∨ (sampleEnd T).implementationVersion = 1 ∨
    (sampleEnd T).implementationVersion = 2 := by simp [sampleEnd, sample, rawSample, Params.init]
  have hu : UsualFields (sampleEnd T) := by
    simp [UsualFields, sampleEnd, sample, rawSample, Params.init]
  have hid : (-1 : ℝ) ≤ 0 := by norm_num
  have runs : ∀ (m : Mem Arr ℝ) (t : ℝ) (sv : Int), ∃ s', runMain (sampleEnd T)
      (hydroOps2 (sampleEnd T) ⟨false, false⟩ (-1) jk) m t sv s' := fun m t sv =>
    (C14_hydro_completes hp.wf (sample_faces3 .periodic .dirichlet) _ _ _
      (by simp [sampleEnd, sample, rawSample, Params.init]) m t sv).1
  obtain ⟨A, hA⟩ := runs m 0 0
  obtain ⟨a1, a2⟩ := refine_run (refines_hydro2 hp hi hg _ hid jk _) he
    (fun m₁ h => setup_hydro2 hp h) hA
  have hend := (Sim.one_step (hs := by simp [sampleEnd, sample, rawSample, Params.init])
    (hend := hT) (h := a1)).1
  rw [← a2.t] at hend
  obtain ⟨o, post, ho⟩ : ∃ o post, A.outputs = o :: post := by
    cases h : A.outputs with
    | nil =>
      have hf := a2.files
      rw [h] at hf
      have := (forall₂_nil_iff hf).1 rfl
      unfold Sim.result at this
      rw [if_pos hne] at this
      simp [Sim.save] at this
    | cons o post => exact ⟨o, post, rfl⟩
  obtain ⟨f, hf⟩ := saveH5_exists .left {} (sampleEnd T) o.data o.number o.time
  obtain ⟨U, hU⟩ : ∃ U, loadH5 .right {} (sampleEnd T) f (fun _ => 0) U := readFields_exists ..
  have hr : initRestart true false "a.h5".toList (fun _ => some f)
      (fun f U => ∃ host, loadH5 .right {} (sampleEnd T) f host U) (fun _ => 0) 0
      (viewOf (fun l => U ⟨(), l.i, l.j, l.k, l.v⟩) .U) f.step f.time :=
    ⟨f.time, rfl, by
      rw [if_pos (by decide)]
      exact ⟨f, rfl, ⟨_, hU⟩, rfl, rfl⟩⟩
  obtain ⟨B, hB⟩ := runs (fun l => U ⟨(), l.i, l.j, l.k, l.v⟩) f.time f.step
  exact ⟨T, A, B, [], o, post, _, f, _, _, hA, hend, ho, hf, hr, hB,
    C67_restart_hydro_2d hp rfl hu hi hg he hne _ hid hid hA hend ho hf (by decide) rfl hr
      (by simp) hB⟩

/-- the whole domain of 12 × 6 cells on 3 × 2 processes and on one -/
example : ∃ T' : Topo, T'.size = 1 ∧
    globalParams T' sampleWhole = globalParams topo321 (sample .periodic .periodic) := by
  refine ⟨⟨1, 1, 1, by norm_num, by norm_num, by norm_num⟩, by simp [Topo.size], ?_⟩
  simp [globalParams, sampleWhole, sample, rawSample, Params.init, topo321]

end EulerKokkos
