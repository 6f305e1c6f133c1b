import Verif.Lemmas.Flow
import Verif.Lemmas.DistStep
import Verif.Props.C15

/-!
# A distributed run refines the sequential algorithm
-/

set_option linter.constructorNameAsVariable false
set_option linter.unusedSectionVars false
set_option linter.unusedSimpArgs false

namespace EulerKokkos
open Spec Spmd

/-! ### Phases that work on the views only -/

theorem BulkRel.onMem {R : Type} [RealOps R] {ρ : Type} {l : List (Phase ρ (Mem Arr R) (Msg R))}
    {m m' : ρ → Mem Arr R} (h : BulkRel l m m') {s : ρ → RunState R} (hs : ∀ r, (s r).mem = m r) :
    BulkRel (l.map onMem) s (fun r => { s r with mem := m' r }) := by
  induction l generalizing m s with
  | nil =>
    obtain ⟨hist, _, h0, h1⟩ := h
    have e : m = m' := h0.symm.trans h1
    subst e
    have : (fun r => { s r with mem := m r }) = s := by
      funext r; rw [← hs r]
    rw [this]
    exact BulkRel.nil s
  | cons ph l ih =>
    obtain ⟨b, h1, h2⟩ := h.uncons
    have hh : BulkRel [EulerKokkos.onMem ph] s (fun r => { s r with mem := b r }) := by
      obtain ⟨hist, hb, h0, h1⟩ := h1
      have hb0 := hb 0 ph rfl
      have h1' : hist 1 = b := h1
      refine BulkRel.single (fun r => ?_)
      have := hb0 r
      cases ph with
      | loc k =>
        intro s'
        constructor
        · rintro ⟨m1, hk, rfl⟩
          rw [hs r] at hk
          rw [h0, zero_add, h1'] at this
          rw [(this _).1 hk]
        · rintro rfl
          refine ⟨_, ?_, rfl⟩
          rw [hs r]
          rw [h0, zero_add, h1'] at this
          exact (this _).2 rfl
      | exch dst src tS tR pack unpack =>
        simp only [EulerKokkos.onMem] at *
        rw [h0, zero_add, h1'] at this
        rw [hs r, hs (src r), this]
      | coll contrib combine =>
        simp only [EulerKokkos.onMem] at *
        rw [h0, zero_add, h1'] at this
        rw [this, hs r]
        simp only [hs]
    have := ih h2 (s := fun r => { s r with mem := b r }) (fun r => rfl)
    exact hh.cons this

theorem matched_onMem {R : Type} [RealOps R] {ρ : Type} {l : List (Phase ρ (Mem Arr R) (Msg R))}
    (h : Matched l) : Matched (l.map EulerKokkos.onMem) := by
  intro n dst src tS tR pack unpack hn
  rw [List.getElem?_map] at hn
  cases hl : l[n]? with
  | none => rw [hl] at hn; simp at hn
  | some ph =>
    rw [hl] at hn
    simp only [Option.map_some, Option.some.injEq] at hn
    cases ph with
    | loc k => simp [EulerKokkos.onMem] at hn
    | coll f g => simp [EulerKokkos.onMem] at hn
    | exch d s a b pk upk =>
      simp only [EulerKokkos.onMem, Phase.exch.injEq] at hn
      obtain ⟨rfl, rfl, rfl, rfl, _⟩ := hn
      exact h n d s a b pk upk hl

/-! ### The reduction -/

theorem foldl_min (l : List ℝ) (a : ℝ) :
    (l.foldl fmin a ≤ a ∧ ∀ b ∈ l, l.foldl fmin a ≤ b) ∧
      (l.foldl fmin a = a ∨ ∃ b ∈ l, l.foldl fmin a = b) := by
  induction l generalizing a with
  | nil => simp
  | cons c l ih =>
    obtain ⟨⟨h1, h2⟩, h3⟩ := ih (fmin a c)
    simp only [List.foldl_cons]
    rw [RealOps.fmin_real] at *
    refine ⟨⟨h1.trans (min_le_left _ _), fun b hb => ?_⟩, ?_⟩
    · rcases List.mem_cons.1 hb with rfl | hb
      · exact h1.trans (min_le_right _ _)
      · exact h2 b hb
    · rcases h3 with h3 | ⟨b, hb, h3⟩
      · rcases min_choice a c with h | h
        · exact Or.inl (h3.trans h)
        · exact Or.inr ⟨c, by simp, h3.trans h⟩
      · exact Or.inr ⟨b, by simp [hb], h3⟩

theorem minOver_eq {n : Nat} {v : Fin n → ℝ} {x : ℝ} (h : Spec.AllreduceMin v x) :
    minOver v = x := by
  obtain ⟨h1, a, h2⟩ := h
  unfold minOver
  have hmem : v a ∈ (List.finRange n).map v := List.mem_map_of_mem (List.mem_finRange a)
  have hall : ∀ b ∈ (List.finRange n).map v, x ≤ b := by
    intro b hb
    obtain ⟨i, _, rfl⟩ := List.mem_map.1 hb
    exact h1 i
  cases hl : (List.finRange n).map v with
  | nil => rw [hl] at hmem; simp at hmem
  | cons b l =>
    rw [hl] at hmem hall
    obtain ⟨⟨k1, k2⟩, k3⟩ := foldl_min l b
    apply le_antisymm
    · rw [h2]
      rcases List.mem_cons.1 hmem with h | h
      · rw [h]; exact k1
      · exact k2 _ h
    · rcases k3 with h | ⟨c, hc, h⟩
      · simp only [h]; exact hall b (by simp)
      · simp only [h]; exact hall c (by simp [hc])

/-! ### Refinement -/

variable {X : Type} {T : Topo} {p : Params ℝ} {O : MpiOps T ℝ}

/-- The distributed kernels implement a numerical method: `Inv n m x` says that at the start of
iteration `n` the memories of the ranks together hold `x`; `View r` that a file written by rank `r`
shows its part of `x`. -/
structure DistRefines (O : MpiOps T ℝ) (M : Method X)
    (Inv : Nat → (T.Rank → Mem Arr ℝ) → X → Prop) (View : T.Rank → (Loc Unit → ℝ) → X → Prop) :
    Prop where
  view : ∀ n m x, Inv n m x → ∀ r, View r (viewOf (m r) (pingIn n)) x
  step : ∀ n m x, Inv n m x → ∃ m₀, ∃ d : T.Rank → ℝ, BulkRel (O.pre (pingIn n) (pingOut n)) m m₀ ∧
    (∀ r d', O.dtLocal r n (m₀ r) d' ↔ d' = d r) ∧ AllreduceMin d (M.cflDt x) ∧
    ∀ dt, ∃ m₁ m₂, BulkRel (O.halo (pingIn n)) m₀ m₁ ∧
      (∀ r m', O.scheme r dt (pingIn n) (pingOut n) (m₁ r) m' ↔ m' = m₂ r) ∧
      Inv (n + 1) m₂ (M.advance dt x)
  matched : Matched O.setup ∧ (∀ U V, Matched (O.pre U V)) ∧ ∀ U, Matched (O.halo U)

/-- a solver whose time step comes first and whose constructor exchanges and copies -/
theorem DistRefines.ofHalo (O : MpiOps T ℝ) {M : Method X}
    {Inv : Nat → (T.Rank → Mem Arr ℝ) → X → Prop} {View : T.Rank → (Loc Unit → ℝ) → X → Prop}
    (hpre : ∀ U V, O.pre U V = []) (hset : Matched O.setup)
    (view : ∀ n m x, Inv n m x → ∀ r, View r (viewOf (m r) (pingIn n)) x)
    (dt : ∀ n m x, Inv n m x → ∃ d : T.Rank → ℝ, (∀ r d', O.dtLocal r n (m r) d' ↔ d' = d r) ∧
      AllreduceMin d (M.cflDt x))
    (post : ∀ n m x dt, Inv n m x → ∃ m₁ m₂, BulkRel (O.halo (pingIn n)) m m₁ ∧
      (∀ r m', O.scheme r dt (pingIn n) (pingOut n) (m₁ r) m' ↔ m' = m₂ r) ∧
      Inv (n + 1) m₂ (M.advance dt x))
    (matched : ∀ U, Matched (O.halo U)) : DistRefines O M Inv View where
  view := view
  step n m x h := by
    obtain ⟨d, d1, d2⟩ := dt n m x h
    exact ⟨m, d, by rw [hpre]; exact BulkRel.nil m, d1, d2, fun τ => post n m x τ h⟩
  matched := ⟨hset, fun U V => by rw [hpre]; intro n; simp, matched⟩

/-- all ranks correspond to the state of the algorithm -/
structure DistCorr (Inv : Nat → (T.Rank → Mem Arr ℝ) → X → Prop)
    (View : T.Rank → (Loc Unit → ℝ) → X → Prop) (s : T.Rank → RunState ℝ) (a : Sim X) : Prop where
  inv : Inv a.n (fun r => (s r).mem) a.x
  t : ∀ r, (s r).t = a.t
  n : ∀ r, (s r).iteration = a.n
  next : ∀ r, (s r).times_saved = a.next
  files : ∀ r, List.Forall₂ (FileOK (View r)) (s r).outputs a.files

variable {M : Method X} {Inv : Nat → (T.Rank → Mem Arr ℝ) → X → Prop}
  {View : T.Rank → (Loc Unit → ℝ) → X → Prop}

/-- `compute_dt` of all ranks -/
theorem bulk_computeDt {s : T.Rank → RunState ℝ} {n : Nat} {t : ℝ} {d : T.Rank → ℝ}
    (hd : ∀ r d', O.dtLocal r n (s r).mem d' ↔ d' = d r) (hn : ∀ r, (s r).iteration = n)
    (ht : ∀ r, (s r).t = t) :
    BulkRel (mpiComputeDt p O) s
      (fun r => { s r with dt := min (minOver d) (p.tEnd - t) }) := by
  have h1 : BulkRel [(Phase.loc fun r s s' => ∃ d, O.dtLocal r s.iteration s.mem d ∧
      s' = { s with dt := d } : Phase T.Rank (RunState ℝ) (Msg ℝ))] s
      (fun r => { s r with dt := d r }) := by
    refine BulkRel.loc (fun r s' => ?_)
    constructor
    · rintro ⟨d', h, rfl⟩
      rw [hn r] at h
      rw [(hd r d').1 h]
    · rintro rfl
      exact ⟨d r, by rw [hn r]; exact (hd r _).2 rfl, rfl⟩
  have h2 : BulkRel [(barrier T.Rank (RunState ℝ) : Phase T.Rank (RunState ℝ) (Msg ℝ))]
      (fun r => { s r with dt := d r }) (fun r => { s r with dt := d r }) := BulkRel.coll _
  have h3 := BulkRel.coll (contrib := fun s : RunState ℝ => (⟨1, fun _ => s.dt⟩ : Msg ℝ))
    (combine := fun (all : T.Rank → Msg ℝ) (s : RunState ℝ) =>
      { s with dt := clipDt p s.t (minOver fun a => (all a).data 0) })
    (fun r => { s r with dt := d r })
  have e : (fun r => { s r with dt := min (minOver d) (p.tEnd - t) }) =
      fun r => (fun (all : T.Rank → Msg ℝ) (s : RunState ℝ) =>
        { s with dt := clipDt p s.t (minOver fun a => (all a).data 0) })
        (fun x => (fun s : RunState ℝ => (⟨1, fun _ => s.dt⟩ : Msg ℝ)) { s x with dt := d x })
        { s r with dt := d r } := by
    funext r
    simp only
    rw [clipDt_real, ht r]
  rw [e]
  exact h1.cons (h2.cons h3)

theorem matched_computeDt : Matched (mpiComputeDt p O) :=
  Matched.cons (Matched.single trivial) (Matched.cons (Matched.single trivial)
    (Matched.single trivial))

theorem DistCorr.save_corr (hR : DistRefines O M Inv View) {s : T.Rank → RunState ℝ} {a : Sim X}
    (h : DistCorr Inv View s a) : DistCorr Inv View (fun r => saveSolution (s r)) a.save := by
  refine ⟨h.inv, h.t, h.n, fun r => by simp [saveSolution, Sim.save, h.next r], fun r => ?_⟩
  refine forall₂_snoc (h.files r) ⟨h.next r, h.t r, ?_⟩
  show View r (viewOf (s r).mem (pingIn (s r).iteration)) a.x
  rw [h.n r]
  exact hR.view _ _ _ h.inv r

theorem DistCorr.maybeSave_corr (hR : DistRefines O M Inv View)
    (he : p.enableOutput = decide (p.nOutput ≠ 0)) {s : T.Rank → RunState ℝ} {a : Sim X}
    (h : DistCorr Inv View s a) :
    DistCorr Inv View (fun r => EulerKokkos.maybeSave p (s r))
      (open Classical in if a.Due p then a.save else a) := by
  have hdue := fun r => due_iff (p := p) he (h.t r) (h.next r)
  by_cases hd : a.Due p
  · rw [if_pos hd]
    have : (fun r => EulerKokkos.maybeSave p (s r)) = fun r => saveSolution (s r) := by
      funext r
      obtain ⟨g1, g2⟩ := (hdue r).2 hd
      simp [EulerKokkos.maybeSave, g1, g2]
    rw [this]
    exact h.save_corr hR
  · rw [if_neg hd]
    have : (fun r => EulerKokkos.maybeSave p (s r)) = s := by
      funext r
      have := mt (hdue r).1 hd
      unfold EulerKokkos.maybeSave
      rw [if_neg (by simpa using this)]
    rw [this]
    exact h

theorem DistCorr.mainSave_corr (hR : DistRefines O M Inv View) {s : T.Rank → RunState ℝ} {a : Sim X}
    (h : DistCorr Inv View s a) :
    DistCorr Inv View (fun r => EulerKokkos.mainSave p (s r))
      (if p.nOutput ≠ 0 then a.save else a) := by
  unfold EulerKokkos.mainSave
  by_cases hn : p.nOutput ≠ 0
  · simp only [if_pos hn]; exact h.save_corr hR
  · simp only [if_neg hn]; exact h

theorem DistCorr.logLine_corr {s : T.Rank → RunState ℝ} {a : Sim X} (h : DistCorr Inv View s a) :
    DistCorr Inv View (fun r => if r.val = 0 then EulerKokkos.logLine p (s r) else s r) a := by
  have e : ∀ r, ((if r.val = 0 then EulerKokkos.logLine p (s r) else s r).mem = (s r).mem ∧
      (if r.val = 0 then EulerKokkos.logLine p (s r) else s r).t = (s r).t ∧
      (if r.val = 0 then EulerKokkos.logLine p (s r) else s r).iteration = (s r).iteration ∧
      (if r.val = 0 then EulerKokkos.logLine p (s r) else s r).times_saved = (s r).times_saved ∧
      (if r.val = 0 then EulerKokkos.logLine p (s r) else s r).outputs = (s r).outputs) := by
    intro r
    unfold EulerKokkos.logLine
    split_ifs <;> exact ⟨rfl, rfl, rfl, rfl, rfl⟩
  refine ⟨?_, fun r => (e r).2.1.trans (h.t r), fun r => (e r).2.2.1.trans (h.n r),
    fun r => (e r).2.2.2.1.trans (h.next r), fun r => by rw [(e r).2.2.2.2]; exact h.files r⟩
  have : (fun r => (if r.val = 0 then EulerKokkos.logLine p (s r) else s r).mem) =
      fun r => (s r).mem := funext fun r => (e r).1
  rw [this]; exact h.inv

/-- one turn of all ranks -/
theorem DistCorr.turn_corr (hR : DistRefines O M Inv View) (hlog : p.nlog ≠ 0)
    (he : p.enableOutput = decide (p.nOutput ≠ 0)) {s : T.Rank → RunState ℝ} {a : Sim X}
    (h : DistCorr Inv View s a) :
    ∃ s', BulkRel (mpiTurn p O (a.n % 2 == 1)) s s' ∧ DistCorr Inv View s' (a.turn p M) := by
  classical
  have hin : (if (a.n % 2 == 1) = true then Arr.U2 else .U) = pingIn a.n := by
    unfold pingIn
    rcases Nat.mod_two_eq_zero_or_one a.n with e | e <;> simp [e]
  have hout : (if (a.n % 2 == 1) = true then Arr.U else .U2) = pingOut a.n := by
    unfold pingOut
    rcases Nat.mod_two_eq_zero_or_one a.n with e | e <;> simp [e]
  have c1 : DistCorr Inv View _ (if a.Due p then a.save else a) :=
    (h.logLine_corr (p := p)).maybeSave_corr hR he
  have hb1 : BulkRel [(Phase.loc fun r s s' => p.nlog ≠ 0 ∧
      s' = maybeSave p (if r.val = 0 then logLine p s else s) :
      Phase T.Rank (RunState ℝ) (Msg ℝ))] s
      (fun r => maybeSave p (if r.val = 0 then logLine p (s r) else s r)) :=
    BulkRel.loc fun r s' => ⟨fun h => h.2, fun h => ⟨hlog, h⟩⟩
  set b : Sim X := if a.Due p then a.save else a with hbdef
  have hbn : b.n = a.n := by rw [hbdef]; split_ifs <;> rfl
  set s1 : T.Rank → RunState ℝ :=
    fun r => maybeSave p (if r.val = 0 then logLine p (s r) else s r) with hs1
  obtain ⟨m0, d, q1, q2, q3, q4⟩ := hR.step b.n (fun r => (s1 r).mem) b.x c1.inv
  have hb1' := BulkRel.onMem q1 (s := s1) (fun r => rfl)
  have hb2 := bulk_computeDt (p := p) (O := O) (s := fun r => { s1 r with mem := m0 r }) q2 c1.n c1.t
  rw [minOver_eq q3] at hb2
  set dt := min (M.cflDt b.x) (p.tEnd - b.t) with hdt
  obtain ⟨m1, m2, p1, p2, p3⟩ := q4 dt
  rw [hbn] at p1 p2 hb1'
  have hb3 := BulkRel.onMem p1 (s := fun r => { s1 r with mem := m0 r, dt := dt }) (fun r => rfl)
  have hb4 : BulkRel [(Phase.loc fun r s s' => ∃ m', O.scheme r s.dt (pingIn a.n) (pingOut a.n) s.mem m' ∧
      s' = { s with mem := m', iteration := s.iteration + 1, t := s.t + s.dt } :
      Phase T.Rank (RunState ℝ) (Msg ℝ))] (fun r => { s1 r with dt := dt, mem := m1 r })
      (fun r => { s1 r with dt := dt, mem := m2 r, iteration := (s1 r).iteration + 1
                            t := (s1 r).t + dt }) := by
    refine BulkRel.loc fun r s' => ?_
    constructor
    · rintro ⟨m', hm, rfl⟩
      rw [(p2 r m').1 hm]
    · rintro rfl
      exact ⟨m2 r, (p2 r _).2 rfl, rfl⟩
  let s2 : T.Rank → RunState ℝ := fun r =>
    ⟨m2 r, (s1 r).t + dt, dt, (s1 r).iteration + 1, (s1 r).times_saved, (s1 r).outputs, (s1 r).logs⟩
  refine ⟨s2, ?_, ?_⟩
  · unfold mpiTurn
    simp only [hin, hout]
    exact (((hb1.append hb1').append hb2).append hb3).append hb4
  · have e : a.turn p M = { b with x := M.advance dt b.x, t := b.t + dt, n := b.n + 1 } := rfl
    rw [e]
    exact ⟨p3, fun r => congrArg (· + dt) (c1.t r), fun r => congrArg (· + 1) (c1.n r), c1.next,
      c1.files⟩

theorem matched_turn (hR : DistRefines O M Inv View) (b : Bool) : Matched (mpiTurn p O b) :=
  ((((Matched.single trivial).append (matched_onMem (hR.matched.2.1 _ _))).append
    matched_computeDt).append (matched_onMem (hR.matched.2.2 _))).append (Matched.single trivial)

theorem matched_start (hR : DistRefines O M Inv View) : Matched (mpiStart p O) :=
  ((matched_onMem hR.matched.1).append matched_computeDt).append (Matched.single trivial)

/-- the run stops -/
theorem sim_length_exists (p : Params ℝ) (M : Method X) (x : X) (t : ℝ) (sv : Int) :
    ∃ K, Sim.Length p M x t sv K := by
  classical
  have hn : ∀ k, ((Sim.turn p M)^[k] (Sim.start p x t sv)).n = k := by
    intro k
    induction k with
    | zero => unfold Sim.start; split_ifs <;> rfl
    | succ k ih =>
      rw [Function.iterate_succ_apply']
      have : ∀ a : Sim X, (Sim.turn p M a).n = a.n + 1 := by
        intro a; unfold Sim.turn; split_ifs <;> rfl
      rw [this, ih]
  have hex : ∃ k, Sim.Over p ((Sim.turn p M)^[k] (Sim.start p x t sv)) :=
    ⟨p.nStepmax.toNat, Or.inr (by rw [hn]; omega)⟩
  exact ⟨Nat.find hex, Nat.find_spec hex, fun l hl => Nat.find_min hex hl⟩

theorem finished_corr {s : T.Rank → RunState ℝ} {a : Sim X} (h : DistCorr Inv View s a)
    (r : T.Rank) : finished p (s r) ↔ a.Over p := by
  rw [finished_real, Sim.Over, h.t r, h.n r]

/-- **Distributed refinement.** -/
theorem dist_run (hR : DistRefines O M Inv View) (hlog : p.nlog ≠ 0)
    (he : p.enableOutput = decide (p.nOutput ≠ 0)) {m : T.Rank → Mem Arr ℝ} {x : X} {t : ℝ}
    {sv : Int}
    (hinit : ∃ m₁, ∃ d : T.Rank → ℝ, BulkRel O.setup m m₁ ∧
      (∀ r d', O.dtLocal r 0 (m₁ r) d' ↔ d' = d r) ∧ Inv 0 m₁ x) :
    ∃ K N, Sim.Length p M x t sv K ∧ ∀ (buf : Prop) n y,
      FSteps buf (mpiMain p O) n (FConfig.init (.pre 0) (fun r => startState (m r) t sv)) y →
      n ≤ N ∧ (¬ y.Done (mpiMain p O) → ∃ z, FStep False (mpiMain p O) y z) ∧
      (y.Done (mpiMain p O) → DistCorr Inv View y.c.st (Sim.result p M x t sv K) ∧
        ∀ a b t, y.c.chan a b t = []) := by
  classical
  obtain ⟨K, hK⟩ := sim_length_exists p M x t sv
  obtain ⟨m1, d, hm1, hd, hi⟩ := hinit
  have g1 := BulkRel.onMem hm1 (s := fun r => startState (m r) t sv) (fun r => rfl)
  set s1 : T.Rank → RunState ℝ := fun r => startState (m1 r) t sv
  have g3 := bulk_computeDt (p := p) (O := O) (s := s1) (n := 0) (t := t) hd (fun _ => rfl)
    (fun _ => rfl)
  set dt := min (minOver d) (p.tEnd - t)
  have c0 : DistCorr Inv View (fun r => { s1 r with dt := dt }) ⟨x, t, 0, sv, []⟩ :=
    ⟨hi, fun _ => rfl, fun _ => rfl, fun _ => rfl, fun _ => .nil⟩
  have c1 : DistCorr Inv View _ (Sim.start p x t sv) := c0.mainSave_corr (p := p) hR
  have g4 : BulkRel [(Phase.loc fun _ s s' => s' = mainSave p s :
      Phase T.Rank (RunState ℝ) (Msg ℝ))] (fun r => { s1 r with dt := dt })
      (fun r => mainSave p { s1 r with dt := dt }) := BulkRel.loc fun r s' => Iff.rfl
  have hstart : BulkRel (mpiStart p O) (fun r => startState (m r) t sv)
      (fun r => mainSave p { s1 r with dt := dt }) :=
    (g1.append g3).append g4
  -- the sequence of states at the loop head
  have hex : ∀ k, ∃ σ : Nat → T.Rank → RunState ℝ,
      σ 0 = (fun r => mainSave p { s1 r with dt := dt }) ∧
      (∀ j ≤ k, DistCorr Inv View (σ j) ((Sim.turn p M)^[j] (Sim.start p x t sv))) ∧
      ∀ j < k, BulkRel (mpiTurn p O
        (((Sim.turn p M)^[j] (Sim.start p x t sv)).n % 2 == 1)) (σ j) (σ (j + 1)) := by
    intro k
    induction k with
    | zero =>
      refine ⟨fun _ r => mainSave p { s1 r with dt := dt }, rfl, fun j hj => ?_, fun j hj => ?_⟩
      · have : j = 0 := by omega
        subst this; exact c1
      · omega
    | succ k ih =>
      obtain ⟨σ, e0, e1, e2⟩ := ih
      obtain ⟨s', hb, hc⟩ := (e1 k le_rfl).turn_corr hR hlog he
      refine ⟨fun j => if j ≤ k then σ j else s', by simp [e0], fun j hj => ?_, fun j hj => ?_⟩
      · by_cases hjk : j ≤ k
        · simp only [hjk, if_true]; exact e1 j hjk
        · have : j = k + 1 := by omega
          subst this
          simp only [hjk, if_false]
          rw [Function.iterate_succ_apply']; exact hc
      · by_cases hjk : j + 1 ≤ k
        · simp only [hjk, show j ≤ k by omega, if_true]; exact e2 j (by omega)
        · have : j = k := by omega
          subst this
          simp only [hjk, le_refl, if_true, if_false]; exact hb
  obtain ⟨σ, e0, e1, e2⟩ := hex K
  have cK := e1 K le_rfl
  have hflow := loop_along (pre := mpiStart p O) (body := mpiTurn p O)
    (post := [(Phase.loc fun _ s s' => s' = mainSave p s :
      Phase T.Rank (RunState ℝ) (Msg ℝ))]) (stop := finished p)
    (sel := fun s => s.iteration % 2 == 1)
    (by simp [mpiStart]) (by simp [mpiTurn]) (by simp)
    (s := fun r => startState (m r) t sv) σ
    (fun j => ((Sim.turn p M)^[j] (Sim.start p x t sv)).n % 2 == 1) K
    (by rw [e0]; exact hstart)
    (fun n hn r => ⟨fun hf => hK.2 n hn ((finished_corr (e1 n hn.le) r).1 hf), by
      rw [(e1 n hn.le).n r]⟩)
    e2 (fun r => (finished_corr cK r).2 hK.1)
    (s' := fun r => mainSave p (σ K r)) (BulkRel.loc fun r s' => Iff.rfl)
  obtain ⟨hist, tr, hA, hB, h0, h1, t0⟩ := hflow.along rfl
  have hmat : Matched (mpiStart p O ++ turnPhases (mpiTurn p O)
      (fun j => ((Sim.turn p M)^[j] (Sim.start p x t sv)).n % 2 == 1) K ++
      [(Phase.loc fun _ s s' => s' = mainSave p s : Phase T.Rank (RunState ℝ) (Msg ℝ))]) :=
    ((matched_start hR).append (Matched.turnPhases (matched_turn hR) K)).append
      (Matched.single trivial)
  refine ⟨K, 3 * (mpiStart p O ++ turnPhases (mpiTurn p O)
      (fun j => ((Sim.turn p M)^[j] (Sim.start p x t sv)).n % 2 == 1) K ++
      [(Phase.loc fun _ s s' => s' = mainSave p s :
        Phase T.Rank (RunState ℝ) (Msg ℝ))]).length * Fintype.card T.Rank, hK,
    fun buf n y hy => ?_⟩
  have hy' : FSteps buf (mpiMain p O) n (FConfig.init (tr 0) (hist 0)) y := by
    rw [h0, t0]; exact hy
  obtain ⟨r1, r2, r3⟩ := flow_run hA hmat hB hy'
  refine ⟨r1, r2, fun hd => ?_⟩
  obtain ⟨q1, q2⟩ := r3 hd
  refine ⟨?_, q2⟩
  rw [q1, h1]
  exact cK.mainSave_corr hR

/-- the same for a solver whose time step comes first and whose constructor exchanges and copies -/
theorem dist_run_halo (hR : DistRefines O M Inv View) (hpre : ∀ U V, O.pre U V = [])
    (hset : O.setup = O.halo .U ++ [ .loc fun _ => Launch.kern (.copy .U2 .U) ]) (hlog : p.nlog ≠ 0)
    (he : p.enableOutput = decide (p.nOutput ≠ 0)) {m : T.Rank → Mem Arr ℝ} {x : X} {t : ℝ}
    {sv : Int}
    (hinit : ∃ m₁, BulkRel (O.halo .U) m m₁ ∧
      Inv 0 (fun r l => if l.arr = .U2 then m₁ r { l with arr := .U } else m₁ r l) x) :
    ∃ K N, Sim.Length p M x t sv K ∧ ∀ (buf : Prop) n y,
      FSteps buf (mpiMain p O) n (FConfig.init (.pre 0) (fun r => startState (m r) t sv)) y →
      n ≤ N ∧ (¬ y.Done (mpiMain p O) → ∃ z, FStep False (mpiMain p O) y z) ∧
      (y.Done (mpiMain p O) → DistCorr Inv View y.c.st (Sim.result p M x t sv K) ∧
        ∀ a b t, y.c.chan a b t = []) := by
  obtain ⟨m1, h1, h2⟩ := hinit
  obtain ⟨m0, d, q1, q2, -⟩ := hR.step 0 _ x h2
  rw [hpre] at q1
  obtain ⟨hist, _, e0, e1⟩ := q1
  have e : (fun r l => if l.arr = .U2 then m1 r { l with arr := .U } else m1 r l) = m0 :=
    e0.symm.trans e1
  refine dist_run hR hlog he ⟨m0, d, ?_, q2, e ▸ h2⟩
  rw [hset, ← e]
  exact h1.append (BulkRel.loc fun r s' => Iff.rfl)

end EulerKokkos
