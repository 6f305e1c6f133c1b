import Verif.Lemmas.FloatMax
import Verif.Lemmas.MhdDriver
import Verif.Props.C13

/-!
# A run has one outcome if every solver call has
-/

set_option linter.constructorNameAsVariable false
set_option linter.unusedSectionVars false
set_option linter.unusedSimpArgs false

namespace EulerKokkos
open Spec Prog

variable {R : Type} [RealOps R] {p : Params R} {S : SolverOps R} {num sg : R → Prop}

/-- every solver call has exactly one outcome -/
structure SolverOps.Once (S : SolverOps R) : Prop extends S.Total where
  pre_eq : ∀ n m a b, S.pre n m a → S.pre n m b → a = b
  dt_eq : ∀ n m d d', S.dtLocal n m d → S.dtLocal n m d' → d = d'
  post_eq : ∀ n d m a b, S.post n d m a → S.post n d m b → a = b
  setup_eq : ∀ m a b, S.setup m a → S.setup m b → a = b

theorem nextIteration_once (h : S.Once) {s a b : RunState R} (ha : nextIteration p S s a)
    (hb : nextIteration p S s b) : a = b := by
  obtain ⟨_, m1, d, m3, h1, h2, h3, rfl⟩ := nextIteration_iff.1 ha
  obtain ⟨_, m1', d', m3', h1', h2', h3', rfl⟩ := nextIteration_iff.1 hb
  obtain rfl := h.pre_eq _ _ _ _ h1 h1'
  obtain rfl := h.dt_eq _ _ _ _ h2 h2'
  obtain rfl := h.post_eq _ _ _ _ _ h3 h3'
  rfl

theorem turns_once (h : S.Once) {k : Nat} {s a b : RunState R} (ha : Turns p S k s a)
    (hb : Turns p S k s b) : a = b := by
  induction ha generalizing b with
  | zero => cases hb; rfl
  | succ _ _ hn ih =>
    cases hb with
    | succ hb' _ hn' =>
      obtain rfl := ih hb'
      exact nextIteration_once h hn hn'

theorem turns_prefix {k k' : Nat} {s b : RunState R} (hb : Turns p S k' s b) (hk : k < k') :
    ∃ c, Turns p S k s c ∧ ¬ finished p c := by
  induction hb with
  | zero => omega
  | @succ k'' _ s₁ _ ht hf _ ih =>
    by_cases hlt : k < k''
    · exact ih hlt
    · obtain rfl : k = k'' := by omega
      exact ⟨s₁, ht, hf⟩

theorem loop_once (h : S.Once) {s a b : RunState R} (ha : Loop p S s a) (hb : Loop p S s b) : a = b := by
  obtain ⟨k, ta, fa⟩ := ha
  obtain ⟨k', tb, fb⟩ := hb
  rcases Nat.lt_trichotomy k k' with hk | rfl | hk
  · obtain ⟨c, tc, fc⟩ := turns_prefix tb hk
    obtain rfl := turns_once h ta tc
    exact absurd fa fc
  · exact turns_once h ta tb
  · obtain ⟨c, tc, fc⟩ := turns_prefix ta hk
    obtain rfl := turns_once h tb tc
    exact absurd fb fc

/-- **A run has at most one outcome.** -/
theorem runMain_once (h : S.Once) {m : Mem Arr R} {t : R} {sv : Int} {a b : RunState R}
    (ha : runMain p S m t sv a) (hb : runMain p S m t sv b) : a = b := by
  obtain ⟨s0, s1, ⟨m1, c1, d1, e1, rfl⟩, l1, rfl⟩ := ha
  obtain ⟨s0', s1', ⟨m1', c1', d1', e1', rfl⟩, l1', rfl⟩ := hb
  obtain rfl := h.setup_eq _ _ _ c1 c1'
  obtain rfl := h.dt_eq _ _ _ _ e1 e1'
  obtain rfl := loop_once h l1 l1'
  rfl

theorem runMain_total (hT : S.Total) (hn : p.nlog ≠ 0) (m : Mem Arr R) (t : R) (sv : Int) :
    ∃ s, runMain p S m t sv s := by
  obtain ⟨s, hs⟩ := C14_starts (p := p) hT m t sv
  obtain ⟨_, s', _, _, h⟩ := C14_completes hT hn hs
  exact ⟨_, h⟩

/-! ### The four solvers -/

theorem once_hydro2 (hL : MaxLaws R num sg) (hw : p.WF) (hf : Faces2Ok p)
    (hi : p.implementationVersion = 0 ∨ p.implementationVersion = 1) (hx : sg p.dx) (hy : sg p.dy)
    (g : GravityParams) {ident : R} (hid : num ident) (jk : Junk R) : (hydroOps2 p g ident jk).Once where
  pre n m := ⟨m, rfl⟩
  dt n m := by
    show ∃ d, computeDtLocal2 p g ident n m d
    unfold computeDtLocal2
    by_cases hg : g.enabled = true
    · obtain ⟨r, hr⟩ := parReduce_exists (range2 p.isize p.jsize)
        (computeDtGravity2 p p.settings.cfl .grav (pingIn n)) kokkosMaxJoin ident m
      exact ⟨_, r, by rw [if_pos hg]; exact hr, rfl⟩
    · obtain ⟨r, hr⟩ := parReduce_exists (range2 p.isize p.jsize)
        (computeDt2 p (pingIn n)) kokkosMaxJoin ident m
      exact ⟨_, r, by rw [if_neg hg]; exact hr, rfl⟩
  post n d m := (C02_step_deterministic hw hf hi g d jk (pingPong n) m).exists
  setup m := by
    obtain ⟨F, hF, _⟩ := makeBoundaries2_is hw hf false .U
    exact ⟨_, _, (hF m _).2 rfl, rfl⟩
  pre_eq n m a b ha hb := by cases ha; cases hb; rfl
  dt_eq n m d d' h h' := by
    obtain ⟨r, hr, rfl⟩ := h
    obtain ⟨r', hr', rfl⟩ := h'
    by_cases hg : g.enabled = true
    · rw [if_pos hg] at hr hr'
      rw [parReduce_max_unique hL (isMax_gravity2 hL hx hy _ _ _ m) hid hr hr']
    · rw [if_neg hg] at hr hr'
      rw [parReduce_max_unique hL (isMax_hydro2 hL hx hy _ m) hid hr hr']
  post_eq n d m a b ha hb := (C02_step_deterministic hw hf hi g d jk (pingPong n) m).unique ha hb
  setup_eq m a b ha hb := by
    obtain ⟨F, hF, _⟩ := makeBoundaries2_is hw hf false .U
    obtain ⟨m1, h1, h2⟩ := ha
    obtain ⟨m1', h1', h2'⟩ := hb
    obtain rfl := (hF m m1).1 h1
    obtain rfl := (hF m m1').1 h1'
    exact h2.trans h2'.symm

theorem once_hydro3 (hL : MaxLaws R num sg) (hw : p.WF) (hf : Faces3Ok p)
    (hi : p.implementationVersion = 0 ∨ p.implementationVersion = 1) (hx : sg p.dx) (hy : sg p.dy)
    (hz : sg p.dz) (g : GravityParams) {ident : R} (hid : num ident) (jk : Junk R) :
    (hydroOps3 p g ident jk).Once where
  pre n m := ⟨m, rfl⟩
  dt n m := by
    show ∃ d, computeDtLocal3 p g ident n m d
    unfold computeDtLocal3
    by_cases hg : g.enabled = true
    · obtain ⟨r, hr⟩ := parReduce_exists (range3 p.isize p.jsize p.ksize)
        (computeDtGravity3 p p.settings.cfl .grav (pingIn n)) kokkosMaxJoin ident m
      exact ⟨_, r, by rw [if_pos hg]; exact hr, rfl⟩
    · obtain ⟨r, hr⟩ := parReduce_exists (range3 p.isize p.jsize p.ksize)
        (computeDt3 p (pingIn n)) kokkosMaxJoin ident m
      exact ⟨_, r, by rw [if_neg hg]; exact hr, rfl⟩
  post n d m := (det_godunov3 hw hf g d jk (pingPong n) (fun h => by omega) m).exists
  setup m := by
    obtain ⟨F, hF, _⟩ := makeBoundaries3_is hw hf false .U
    exact ⟨_, _, (hF m _).2 rfl, rfl⟩
  pre_eq n m a b ha hb := by cases ha; cases hb; rfl
  dt_eq n m d d' h h' := by
    obtain ⟨r, hr, rfl⟩ := h
    obtain ⟨r', hr', rfl⟩ := h'
    by_cases hg : g.enabled = true
    · rw [if_pos hg] at hr hr'
      rw [parReduce_max_unique hL (isMax_gravity3 hL hx hy hz _ _ _ m) hid hr hr']
    · rw [if_neg hg] at hr hr'
      rw [parReduce_max_unique hL (isMax_hydro3 hL hx hy hz _ m) hid hr hr']
  post_eq n d m a b ha hb := (det_godunov3 hw hf g d jk (pingPong n) (fun h => by omega) m).unique ha hb
  setup_eq m a b ha hb := by
    obtain ⟨F, hF, _⟩ := makeBoundaries3_is hw hf false .U
    obtain ⟨m1, h1, h2⟩ := ha
    obtain ⟨m1', h1', h2'⟩ := hb
    obtain rfl := (hF m m1).1 h1
    obtain rfl := (hF m m1').1 h1'
    exact h2.trans h2'.symm

theorem once_mhd2 (hL : MaxLaws R num sg) (hw : p.WF) (hf : Faces2Ok p) (hi : p.implementationVersion = 0)
    (hx : sg p.dx) (hy : sg p.dy) {ident : R} (hid : num ident) (jk : JunkM R) :
    (mhdOps2 p ident jk).Once where
  pre n m := (det_runLaunches (det_preMhd2 hw hf (pingPong n)) m).exists
  dt n m := by
    obtain ⟨r, hr⟩ := parReduce_exists (range2 p.isize p.jsize) (computeDtMhd2 p .Q) kokkosMaxJoin ident m
    exact ⟨_, r, hr, rfl⟩
  post n d m := (det_runLaunches (det_postMhd2_0 p hi d jk (pingPong n)) m).exists
  setup m := (det_runLaunches (det_preMhd2 hw hf (.inl ⟨rfl, rfl⟩)) m).exists
  pre_eq n m _ _ := (det_runLaunches (det_preMhd2 hw hf (pingPong n)) m).unique
  dt_eq n m d d' h h' := by
    obtain ⟨r, hr, rfl⟩ := h
    obtain ⟨r', hr', rfl⟩ := h'
    rw [parReduce_max_unique hL (isMax_mhd2 hL hx hy _ m) hid hr hr']
  post_eq n d m _ _ := (det_runLaunches (det_postMhd2_0 p hi d jk (pingPong n)) m).unique
  setup_eq m _ _ := (det_runLaunches (det_preMhd2 hw hf (.inl ⟨rfl, rfl⟩)) m).unique

theorem once_mhd3 (hL : MaxLaws R num sg) (hw : p.WF) (hf : Faces3Ok p) (hi : p.implementationVersion = 0)
    (hx : sg p.dx) (hy : sg p.dy) (hz : sg p.dz) {ident : R} (hid : num ident) (jk : JunkM R) :
    (mhdOps3 p ident jk).Once where
  pre n m := (det_runLaunches (det_preMhd3 hw hf (pingPong n)) m).exists
  dt n m := by
    obtain ⟨r, hr⟩ := parReduce_exists (range3 p.isize p.jsize p.ksize) (computeDtMhd3 p .Q) kokkosMaxJoin
      ident m
    exact ⟨_, r, hr, rfl⟩
  post n d m := (det_runLaunches (det_postMhd3_0 p hi d jk (pingPong n)) m).exists
  setup m := (det_runLaunches (det_preMhd3 hw hf (.inl ⟨rfl, rfl⟩)) m).exists
  pre_eq n m _ _ := (det_runLaunches (det_preMhd3 hw hf (pingPong n)) m).unique
  dt_eq n m d d' h h' := by
    obtain ⟨r, hr, rfl⟩ := h
    obtain ⟨r', hr', rfl⟩ := h'
    rw [parReduce_max_unique hL (isMax_mhd3 hL hx hy hz _ m) hid hr hr']
  post_eq n d m _ _ := (det_runLaunches (det_postMhd3_0 p hi d jk (pingPong n)) m).unique
  setup_eq m _ _ := (det_runLaunches (det_preMhd3 hw hf (.inl ⟨rfl, rfl⟩)) m).unique

end EulerKokkos
