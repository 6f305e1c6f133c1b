import Verif.Model.HydroStep
import Verif.Lemmas.GhostFill
import Verif.Lemmas.Scheme2D

set_option linter.constructorNameAsVariable false
set_option linter.unusedSectionVars false

namespace EulerKokkos

variable {R : Type} [RealOps R]
open Spec

/-- hydro run on a 2D grid: consistent grid numbers, four variables, defined slopes and flux,
boundary sources inside the domain -/
structure Hydro2 (p : Params R) : Prop where
  wf : p.WF
  nbvar : p.nbvar = 4
  valid : Valid2 p
  faces : Faces2Ok p

theorem makeBoundaries2_hs2 {p : Params R} (hp : Hydro2 p) (hS : SignLaws R) {U : Arr}
    {m m' : Mem Arr R} (hm : makeBoundaries2 false p U m m') :
    SameOff (· = U) m m' ∧ ∀ i j, inGrid2 p i j → hs2 m' U i j = fill2 p (hs2 m U) i j := by
  obtain ⟨F, hF, hh⟩ := makeBoundaries2_is hp.wf hp.faces false U
  obtain rfl := (hF m m').1 hm
  refine ⟨fun l hl => (hh m).1 l (fun h => hl h.1), fun i j hij => ?_⟩
  have hv := hp.nbvar
  have e := fun v (h : v < 4) => (hh m).2 hS i j v hij (by omega)
  unfold hs2 fill2
  rw [e ID (by decide), e IP (by decide), e IU (by decide), e IV (by decide)]
  simp [ghost2, signed, normalVar, ID, IP, IU, IV, IA]

theorem step2_grid_congr {p : Params R} (hw : p.WF) {g : GravityParams} {dt : R} {gf : Grav2 R}
    {u u' : Fld2 R} (h : ∀ i j, inGrid2 p i j → u i j = u' i j) (i j : Int) (hij : inGrid2 p i j) :
    step2 p g dt gf u i j = step2 p g dt gf u' i j := by
  have hgw := hw.gw_pos
  by_cases hc : interior2 p i j
  · obtain ⟨a, b, c, d⟩ := id hc
    refine step2_congr (fun a' b' h1 h2 h3 h4 => h a' b' ⟨by omega, by omega, by omega, by omega⟩)
      (fun _ _ _ _ _ _ _ => rfl)
  · unfold step2; rw [if_neg hc, if_neg hc, h i j hij]

/-- result of `scheme2` for the versions whose result is determined in `R` -/
def SchemeOK2 (p : Params R) : Prop :=
  ∀ (g : GravityParams) (dt : R) (jk : Junk R) (inA outA : Arr), PingPong inA outA →
    ∀ m m', Kern.seqs (scheme2 p g dt jk inA outA) m m' →
      SameOff (SchemeOuts outA) m m' ∧ ∀ i j, inGrid2 p i j →
        hs2 m' outA i j = step2 p g dt (gravOf m .grav) (hs2 m inA) i j

theorem schemeOK2_01 {p : Params R} (hp : Hydro2 p)
    (hi : p.implementationVersion = 0 ∨ p.implementationVersion = 1) : SchemeOK2 p :=
  fun _ _ _ _ _ hpp _ _ hm => scheme2_result01 hp.wf hp.valid hi hpp hm

/-- all three versions, in a number type with exact addition -/
theorem schemeOK2_exact [ExactAdd R] {p : Params R} (hp : Hydro2 p)
    (hi : p.implementationVersion = 0 ∨ p.implementationVersion = 1 ∨
      p.implementationVersion = 2) : SchemeOK2 p := by
  rcases hi with h | h | h
  · exact schemeOK2_01 hp (Or.inl h)
  · exact schemeOK2_01 hp (Or.inr h)
  · exact fun _ _ _ _ _ hpp _ _ hm => scheme2_result2 hp.wf hp.valid h hpp hm

theorem schemeOK2_real {p : Params ℝ} (hp : Hydro2 p)
    (hi : p.implementationVersion = 0 ∨ p.implementationVersion = 1 ∨
      p.implementationVersion = 2) : SchemeOK2 p := schemeOK2_exact hp hi

/-- **One full step** -/
theorem godunov2_result {p : Params R} (hp : Hydro2 p) (hS : SignLaws R) (hK : SchemeOK2 p)
    {g : GravityParams} {dt : R} {jk : Junk R} {inA outA : Arr} (hpp : PingPong inA outA)
    {m m' : Mem Arr R} (hm : godunov2 p g dt jk inA outA m m') :
    SameOff (fun a => a = inA ∨ SchemeOuts outA a) m m' ∧
    (∀ i j, interior2 p i j → hs2 m' inA i j = hs2 m inA i j) ∧
    ∀ i j, inGrid2 p i j →
      hs2 m' outA i j = fullStep2 p g dt (gravOf m .grav) (hs2 m inA) i j := by
  obtain ⟨mb, hb, hs⟩ := hm
  obtain ⟨b1, b2⟩ := makeBoundaries2_hs2 hp hS hb
  obtain ⟨s1, s2⟩ := hK g dt jk inA outA hpp mb m' hs
  have n1 : ¬ SchemeOuts outA inA := by
    rcases hpp with ⟨rfl, rfl⟩ | ⟨rfl, rfl⟩ <;> simp [SchemeOuts]
  have n2 : Arr.grav ≠ inA := by rcases hpp with ⟨rfl, rfl⟩ | ⟨rfl, rfl⟩ <;> decide
  refine ⟨(b1.mono (fun a h => Or.inl h)).trans (s1.mono (fun a h => Or.inr h)), ?_, ?_⟩
  · intro i j hij
    rw [s1.hs2 n1]
    have hgw := hp.wf.gw_pos
    obtain ⟨F, hF, hh⟩ := makeBoundaries2_is hp.wf hp.faces false inA
    obtain rfl := (hF m mb).1 hb
    have : ∀ v, F m ⟨inA, i, j, 0, v⟩ = m ⟨inA, i, j, 0, v⟩ := fun v =>
      (hh m).1 _ (fun h => h.2.2.2.1 hij)
    unfold hs2; rw [this, this, this, this]
  · intro i j hij
    rw [s2 i j hij, b1.grav n2]
    exact step2_grid_congr hp.wf b2 i j hij

theorem pingPong (n : Nat) : PingPong (pingIn n) (pingOut n) := by
  unfold PingPong pingIn pingOut
  by_cases h : n % 2 = 0 <;> simp [h]

theorem pingOut_succ (n : Nat) : pingOut n = pingIn (n + 1) := by
  unfold pingIn pingOut
  rcases Nat.mod_two_eq_zero_or_one n with h | h
  · simp [h, Nat.add_mod]
  · simp [h, Nat.add_mod]

/-- field after a list of steps -/
def Spec.iterStep2 (p : Params R) (g : GravityParams) (gf : Grav2 R) : List R → Fld2 R → Fld2 R
  | [], u => u
  | dt :: dts, u => iterStep2 p g gf dts (fullStep2 p g dt gf u)

theorem fill2_congr {p : Params R} (hp : Hydro2 p) {u u' : Fld2 R}
    (h : ∀ i j, inGrid2 p i j → u i j = u' i j) (i j : Int) (hij : inGrid2 p i j) :
    fill2 p u i j = fill2 p u' i j := by
  obtain ⟨f1, f2, f3, f4⟩ := hp.faces
  obtain ⟨h3, h4, h5, h6⟩ := hij
  have hgw := hp.wf.gw_pos
  have sx := srcCoord_interior hp.wf.nx_pos f1 f2 h3 h4
  have sy := srcCoord_interior hp.wf.ny_pos f3 f4 h5 h6
  unfold fill2
  rw [h _ _ ⟨by omega, by omega, by omega, by omega⟩]

theorem fullStep2_congr {p : Params R} (hp : Hydro2 p) {g : GravityParams} {dt : R} {gf : Grav2 R}
    {u u' : Fld2 R} (h : ∀ i j, inGrid2 p i j → u i j = u' i j) (i j : Int) (hij : inGrid2 p i j) :
    fullStep2 p g dt gf u i j = fullStep2 p g dt gf u' i j :=
  step2_grid_congr hp.wf (fill2_congr hp h) i j hij

theorem iterStep2_congr {p : Params R} (hp : Hydro2 p) {g : GravityParams} {gf : Grav2 R}
    (dts : List R) {u u' : Fld2 R} (h : ∀ i j, inGrid2 p i j → u i j = u' i j) (i j : Int)
    (hij : inGrid2 p i j) : iterStep2 p g gf dts u i j = iterStep2 p g gf dts u' i j := by
  induction dts generalizing u u' with
  | nil => exact h i j hij
  | cons dt dts ih => exact ih (fullStep2_congr hp h)

/-- **Any number of steps** -/
theorem hydroRun2_result {p : Params R} (hp : Hydro2 p) (hS : SignLaws R) (hK : SchemeOK2 p)
    {g : GravityParams} {jk : Junk R} (dts : List R) (n : Nat)
    {m m' : Mem Arr R} (hm : hydroRun2 p g jk n dts m m') :
    (∀ i j, inGrid2 p i j →
      hs2 m' (pingIn (n + dts.length)) i j =
        iterStep2 p g (gravOf m .grav) dts (hs2 m (pingIn n)) i j) ∧
    gravOf m' .grav = gravOf m .grav := by
  induction dts generalizing n m with
  | nil => cases hm; exact ⟨fun _ _ _ => rfl, rfl⟩
  | cons dt dts ih =>
    obtain ⟨m1, h1, h2⟩ := hm
    obtain ⟨s1, _, s2⟩ := godunov2_result hp hS hK (pingPong n) h1
    have g1 : gravOf m1 .grav = gravOf m .grav := s1.grav (by
      rcases pingPong n with ⟨e1, e2⟩ | ⟨e1, e2⟩ <;> rw [e1, e2] <;> simp [SchemeOuts])
    obtain ⟨ih1, ih2⟩ := ih (n + 1) h2
    refine ⟨fun i j hij => ?_, ih2.trans g1⟩
    have e : n + (dt :: dts).length = n + 1 + dts.length := by simp; omega
    rw [e, ih1 i j hij, g1]
    exact iterStep2_congr hp dts (fun i j hij => by rw [← pingOut_succ]; exact s2 i j hij) i j hij

/-! ## Determinism -/

/-- every input leads to exactly one output, whatever the schedule -/
def Deterministic (k : Kern Arr R) : Prop := ∀ m, ∃! m', k m m'

theorem Kern.Is.det {k : Kern Arr R} {F : Mem Arr R → Mem Arr R} (h : k.Is F) : Deterministic k :=
  fun m => ⟨F m, (h m _).2 rfl, fun m' hm => (h m m').1 hm⟩

theorem det_seq {k₁ k₂ : Kern Arr R} (h₁ : Deterministic k₁) (h₂ : Deterministic k₂) :
    Deterministic (Kern.seq k₁ k₂) := by
  intro m
  obtain ⟨m1, a, b⟩ := h₁ m
  obtain ⟨m2, c, d⟩ := h₂ m1
  refine ⟨m2, ⟨m1, a, c⟩, ?_⟩
  rintro m' ⟨x, hx, hx'⟩
  obtain rfl := b x hx
  exact d m' hx'

theorem det_seqs {ks : List (Kern Arr R)} (h : ∀ k ∈ ks, Deterministic k) :
    Deterministic (Kern.seqs ks) := by
  induction ks with
  | nil => exact Kern.Is.skip.det
  | cons k ks ih =>
    exact det_seq (h k (by simp)) (ih (fun k' hk => h k' (by simp [hk])))

theorem det_forRange2 {outs : Arr → Prop} {body : Int × Int → Prog Arr R Unit}
    (h : Own2 outs body) (F : Finset (Int × Int)) : Deterministic (Prog.forRange F body) :=
  (forRange2_is h F).det

theorem det_gravityStep2 (p : Params R) (g : GravityParams) (dt : R) {inA outA : Arr}
    (hpp : PingPong inA outA) : Deterministic (gravityStep2 p g dt inA outA) := by
  unfold gravityStep2
  split
  · exact det_forRange2 (own_gravitySource2 p dt
      (by rcases hpp with ⟨rfl, rfl⟩ | ⟨rfl, rfl⟩ <;> decide)
      (by rcases hpp with ⟨rfl, rfl⟩ | ⟨rfl, rfl⟩ <;> decide)) _
  · exact Kern.Is.skip.det

attribute [local instance 10] ExactAdd.monoid in
theorem det_allFluxes2 [ExactAdd R] (p : Params R) (g : GravityParams) (dt : R) (jk : Junk R) {U : Arr}
    (h1 : Arr.Q ≠ U) (h2 : Arr.grav ≠ U) :
    Deterministic (Prog.forRange (range2 p.isize p.jsize)
      (computeAllFluxesAndUpdate2 p .Q U .grav dt g jk)) := by
  classical
  intro m
  have hf := foot_computeAllFluxesAndUpdate2 p .Q U .grav dt g jk
  have hdis : ∀ l : Loc Arr, (∃ i j, cellGuard2 p (i, j) ∧ Cell2 U i j l) →
      ¬ (l.arr = .Q ∨ l.arr = .grav) := by
    rintro l ⟨i, j, _, e, _⟩ (h | h)
    · exact h1 (h.symm.trans e)
    · exact h2 (h.symm.trans e)
  have hm := fun m' => Prog.parFor_atomic (range2 p.isize p.jsize)
    (fun l => l.arr = .Q ∨ l.arr = .grav) _
    hdis (fun t _ => Prog.foot_mono (by
      rintro l ⟨_, ⟨e, _⟩ | ⟨_, e, _⟩⟩
      · exact Or.inl e
      · exact Or.inr e) (fun _ h => h) (fun _ h => h) (hf t)) m m'
  exact ⟨_, (hm _).2 rfl, fun m' h => (hm m').1 h⟩

theorem det_scheme2 (p : Params R) (g : GravityParams) (dt : R) (jk : Junk R) {inA outA : Arr}
    (hpp : PingPong inA outA)
    (hA : p.implementationVersion = 2 → Deterministic (Prog.forRange (range2 p.isize p.jsize)
      (computeAllFluxesAndUpdate2 p .Q outA .grav dt g jk))) :
    ∀ k ∈ scheme2 p g dt jk inA outA, Deterministic k := by
  have n2 : inA ≠ .Q := by rcases hpp with ⟨rfl, rfl⟩ | ⟨rfl, rfl⟩ <;> decide
  have n3 : Arr.Fx ≠ outA := by rcases hpp with ⟨rfl, rfl⟩ | ⟨rfl, rfl⟩ <;> decide
  have n4 : Arr.Fy ≠ outA := by rcases hpp with ⟨rfl, rfl⟩ | ⟨rfl, rfl⟩ <;> decide
  have hg := det_gravityStep2 p g dt hpp
  intro k hk
  unfold scheme2 at hk
  simp only [List.mem_cons] at hk
  rcases hk with rfl | rfl | hk
  · exact (Kern.is_ofFun _).det
  · exact det_forRange2 (own_convertToPrimitives2 p n2) _
  · split at hk
    · simp only [List.mem_cons, List.not_mem_nil, or_false] at hk
      rcases hk with rfl | rfl | rfl
      · exact det_forRange2 (own_computeAndStoreFluxes2 p dt g jk (by decide) (by decide)
          (by decide) (by decide)) _
      · exact det_forRange2 (own_update2 p n3 n4) _
      · exact hg
    · split at hk
      · simp only [List.mem_cons, List.not_mem_nil, or_false] at hk
        rcases hk with rfl | rfl | rfl | rfl | rfl | rfl
        · exact det_forRange2 (own_computeSlopes2 p (by decide) (by decide)) _
        · exact det_forRange2 (own_computeTraceAndFluxes2 _ p dt g jk (by decide) (by decide)
            (by decide) (by decide)) _
        · exact det_forRange2 (own_updateDir2 _ p n3) _
        · exact det_forRange2 (own_computeTraceAndFluxes2 _ p dt g jk (by decide) (by decide)
            (by decide) (by decide)) _
        · exact det_forRange2 (own_updateDir2 _ p n3) _
        · exact hg
      · split at hk
        · simp only [List.mem_cons, List.not_mem_nil, or_false] at hk
          rcases hk with rfl | rfl
          · exact hA ‹_›
          · exact hg
        · simp at hk

end EulerKokkos
