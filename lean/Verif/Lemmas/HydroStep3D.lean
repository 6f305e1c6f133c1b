import Verif.Model.HydroStep3
import Verif.Lemmas.HydroStep2D
import Verif.Lemmas.Scheme3D

set_option linter.constructorNameAsVariable false
set_option linter.unusedSectionVars false
set_option linter.unusedSimpArgs false

namespace EulerKokkos

variable {R : Type} [RealOps R]
open Spec

/-- hydro run on a 3D grid: consistent grid numbers, five variables, defined slopes and flux,
boundary sources inside the domain -/
structure Hydro3 (p : Params R) : Prop where
  wf : p.WF
  nbvar : p.nbvar = 5
  valid : Valid3 p
  faces : Faces3Ok p

theorem makeBoundaries3_hs3 {p : Params R} (hp : Hydro3 p) (hS : SignLaws R) {U : Arr}
    {m m' : Mem Arr R} (hm : makeBoundaries3 false p U m m') :
    SameOff (· = U) m m' ∧
      ∀ i j k, inGrid3 p i j k → hs3 m' U i j k = fill3 p (hs3 m U) i j k := by
  obtain ⟨F, hF, hh⟩ := makeBoundaries3_is hp.wf hp.faces false U
  obtain rfl := (hF m m').1 hm
  refine ⟨fun l hl => (hh m).1 l (fun h => hl h.1), fun i j k hij => ?_⟩
  have hv := hp.nbvar
  have e := fun v (h : v < 5) => (hh m).2 hS i j k v hij (by omega)
  unfold hs3 fill3
  rw [e ID (by decide), e IP (by decide), e IU (by decide), e IV (by decide), e IW (by decide)]
  simp [ghost3, signed, normalVar, ID, IP, IU, IV, IW, IA]

theorem step3_grid_congr {zk : Bool} {p : Params R} (hw : p.WF) {g : GravityParams} {dt : R}
    {gf : Grav3 R} {u u' : Fld3 R} (h : ∀ i j k, inGrid3 p i j k → u i j k = u' i j k)
    (i j k : Int) (hij : inGrid3 p i j k) :
    step3 zk p g dt gf u i j k = step3 zk p g dt gf u' i j k := by
  have hgw := hw.gw_pos
  by_cases hc : interior3 p i j k
  · obtain ⟨⟨a, b⟩, ⟨c, d⟩, e, f⟩ := id hc
    refine step3_congr (fun a' b' c' h1 h2 h3 h4 h5 h6 =>
      h a' b' c' ⟨⟨by omega, by omega⟩, ⟨by omega, by omega⟩, by omega, by omega⟩)
      (fun _ _ _ _ _ _ _ _ _ _ => rfl)
  · unfold step3; rw [if_neg hc, if_neg hc, h i j k hij]

/-- result of `scheme3` for the versions whose result is determined in `R` -/
def SchemeOK3 (zk : Bool) (p : Params R) : Prop :=
  ∀ (g : GravityParams) (dt : R) (jk : Junk R) (inA outA : Arr), PingPong inA outA →
    ∀ m m', Kern.seqs (scheme3 p g dt jk inA outA) m m' →
      SameOff (SchemeOuts3 outA) m m' ∧ ∀ i j k, inGrid3 p i j k →
        hs3 m' outA i j k = step3 zk p g dt (gravOf3 m .grav) (hs3 m inA) i j k

theorem schemeOK3_01 {p : Params R} (hp : Hydro3 p)
    (hi : p.implementationVersion = 0 ∨ p.implementationVersion = 1) :
    SchemeOK3 (zKick p.implementationVersion) p :=
  fun _ _ _ _ _ hpp _ _ hm => scheme3_result01 hp.wf hp.valid hi hpp hm

/-- all three versions, in a number type with exact addition -/
theorem schemeOK3_exact [ExactAdd R] {p : Params R} (hp : Hydro3 p)
    (hi : p.implementationVersion = 0 ∨ p.implementationVersion = 1 ∨
      p.implementationVersion = 2) : SchemeOK3 (zKick p.implementationVersion) p := by
  rcases hi with h | h | h
  · exact schemeOK3_01 hp (Or.inl h)
  · exact schemeOK3_01 hp (Or.inr h)
  · intro _ _ _ _ _ hpp _ _ hm
    rw [h]
    exact scheme3_result2 hp.wf hp.valid h hpp hm

theorem schemeOK3_real {p : Params ℝ} (hp : Hydro3 p)
    (hi : p.implementationVersion = 0 ∨ p.implementationVersion = 1 ∨
      p.implementationVersion = 2) : SchemeOK3 (zKick p.implementationVersion) p := schemeOK3_exact hp hi

/-- **One full step** -/
theorem godunov3_result {zk : Bool} {p : Params R} (hp : Hydro3 p) (hS : SignLaws R)
    (hK : SchemeOK3 zk p)
    {g : GravityParams} {dt : R} {jk : Junk R} {inA outA : Arr} (hpp : PingPong inA outA)
    {m m' : Mem Arr R} (hm : godunov3 p g dt jk inA outA m m') :
    SameOff (fun a => a = inA ∨ SchemeOuts3 outA a) m m' ∧
    (∀ i j k, interior3 p i j k → hs3 m' inA i j k = hs3 m inA i j k) ∧
    ∀ i j k, inGrid3 p i j k →
      hs3 m' outA i j k = fullStep3 zk p g dt (gravOf3 m .grav) (hs3 m inA) i j k := by
  obtain ⟨mb, hb, hs⟩ := hm
  obtain ⟨b1, b2⟩ := makeBoundaries3_hs3 hp hS hb
  obtain ⟨s1, s2⟩ := hK g dt jk inA outA hpp mb m' hs
  have n1 : ¬ SchemeOuts3 outA inA := by
    rcases hpp with ⟨rfl, rfl⟩ | ⟨rfl, rfl⟩ <;> simp [SchemeOuts3]
  have n2 : Arr.grav ≠ inA := by rcases hpp with ⟨rfl, rfl⟩ | ⟨rfl, rfl⟩ <;> decide
  refine ⟨(b1.mono (fun a h => Or.inl h)).trans (s1.mono (fun a h => Or.inr h)), ?_, ?_⟩
  · intro i j k hij
    rw [s1.hs3 n1]
    have hgw := hp.wf.gw_pos
    obtain ⟨F, hF, hh⟩ := makeBoundaries3_is hp.wf hp.faces false inA
    obtain rfl := (hF m mb).1 hb
    have : ∀ v, F m ⟨inA, i, j, k, v⟩ = m ⟨inA, i, j, k, v⟩ := fun v =>
      (hh m).1 _ (fun h => h.2.2.1 hij)
    unfold hs3; rw [this, this, this, this, this]
  · intro i j k hij
    rw [s2 i j k hij, b1.grav3 n2]
    exact step3_grid_congr hp.wf b2 i j k hij

/-- field after a list of steps -/
def Spec.iterStep3 (zk : Bool) (p : Params R) (g : GravityParams) (gf : Grav3 R) :
    List R → Fld3 R → Fld3 R
  | [], u => u
  | dt :: dts, u => iterStep3 zk p g gf dts (fullStep3 zk p g dt gf u)

theorem fill3_congr {p : Params R} (hp : Hydro3 p) {u u' : Fld3 R}
    (h : ∀ i j k, inGrid3 p i j k → u i j k = u' i j k) (i j k : Int) (hij : inGrid3 p i j k) :
    fill3 p u i j k = fill3 p u' i j k := by
  obtain ⟨⟨f1, f2, f3, f4⟩, f5, f6⟩ := hp.faces
  obtain ⟨⟨h3, h4⟩, ⟨h5, h6⟩, h7, h8⟩ := hij
  have hgw := hp.wf.gw_pos
  have sx := srcCoord_interior hp.wf.nx_pos f1 f2 h3 h4
  have sy := srcCoord_interior hp.wf.ny_pos f3 f4 h5 h6
  have sz := srcCoord_interior hp.wf.nz_pos f5 f6 h7 h8
  unfold fill3
  rw [h _ _ _ ⟨⟨by omega, by omega⟩, ⟨by omega, by omega⟩, by omega, by omega⟩]

theorem fullStep3_congr {zk : Bool} {p : Params R} (hp : Hydro3 p) {g : GravityParams} {dt : R}
    {gf : Grav3 R} {u u' : Fld3 R} (h : ∀ i j k, inGrid3 p i j k → u i j k = u' i j k)
    (i j k : Int) (hij : inGrid3 p i j k) :
    fullStep3 zk p g dt gf u i j k = fullStep3 zk p g dt gf u' i j k :=
  step3_grid_congr hp.wf (fill3_congr hp h) i j k hij

theorem iterStep3_congr {zk : Bool} {p : Params R} (hp : Hydro3 p) {g : GravityParams}
    {gf : Grav3 R} (dts : List R) {u u' : Fld3 R}
    (h : ∀ i j k, inGrid3 p i j k → u i j k = u' i j k) (i j k : Int)
    (hij : inGrid3 p i j k) :
    iterStep3 zk p g gf dts u i j k = iterStep3 zk p g gf dts u' i j k := by
  induction dts generalizing u u' with
  | nil => exact h i j k hij
  | cons dt dts ih => exact ih (fullStep3_congr hp h)

/-- **Any number of steps** -/
theorem hydroRun3_result {zk : Bool} {p : Params R} (hp : Hydro3 p) (hS : SignLaws R)
    (hK : SchemeOK3 zk p)
    {g : GravityParams} {jk : Junk R} (dts : List R) (n : Nat)
    {m m' : Mem Arr R} (hm : hydroRun3 p g jk n dts m m') :
    (∀ i j k, inGrid3 p i j k →
      hs3 m' (pingIn (n + dts.length)) i j k =
        iterStep3 zk p g (gravOf3 m .grav) dts (hs3 m (pingIn n)) i j k) ∧
    gravOf3 m' .grav = gravOf3 m .grav := by
  induction dts generalizing n m with
  | nil => cases hm; exact ⟨fun _ _ _ _ => rfl, rfl⟩
  | cons dt dts ih =>
    obtain ⟨m1, h1, h2⟩ := hm
    obtain ⟨s1, _, s2⟩ := godunov3_result hp hS hK (pingPong n) h1
    have g1 : gravOf3 m1 .grav = gravOf3 m .grav := s1.grav3 (by
      rcases pingPong n with ⟨e1, e2⟩ | ⟨e1, e2⟩ <;> rw [e1, e2] <;> simp [SchemeOuts3])
    obtain ⟨ih1, ih2⟩ := ih (n + 1) h2
    refine ⟨fun i j k hij => ?_, ih2.trans g1⟩
    have e : n + (dt :: dts).length = n + 1 + dts.length := by simp; omega
    rw [e, ih1 i j k hij, g1]
    exact iterStep3_congr hp dts (fun i j k hij => by rw [← pingOut_succ]; exact s2 i j k hij)
      i j k hij

/-! ## Determinism -/

theorem det_forRange3 {outs : Arr → Prop} {body : Int × Int × Int → Prog Arr R Unit}
    (h : Own3 outs body) (F : Finset (Int × Int × Int)) : Deterministic (Prog.forRange F body) :=
  (forRange3_is h F).det

theorem det_gravityStep3 (p : Params R) (g : GravityParams) (dt : R) {inA outA : Arr}
    (hpp : PingPong inA outA) : Deterministic (gravityStep3 p g dt inA outA) := by
  unfold gravityStep3
  split
  · exact det_forRange3 (own_gravitySource3 p dt
      (by rcases hpp with ⟨rfl, rfl⟩ | ⟨rfl, rfl⟩ <;> decide)
      (by rcases hpp with ⟨rfl, rfl⟩ | ⟨rfl, rfl⟩ <;> decide)) _
  · exact Kern.Is.skip.det

attribute [local instance 10] ExactAdd.monoid in
theorem det_allFluxes3 [ExactAdd R] (p : Params R) (g : GravityParams) (dt : R) (jk : Junk R) {U : Arr}
    (h1 : Arr.Q ≠ U) (h2 : Arr.grav ≠ U) :
    Deterministic (Prog.forRange (range3 p.isize p.jsize p.ksize)
      (computeAllFluxesAndUpdate3 p .Q U .grav dt g jk)) := by
  classical
  intro m
  have hf := foot_computeAllFluxesAndUpdate3 p .Q U .grav dt g jk
  have hdis : ∀ l : Loc Arr, (∃ i j k, cellGuard3 p (i, j, k) ∧ Cell3 U i j k l) →
      ¬ (l.arr = .Q ∨ l.arr = .grav) := by
    rintro l ⟨i, j, k, _, e, _⟩ (h | h)
    · exact h1 (h.symm.trans e)
    · exact h2 (h.symm.trans e)
  have hm := fun m' => Prog.parFor_atomic (range3 p.isize p.jsize p.ksize)
    (fun l => l.arr = .Q ∨ l.arr = .grav) _
    hdis (fun t _ => Prog.foot_mono (by
      rintro l ⟨_, ⟨e, _⟩ | ⟨_, e, _⟩⟩
      · exact Or.inl e
      · exact Or.inr e) (fun _ h => h) (fun _ h => h) (hf t)) m m'
  exact ⟨_, (hm _).2 rfl, fun m' h => (hm m').1 h⟩

theorem det_scheme3 (p : Params R) (g : GravityParams) (dt : R) (jk : Junk R) {inA outA : Arr}
    (hpp : PingPong inA outA)
    (hA : p.implementationVersion = 2 → Deterministic (Prog.forRange
      (range3 p.isize p.jsize p.ksize) (computeAllFluxesAndUpdate3 p .Q outA .grav dt g jk))) :
    ∀ k ∈ scheme3 p g dt jk inA outA, Deterministic k := by
  have n2 : inA ≠ .Q := by rcases hpp with ⟨rfl, rfl⟩ | ⟨rfl, rfl⟩ <;> decide
  have n3 : Arr.Fx ≠ outA := by rcases hpp with ⟨rfl, rfl⟩ | ⟨rfl, rfl⟩ <;> decide
  have n4 : Arr.Fy ≠ outA := by rcases hpp with ⟨rfl, rfl⟩ | ⟨rfl, rfl⟩ <;> decide
  have n5 : Arr.Fz ≠ outA := by rcases hpp with ⟨rfl, rfl⟩ | ⟨rfl, rfl⟩ <;> decide
  have hg := det_gravityStep3 p g dt hpp
  have htr := fun d => det_forRange3 (own_computeTraceAndFluxes3 d p (Q := .Q) (Sx := .Sx)
    (Sy := .Sy) (Sz := .Sz) (F := .Fx) (grav := .grav) dt g jk (by decide) (by decide)
            (by decide) (by decide) (by decide)) (range3 p.isize p.jsize p.ksize)
  intro k hk
  unfold scheme3 at hk
  simp only [List.mem_cons] at hk
  rcases hk with rfl | rfl | hk
  · exact (Kern.is_ofFun _).det
  · exact det_forRange3 (own_convertToPrimitives3 p n2) _
  · split at hk
    · simp only [List.mem_cons, List.not_mem_nil, or_false] at hk
      rcases hk with rfl | rfl | rfl
      · exact det_forRange3 (own_computeAndStoreFluxes3 p dt g jk (by decide) (by decide)
          (by decide) (by decide) (by decide) (by decide)) _
      · exact det_forRange3 (own_update3 p n3 n4 n5) _
      · exact hg
    · split at hk
      · simp only [List.mem_cons, List.not_mem_nil, or_false] at hk
        rcases hk with rfl | rfl | rfl | rfl | rfl | rfl | rfl | rfl
        · exact det_forRange3 (own_computeSlopes3 p jk (by decide) (by decide) (by decide)) _
        · exact htr _
        · exact det_forRange3 (own_updateDir3 _ p n3) _
        · exact htr _
        · exact det_forRange3 (own_updateDir3 _ p n3) _
        · exact htr _
        · exact det_forRange3 (own_updateDir3 _ p n3) _
        · exact hg
      · split at hk
        · simp only [List.mem_cons, List.not_mem_nil, or_false] at hk
          rcases hk with rfl | rfl
          · exact hA ‹_›
          · exact hg
        · simp at hk

end EulerKokkos
