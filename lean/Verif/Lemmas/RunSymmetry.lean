import Verif.Props.C15
import Verif.Props.C23
import Verif.Spec.Symmetry

/-!
# Whole runs related by a symmetry of the scheme
-/

set_option linter.constructorNameAsVariable false
set_option linter.unusedSectionVars false
set_option linter.unusedSimpArgs false

namespace EulerKokkos
open Spec

/-! ## Runs of the sequential algorithm with related states -/

section
variable {X Y : Type} {p p' : Params ℝ} {M : Method X} {M' : Method Y} {E : X → Y → Prop}

/-- two methods on different state spaces that agree on related states -/
structure Related (p p' : Params ℝ) (M : Method X) (M' : Method Y) (E : X → Y → Prop) : Prop where
  tEnd : p'.tEnd = p.tEnd
  nOutput : p'.nOutput = p.nOutput
  nStepmax : p'.nStepmax = p.nStepmax
  dt : ∀ x y, E x y → M.cflDt x = M'.cflDt y
  adv : ∀ d x y, E x y → E (M.advance d x) (M'.advance d y)

/-- related files: same number, same time, related contents -/
def FileRel (E : X → Y → Prop) (f : Int × ℝ × X) (g : Int × ℝ × Y) : Prop :=
  f.1 = g.1 ∧ f.2.1 = g.2.1 ∧ E f.2.2 g.2.2

structure SimRel (E : X → Y → Prop) (a : Sim X) (b : Sim Y) : Prop where
  x : E a.x b.x
  t : a.t = b.t
  n : a.n = b.n
  next : a.next = b.next
  files : List.Forall₂ (FileRel E) a.files b.files

theorem SimRel.save {a : Sim X} {b : Sim Y} (h : SimRel E a b) : SimRel E a.save b.save := by
  refine ⟨h.x, h.t, h.n, ?_, ?_⟩
  · show a.next + 1 = b.next + 1
    rw [h.next]
  · exact List.rel_append h.files (.cons ⟨h.next, h.t, h.x⟩ .nil)

theorem SimRel.turn (hR : Related p p' M M' E) {a : Sim X} {b : Sim Y} (h : SimRel E a b) :
    SimRel E (a.turn p M) (b.turn p' M') := by
  have hd : a.Due p ↔ b.Due p' := by
    unfold Sim.Due; rw [hR.nOutput, hR.tEnd, h.next, h.t]
  have key : ∀ {a : Sim X} {b : Sim Y}, SimRel E a b →
      SimRel E { a with x := M.advance (min (M.cflDt a.x) (p.tEnd - a.t)) a.x,
                        t := a.t + min (M.cflDt a.x) (p.tEnd - a.t), n := a.n + 1 }
        { b with x := M'.advance (min (M'.cflDt b.x) (p'.tEnd - b.t)) b.x,
                 t := b.t + min (M'.cflDt b.x) (p'.tEnd - b.t), n := b.n + 1 } := by
    intro a b h
    have e : min (M'.cflDt b.x) (p'.tEnd - b.t) = min (M.cflDt a.x) (p.tEnd - a.t) := by
      rw [← hR.dt _ _ h.x, hR.tEnd, h.t]
    refine ⟨?_, ?_, ?_, h.next, h.files⟩
    · show E _ (M'.advance (min (M'.cflDt b.x) (p'.tEnd - b.t)) b.x)
      rw [e]; exact hR.adv _ _ _ h.x
    · show _ = b.t + min (M'.cflDt b.x) (p'.tEnd - b.t)
      rw [e, ← h.t]
    · show a.n + 1 = b.n + 1
      rw [h.n]
  unfold Sim.turn
  by_cases hc : a.Due p
  · simp only [if_pos hc, if_pos (hd.1 hc)]
    exact key h.save
  · simp only [if_neg hc, if_neg (fun h => hc (hd.2 h))]
    exact key h

theorem SimRel.start (hR : Related p p' M M' E) {x : X} {y : Y} (h : E x y) (t : ℝ) (sv : Int) :
    SimRel E (Sim.start p x t sv) (Sim.start p' y t sv) := by
  have h0 : SimRel E (⟨x, t, 0, sv, []⟩ : Sim X) ⟨y, t, 0, sv, []⟩ := ⟨h, rfl, rfl, rfl, .nil⟩
  unfold Sim.start
  rw [hR.nOutput]
  split_ifs
  · exact h0.save
  · exact h0

theorem SimRel.turns (hR : Related p p' M M' E) {a : Sim X} {b : Sim Y} (h : SimRel E a b) (k : Nat) :
    SimRel E ((Sim.turn p M)^[k] a) ((Sim.turn p' M')^[k] b) := by
  induction k with
  | zero => exact h
  | succ k ih => rw [Function.iterate_succ_apply', Function.iterate_succ_apply']; exact ih.turn hR

theorem SimRel.result (hR : Related p p' M M' E) {x : X} {y : Y} (h : E x y) (t : ℝ) (sv : Int)
    (k : Nat) : SimRel E (Sim.result p M x t sv k) (Sim.result p' M' y t sv k) := by
  have h1 := (SimRel.start hR h t sv).turns hR k
  unfold Sim.result
  simp only [hR.nOutput]
  split_ifs
  · exact h1.save
  · exact h1

theorem SimRel.length (hR : Related p p' M M' E) {x : X} {y : Y} (h : E x y) {t : ℝ} {sv : Int}
    {k : Nat} (hk : Sim.Length p M x t sv k) : Sim.Length p' M' y t sv k := by
  have ho : ∀ k, Sim.Over p ((Sim.turn p M)^[k] (Sim.start p x t sv)) ↔
      Sim.Over p' ((Sim.turn p' M')^[k] (Sim.start p' y t sv)) := by
    intro k
    have h1 := (SimRel.start hR h t sv).turns hR k
    unfold Sim.Over
    rw [hR.tEnd, hR.nStepmax, h1.t, h1.n]
  exact ⟨(ho k).1 hk.1, fun l hl => fun h => hk.2 l hl ((ho l).2 h)⟩
end

/-! ## Symmetries of the hydro schemes -/

/-- a field pulled back along a map of cells, with its states transformed (2D) -/
def pull2 (σ : Int → Int → Int × Int) (act : HS ℝ → HS ℝ) (u : Fld2 ℝ) : Fld2 ℝ :=
  fun i j => act (u (σ i j).1 (σ i j).2)

/-- a field pulled back along a map of cells, with its states transformed (3D) -/
def pull3 (σ : Int → Int → Int → Int × Int × Int) (act : HS ℝ → HS ℝ) (u : Fld3 ℝ) : Fld3 ℝ :=
  fun i j k => act (u (σ i j k).1 (σ i j k).2.1 (σ i j k).2.2)

/-- the scheme with parameters `p'` and gravity `gf'` is the scheme with `p`, `gf` seen through a map
of cells and of states (2D) -/
structure RunSym2 (p p' : Params ℝ) (g : GravityParams) (gf gf' : Grav2 ℝ)
    (σ : Int → Int → Int × Int) (act : HS ℝ → HS ℝ) : Prop where
  tEnd : p'.tEnd = p.tEnd
  nOutput : p'.nOutput = p.nOutput
  nStepmax : p'.nStepmax = p.nStepmax
  cfl : p'.settings.cfl = p.settings.cfl
  int : ∀ i j, interior2 p' i j → interior2 p (σ i j).1 (σ i j).2
  onto : ∀ i j, interior2 p i j → ∃ i' j', interior2 p' i' j' ∧ σ i' j' = (i, j)
  rate : ∀ u i j, interior2 p' i j →
    rate2 p' g gf' (pull2 σ act u) i j = rate2 p g gf u (σ i j).1 (σ i j).2
  step : ∀ dt u i j, interior2 p' i j →
    fullStep2 p' g dt gf' (pull2 σ act u) i j = act (fullStep2 p g dt gf u (σ i j).1 (σ i j).2)

/-- the same in 3D -/
structure RunSym3 (zk zk' : Bool) (p p' : Params ℝ) (g : GravityParams) (gf gf' : Grav3 ℝ)
    (σ : Int → Int → Int → Int × Int × Int) (act : HS ℝ → HS ℝ) : Prop where
  tEnd : p'.tEnd = p.tEnd
  nOutput : p'.nOutput = p.nOutput
  nStepmax : p'.nStepmax = p.nStepmax
  cfl : p'.settings.cfl = p.settings.cfl
  int : ∀ i j k, interior3 p' i j k → interior3 p (σ i j k).1 (σ i j k).2.1 (σ i j k).2.2
  onto : ∀ i j k, interior3 p i j k → ∃ i' j' k', interior3 p' i' j' k' ∧ σ i' j' k' = (i, j, k)
  rate : ∀ u i j k, interior3 p' i j k →
    rate3 p' g gf' (pull3 σ act u) i j k = rate3 p g gf u (σ i j k).1 (σ i j k).2.1 (σ i j k).2.2
  step : ∀ dt u i j k, interior3 p' i j k →
    fullStep3 zk' p' g dt gf' (pull3 σ act u) i j k =
      act (fullStep3 zk p g dt gf u (σ i j k).1 (σ i j k).2.1 (σ i j k).2.2)

theorem cflDt2_congr_grav {p : Params ℝ} {g : GravityParams} {gf gf' : Grav2 ℝ} {u u' : Fld2 ℝ}
    (hG : g.enabled = true → ∀ i j, interior2 p i j → gf i j = gf' i j)
    (h : ∀ i j, interior2 p i j → u i j = u' i j) : cflDt2 p g gf u = cflDt2 p g gf' u' := by
  unfold cflDt2
  congr 2
  ext r
  constructor <;> rintro ⟨i, j, hij, rfl⟩ <;> refine ⟨i, j, hij, ?_⟩ <;> unfold rate2 <;>
    rw [h i j hij] <;> by_cases hen : g.enabled = true <;>
    simp only [hen, if_true, if_false, Bool.false_eq_true] <;> rw [hG hen i j hij]

theorem cflDt3_congr_grav {p : Params ℝ} {g : GravityParams} {gf gf' : Grav3 ℝ} {u u' : Fld3 ℝ}
    (hG : g.enabled = true → ∀ i j k, interior3 p i j k → gf i j k = gf' i j k)
    (h : ∀ i j k, interior3 p i j k → u i j k = u' i j k) :
    cflDt3 p g gf u = cflDt3 p g gf' u' := by
  unfold cflDt3
  congr 2
  ext r
  constructor <;> rintro ⟨i, j, k, hij, rfl⟩ <;> refine ⟨i, j, k, hij, ?_⟩ <;> unfold rate3 <;>
    rw [h i j k hij] <;> by_cases hen : g.enabled = true <;>
    simp only [hen, if_true, if_false, Bool.false_eq_true] <;> rw [hG hen i j k hij]

theorem fullStep2_congr_grav' {p : Params ℝ} (hp : Hydro2 p) {g : GravityParams} {dt : ℝ}
    {gf gf' : Grav2 ℝ} {u u' : Fld2 ℝ} (h : ∀ i j, interior2 p i j → u i j = u' i j)
    (hg : g.enabled = true → ∀ i j, inGrid2 p i j → gf i j = gf' i j) (i j : Int)
    (hij : interior2 p i j) :
    fullStep2 p g dt gf u i j = fullStep2 p g dt gf' u' i j := by
  have hgw := hp.wf.gw_pos
  obtain ⟨a, b, c, d⟩ := hij
  unfold fullStep2
  exact step2_congr (fun x y _ _ _ _ => fill2_congr_interior hp h x y
    ⟨by omega, by omega, by omega, by omega⟩)
    (fun hen x y _ _ _ _ => hg hen x y ⟨by omega, by omega, by omega, by omega⟩)

theorem fullStep3_congr_grav {zk : Bool} {p : Params ℝ} (hp : Hydro3 p) {g : GravityParams} {dt : ℝ}
    {gf gf' : Grav3 ℝ} {u u' : Fld3 ℝ} (h : ∀ i j k, interior3 p i j k → u i j k = u' i j k)
    (hg : g.enabled = true → ∀ i j k, inGrid3 p i j k → gf i j k = gf' i j k) (i j k : Int)
    (hij : interior3 p i j k) :
    fullStep3 zk p g dt gf u i j k = fullStep3 zk p g dt gf' u' i j k := by
  have hgw := hp.wf.gw_pos
  obtain ⟨⟨a, b⟩, ⟨c, d⟩, e, f⟩ := hij
  unfold fullStep3
  exact step3_congr (fun x y z _ _ _ _ _ _ => fill3_congr_interior hp h x y z
    ⟨⟨by omega, by omega⟩, ⟨by omega, by omega⟩, by omega, by omega⟩)
    (fun hen x y z _ _ _ _ _ _ => hg hen x y z
      ⟨⟨by omega, by omega⟩, ⟨by omega, by omega⟩, by omega, by omega⟩)

/-- the state shown by a file in a cell (2D) -/
def Spec.shown2 (data : Loc Unit → ℝ) (i j : Int) : HS ℝ :=
  ⟨data ⟨(), i, j, 0, ID⟩, data ⟨(), i, j, 0, IP⟩, data ⟨(), i, j, 0, IU⟩, data ⟨(), i, j, 0, IV⟩, 0⟩

/-- the state shown by a file in a cell (3D) -/
def Spec.shown3 (data : Loc Unit → ℝ) (i j k : Int) : HS ℝ :=
  ⟨data ⟨(), i, j, k, ID⟩, data ⟨(), i, j, k, IP⟩, data ⟨(), i, j, k, IU⟩, data ⟨(), i, j, k, IV⟩,
    data ⟨(), i, j, k, IW⟩⟩

theorem related_hydro2 {p p' : Params ℝ} (hp' : Hydro2 p') {g : GravityParams} {gf gf' gf'' : Grav2 ℝ}
    {σ : Int → Int → Int × Int} {act : HS ℝ → HS ℝ} (hS : RunSym2 p p' g gf gf' σ act)
    (hG : g.enabled = true → ∀ i j, inGrid2 p' i j → gf'' i j = gf' i j) :
    Related p p' (hydro2 p g gf) (hydro2 p' g gf'')
      (fun x y => ∀ i j, interior2 p' i j → y i j = act (x (σ i j).1 (σ i j).2)) where
  tEnd := hS.tEnd
  nOutput := hS.nOutput
  nStepmax := hS.nStepmax
  dt x y h := by
    have e : cflDt2 p' g gf'' y = cflDt2 p' g gf' (pull2 σ act x) :=
      cflDt2_congr_grav (fun hen i j hij => hG hen i j (interior_inGrid2 hp'.wf hij)) h
    show cflDt2 p g gf x = cflDt2 p' g gf'' y
    rw [e]
    unfold cflDt2
    rw [hS.cfl]
    congr 2
    ext r
    constructor
    · rintro ⟨i, j, hij, rfl⟩
      obtain ⟨i', j', h', e'⟩ := hS.onto i j hij
      refine ⟨i', j', h', ?_⟩
      rw [hS.rate x i' j' h', e']
    · rintro ⟨i, j, hij, rfl⟩
      exact ⟨_, _, hS.int i j hij, hS.rate x i j hij⟩
  adv d x y h := by
    intro i j hij
    show fullStep2 p' g d gf'' y i j = act (fullStep2 p g d gf x _ _)
    rw [← hS.step d x i j hij]
    exact fullStep2_congr_grav' hp' h hG i j hij

theorem related_hydro3 {zk zk' : Bool} {p p' : Params ℝ} (hp' : Hydro3 p') {g : GravityParams}
    {gf gf' gf'' : Grav3 ℝ}
    {σ : Int → Int → Int → Int × Int × Int} {act : HS ℝ → HS ℝ}
    (hS : RunSym3 zk zk' p p' g gf gf' σ act)
    (hG : g.enabled = true → ∀ i j k, inGrid3 p' i j k → gf'' i j k = gf' i j k) :
    Related p p' (hydro3 zk p g gf) (hydro3 zk' p' g gf'')
      (fun x y => ∀ i j k, interior3 p' i j k →
        y i j k = act (x (σ i j k).1 (σ i j k).2.1 (σ i j k).2.2)) where
  tEnd := hS.tEnd
  nOutput := hS.nOutput
  nStepmax := hS.nStepmax
  dt x y h := by
    have e : cflDt3 p' g gf'' y = cflDt3 p' g gf' (pull3 σ act x) :=
      cflDt3_congr_grav (fun hen i j k hij => hG hen i j k (interior_inGrid3 hp'.wf hij)) h
    show cflDt3 p g gf x = cflDt3 p' g gf'' y
    rw [e]
    unfold cflDt3
    rw [hS.cfl]
    congr 2
    ext r
    constructor
    · rintro ⟨i, j, k, hij, rfl⟩
      obtain ⟨i', j', k', h', e'⟩ := hS.onto i j k hij
      refine ⟨i', j', k', h', ?_⟩
      rw [hS.rate x i' j' k' h', e']
    · rintro ⟨i, j, k, hij, rfl⟩
      exact ⟨_, _, _, hS.int i j k hij, hS.rate x i j k hij⟩
  adv d x y h := by
    intro i j k hij
    show fullStep3 zk' p' g d gf'' y i j k = act (fullStep3 zk p g d gf x _ _ _)
    rw [← hS.step d x i j k hij]
    exact fullStep3_congr_grav hp' h hG i j k hij

theorem forall₂_join {α β γ δ : Type} {r : α → β → Prop} {s : γ → δ → Prop} {t : β → δ → Prop}
    {w : α → γ → Prop} (hw : ∀ a b c d, r a b → s c d → t b d → w a c) {l1 : List α} {l2 : List β}
    {l3 : List γ} {l4 : List δ} (h1 : List.Forall₂ r l1 l2) (h2 : List.Forall₂ s l3 l4)
    (h3 : List.Forall₂ t l2 l4) : List.Forall₂ w l1 l3 := by
  induction h3 generalizing l1 l3 with
  | nil => cases h1; cases h2; exact .nil
  | cons h _ ih =>
    cases h1 with
    | cons a as =>
      cases h2 with
      | cons b bs => exact .cons (hw _ _ _ _ a b h) (ih as bs)

theorem fill2_on_interior {p : Params ℝ} {u : Fld2 ℝ} {i j : Int} (h : interior2 p i j)
    (hw : (u i j).w = 0) : fill2 p u i j = u i j := by
  obtain ⟨a, b, c, d⟩ := h
  unfold fill2
  simp only [srcCoord_self a b, srcCoord_self c d, signed, flips_not a b, flips_not c d, if_false]
  ext <;> simp [hw]

theorem fill3_on_interior {p : Params ℝ} {u : Fld3 ℝ} {i j k : Int} (h : interior3 p i j k) :
    fill3 p u i j k = u i j k := by
  obtain ⟨⟨a, b⟩, ⟨c, d⟩, e, f⟩ := h
  unfold fill3
  simp only [srcCoord_self a b, srcCoord_self c d, srcCoord_self e f, signed, flips_not a b,
    flips_not c d, flips_not e f, if_false]

/-- **Complete 2D runs related by a symmetry**: same number of iterations, same final time, and files
with the same numbers and times whose contents are related. -/
theorem runSym2 {p p' : Params ℝ} (hp : Hydro2 p) (hp' : Hydro2 p')
    (hi : p.implementationVersion = 0 ∨ p.implementationVersion = 1 ∨ p.implementationVersion = 2)
    (hi' : p'.implementationVersion = 0 ∨ p'.implementationVersion = 1 ∨ p'.implementationVersion = 2)
    (hg : GoodGrid p) (hg' : GoodGrid p') (he : p.enableOutput = decide (p.nOutput ≠ 0))
    (he' : p'.enableOutput = decide (p'.nOutput ≠ 0)) (g : GravityParams)
    {ident ident' : ℝ} (hid : ident ≤ 0) (hid' : ident' ≤ 0) (jk jk' : Junk ℝ) {m m' : Mem Arr ℝ}
    {gf' : Grav2 ℝ} {σ : Int → Int → Int × Int} {act : HS ℝ → HS ℝ}
    (hS : RunSym2 p p' g (gravOf m .grav) gf' σ act)
    (hG : g.enabled = true → ∀ i j, inGrid2 p' i j → gravOf m' .grav i j = gf' i j)
    (h0 : ∀ i j, interior2 p' i j → hs2 m' .U i j = act (hs2 m .U (σ i j).1 (σ i j).2))
    {t : ℝ} {sv : Int} {a b : RunState ℝ} (ha : runMain p (hydroOps2 p g ident jk) m t sv a)
    (hb : runMain p' (hydroOps2 p' g ident' jk') m' t sv b) :
    a.iteration = b.iteration ∧ a.t = b.t ∧
    List.Forall₂ (fun o o' : Output ℝ => o.number = o'.number ∧ o.time = o'.time ∧
      ∀ i j, interior2 p' i j → shown2 o'.data i j = act (shown2 o.data (σ i j).1 (σ i j).2))
      a.outputs b.outputs := by
  obtain ⟨a1, a2, a3, _⟩ := C15_run_is_algorithm_2d hp hi hg he g hid jk ha
  obtain ⟨b1, b2, b3, _⟩ := C15_run_is_algorithm_2d hp' hi' hg' he' g hid' jk' hb
  have hR := related_hydro2 hp' hS hG
  have hE : ∀ i j, interior2 p' i j →
      fill2 p' (hs2 m' .U) i j = act (fill2 p (hs2 m .U) (σ i j).1 (σ i j).2) := by
    intro i j hij
    rw [fill2_on_interior hij (by simp [hs2]), fill2_on_interior (hS.int i j hij) (by simp [hs2])]
    exact h0 i j hij
  have hk : a.iteration = b.iteration := (SimRel.length hR hE a1).unique b1
  have hres := SimRel.result hR hE t sv a.iteration
  refine ⟨hk, ?_, ?_⟩
  · rw [a2, b2, ← hk]; exact hres.t
  · rw [← hk] at b3
    refine forall₂_join ?_ a3 b3 hres.files
    rintro o f o' f' ⟨n1, t1, s1⟩ ⟨n2, t2, s2⟩ ⟨n3, t3, s3⟩
    refine ⟨by rw [n1, n2, n3], by rw [t1, t2, t3], fun i j hij => ?_⟩
    have e1 : shown2 o'.data i j = f'.2.2 i j := s2 i j (interior_inGrid2 hp'.wf hij)
    have e2 : shown2 o.data (σ i j).1 (σ i j).2 = f.2.2 (σ i j).1 (σ i j).2 :=
      s1 _ _ (interior_inGrid2 hp.wf (hS.int i j hij))
    rw [e1, e2]
    exact s3 i j hij

/-- **Complete 3D runs related by a symmetry.** -/
theorem runSym3 {p p' : Params ℝ} (hp : Hydro3 p) (hp' : Hydro3 p')
    (hi : p.implementationVersion = 0 ∨ p.implementationVersion = 1 ∨ p.implementationVersion = 2)
    (hi' : p'.implementationVersion = 0 ∨ p'.implementationVersion = 1 ∨ p'.implementationVersion = 2)
    (hg : GoodGrid p) (hg' : GoodGrid p') (he : p.enableOutput = decide (p.nOutput ≠ 0))
    (he' : p'.enableOutput = decide (p'.nOutput ≠ 0)) (g : GravityParams)
    {ident ident' : ℝ} (hid : ident ≤ 0) (hid' : ident' ≤ 0) (jk jk' : Junk ℝ) {m m' : Mem Arr ℝ}
    {gf' : Grav3 ℝ} {σ : Int → Int → Int → Int × Int × Int} {act : HS ℝ → HS ℝ}
    (hS : RunSym3 (zKick p.implementationVersion) (zKick p'.implementationVersion) p p' g
      (gravOf3 m .grav) gf' σ act)
    (hG : g.enabled = true → ∀ i j k, inGrid3 p' i j k → gravOf3 m' .grav i j k = gf' i j k)
    (h0 : ∀ i j k, interior3 p' i j k →
      hs3 m' .U i j k = act (hs3 m .U (σ i j k).1 (σ i j k).2.1 (σ i j k).2.2))
    {t : ℝ} {sv : Int} {a b : RunState ℝ} (ha : runMain p (hydroOps3 p g ident jk) m t sv a)
    (hb : runMain p' (hydroOps3 p' g ident' jk') m' t sv b) :
    a.iteration = b.iteration ∧ a.t = b.t ∧
    List.Forall₂ (fun o o' : Output ℝ => o.number = o'.number ∧ o.time = o'.time ∧
      ∀ i j k, interior3 p' i j k →
        shown3 o'.data i j k = act (shown3 o.data (σ i j k).1 (σ i j k).2.1 (σ i j k).2.2))
      a.outputs b.outputs := by
  obtain ⟨a1, a2, a3, _⟩ := C15_run_is_algorithm_3d hp hi hg he g hid jk ha
  obtain ⟨b1, b2, b3, _⟩ := C15_run_is_algorithm_3d hp' hi' hg' he' g hid' jk' hb
  have hR := related_hydro3 hp' hS hG
  have hE : ∀ i j k, interior3 p' i j k →
      fill3 p' (hs3 m' .U) i j k =
        act (fill3 p (hs3 m .U) (σ i j k).1 (σ i j k).2.1 (σ i j k).2.2) := by
    intro i j k hij
    rw [fill3_on_interior hij, fill3_on_interior (hS.int i j k hij)]
    exact h0 i j k hij
  have hk : a.iteration = b.iteration := (SimRel.length hR hE a1).unique b1
  have hres := SimRel.result hR hE t sv a.iteration
  refine ⟨hk, ?_, ?_⟩
  · rw [a2, b2, ← hk]; exact hres.t
  · rw [← hk] at b3
    refine forall₂_join ?_ a3 b3 hres.files
    rintro o f o' f' ⟨n1, t1, s1⟩ ⟨n2, t2, s2⟩ ⟨n3, t3, s3⟩
    refine ⟨by rw [n1, n2, n3], by rw [t1, t2, t3], fun i j k hij => ?_⟩
    have e1 : shown3 o'.data i j k = f'.2.2 i j k := s2 i j k (interior_inGrid3 hp'.wf hij)
    have e2 : shown3 o.data (σ i j k).1 (σ i j k).2.1 (σ i j k).2.2 =
        f.2.2 (σ i j k).1 (σ i j k).2.1 (σ i j k).2.2 :=
      s1 _ _ _ (interior_inGrid3 hp.wf (hS.int i j k hij))
    rw [e1, e2]
    exact s3 i j k hij

end EulerKokkos
