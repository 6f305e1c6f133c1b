import Verif.Lemmas.Init

/-! # Helper lemmas on the initial-condition kernels, MHD -/

set_option linter.constructorNameAsVariable false
set_option linter.unusedSectionVars false
set_option linter.unusedSimpArgs false
set_option linter.unnecessarySeqFocus false

namespace EulerKokkos

open Spec
open Prog (rd wr upd pif forRange run_bind run_rd run_wr run_pure foot_bind foot_rd foot_wr foot_pure
  foot_mono foot_pif)
variable {R : Type} [RealOps R]

/-- the value the stores leave in variable `v`, if they store it -/
def stored : List (Nat × R) → Nat → Option R
  | [], _ => none
  | (w, x) :: l, v => (stored l v).or (if w = v then some x else none)

theorem eq_fun_iff {m' f g : Mem Arr R} (h : ∀ l, f l = g l) : m' = f ↔ m' = g := by
  rw [show f = g from funext h]

theorem run_putVars (a : Arr) (i j k : Int) (l : List (Nat × R)) (m : Mem Arr R) (c : Loc Arr) :
    ((putVars a i j k l).run m).2 c =
      if c.arr = a ∧ c.i = i ∧ c.j = j ∧ c.k = k then (stored l c.v).getD (m c) else m c := by
  induction l generalizing m with
  | nil => simp [putVars, stored]
  | cons x l ih =>
    obtain ⟨w, x⟩ := x
    simp only [putVars, run_bind, run_wr]
    rw [ih]
    obtain ⟨ca, ci, cj, ck, cv⟩ := c
    by_cases h : ca = a ∧ ci = i ∧ cj = j ∧ ck = k
    · obtain ⟨rfl, rfl, rfl, rfl⟩ := h
      simp only [and_self, if_true, stored, upd, Loc.mk.injEq, true_and]
      by_cases hv : w = cv
      · subst hv; cases stored l w <;> simp
      · rw [if_neg (fun e => hv e.symm), if_neg hv]; simp
    · simp only [if_neg h, upd, Loc.mk.injEq]
      rw [if_neg (by tauto)]

theorem foot_putVars (a : Arr) (i j k : Int) (l : List (Nat × R)) {N : Nat} (hN : ∀ x ∈ l, x.1 < N) :
    (putVars a i j k l).Foot (fun _ => False)
      (fun c => c.arr = a ∧ (c.i = i ∧ c.j = j ∧ c.k = k) ∧ c.v < N) (fun _ => False) := by
  induction l with
  | nil => exact foot_pure _ _ _ _
  | cons x l ih =>
    obtain ⟨w, x⟩ := x
    exact foot_bind ((foot_wr _ _ _ _ _).2 ⟨rfl, ⟨rfl, rfl, rfl⟩, hN _ (List.mem_cons_self ..)⟩)
      (fun _ => ih (fun y hy => hN y (List.mem_cons_of_mem _ hy)))

/-- the enum values of the Brio-Wu direction and of the Orszag-Tang vortex direction the code can
represent -/
def MhdProblem.EnumOk2 : MhdProblem R → Prop
  | .brioWu q => q.direction = 0 ∨ q.direction = 1
  | _ => True

/-- the same in 3D -/
def MhdProblem.EnumOk3 : MhdProblem R → Prop
  | .brioWu q => q.direction = 0 ∨ q.direction = 1 ∨ q.direction = 2
  | _ => True

theorem mhdCell2_vars (M : MathLib R) (p : Params R) (rnd : Nat → R) (x y : R) (q : MhdProblem R)
    (hq : q.EnumOk2) : ∀ a ∈ mhdCell2 M p rnd x y q, a.1 < 8 := by
  intro a ha
  cases q with
  | brioWu q =>
    simp only [MhdProblem.EnumOk2] at hq
    rcases hq with h | h <;> simp [mhdCell2, brioWuM2, h] at ha <;> rcases ha with h | h | h | h | h | h | h | h <;> simp [h, ID, IP, IU, IV, IW, IA, IB, IC]
  | kelvinHelmholtz q =>
    simp only [mhdCell2, khM2] at ha
    split_ifs at ha <;> simp at ha <;> rcases ha with h | h | h | h | h | h | h <;> simp [h, ID, IP, IU, IV, IW, IA, IB, IC]
  | fieldLoop q => simp [mhdCell2] at ha
  | orszagTang q => simp [mhdCell2, orszagM2] at ha; rcases ha with h | h | h | h | h | h | h <;> simp [h, ID, IP, IU, IV, IW, IA, IB, IC]
  | _ => simp [mhdCell2, allVars] at ha; rcases ha with h | h | h | h | h | h | h | h <;> simp [h, ID, IP, IU, IV, IW, IA, IB, IC]

theorem mhdCell3_vars (M : MathLib R) (p : Params R) (rnd : Nat → R) (x y z zb : R) (q : MhdProblem R)
    (hq : q.EnumOk3) : ∀ a ∈ mhdCell3 M p rnd x y z zb q, a.1 < 8 := by
  intro a ha
  cases q with
  | brioWu q =>
    simp only [MhdProblem.EnumOk3] at hq
    rcases hq with h | h | h <;> simp [mhdCell3, brioWuM3, h] at ha <;> rcases ha with h | h | h | h | h | h | h | h <;> simp [h, ID, IP, IU, IV, IW, IA, IB, IC]
  | kelvinHelmholtz q =>
    simp only [mhdCell3, khM3] at ha
    split_ifs at ha <;> simp at ha <;> first
      | (rcases ha with h | h | h | h | h | h | h | h <;> simp [h, ID, IP, IU, IV, IW, IA, IB, IC])
      | (rcases ha with h | h | h | h | h <;> simp [h, ID, IP, IU, IV, IW, IA, IB, IC])
  | fieldLoop q => simp [mhdCell3] at ha
  | orszagTang q =>
    simp only [mhdCell3, orszagM3] at ha
    split_ifs at ha <;> simp at ha <;> rcases ha with h | h | h | h | h | h | h <;> simp [h, ID, IP, IU, IV, IW, IA, IB, IC]
  | _ => simp [mhdCell3, allVars] at ha; rcases ha with h | h | h | h | h | h | h | h <;> simp [h, ID, IP, IU, IV, IW, IA, IB, IC]

/-! ### the one-cell kernels -/

theorem foot_mhdInit2 (M : MathLib R) (p : Params R) (pos : Int × Int × Int)
    (rnd : Int → Int → Int → Nat → R) {q : MhdProblem R} (hq : q.EnumOk2) (t : Int × Int) :
    (mhdInit2 M p pos rnd q t).Foot (fun _ => False)
      (fun c => c.arr = .U ∧ (c.i = t.1 ∧ c.j = t.2 ∧ c.k = 0) ∧ c.v < 8) (fun _ => False) :=
  foot_putVars _ _ _ _ _ (mhdCell2_vars M p _ _ _ q hq)

theorem foot_mhdInit3 (M : MathLib R) (p : Params R) (pos : Int × Int × Int)
    (rnd : Int → Int → Int → Nat → R) {q : MhdProblem R} (hq : q.EnumOk3) (t : Int × Int × Int) :
    (mhdInit3 M p pos rnd q t).Foot (fun _ => False)
      (fun c => c.arr = .U ∧ (c.i = t.1 ∧ c.j = t.2.1 ∧ c.k = t.2.2) ∧ c.v < 8) (fun _ => False) :=
  foot_putVars _ _ _ _ _ (mhdCell3_vars M p _ _ _ _ _ q hq)

theorem mhdInitK2_iff (M : MathLib R) (p : Params R) (pos : Int × Int × Int)
    (rnd : Int → Int → Int → Nat → R) {q : MhdProblem R} (hq : q.EnumOk2) (m m' : Mem Arr R) :
    forRange (range2 p.isize p.jsize) (mhdInit2 M p pos rnd q) m m' ↔ m' = fun l =>
      if l.arr = .U ∧ (l.i, l.j) ∈ range2 p.isize p.jsize ∧ l.k = 0 then
        (stored (mhdCell2 M p (rnd l.i l.j 0) (cellX p pos l.i) (cellY p pos l.j) q) l.v).getD (m l)
      else m l := by
  have h : Own2 (· = .U) (mhdInit2 M p pos rnd q) :=
    own2_of_foot (foot_mhdInit2 M p pos rnd hq) (fun _ _ h => h.elim)
      (fun t l hl => ⟨hl.1, by rw [hl.2.1.1, hl.2.1.2.1]⟩)
  refine (forRange2_is h (range2 p.isize p.jsize) m m').trans (eq_fun_iff ?_)
  intro l
  beta_reduce
  unfold mhdInit2
  rw [run_putVars]
  by_cases h1 : l.arr = .U ∧ (l.i, l.j) ∈ range2 p.isize p.jsize
  · rw [if_pos h1]
    by_cases h2 : l.k = 0
    · rw [if_pos ⟨h1.1, rfl, rfl, h2⟩, if_pos ⟨h1.1, h1.2, h2⟩]
    · rw [if_neg (fun h => h2 h.2.2.2), if_neg (fun h => h2 h.2.2)]
  · rw [if_neg h1, if_neg (fun h => h1 ⟨h.1, h.2.1⟩)]

theorem mhdInitK3_iff (M : MathLib R) (p : Params R) (pos : Int × Int × Int)
    (rnd : Int → Int → Int → Nat → R) {q : MhdProblem R} (hq : q.EnumOk3) (m m' : Mem Arr R) :
    forRange (range3 p.isize p.jsize p.ksize) (mhdInit3 M p pos rnd q) m m' ↔ m' = fun l =>
      if l.arr = .U ∧ (l.i, l.j, l.k) ∈ range3 p.isize p.jsize p.ksize then
        (stored (mhdCell3 M p (rnd l.i l.j l.k) (cellX p pos l.i) (cellY p pos l.j) (cellZ p pos l.k)
          (brioWuZ p pos l.k) q) l.v).getD (m l)
      else m l := by
  have h : Own3 (· = .U) (mhdInit3 M p pos rnd q) :=
    own3_of_foot (foot_mhdInit3 M p pos rnd hq) (fun _ _ h => h.elim)
      (fun t l hl => ⟨hl.1, by rw [hl.2.1.1, hl.2.1.2.1, hl.2.1.2.2]⟩)
  refine (forRange3_is h (range3 p.isize p.jsize p.ksize) m m').trans (eq_fun_iff ?_)
  intro l
  beta_reduce
  unfold mhdInit3
  rw [run_putVars]
  by_cases h1 : l.arr = .U ∧ (l.i, l.j, l.k) ∈ range3 p.isize p.jsize p.ksize
  · rw [if_pos h1, if_pos ⟨h1.1, rfl, rfl, rfl⟩, if_pos h1]
  · rw [if_neg h1, if_neg h1]

/-! ### Orszag-Tang energy -/

/-- the energy stored by the second Orszag-Tang kernel in 2D -/
def orszagE2 (M : MathLib R) (p : Params R) (m : Mem Arr R) (i j : Int) : R :=
  p.settings.gamma0 / (lit 2 * (lit 4 * M.asin (lit 1))) / (p.settings.gamma0 - lit 1) +
    lit (1 / 2) * (sq (m ⟨.U, i, j, 0, IU⟩) / m ⟨.U, i, j, 0, ID⟩ +
      sq (m ⟨.U, i, j, 0, IV⟩) / m ⟨.U, i, j, 0, ID⟩) +
    lit (1 / 2) * (sq ((m ⟨.U, i, j, 0, IA⟩ + m ⟨.U, i + 1, j, 0, IA⟩) / lit 2) +
      sq ((m ⟨.U, i, j, 0, IB⟩ + m ⟨.U, i, j + 1, 0, IB⟩) / lit 2))

theorem foot_orszagE2 (M : MathLib R) (p : Params R) (t : Int × Int) :
    (orszagEnergyM2 M p t).Foot
      (fun c => (t.1 < p.isize - 1 ∧ t.2 < p.jsize - 1) ∧ (c.arr = .U ∧ c.v ≠ IP ∧ c.v < 8 ∧ c.k = 0) ∧
        (t.1 ≤ c.i ∧ c.i ≤ t.1 + 1) ∧ (t.2 ≤ c.j ∧ c.j ≤ t.2 + 1))
      (fun c => (t.1 < p.isize - 1 ∧ t.2 < p.jsize - 1) ∧ (c.arr = .U ∧ c.v = IP ∧ c.k = 0) ∧
        c.i = t.1 ∧ c.j = t.2) (fun _ => False) := by
  unfold orszagEnergyM2
  refine foot_pif (fun hg => ?_)
  simp only [decide_eq_true_eq] at hg
  repeat' first
    | refine foot_bind ((foot_rd _ _ _ _).2 ?_) (fun _ => ?_)
    | refine (foot_wr _ _ _ _ _).2 ?_
  all_goals simp [hg, ID, IP, IU, IV, IW, IA, IB, IC]

theorem orszagK2_iff (M : MathLib R) (p : Params R) (m m' : Mem Arr R) :
    forRange (range2 p.isize p.jsize) (orszagEnergyM2 M p) m m' ↔ m' = fun l =>
      if (l.arr = .U ∧ l.v = IP ∧ l.k = 0) ∧ (l.i, l.j) ∈ range2 p.isize p.jsize ∧
          l.i < p.isize - 1 ∧ l.j < p.jsize - 1 then
        orszagE2 M p m l.i l.j
      else m l := by
  refine (Prog.forRange_owner (range2 p.isize p.jsize) (orszagEnergyM2 M p) (fun l => (l.i, l.j))
    (fun l => l.arr = .U ∧ l.v = IP) (fun t _ => foot_mono ?_ ?_ (fun _ h => h) (foot_orszagE2 M p t))
    m m').trans (eq_fun_iff ?_)
  · intro l hl; exact Or.inl (fun h => hl.2.1.2.1 h.2)
  · rintro l ⟨_, ⟨h1, h2, _⟩, h3, h4⟩; exact ⟨⟨h1, h2⟩, by rw [h3, h4]⟩
  · rintro ⟨a, i, j, k, v⟩
    beta_reduce
    by_cases h1 : (a = .U ∧ v = IP) ∧ (i, j) ∈ range2 p.isize p.jsize
    · obtain ⟨⟨rfl, rfl⟩, h2⟩ := h1
      by_cases h3 : i < p.isize - 1 ∧ j < p.jsize - 1
      · by_cases h4 : k = 0
        · subst h4
          rw [if_pos ⟨⟨rfl, rfl⟩, h2⟩, if_pos ⟨⟨rfl, rfl, rfl⟩, h2, h3⟩]
          simp [orszagEnergyM2, pif, h3, orszagE2, upd]
        · rw [if_pos ⟨⟨rfl, rfl⟩, h2⟩, if_neg (fun h => h4 h.1.2.2)]
          simp [orszagEnergyM2, pif, h3, upd, h4]
      · rw [if_pos ⟨⟨rfl, rfl⟩, h2⟩, if_neg (fun h => h3 h.2.2)]
        simp [orszagEnergyM2, pif, h3]
    · rw [if_neg h1, if_neg (fun h => h1 ⟨⟨h.1.1, h.1.2.1⟩, h.2.1⟩)]

/-- the energy stored by the second Orszag-Tang kernel in 3D -/
def orszagE3 (M : MathLib R) (p : Params R) (m : Mem Arr R) (i j k : Int) : R :=
  p.settings.gamma0 / (lit 4 * M.pi) / (p.settings.gamma0 - lit 1) +
    lit (1 / 2) * (sq (m ⟨.U, i, j, k, IU⟩) / m ⟨.U, i, j, k, ID⟩ +
      sq (m ⟨.U, i, j, k, IV⟩) / m ⟨.U, i, j, k, ID⟩ +
      sq (m ⟨.U, i, j, k, IW⟩) / m ⟨.U, i, j, k, ID⟩) +
    lit (1 / 2) * (sq ((m ⟨.U, i, j, k, IA⟩ + m ⟨.U, i + 1, j, k, IA⟩) / lit 2) +
      sq ((m ⟨.U, i, j, k, IB⟩ + m ⟨.U, i, j + 1, k, IB⟩) / lit 2) +
      sq ((m ⟨.U, i, j, k, IC⟩ + m ⟨.U, i, j, k + 1, IC⟩) / lit 2))

theorem foot_orszagE3 (M : MathLib R) (p : Params R) (t : Int × Int × Int) :
    (orszagEnergyM3 M p t).Foot
      (fun c => (t.1 < p.isize - 1 ∧ t.2.1 < p.jsize - 1 ∧ t.2.2 < p.ksize - 1) ∧
        (c.arr = .U ∧ c.v ≠ IP ∧ c.v < 8) ∧
        (t.1 ≤ c.i ∧ c.i ≤ t.1 + 1) ∧ (t.2.1 ≤ c.j ∧ c.j ≤ t.2.1 + 1) ∧ (t.2.2 ≤ c.k ∧ c.k ≤ t.2.2 + 1))
      (fun c => (t.1 < p.isize - 1 ∧ t.2.1 < p.jsize - 1 ∧ t.2.2 < p.ksize - 1) ∧
        (c.arr = .U ∧ c.v = IP) ∧ c.i = t.1 ∧ c.j = t.2.1 ∧ c.k = t.2.2) (fun _ => False) := by
  unfold orszagEnergyM3
  refine foot_pif (fun hg => ?_)
  simp only [decide_eq_true_eq] at hg
  repeat' first
    | refine foot_bind ((foot_rd _ _ _ _).2 ?_) (fun _ => ?_)
    | refine (foot_wr _ _ _ _ _).2 ?_
  all_goals simp [hg, ID, IP, IU, IV, IW, IA, IB, IC]

theorem orszagK3_iff (M : MathLib R) (p : Params R) (m m' : Mem Arr R) :
    forRange (range3 p.isize p.jsize p.ksize) (orszagEnergyM3 M p) m m' ↔ m' = fun l =>
      if (l.arr = .U ∧ l.v = IP) ∧ (l.i, l.j, l.k) ∈ range3 p.isize p.jsize p.ksize ∧
          l.i < p.isize - 1 ∧ l.j < p.jsize - 1 ∧ l.k < p.ksize - 1 then
        orszagE3 M p m l.i l.j l.k
      else m l := by
  refine (Prog.forRange_owner (range3 p.isize p.jsize p.ksize) (orszagEnergyM3 M p)
    (fun l => (l.i, l.j, l.k))
    (fun l => l.arr = .U ∧ l.v = IP) (fun t _ => foot_mono ?_ ?_ (fun _ h => h) (foot_orszagE3 M p t))
    m m').trans (eq_fun_iff ?_)
  · intro l hl; exact Or.inl (fun h => hl.2.1.2.1 h.2)
  · rintro l ⟨_, ⟨h1, h2⟩, h3, h4, h5⟩; exact ⟨⟨h1, h2⟩, by rw [h3, h4, h5]⟩
  · rintro ⟨a, i, j, k, v⟩
    beta_reduce
    by_cases h1 : (a = .U ∧ v = IP) ∧ (i, j, k) ∈ range3 p.isize p.jsize p.ksize
    · obtain ⟨⟨rfl, rfl⟩, h2⟩ := h1
      by_cases h3 : i < p.isize - 1 ∧ j < p.jsize - 1 ∧ k < p.ksize - 1
      · rw [if_pos ⟨⟨rfl, rfl⟩, h2⟩, if_pos ⟨⟨rfl, rfl⟩, h2, h3⟩]
        simp [orszagEnergyM3, pif, h3, orszagE3, upd]
      · rw [if_pos ⟨⟨rfl, rfl⟩, h2⟩, if_neg (fun h => h3 h.2.2)]
        simp [orszagEnergyM3, pif, h3]
    · rw [if_neg h1, if_neg (fun h => h1 ⟨h.1, h.2.1⟩)]

/-! ### Field loop -/

theorem foot_loopPotK2 (p : Params R) (q : FieldLoopParams R) (pos : Int × Int × Int) (t : Int × Int) :
    (loopPotK2 p q pos t).Foot (fun _ => False)
      (fun c => c.arr = .vecPot ∧ (c.i = t.1 ∧ c.j = t.2 ∧ c.k = 0) ∧ c.v < 1) (fun _ => False) :=
  (foot_wr _ _ _ _ _).2 ⟨rfl, ⟨rfl, rfl, rfl⟩, by simp⟩

theorem loopPotK2_iff (p : Params R) (q : FieldLoopParams R) (pos : Int × Int × Int)
    (m m' : Mem Arr R) :
    forRange (range2 p.isize p.jsize) (loopPotK2 p q pos) m m' ↔ m' = fun l =>
      if (l.arr = .vecPot ∧ l.k = 0 ∧ l.v = 0) ∧ (l.i, l.j) ∈ range2 p.isize p.jsize then
        loopPotential q (cellX p pos l.i) (cellY p pos l.j)
      else m l := by
  have h : Own2 (· = .vecPot) (loopPotK2 p q pos) :=
    own2_of_foot (foot_loopPotK2 p q pos) (fun _ _ h => h.elim)
      (fun t l hl => ⟨hl.1, by rw [hl.2.1.1, hl.2.1.2.1]⟩)
  refine (forRange2_is h (range2 p.isize p.jsize) m m').trans (eq_fun_iff ?_)
  rintro ⟨a, i, j, k, v⟩
  beta_reduce
  by_cases h1 : a = .vecPot ∧ (i, j) ∈ range2 p.isize p.jsize
  · rw [if_pos h1]
    by_cases h2 : k = 0 ∧ v = 0
    · rw [if_pos ⟨⟨h1.1, h2.1, h2.2⟩, h1.2⟩]; simp [loopPotK2, upd, h1.1, h2]
    · rw [if_neg (fun h => h2 h.1.2)]; simp [loopPotK2, upd, h1.1, h2]
  · rw [if_neg h1, if_neg (fun h => h1 ⟨h.1.1, h.2⟩)]

theorem foot_loopPotK3 (p : Params R) (q : FieldLoopParams R) (pos : Int × Int × Int)
    (t : Int × Int × Int) :
    (loopPotK3 p q pos t).Foot (fun _ => False)
      (fun c => c.arr = .vecPot ∧ (c.i = t.1 ∧ c.j = t.2.1 ∧ c.k = t.2.2) ∧ c.v < 3)
      (fun _ => False) :=
  foot_bind ((foot_wr _ _ _ _ _).2 ⟨rfl, ⟨rfl, rfl, rfl⟩, by simp⟩) (fun _ =>
    foot_bind ((foot_wr _ _ _ _ _).2 ⟨rfl, ⟨rfl, rfl, rfl⟩, by simp⟩) (fun _ =>
      (foot_wr _ _ _ _ _).2 ⟨rfl, ⟨rfl, rfl, rfl⟩, by simp⟩))

theorem loopPotK3_iff (p : Params R) (q : FieldLoopParams R) (pos : Int × Int × Int)
    (m m' : Mem Arr R) :
    forRange (range3 p.isize p.jsize p.ksize) (loopPotK3 p q pos) m m' ↔ m' = fun l =>
      if (l.arr = .vecPot ∧ l.v < 3) ∧ (l.i, l.j, l.k) ∈ range3 p.isize p.jsize p.ksize then
        (if l.v = 2 then loopPotential q (cellX p pos l.i) (cellY p pos l.j) else lit 0)
      else m l := by
  have h : Own3 (· = .vecPot) (loopPotK3 p q pos) :=
    own3_of_foot (foot_loopPotK3 p q pos) (fun _ _ h => h.elim)
      (fun t l hl => ⟨hl.1, by rw [hl.2.1.1, hl.2.1.2.1, hl.2.1.2.2]⟩)
  refine (forRange3_is h (range3 p.isize p.jsize p.ksize) m m').trans (eq_fun_iff ?_)
  rintro ⟨a, i, j, k, v⟩
  beta_reduce
  by_cases h1 : a = .vecPot ∧ (i, j, k) ∈ range3 p.isize p.jsize p.ksize
  · rw [if_pos h1]
    by_cases h2 : v < 3
    · rw [if_pos ⟨⟨h1.1, h2⟩, h1.2⟩]
      have hv : v = 0 ∨ v = 1 ∨ v = 2 := by omega
      rcases hv with rfl | rfl | rfl <;> simp [loopPotK3, upd, h1.1]
    · rw [if_neg (fun h => h2 h.1.2)]
      have a0 : v ≠ 0 := by omega
      have a1 : v ≠ 1 := by omega
      have a2 : v ≠ 2 := by omega
      simp [loopPotK3, upd, h1.1, a0, a1, a2]
  · rw [if_neg h1, if_neg (fun h => h1 ⟨h.1.1, h.2⟩)]

/-- the values stored by `do_init_condition` in 2D, from the vector potential `A` -/
def loopVals2 (p : Params R) (q : FieldLoopParams R) (x y : R) (A : Int → Int → R) (i j : Int) :
    List (Nat × R) :=
  let cos_theta : R := lit 2 / RealOps.sqrt (lit 5)
  let sin_theta : R := RealOps.sqrt (lit 1 - cos_theta * cos_theta)
  let diag := RealOps.sqrt (lit 1 * intLit (p.nx * p.nx + p.ny * p.ny + p.nz * p.nz))
  let d := if RealOps.lt (RealOps.sqrt (x * x + y * y)) q.radius then q.density_in else lit 1
  [(ID, d), (IU, d * q.vflow * cos_theta), (IV, d * q.vflow * sin_theta),
   (IW, d * q.vflow * intLit p.nz / diag), (IA, (A i (j + 1) - A i j) / p.dy),
   (IB, -(A (i + 1) j - A i j) / p.dx), (IC, lit 0)]

theorem foot_loopCondK2 (p : Params R) (q : FieldLoopParams R) (pos : Int × Int × Int) (t : Int × Int) :
    (loopCondK2 p q pos t).Foot
      (fun c => loopGuard2 p t = true ∧ (c.arr = .vecPot ∧ c.v < 1 ∧ c.k = 0) ∧
        (t.1 ≤ c.i ∧ c.i ≤ t.1 + 1) ∧ (t.2 ≤ c.j ∧ c.j ≤ t.2 + 1))
      (fun c => loopGuard2 p t = true ∧ (c.arr = .U ∧ c.v < 8 ∧ c.k = 0) ∧ c.i = t.1 ∧ c.j = t.2)
      (fun _ => False) := by
  unfold loopCondK2
  refine foot_pif (fun hg => ?_)
  repeat' first
    | refine foot_bind ((foot_rd _ _ _ _).2 ?_) (fun _ => ?_)
    | refine foot_bind ((foot_wr _ _ _ _ _).2 ?_) (fun _ => ?_)
    | refine (foot_wr _ _ _ _ _).2 ?_
  all_goals simp [hg, ID, IP, IU, IV, IW, IA, IB, IC]

theorem loopCondK2_iff (p : Params R) (q : FieldLoopParams R) (pos : Int × Int × Int)
    (m m' : Mem Arr R) :
    forRange (range2 p.isize p.jsize) (loopCondK2 p q pos) m m' ↔ m' = fun l =>
      if (l.arr = .U ∧ l.k = 0) ∧ (l.i, l.j) ∈ range2 p.isize p.jsize ∧
          loopGuard2 p (l.i, l.j) = true then
        (stored (loopVals2 p q (cellX p pos l.i) (cellY p pos l.j)
          (fun i j => m ⟨.vecPot, i, j, 0, 0⟩) l.i l.j) l.v).getD (m l)
      else m l := by
  have h : Own2 (· = .U) (loopCondK2 p q pos) :=
    own2_of_foot (foot_loopCondK2 p q pos)
      (fun t l hl => Or.inl (fun h => by rw [hl.2.1.1] at h; exact absurd h (by decide)))
      (fun t l hl => ⟨hl.2.1.1, by rw [hl.2.2.1, hl.2.2.2]⟩)
  refine (forRange2_is h (range2 p.isize p.jsize) m m').trans (eq_fun_iff ?_)
  rintro ⟨a, i, j, k, v⟩
  beta_reduce
  by_cases h1 : a = .U ∧ (i, j) ∈ range2 p.isize p.jsize
  · obtain ⟨rfl, h2⟩ := h1
    rw [if_pos ⟨rfl, h2⟩]
    by_cases h3 : loopGuard2 p (i, j) = true
    · by_cases h4 : k = 0
      · subst h4
        rw [if_pos ⟨⟨rfl, rfl⟩, h2, h3⟩]
        simp only [loopCondK2, pif, h3, if_true, run_bind, run_wr, run_rd]
        simp only [loopVals2, stored, upd, Loc.mk.injEq, true_and, and_true, ID, IU, IV, IW, IA, IB, IC,
          reduceCtorEq, false_and, if_false]
        by_cases e0 : v = 0
        · subst e0; simp
        by_cases e2 : v = 2
        · subst e2; simp
        by_cases e3 : v = 3
        · subst e3; simp
        by_cases e4 : v = 4
        · subst e4; simp
        by_cases e5 : v = 5
        · subst e5; simp
        by_cases e6 : v = 6
        · subst e6; simp
        by_cases e7 : v = 7
        · subst e7; simp
        simp [e0, e2, e3, e4, e5, e6, e7, Ne.symm e0, Ne.symm e2, Ne.symm e3, Ne.symm e4, Ne.symm e5,
          Ne.symm e6, Ne.symm e7]
      · rw [if_neg (fun h => h4 h.1.2)]
        simp [loopCondK2, pif, h3, upd, h4]
    · rw [if_neg (fun h => h3 h.2.2)]
      simp [loopCondK2, pif, h3]
  · rw [if_neg h1, if_neg (fun h => h1 ⟨h.1.1, h.2.1⟩)]

/-- the energy stored by `do_init_energy` in 2D -/
def loopE2 (p : Params R) (m : Mem Arr R) (i j : Int) : R :=
  if RealOps.lt (lit 0) p.settings.cIso then lit 0 else
  lit 1 / (p.settings.gamma0 - lit 1) +
    lit (1 / 2) * (lit (1 / 4) * sq (m ⟨.U, i, j, 0, IA⟩ + m ⟨.U, i + 1, j, 0, IA⟩) +
      lit (1 / 4) * sq (m ⟨.U, i, j, 0, IB⟩ + m ⟨.U, i, j + 1, 0, IB⟩)) +
    lit (1 / 2) * (m ⟨.U, i, j, 0, IU⟩ * m ⟨.U, i, j, 0, IU⟩ +
      m ⟨.U, i, j, 0, IV⟩ * m ⟨.U, i, j, 0, IV⟩) / m ⟨.U, i, j, 0, ID⟩

theorem foot_loopE2 (p : Params R) (t : Int × Int) :
    (loopEnergyK2 p t).Foot
      (fun c => loopGuard2 p t = true ∧ (c.arr = .U ∧ c.v ≠ IP ∧ c.v < 8 ∧ c.k = 0) ∧
        (t.1 ≤ c.i ∧ c.i ≤ t.1 + 1) ∧ (t.2 ≤ c.j ∧ c.j ≤ t.2 + 1))
      (fun c => loopGuard2 p t = true ∧ (c.arr = .U ∧ c.v = IP ∧ c.k = 0) ∧
        c.i = t.1 ∧ c.j = t.2) (fun _ => False) := by
  unfold loopEnergyK2
  refine foot_pif (fun hg => Prog.foot_ite (fun _ => ?_) (fun _ => ?_))
  all_goals
    repeat' first
      | refine foot_bind ((foot_rd _ _ _ _).2 ?_) (fun _ => ?_)
      | refine (foot_wr _ _ _ _ _).2 ?_
  all_goals simp [hg, ID, IP, IU, IV, IW, IA, IB, IC]

theorem loopEK2_iff (p : Params R) (m m' : Mem Arr R) :
    forRange (range2 p.isize p.jsize) (loopEnergyK2 p) m m' ↔ m' = fun l =>
      if (l.arr = .U ∧ l.v = IP ∧ l.k = 0) ∧ (l.i, l.j) ∈ range2 p.isize p.jsize ∧
          loopGuard2 p (l.i, l.j) = true then
        loopE2 p m l.i l.j
      else m l := by
  refine (Prog.forRange_owner (range2 p.isize p.jsize) (loopEnergyK2 p) (fun l => (l.i, l.j))
    (fun l => l.arr = .U ∧ l.v = IP) (fun t _ => foot_mono ?_ ?_ (fun _ h => h) (foot_loopE2 p t))
    m m').trans (eq_fun_iff ?_)
  · intro l hl; exact Or.inl (fun h => hl.2.1.2.1 h.2)
  · rintro l ⟨_, ⟨h1, h2, _⟩, h3, h4⟩; exact ⟨⟨h1, h2⟩, by rw [h3, h4]⟩
  · rintro ⟨a, i, j, k, v⟩
    beta_reduce
    by_cases h1 : (a = .U ∧ v = IP) ∧ (i, j) ∈ range2 p.isize p.jsize
    · obtain ⟨⟨rfl, rfl⟩, h2⟩ := h1
      by_cases h3 : loopGuard2 p (i, j) = true
      · by_cases h4 : k = 0
        · subst h4
          rw [if_pos ⟨⟨rfl, rfl⟩, h2⟩, if_pos ⟨⟨rfl, rfl, rfl⟩, h2, h3⟩]
          cases hc : RealOps.lt (lit 0) p.settings.cIso <;>
            simp [loopEnergyK2, pif, h3, loopE2, upd, hc]
        · rw [if_pos ⟨⟨rfl, rfl⟩, h2⟩, if_neg (fun h => h4 h.1.2.2)]
          cases hc : RealOps.lt (lit 0) p.settings.cIso <;>
            simp [loopEnergyK2, pif, h3, upd, h4, hc]
      · rw [if_pos ⟨⟨rfl, rfl⟩, h2⟩, if_neg (fun h => h3 h.2.2)]
        simp [loopEnergyK2, pif, h3]
    · rw [if_neg h1, if_neg (fun h => h1 ⟨⟨h.1.1, h.1.2.1⟩, h.2.1⟩)]

/-- the values stored by `do_init_condition` in 3D, from the vector potential `A v` -/
def loopVals3 (p : Params R) (q : FieldLoopParams R) (x y : R) (A : Nat → Int → Int → Int → R)
    (i j k : Int) : List (Nat × R) :=
  let cos_theta : R := lit 2 / RealOps.sqrt (lit 5)
  let sin_theta : R := RealOps.sqrt (lit 1 - cos_theta * cos_theta)
  let d := if RealOps.lt (RealOps.sqrt (x * x + y * y)) q.radius then q.density_in else lit 1
  [(ID, d), (IU, d * q.vflow * cos_theta), (IV, d * q.vflow * sin_theta), (IW, d * q.vflow),
   (IA, (A 2 i (j + 1) k - A 2 i j k) / p.dy - (A 1 i j (k + 1) - A 1 i j k) / p.dz),
   (IB, (A 0 i j (k + 1) - A 0 i j k) / p.dz - (A 2 (i + 1) j k - A 2 i j k) / p.dx),
   (IC, (A 1 (i + 1) j k - A 1 i j k) / p.dx - (A 0 i (j + 1) k - A 0 i j k) / p.dy)]

theorem foot_loopCondK3 (p : Params R) (q : FieldLoopParams R) (pos : Int × Int × Int)
    (t : Int × Int × Int) :
    (loopCondK3 p q pos t).Foot
      (fun c => loopGuard3 p t = true ∧ (c.arr = .vecPot ∧ c.v < 3) ∧
        (t.1 ≤ c.i ∧ c.i ≤ t.1 + 1) ∧ (t.2.1 ≤ c.j ∧ c.j ≤ t.2.1 + 1) ∧
        (t.2.2 ≤ c.k ∧ c.k ≤ t.2.2 + 1))
      (fun c => loopGuard3 p t = true ∧ (c.arr = .U ∧ c.v < 8) ∧ c.i = t.1 ∧ c.j = t.2.1 ∧
        c.k = t.2.2)
      (fun _ => False) := by
  unfold loopCondK3
  refine foot_pif (fun hg => ?_)
  repeat' first
    | refine foot_bind ((foot_rd _ _ _ _).2 ?_) (fun _ => ?_)
    | refine foot_bind ((foot_wr _ _ _ _ _).2 ?_) (fun _ => ?_)
    | refine (foot_wr _ _ _ _ _).2 ?_
  all_goals simp [hg, ID, IP, IU, IV, IW, IA, IB, IC]

theorem loopCondK3_iff (p : Params R) (q : FieldLoopParams R) (pos : Int × Int × Int)
    (m m' : Mem Arr R) :
    forRange (range3 p.isize p.jsize p.ksize) (loopCondK3 p q pos) m m' ↔ m' = fun l =>
      if l.arr = .U ∧ (l.i, l.j, l.k) ∈ range3 p.isize p.jsize p.ksize ∧
          loopGuard3 p (l.i, l.j, l.k) = true then
        (stored (loopVals3 p q (cellX p pos l.i) (cellY p pos l.j)
          (fun v i j k => m ⟨.vecPot, i, j, k, v⟩) l.i l.j l.k) l.v).getD (m l)
      else m l := by
  have h : Own3 (· = .U) (loopCondK3 p q pos) :=
    own3_of_foot (foot_loopCondK3 p q pos)
      (fun t l hl => Or.inl (fun h => by rw [hl.2.1.1] at h; exact absurd h (by decide)))
      (fun t l hl => ⟨hl.2.1.1, by rw [hl.2.2.1, hl.2.2.2.1, hl.2.2.2.2]⟩)
  refine (forRange3_is h (range3 p.isize p.jsize p.ksize) m m').trans (eq_fun_iff ?_)
  rintro ⟨a, i, j, k, v⟩
  beta_reduce
  by_cases h1 : a = .U ∧ (i, j, k) ∈ range3 p.isize p.jsize p.ksize
  · obtain ⟨rfl, h2⟩ := h1
    rw [if_pos ⟨rfl, h2⟩]
    by_cases h3 : loopGuard3 p (i, j, k) = true
    · rw [if_pos ⟨rfl, h2, h3⟩]
      simp only [loopCondK3, pif, h3, if_true, run_bind, run_wr, run_rd]
      simp only [loopVals3, stored, upd, Loc.mk.injEq, true_and, and_true, ID, IU, IV, IW, IA, IB, IC,
        reduceCtorEq, false_and, if_false]
      by_cases e0 : v = 0
      · subst e0; simp
      by_cases e2 : v = 2
      · subst e2; simp
      by_cases e3 : v = 3
      · subst e3; simp
      by_cases e4 : v = 4
      · subst e4; simp
      by_cases e5 : v = 5
      · subst e5; simp
      by_cases e6 : v = 6
      · subst e6; simp
      by_cases e7 : v = 7
      · subst e7; simp
      simp [e0, e2, e3, e4, e5, e6, e7, Ne.symm e0, Ne.symm e2, Ne.symm e3, Ne.symm e4, Ne.symm e5,
        Ne.symm e6, Ne.symm e7]
    · rw [if_neg (fun h => h3 h.2.2)]
      simp [loopCondK3, pif, h3]
  · rw [if_neg h1, if_neg (fun h => h1 ⟨h.1, h.2.1⟩)]

/-- the energy stored by `do_init_energy` in 3D -/
def loopE3 (p : Params R) (m : Mem Arr R) (i j k : Int) : R :=
  if RealOps.lt (lit 0) p.settings.cIso then lit 0 else
  lit 1 / (p.settings.gamma0 - lit 1) +
    lit (1 / 2) * (lit (1 / 4) * sq (m ⟨.U, i, j, k, IA⟩ + m ⟨.U, i + 1, j, k, IA⟩) +
      lit (1 / 4) * sq (m ⟨.U, i, j, k, IB⟩ + m ⟨.U, i, j + 1, k, IB⟩) +
      lit (1 / 4) * sq (m ⟨.U, i, j, k, IC⟩ + m ⟨.U, i, j, k + 1, IC⟩)) +
    lit (1 / 2) * (m ⟨.U, i, j, k, IU⟩ * m ⟨.U, i, j, k, IU⟩ +
      m ⟨.U, i, j, k, IV⟩ * m ⟨.U, i, j, k, IV⟩ +
      m ⟨.U, i, j, k, IW⟩ * m ⟨.U, i, j, k, IW⟩) / m ⟨.U, i, j, k, ID⟩

theorem foot_loopE3 (p : Params R) (t : Int × Int × Int) :
    (loopEnergyK3 p t).Foot
      (fun c => loopGuard3 p t = true ∧ (c.arr = .U ∧ c.v ≠ IP ∧ c.v < 8) ∧
        (t.1 ≤ c.i ∧ c.i ≤ t.1 + 1) ∧ (t.2.1 ≤ c.j ∧ c.j ≤ t.2.1 + 1) ∧
        (t.2.2 ≤ c.k ∧ c.k ≤ t.2.2 + 1))
      (fun c => loopGuard3 p t = true ∧ (c.arr = .U ∧ c.v = IP) ∧
        c.i = t.1 ∧ c.j = t.2.1 ∧ c.k = t.2.2) (fun _ => False) := by
  unfold loopEnergyK3
  refine foot_pif (fun hg => Prog.foot_ite (fun _ => ?_) (fun _ => ?_))
  all_goals
    repeat' first
      | refine foot_bind ((foot_rd _ _ _ _).2 ?_) (fun _ => ?_)
      | refine (foot_wr _ _ _ _ _).2 ?_
  all_goals simp [hg, ID, IP, IU, IV, IW, IA, IB, IC]

theorem loopEK3_iff (p : Params R) (m m' : Mem Arr R) :
    forRange (range3 p.isize p.jsize p.ksize) (loopEnergyK3 p) m m' ↔ m' = fun l =>
      if (l.arr = .U ∧ l.v = IP) ∧ (l.i, l.j, l.k) ∈ range3 p.isize p.jsize p.ksize ∧
          loopGuard3 p (l.i, l.j, l.k) = true then
        loopE3 p m l.i l.j l.k
      else m l := by
  refine (Prog.forRange_owner (range3 p.isize p.jsize p.ksize) (loopEnergyK3 p)
    (fun l => (l.i, l.j, l.k))
    (fun l => l.arr = .U ∧ l.v = IP) (fun t _ => foot_mono ?_ ?_ (fun _ h => h) (foot_loopE3 p t))
    m m').trans (eq_fun_iff ?_)
  · intro l hl; exact Or.inl (fun h => hl.2.1.2.1 h.2)
  · rintro l ⟨_, ⟨h1, h2⟩, h3, h4, h5⟩; exact ⟨⟨h1, h2⟩, by rw [h3, h4, h5]⟩
  · rintro ⟨a, i, j, k, v⟩
    beta_reduce
    by_cases h1 : (a = .U ∧ v = IP) ∧ (i, j, k) ∈ range3 p.isize p.jsize p.ksize
    · obtain ⟨⟨rfl, rfl⟩, h2⟩ := h1
      by_cases h3 : loopGuard3 p (i, j, k) = true
      · rw [if_pos ⟨⟨rfl, rfl⟩, h2⟩, if_pos ⟨⟨rfl, rfl⟩, h2, h3⟩]
        cases hc : RealOps.lt (lit 0) p.settings.cIso <;>
          simp [loopEnergyK3, pif, h3, loopE3, upd, hc]
      · rw [if_pos ⟨⟨rfl, rfl⟩, h2⟩, if_neg (fun h => h3 h.2.2)]
        simp [loopEnergyK3, pif, h3]
    · rw [if_neg h1, if_neg (fun h => h1 ⟨h.1, h.2.1⟩)]

end EulerKokkos
