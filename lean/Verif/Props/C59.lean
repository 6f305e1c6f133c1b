import Verif.Lemmas.InitMhd
import Verif.Props.C53
import Verif.Props.C57
import Verif.Props.C56

/-!
# C59: the initial magnetic field is divergence free

On a periodic box the discrete divergence of the initial field vanishes in every cell, for every problem whose
parameters allow it; with C54 every file of the run shows a divergence-free field.
-/

set_option linter.constructorNameAsVariable false
set_option linter.unusedSectionVars false
set_option linter.unusedSimpArgs false

namespace EulerKokkos

open Spec
open Prog (rd wr upd pif forRange)

namespace Spec

/-- the parameters of the problem describe a divergence-free field in the plane: the uniform fields inside
and outside the blast or the implosion are the same; the field loop does not reach the first cells of the box
nor those following the last ones -/
def Solenoidal2 (p : Params ℝ) : MhdProblem ℝ → Prop
  | .blast q => q.bx_in = q.bx_out ∧ q.by_in = q.by_out
  | .implode q => q.Bx_in = q.Bx_out ∧ q.By_in = q.By_out
  | .fieldLoop q =>
    (q.radius ≤ |p.xmin + p.dx / 2| ∧ q.radius ≤ |p.xmin + p.dx / 2 + p.nx * p.dx|) ∧
    (q.radius ≤ |p.ymin + p.dy / 2| ∧ q.radius ≤ |p.ymin + p.dy / 2 + p.ny * p.dy|)
  | _ => True

/-- the same in space -/
def Solenoidal3 (p : Params ℝ) : MhdProblem ℝ → Prop
  | .blast q => q.bx_in = q.bx_out ∧ q.by_in = q.by_out ∧ q.bz_in = q.bz_out
  | .implode q => q.Bx_in = q.Bx_out ∧ q.By_in = q.By_out ∧ q.Bz_in = q.Bz_out
  | .fieldLoop q =>
    (q.radius ≤ |p.xmin + p.dx / 2| ∧ q.radius ≤ |p.xmin + p.dx / 2 + p.nx * p.dx|) ∧
    (q.radius ≤ |p.ymin + p.dy / 2| ∧ q.radius ≤ |p.ymin + p.dy / 2 + p.ny * p.dy|)
  | _ => True

end Spec

/-! ### Divergence on a periodic box -/

/-- the next cell of a periodic row -/
def wrapNext (gw n i : Int) : Int := if i + 1 = gw + n then gw else i + 1

theorem divB2_wrap {p : Params ℝ} (hp : Mhd2 p) (hP : PeriodicBox2 p) (u : FldM2 ℝ) {i j : Int}
    (hij : interior2 p i j) :
    divB2 p (fillM2 p u) i j =
      ((u (wrapNext p.ghostWidth p.nx i) j).a - (u i j).a) / p.dx +
        ((u i (wrapNext p.ghostWidth p.ny j)).b - (u i j).b) / p.dy := by
  obtain ⟨nx, ny⟩ := hP.thick hp.faces
  have hgw := hp.gw
  obtain ⟨a, b, c, d⟩ := hij
  have ex : fillM2 p u (i + 1) j = u (wrapNext p.ghostWidth p.nx i) j := by
    unfold wrapNext
    split_ifs with h
    · rw [h, fillM2_periodic_x hP nx u j (by omega) (by omega)]
      exact fillM2_interior p u ⟨by omega, by omega, c, d⟩
    · exact fillM2_interior p u ⟨by omega, by omega, c, d⟩
  have ey : fillM2 p u i (j + 1) = u i (wrapNext p.ghostWidth p.ny j) := by
    unfold wrapNext
    split_ifs with h
    · rw [h, fillM2_periodic_y hP ny u i (by omega) (by omega)]
      exact fillM2_interior p u ⟨a, b, by omega, by omega⟩
    · exact fillM2_interior p u ⟨a, b, by omega, by omega⟩
  unfold divB2
  rw [ex, ey, fillM2_interior p u ⟨a, b, c, d⟩]

theorem wrapNext_range {gw n i : Int} (h1 : gw ≤ i) (h2 : i < gw + n) :
    gw ≤ wrapNext gw n i ∧ wrapNext gw n i < gw + n := by
  unfold wrapNext
  split_ifs <;> omega

/-- a field whose normal component does not vary along its own direction -/
theorem divB2_shear {p : Params ℝ} (hp : Mhd2 p) (hP : PeriodicBox2 p) {u : FldM2 ℝ} {f g : Int → ℝ}
    (hf : ∀ i j, interior2 p i j → (u i j).a = f j) (hg : ∀ i j, interior2 p i j → (u i j).b = g i)
    {i j : Int} (hij : interior2 p i j) : divB2 p (fillM2 p u) i j = 0 := by
  have h := hij
  obtain ⟨a, b, c, d⟩ := h
  have hx := wrapNext_range a b
  have hy := wrapNext_range c d
  rw [divB2_wrap hp hP u hij, hf _ _ hij, hg _ _ hij, hf _ _ ⟨hx.1, hx.2, c, d⟩, hg _ _ ⟨a, b, hy.1, hy.2⟩]
  simp

theorem divB3_wrap {p : Params ℝ} (hp : Mhd3 p) (hP : PeriodicBox3 p) (u : FldM3 ℝ) {i j k : Int}
    (hij : interior3 p i j k) :
    divB3 p (fillM3 p u) i j k =
      ((u (wrapNext p.ghostWidth p.nx i) j k).a - (u i j k).a) / p.dx +
        ((u i (wrapNext p.ghostWidth p.ny j) k).b - (u i j k).b) / p.dy +
        ((u i j (wrapNext p.ghostWidth p.nz k)).c - (u i j k).c) / p.dz := by
  obtain ⟨nx, ny, nz⟩ := hP.thick hp.faces
  have hgw := hp.gw
  obtain ⟨⟨a, b⟩, ⟨c, d⟩, e, f⟩ := hij
  have ex : fillM3 p u (i + 1) j k = u (wrapNext p.ghostWidth p.nx i) j k := by
    unfold wrapNext
    split_ifs with h
    · rw [h, fillM3_periodic_x hP nx u j k (by omega) (by omega)]
      exact fillM3_interior p u ⟨⟨by omega, by omega⟩, ⟨c, d⟩, e, f⟩
    · exact fillM3_interior p u ⟨⟨by omega, by omega⟩, ⟨c, d⟩, e, f⟩
  have ey : fillM3 p u i (j + 1) k = u i (wrapNext p.ghostWidth p.ny j) k := by
    unfold wrapNext
    split_ifs with h
    · rw [h, fillM3_periodic_y hP ny u i k (by omega) (by omega)]
      exact fillM3_interior p u ⟨⟨a, b⟩, ⟨by omega, by omega⟩, e, f⟩
    · exact fillM3_interior p u ⟨⟨a, b⟩, ⟨by omega, by omega⟩, e, f⟩
  have ez : fillM3 p u i j (k + 1) = u i j (wrapNext p.ghostWidth p.nz k) := by
    unfold wrapNext
    split_ifs with h
    · rw [h, fillM3_periodic_z hP nz u i j (by omega) (by omega)]
      exact fillM3_interior p u ⟨⟨a, b⟩, ⟨c, d⟩, by omega, by omega⟩
    · exact fillM3_interior p u ⟨⟨a, b⟩, ⟨c, d⟩, by omega, by omega⟩
  unfold divB3
  rw [ex, ey, ez, fillM3_interior p u ⟨⟨a, b⟩, ⟨c, d⟩, e, f⟩]

theorem divB3_shear {p : Params ℝ} (hp : Mhd3 p) (hP : PeriodicBox3 p) {u : FldM3 ℝ} {f g h : Int → Int → ℝ}
    (hf : ∀ i j k, interior3 p i j k → (u i j k).a = f j k)
    (hg : ∀ i j k, interior3 p i j k → (u i j k).b = g i k)
    (hh : ∀ i j k, interior3 p i j k → (u i j k).c = h i j)
    {i j k : Int} (hij : interior3 p i j k) : divB3 p (fillM3 p u) i j k = 0 := by
  have h := hij
  obtain ⟨⟨a, b⟩, ⟨c, d⟩, e, f⟩ := h
  have hx := wrapNext_range a b
  have hy := wrapNext_range c d
  have hz := wrapNext_range e f
  rw [divB3_wrap hp hP u hij, hf _ _ _ hij, hg _ _ _ hij, hh _ _ _ hij, hf _ _ _ ⟨⟨hx.1, hx.2⟩, ⟨c, d⟩, e, f⟩,
    hg _ _ _ ⟨⟨a, b⟩, ⟨hy.1, hy.2⟩, e, f⟩, hh _ _ _ ⟨⟨a, b⟩, ⟨c, d⟩, hz.1, hz.2⟩]
  simp

/-! ### The fields of the problems -/

/-- magnetic field stored by the one-cell kernels, 2D: the normal components do not vary along their own
direction -/
theorem mhdCell2_shear (M : MathLib ℝ) (p : Params ℝ) {q : MhdProblem ℝ} (hq : DirectionOk2 q)
    (hs : Solenoidal2 p q) (hl : ∀ l, q ≠ .fieldLoop l) :
    ∃ f g : ℝ → ℝ, ∀ (rnd : Nat → ℝ) (x y : ℝ), (stored (mhdCell2 M p rnd x y q) IA).getD 0 = f y ∧
      (stored (mhdCell2 M p rnd x y q) IB).getD 0 = g x := by
  cases q with
  | blast q =>
    obtain ⟨h1, h2⟩ := hs
    refine ⟨fun _ => q.bx_out, fun _ => q.by_out, fun rnd x y => ?_⟩
    simp only [mhdCell2, allVars, blastM]
    split_ifs <;> simp [stored, ID, IP, IU, IV, IW, IA, IB, IC, h1, h2]
  | implode q =>
    obtain ⟨h1, h2⟩ := hs
    refine ⟨fun _ => q.Bx_out, fun _ => q.By_out, fun rnd x y => ?_⟩
    simp only [mhdCell2, allVars, implodeM2]
    split_ifs <;> simp [stored, ID, IP, IU, IV, IW, IA, IB, IC, h1, h2]
  | brioWu q =>
    rcases hq with h | h
    · refine ⟨fun _ => q.Bx, fun x => if RealOps.le x q.xd then q.ByL else q.ByR, fun rnd x y => ?_⟩
      simp [mhdCell2, brioWuM2, h, stored, ID, IP, IU, IV, IW, IA, IB, IC]
    · refine ⟨fun y => if RealOps.le y q.xd then q.ByL else q.ByR, fun _ => q.Bx, fun rnd x y => ?_⟩
      simp [mhdCell2, brioWuM2, h, stored, ID, IP, IU, IV, IW, IA, IB, IC]
  | orszagTang q =>
    exact ⟨fun y => (stored (mhdCell2 M p (fun _ => 0) 0 y (.orszagTang q)) IA).getD 0,
      fun x => (stored (mhdCell2 M p (fun _ => 0) x 0 (.orszagTang q)) IB).getD 0, fun rnd x y => ⟨rfl, rfl⟩⟩
  | kelvinHelmholtz q =>
    by_cases h : q.p_rand = true ∨ q.p_sine_rob = true ∨ q.p_sine = true
    · refine ⟨fun _ => 1 / 2, fun _ => 0, fun rnd x y => ?_⟩
      simp only [mhdCell2, khM2, khState]
      split_ifs <;> simp_all [stored, ID, IP, IU, IV, IW, IA, IB, IC]
    · push Not at h
      refine ⟨fun _ => 0, fun _ => 0, fun rnd x y => ?_⟩
      simp [mhdCell2, khM2, h.1, h.2.1, h.2.2, stored]
  | rotor q =>
    refine ⟨fun _ => q.b0, fun _ => 0, fun rnd x y => ?_⟩
    simp only [mhdCell2, allVars, rotorM2]
    simp [stored, ID, IP, IU, IV, IW, IA, IB, IC]
  | fieldLoop q => exact absurd rfl (hl q)

/-- the same in 3D -/
theorem mhdCell3_shear (M : MathLib ℝ) (p : Params ℝ) {q : MhdProblem ℝ} (hq : DirectionOk3 q)
    (hs : Solenoidal3 p q) (hl : ∀ l, q ≠ .fieldLoop l) :
    ∃ f : ℝ → ℝ → ℝ → ℝ, ∃ g h : ℝ → ℝ → ℝ, ∀ (rnd : Nat → ℝ) (x y z zb : ℝ),
      (stored (mhdCell3 M p rnd x y z zb q) IA).getD 0 = f y z zb ∧
      (stored (mhdCell3 M p rnd x y z zb q) IB).getD 0 = g x z ∧
      (stored (mhdCell3 M p rnd x y z zb q) IC).getD 0 = h x y := by
  cases q with
  | blast q =>
    obtain ⟨h1, h2, h3⟩ := hs
    refine ⟨fun _ _ _ => q.bx_out, fun _ _ => q.by_out, fun _ _ => q.bz_out, fun rnd x y z zb => ?_⟩
    simp only [mhdCell3, allVars, blastM]
    split_ifs <;> simp [stored, ID, IP, IU, IV, IW, IA, IB, IC, h1, h2, h3]
  | implode q =>
    obtain ⟨h1, h2, h3⟩ := hs
    refine ⟨fun _ _ _ => q.Bx_out, fun _ _ => q.By_out, fun _ _ => q.Bz_out, fun rnd x y z zb => ?_⟩
    simp only [mhdCell3, allVars, implodeM3, implodeCell, implodeState]
    split_ifs <;> simp [stored, ID, IP, IU, IV, IW, IA, IB, IC, h1, h2, h3]
  | brioWu q =>
    rcases hq with h | h | h
    · refine ⟨fun _ _ _ => q.Bx, fun x _ => if RealOps.le x q.xd then q.ByL else q.ByR, fun _ _ => 0,
        fun rnd x y z zb => ?_⟩
      simp [mhdCell3, brioWuM3, h, stored, ID, IP, IU, IV, IW, IA, IB, IC]
    · refine ⟨fun _ _ _ => 0, fun _ _ => q.Bx, fun _ y => if RealOps.le y q.xd then q.ByL else q.ByR,
        fun rnd x y z zb => ?_⟩
      simp [mhdCell3, brioWuM3, h, stored, ID, IP, IU, IV, IW, IA, IB, IC]
    · refine ⟨fun _ _ zb => if RealOps.le zb q.xd then q.ByL else q.ByR, fun _ _ => 0, fun _ _ => q.Bx,
        fun rnd x y z zb => ?_⟩
      simp [mhdCell3, brioWuM3, h, stored, ID, IP, IU, IV, IW, IA, IB, IC]
  | orszagTang q =>
    refine ⟨fun y z zb => (stored (mhdCell3 M p (fun _ => 0) 0 y z zb (.orszagTang q)) IA).getD 0,
      fun x z => (stored (mhdCell3 M p (fun _ => 0) x 0 z 0 (.orszagTang q)) IB).getD 0,
      fun x y => (stored (mhdCell3 M p (fun _ => 0) x y 0 0 (.orszagTang q)) IC).getD 0,
      fun rnd x y z zb => ?_⟩
    simp only [mhdCell3, orszagM3]
    split_ifs <;> exact ⟨rfl, rfl, rfl⟩
  | kelvinHelmholtz q =>
    by_cases h : q.p_rand = false ∧ (q.p_sine_rob = true ∨ q.p_sine = true)
    · refine ⟨fun _ _ _ => 1 / 2, fun _ _ => 0, fun _ _ => 0, fun rnd x y z zb => ?_⟩
      simp only [mhdCell3, khM3, khState]
      split_ifs <;> simp_all [stored, ID, IP, IU, IV, IW, IA, IB, IC]
    · refine ⟨fun _ _ _ => 0, fun _ _ => 0, fun _ _ => 0, fun rnd x y z zb => ?_⟩
      simp only [mhdCell3, khM3, khState]
      split_ifs <;> simp_all [stored, ID, IP, IU, IV, IW, IA, IB, IC]
  | rotor q =>
    refine ⟨fun _ _ _ => q.b0, fun _ _ => 0, fun _ _ => 0, fun rnd x y z zb => ?_⟩
    simp only [mhdCell3, allVars, rotorM3]
    simp [stored, ID, IP, IU, IV, IW, IA, IB, IC]
  | fieldLoop q => exact absurd rfl (hl q)

/-! ### What `init` leaves in the magnetic field -/

theorem mem_range2_of_interior {p : Params ℝ} (hw : p.WF) {i j : Int} (h : interior2 p i j) :
    (i, j) ∈ range2 p.isize p.jsize := by
  have := hw.isize_eq
  have := hw.jsize_eq
  have := hw.gw_pos
  obtain ⟨a, b, c, d⟩ := h
  exact mem_range2.2 (by simp only; omega)

theorem mem_range3_of_interior {p : Params ℝ} (hw : p.WF) {i j k : Int} (h : interior3 p i j k) :
    (i, j, k) ∈ range3 p.isize p.jsize p.ksize := by
  have := hw.isize_eq
  have := hw.jsize_eq
  have := hw.ksize_eq
  have := hw.gw_pos
  obtain ⟨⟨a, b⟩, ⟨c, d⟩, e, f⟩ := h
  exact mem_range3.2 (by simp only; omega)

/-- the one-cell problems, 2D: the energy kernel of the Orszag-Tang problem does not touch the field -/
theorem initMhd2_field (M : MathLib ℝ) {p : Params ℝ} (hw : p.WF) {pos : Int × Int × Int}
    {rnd : Int → Int → Int → Nat → ℝ} {q : MhdProblem ℝ} (hq : DirectionOk2 q) (hl : ∀ l, q ≠ .fieldLoop l)
    {m : Mem Arr ℝ} (hm : runLaunches (initMhd2 M p pos rnd q) freshMem m) {i j : Int}
    (hij : interior2 p i j) {v : Nat} (hv : v ≠ IP) :
    m ⟨.U, i, j, 0, v⟩ =
      (stored (mhdCell2 M p (rnd i j 0) (cellX p pos i) (cellY p pos j) q) v).getD 0 := by
  have hin := mem_range2_of_interior hw hij
  have key : ∀ m₁, forRange (range2 p.isize p.jsize) (mhdInit2 M p pos rnd q) freshMem m₁ →
      m₁ ⟨.U, i, j, 0, v⟩ =
        (stored (mhdCell2 M p (rnd i j 0) (cellX p pos i) (cellY p pos j) q) v).getD 0 := by
    intro m₁ h
    rw [mhdInitK2_iff M p pos rnd hq] at h
    rw [h]
    beta_reduce
    rw [if_pos ⟨rfl, hin, rfl⟩]
    simp [freshMem]
  cases q
  case fieldLoop q => exact absurd rfl (hl q)
  case orszagTang q =>
    obtain ⟨m₁, h1, h2⟩ := hm
    have h2 : forRange (range2 p.isize p.jsize) (orszagEnergyM2 M p) m₁ m := by
      simpa [Kern.seqs, Kern.seq_skip, Launch.kern] using h2
    rw [orszagK2_iff] at h2
    rw [h2]
    beta_reduce
    rw [if_neg (by rintro ⟨⟨_, h, _⟩, _⟩; exact hv h)]
    exact key m₁ h1
  all_goals
    refine key m ?_
    simpa [initMhd2, runLaunches, Kern.seqs, Kern.seq_skip, Launch.kern] using hm

theorem initMhd3_field (M : MathLib ℝ) {p : Params ℝ} (hw : p.WF) {pos : Int × Int × Int}
    {rnd : Int → Int → Int → Nat → ℝ} {q : MhdProblem ℝ} (hq : DirectionOk3 q) (hl : ∀ l, q ≠ .fieldLoop l)
    {m : Mem Arr ℝ} (hm : runLaunches (initMhd3 M p pos rnd q) freshMem m) {i j k : Int}
    (hij : interior3 p i j k) {v : Nat} (hv : v ≠ IP) :
    m ⟨.U, i, j, k, v⟩ =
      (stored (mhdCell3 M p (rnd i j k) (cellX p pos i) (cellY p pos j) (cellZ p pos k) (brioWuZ p pos k) q)
        v).getD 0 := by
  have hin := mem_range3_of_interior hw hij
  have key : ∀ m₁, forRange (range3 p.isize p.jsize p.ksize) (mhdInit3 M p pos rnd q) freshMem m₁ →
      m₁ ⟨.U, i, j, k, v⟩ =
        (stored (mhdCell3 M p (rnd i j k) (cellX p pos i) (cellY p pos j) (cellZ p pos k) (brioWuZ p pos k) q)
          v).getD 0 := by
    intro m₁ h
    rw [mhdInitK3_iff M p pos rnd hq] at h
    rw [h]
    beta_reduce
    rw [if_pos ⟨rfl, hin⟩]
    simp [freshMem]
  cases q
  case fieldLoop q => exact absurd rfl (hl q)
  case orszagTang q =>
    obtain ⟨m₁, h1, h2⟩ := hm
    have h2 : forRange (range3 p.isize p.jsize p.ksize) (orszagEnergyM3 M p) m₁ m := by
      simpa [Kern.seqs, Kern.seq_skip, Launch.kern] using h2
    rw [orszagK3_iff] at h2
    rw [h2]
    beta_reduce
    rw [if_neg (by rintro ⟨⟨_, h⟩, _⟩; exact hv h)]
    exact key m₁ h1
  all_goals
    refine key m ?_
    simpa [initMhd3, runLaunches, Kern.seqs, Kern.seq_skip, Launch.kern] using hm

/-- the field loop, 2D: the field is the curl of the potential -/
theorem loop2_field (M : MathLib ℝ) {p : Params ℝ} (hw : p.WF) {pos : Int × Int × Int}
    {rnd : Int → Int → Int → Nat → ℝ} {q : FieldLoopParams ℝ}
    {m : Mem Arr ℝ} (hm : runLaunches (initMhd2 M p pos rnd (.fieldLoop q)) freshMem m) {i j : Int}
    (hij : interior2 p i j) :
    let A := fun i j => loopPotential q (cellX p pos i) (cellY p pos j)
    m ⟨.U, i, j, 0, IA⟩ = (A i (j + 1) - A i j) / p.dy ∧ m ⟨.U, i, j, 0, IB⟩ = -(A (i + 1) j - A i j) / p.dx := by
  intro A
  have hin := mem_range2_of_interior hw hij
  have hgw := hw.gw_pos
  have e1 := hw.isize_eq
  have e2 := hw.jsize_eq
  obtain ⟨m₁, h1, m₂, h2, m₃, h3, h4⟩ := hm
  cases h4
  have h1 := (loopPotK2_iff p q pos _ _).1 h1
  have h2 := (loopCondK2_iff p q pos _ _).1 h2
  have h3 := (loopEK2_iff p _ _).1 h3
  have hA : ∀ i j, 0 ≤ i → i < p.isize → 0 ≤ j → j < p.jsize → m₁ ⟨.vecPot, i, j, 0, 0⟩ = A i j := by
    intro i j a b c d
    rw [h1]
    beta_reduce
    rw [if_pos ⟨⟨rfl, rfl, rfl⟩, mem_range2.2 ⟨⟨a, b⟩, c, d⟩⟩]
  have hgd : loopGuard2 p (i, j) = true := by
    obtain ⟨a, b, c, d⟩ := hij
    simp only [loopGuard2, decide_eq_true_eq]
    omega
  have hv : ∀ v, v ≠ IP → m ⟨.U, i, j, 0, v⟩ = (stored (loopVals2 p q (cellX p pos i) (cellY p pos j)
      (fun i j => m₁ ⟨.vecPot, i, j, 0, 0⟩) i j) v).getD (m₁ ⟨.U, i, j, 0, v⟩) := by
    intro v hv
    rw [h3]
    beta_reduce
    rw [if_neg (by rintro ⟨⟨_, h, _⟩, _⟩; exact hv h), h2]
    beta_reduce
    rw [if_pos ⟨⟨rfl, rfl⟩, hin, hgd⟩]
  obtain ⟨a, b, c, d⟩ := hij
  have q1 := hA i (j + 1) (by omega) (by omega) (by omega) (by omega)
  have q2 := hA i j (by omega) (by omega) (by omega) (by omega)
  have q3 := hA (i + 1) j (by omega) (by omega) (by omega) (by omega)
  constructor
  · rw [hv IA (by decide), ← q1, ← q2]
    rfl
  · rw [hv IB (by decide), ← q3, ← q2]
    rfl

/-- the field loop, 3D -/
theorem loop3_field (M : MathLib ℝ) {p : Params ℝ} (hw : p.WF) {pos : Int × Int × Int}
    {rnd : Int → Int → Int → Nat → ℝ} {q : FieldLoopParams ℝ}
    {m : Mem Arr ℝ} (hm : runLaunches (initMhd3 M p pos rnd (.fieldLoop q)) freshMem m) {i j k : Int}
    (hij : interior3 p i j k) :
    let A := fun i j => loopPotential q (cellX p pos i) (cellY p pos j)
    m ⟨.U, i, j, k, IA⟩ = (A i (j + 1) - A i j) / p.dy ∧
    m ⟨.U, i, j, k, IB⟩ = -(A (i + 1) j - A i j) / p.dx ∧ m ⟨.U, i, j, k, IC⟩ = 0 := by
  intro A
  have hin := mem_range3_of_interior hw hij
  have hgw := hw.gw_pos
  have e1 := hw.isize_eq
  have e2 := hw.jsize_eq
  have e3 := hw.ksize_eq
  obtain ⟨m₁, h1, m₂, h2, m₃, h3, h4⟩ := hm
  cases h4
  have h1 := (loopPotK3_iff p q pos _ _).1 h1
  have h2 := (loopCondK3_iff p q pos _ _).1 h2
  have h3 := (loopEK3_iff p _ _).1 h3
  have hA : ∀ v i j k, v < 3 → 0 ≤ i → i < p.isize → 0 ≤ j → j < p.jsize → 0 ≤ k → k < p.ksize →
      m₁ ⟨.vecPot, i, j, k, v⟩ = if v = 2 then A i j else 0 := by
    intro v i j k hv a b c d e f
    rw [h1]
    beta_reduce
    rw [if_pos ⟨⟨rfl, hv⟩, mem_range3.2 ⟨⟨a, b⟩, ⟨c, d⟩, e, f⟩⟩]
    simp [A]
  have hgd : loopGuard3 p (i, j, k) = true := by
    obtain ⟨⟨a, b⟩, ⟨c, d⟩, e, f⟩ := hij
    simp only [loopGuard3, decide_eq_true_eq]
    omega
  have hv : ∀ v, v ≠ IP → m ⟨.U, i, j, k, v⟩ = (stored (loopVals3 p q (cellX p pos i) (cellY p pos j)
      (fun v i j k => m₁ ⟨.vecPot, i, j, k, v⟩) i j k) v).getD (m₁ ⟨.U, i, j, k, v⟩) := by
    intro v hv
    rw [h3]
    beta_reduce
    rw [if_neg (by rintro ⟨⟨_, h⟩, _⟩; exact hv h), h2]
    beta_reduce
    rw [if_pos ⟨rfl, hin, hgd⟩]
  obtain ⟨⟨a, b⟩, ⟨c, d⟩, e, f⟩ := hij
  have s : ∀ v, v < 3 → _ := fun v hv => hA v i j k hv (by omega) (by omega) (by omega) (by omega) (by omega) (by omega)
  have si : ∀ v, v < 3 → _ := fun v hv => hA v (i + 1) j k hv (by omega) (by omega) (by omega) (by omega) (by omega) (by omega)
  have sj : ∀ v, v < 3 → _ := fun v hv => hA v i (j + 1) k hv (by omega) (by omega) (by omega) (by omega) (by omega) (by omega)
  have sk : ∀ v, v < 3 → _ := fun v hv => hA v i j (k + 1) hv (by omega) (by omega) (by omega) (by omega) (by omega) (by omega)
  refine ⟨?_, ?_, ?_⟩
  · rw [hv IA (by decide)]
    show ((m₁ ⟨.vecPot, i, j + 1, k, 2⟩ - m₁ ⟨.vecPot, i, j, k, 2⟩) / p.dy -
      (m₁ ⟨.vecPot, i, j, k + 1, 1⟩ - m₁ ⟨.vecPot, i, j, k, 1⟩) / p.dz) = _
    rw [s 2 (by omega), s 1 (by omega), sj 2 (by omega), sk 1 (by omega)]
    simp
  · rw [hv IB (by decide)]
    show ((m₁ ⟨.vecPot, i, j, k + 1, 0⟩ - m₁ ⟨.vecPot, i, j, k, 0⟩) / p.dz -
      (m₁ ⟨.vecPot, i + 1, j, k, 2⟩ - m₁ ⟨.vecPot, i, j, k, 2⟩) / p.dx) = _
    rw [s 2 (by omega), s 0 (by omega), si 2 (by omega), sk 0 (by omega)]
    simp
    ring
  · rw [hv IC (by decide)]
    show ((m₁ ⟨.vecPot, i + 1, j, k, 1⟩ - m₁ ⟨.vecPot, i, j, k, 1⟩) / p.dx -
      (m₁ ⟨.vecPot, i, j + 1, k, 0⟩ - m₁ ⟨.vecPot, i, j, k, 0⟩) / p.dy) = _
    rw [s 1 (by omega), s 0 (by omega), si 1 (by omega), sj 0 (by omega)]
    simp

theorem loopPotential_far {q : FieldLoopParams ℝ} {x : ℝ} (y : ℝ) (h : q.radius ≤ |x|) :
    loopPotential q x y = 0 ∧ loopPotential q y x = 0 := by
  have h1 : |x| ≤ Real.sqrt (x * x + y * y) := by
    rw [← Real.sqrt_sq_eq_abs]
    exact Real.sqrt_le_sqrt (by nlinarith [mul_self_nonneg y])
  have h2 : |x| ≤ Real.sqrt (y * y + x * x) := by rw [add_comm]; exact h1
  constructor <;> simp only [loopPotential, RealOps.lt_real, RealOps.sqrt_real, RealOps.lit_real]
  · rw [if_neg (not_lt.2 (h.trans h1))]; norm_num
  · rw [if_neg (not_lt.2 (h.trans h2))]; norm_num

theorem cellX_first (p : Params ℝ) : cellX p (0, 0, 0) p.ghostWidth = p.xmin + p.dx / 2 ∧
    cellX p (0, 0, 0) (p.ghostWidth + p.nx) = p.xmin + p.dx / 2 + p.nx * p.dx := by
  constructor <;> simp [cellX, intLit]

theorem cellY_first (p : Params ℝ) : cellY p (0, 0, 0) p.ghostWidth = p.ymin + p.dy / 2 ∧
    cellY p (0, 0, 0) (p.ghostWidth + p.ny) = p.ymin + p.dy / 2 + p.ny * p.dy := by
  constructor <;> simp [cellY, intLit]

/-- the potential of a loop inside the box is the same at the two ends of a row -/
theorem loop_wrap_x {p : Params ℝ} {q : FieldLoopParams ℝ}
    (h : q.radius ≤ |p.xmin + p.dx / 2| ∧ q.radius ≤ |p.xmin + p.dx / 2 + p.nx * p.dx|) (i j : Int) :
    loopPotential q (cellX p (0, 0, 0) (wrapNext p.ghostWidth p.nx i)) (cellY p (0, 0, 0) j) =
      loopPotential q (cellX p (0, 0, 0) (i + 1)) (cellY p (0, 0, 0) j) := by
  unfold wrapNext
  split_ifs with hi
  · rw [hi, (cellX_first p).1, (cellX_first p).2, (loopPotential_far _ h.1).1, (loopPotential_far _ h.2).1]
  · rfl

theorem loop_wrap_y {p : Params ℝ} {q : FieldLoopParams ℝ}
    (h : q.radius ≤ |p.ymin + p.dy / 2| ∧ q.radius ≤ |p.ymin + p.dy / 2 + p.ny * p.dy|) (i j : Int) :
    loopPotential q (cellX p (0, 0, 0) i) (cellY p (0, 0, 0) (wrapNext p.ghostWidth p.ny j)) =
      loopPotential q (cellX p (0, 0, 0) i) (cellY p (0, 0, 0) (j + 1)) := by
  unfold wrapNext
  split_ifs with hi
  · rw [hi, (cellY_first p).1, (cellY_first p).2, (loopPotential_far _ h.1).2, (loopPotential_far _ h.2).2]
  · rfl

/-- **C59 (2D).** On a periodic box the initial field of every problem is divergence free in every cell. -/
theorem C59_initial_divergence_free_2d (M : MathLib ℝ) {p : Params ℝ} (hp : Mhd2 p) (hP : PeriodicBox2 p)
    {rnd : Int → Int → Int → Nat → ℝ} {q : MhdProblem ℝ} (hq : DirectionOk2 q) (hs : Solenoidal2 p q)
    {m : Mem Arr ℝ} (hm : runLaunches (initMhd2 M p (0, 0, 0) rnd q) freshMem m) (i j : Int)
    (hij : interior2 p i j) : divB2 p (fillM2 p (ms2 m .U)) i j = 0 := by
  by_cases hl : ∀ l, q ≠ .fieldLoop l
  · obtain ⟨f, g, h⟩ := mhdCell2_shear M p hq hs hl
    refine divB2_shear hp hP (f := fun j => f (cellY p (0, 0, 0) j)) (g := fun i => g (cellX p (0, 0, 0) i))
      (fun i j hij => ?_) (fun i j hij => ?_) hij
    · exact (initMhd2_field M hp.wf hq hl hm hij (by decide)).trans (h _ _ _).1
    · exact (initMhd2_field M hp.wf hq hl hm hij (by decide)).trans (h _ _ _).2
  · push Not at hl
    obtain ⟨l, rfl⟩ := hl
    obtain ⟨hx, hy⟩ := hs
    have h := hij
    obtain ⟨a, b, c, d⟩ := h
    have rx := wrapNext_range a b
    have ry := wrapNext_range c d
    have e0 := loop2_field M hp.wf hm hij
    have e1 := loop2_field M hp.wf hm (i := wrapNext p.ghostWidth p.nx i) (j := j) ⟨rx.1, rx.2, c, d⟩
    have e2 := loop2_field M hp.wf hm (i := i) (j := wrapNext p.ghostWidth p.ny j) ⟨a, b, ry.1, ry.2⟩
    rw [divB2_wrap hp hP _ hij]
    show (m ⟨.U, wrapNext p.ghostWidth p.nx i, j, 0, IA⟩ - m ⟨.U, i, j, 0, IA⟩) / p.dx +
      (m ⟨.U, i, wrapNext p.ghostWidth p.ny j, 0, IB⟩ - m ⟨.U, i, j, 0, IB⟩) / p.dy = 0
    rw [e0.1, e0.2, e1.1, e2.2]
    simp only [loop_wrap_x hx, loop_wrap_y hy]
    ring

/-- **C59 (3D).** -/
theorem C59_initial_divergence_free_3d (M : MathLib ℝ) {p : Params ℝ} (hp : Mhd3 p) (hP : PeriodicBox3 p)
    {rnd : Int → Int → Int → Nat → ℝ} {q : MhdProblem ℝ} (hq : DirectionOk3 q) (hs : Solenoidal3 p q)
    {m : Mem Arr ℝ} (hm : runLaunches (initMhd3 M p (0, 0, 0) rnd q) freshMem m) (i j k : Int)
    (hij : interior3 p i j k) : divB3 p (fillM3 p (ms m .U)) i j k = 0 := by
  by_cases hl : ∀ l, q ≠ .fieldLoop l
  · obtain ⟨f, g, h, H⟩ := mhdCell3_shear M p hq hs hl
    refine divB3_shear hp hP
      (f := fun j k => f (cellY p (0, 0, 0) j) (cellZ p (0, 0, 0) k) (brioWuZ p (0, 0, 0) k))
      (g := fun i k => g (cellX p (0, 0, 0) i) (cellZ p (0, 0, 0) k))
      (h := fun i j => h (cellX p (0, 0, 0) i) (cellY p (0, 0, 0) j))
      (fun i j k hij => ?_) (fun i j k hij => ?_) (fun i j k hij => ?_) hij
    · exact (initMhd3_field M hp.wf hq hl hm hij (by decide)).trans (H _ _ _ _ _).1
    · exact (initMhd3_field M hp.wf hq hl hm hij (by decide)).trans (H _ _ _ _ _).2.1
    · exact (initMhd3_field M hp.wf hq hl hm hij (by decide)).trans (H _ _ _ _ _).2.2
  · push Not at hl
    obtain ⟨l, rfl⟩ := hl
    obtain ⟨hx, hy⟩ := hs
    have h := hij
    obtain ⟨⟨a, b⟩, ⟨c, d⟩, e, f⟩ := h
    have rx := wrapNext_range a b
    have ry := wrapNext_range c d
    have rz := wrapNext_range e f
    have e0 := loop3_field M hp.wf hm hij
    have e1 := loop3_field M hp.wf hm (i := wrapNext p.ghostWidth p.nx i) (j := j) (k := k)
      ⟨⟨rx.1, rx.2⟩, ⟨c, d⟩, e, f⟩
    have e2 := loop3_field M hp.wf hm (i := i) (j := wrapNext p.ghostWidth p.ny j) (k := k)
      ⟨⟨a, b⟩, ⟨ry.1, ry.2⟩, e, f⟩
    have e3 := loop3_field M hp.wf hm (i := i) (j := j) (k := wrapNext p.ghostWidth p.nz k)
      ⟨⟨a, b⟩, ⟨c, d⟩, rz.1, rz.2⟩
    rw [divB3_wrap hp hP _ hij]
    show (m ⟨.U, wrapNext p.ghostWidth p.nx i, j, k, IA⟩ - m ⟨.U, i, j, k, IA⟩) / p.dx +
      (m ⟨.U, i, wrapNext p.ghostWidth p.ny j, k, IB⟩ - m ⟨.U, i, j, k, IB⟩) / p.dy +
      (m ⟨.U, i, j, wrapNext p.ghostWidth p.nz k, IC⟩ - m ⟨.U, i, j, k, IC⟩) / p.dz = 0
    rw [e0.1, e0.2.1, e0.2.2, e1.1, e2.2.1, e3.2.2]
    simp only [loop_wrap_x hx, loop_wrap_y hy]
    ring

/-- **C59 (whole runs, 2D).** Every file written by a run started from the configured initial condition on a
periodic box shows a divergence-free field. -/
theorem C59_files_divergence_free_2d (M : MathLib ℝ) {p : Params ℝ} (hp : Mhd2 p) (hP : PeriodicBox2 p)
    (hi : p.implementationVersion = 0 ∨ p.implementationVersion = 1 ∨ p.implementationVersion = 2)
    (hg : GoodGrid p) (he : p.enableOutput = decide (p.nOutput ≠ 0))
    {rnd : Int → Int → Int → Nat → ℝ} {q : MhdProblem ℝ} (hq : DirectionOk2 q) (hs : Solenoidal2 p q)
    {m : Mem Arr ℝ} (hm : runLaunches (initMhd2 M p (0, 0, 0) rnd q) freshMem m)
    {ident : ℝ} (hid : ident ≤ 0) (jk : JunkM ℝ) {t : ℝ} {sv : Int} {s' : RunState ℝ}
    (h : runMain p (mhdOps2 p ident jk) m t sv s') :
    ∀ o ∈ s'.outputs, ∀ i j, interior2 p i j →
      divB2 p (fillM2 p (fun i j => shownM o.data i j 0)) i j = 0 := fun o ho i j hij =>
  ((C54_mhd_files_2d hp hP hi hg he hid jk h o ho).2 i j hij).trans
    (C59_initial_divergence_free_2d M hp hP hq hs hm i j hij)

/-- **C59 (whole runs, 3D).** -/
theorem C59_files_divergence_free_3d (M : MathLib ℝ) {p : Params ℝ} (hp : Mhd3 p) (hP : PeriodicBox3 p)
    (hi : p.implementationVersion = 0 ∨ p.implementationVersion = 1 ∨ p.implementationVersion = 2)
    (hg : GoodGrid p) (he : p.enableOutput = decide (p.nOutput ≠ 0))
    {rnd : Int → Int → Int → Nat → ℝ} {q : MhdProblem ℝ} (hq : DirectionOk3 q) (hs : Solenoidal3 p q)
    {m : Mem Arr ℝ} (hm : runLaunches (initMhd3 M p (0, 0, 0) rnd q) freshMem m)
    {ident : ℝ} (hid : ident ≤ 0) (jk : JunkM ℝ) {t : ℝ} {sv : Int} {s' : RunState ℝ}
    (h : runMain p (mhdOps3 p ident jk) m t sv s') :
    ∀ o ∈ s'.outputs, ∀ i j k, interior3 p i j k →
      divB3 p (fillM3 p (fun i j k => shownM o.data i j k)) i j k = 0 := fun o ho i j k hij =>
  ((C54_mhd_files_3d hp hP hi hg he hid jk h o ho).2 i j k hij).trans
    (C59_initial_divergence_free_3d M hp hP hq hs hm i j k hij)

-- the initial state exists and the hypotheses hold, e.g. for the Orszag-Tang vortex
example (M : MathLib ℝ) (q : OrszagTangParams ℝ) : ∃ m : Mem Arr ℝ,
    runLaunches (initMhd2 M (sampleM .periodic .periodic 0) (0, 0, 0) (fun _ _ _ _ => 0) (.orszagTang q))
      freshMem m ∧ ∀ i j, interior2 (sampleM .periodic .periodic 0) i j →
        divB2 (sampleM .periodic .periodic 0) (fillM2 (sampleM .periodic .periodic 0) (ms2 m .U)) i j = 0 := by
  obtain ⟨m, hm, _⟩ := C57_init_unique_mhd_2d M (sampleM .periodic .periodic 0) (0, 0, 0) (fun _ _ _ _ => 0)
    (q := .orszagTang q) trivial freshMem
  exact ⟨m, hm, C59_initial_divergence_free_2d M (sampleM_mhd2 _ _ _) ⟨rfl, rfl, rfl, rfl⟩ (by trivial)
    (by trivial) hm⟩

end EulerKokkos
