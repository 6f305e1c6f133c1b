import Verif.Model.InitMhd
import Verif.Lemmas.HydroStep2D
import Verif.Lemmas.HydroStep3D
import Verif.Lemmas.MhdFull2D
import Verif.Lemmas.MhdFull3D

/-! # Helper lemmas on the initial-condition kernels -/

set_option linter.constructorNameAsVariable false
set_option linter.unusedSectionVars false
set_option linter.unusedSimpArgs false
set_option linter.unnecessarySeqFocus false

namespace EulerKokkos

open Spec
open Prog (rd wr upd pif forRange run_bind run_rd run_wr run_pure foot_bind foot_rd foot_wr foot_pure
  foot_mono)
variable {R : Type} [RealOps R]

/-! ### hydro, 2D -/

theorem foot_hydroInit2 (M : MathLib R) (p : Params R) (pos : Int × Int × Int)
    (rnd : Int → Int → Int → Nat → R) (q : HydroProblem R) (t : Int × Int) :
    (hydroInit2 M p pos rnd q t).Foot (fun _ => False)
      (fun l => (l.i = t.1 ∧ l.j = t.2 ∧ l.k = 0) ∧
        ((l.arr = .U ∧ l.v < 4) ∨ ((∃ r, q = .rayleighTaylor r) ∧ l.arr = .grav ∧ l.v < 2)))
      (fun _ => False) := by
  refine foot_bind ?_ (fun _ => ?_)
  · unfold storeCell2
    split
    · exact foot_putHS2 (fun v hv => ⟨⟨rfl, rfl, rfl⟩, Or.inl ⟨rfl, hv⟩⟩)
    · exact foot_pure _ _ _ _
  · unfold storeGrav2
    split
    · rename_i r
      exact foot_bind ((foot_wr _ _ _ _ _).2 ⟨⟨rfl, rfl, rfl⟩, Or.inr ⟨⟨r, rfl⟩, rfl, by simp⟩⟩)
        (fun _ => (foot_wr _ _ _ _ _).2 ⟨⟨rfl, rfl, rfl⟩, Or.inr ⟨⟨r, rfl⟩, rfl, by simp⟩⟩)
    · exact foot_pure _ _ _ _

theorem own_hydroInit2 (M : MathLib R) (p : Params R) (pos : Int × Int × Int)
    (rnd : Int → Int → Int → Nat → R) (q : HydroProblem R) :
    Own2 (fun a => a = .U ∨ a = .grav) (hydroInit2 M p pos rnd q) := by
  refine own2_of_foot (foot_hydroInit2 M p pos rnd q) (fun _ _ h => h.elim) ?_
  rintro t l ⟨⟨h1, h2, _⟩, h | ⟨_, h⟩⟩
  · exact ⟨Or.inl h.1, by ext <;> assumption⟩
  · exact ⟨Or.inr h.1, by ext <;> assumption⟩

/-- the memory after `init(U)`, 2D hydro -/
theorem initHydro2_iff (M : MathLib R) (p : Params R) (pos : Int × Int × Int)
    (rnd : Int → Int → Int → Nat → R) (q : HydroProblem R) (m m' : Mem Arr R) :
    runLaunches (initHydro2 M p pos rnd q) m m' ↔ m' = fun l =>
      if (l.arr = .U ∨ l.arr = .grav) ∧ (l.i, l.j) ∈ range2 p.isize p.jsize then
        ((hydroInit2 M p pos rnd q (l.i, l.j)).run m).2 l else m l := by
  classical
  simp only [initHydro2, runLaunches, List.map, Kern.seqs, Kern.seq_skip]
  refine (forRange2_is (own_hydroInit2 M p pos rnd q) (range2 p.isize p.jsize) m m').trans ?_
  constructor <;> (rintro rfl; funext l; split_ifs <;> simp_all)

theorem run_hydroInit2_U (M : MathLib R) (p : Params R) (pos : Int × Int × Int)
    (rnd : Int → Int → Int → Nat → R) (q : HydroProblem R) (m : Mem Arr R) (i j : Int) (v : Nat)
    (hv : v < 4) :
    ((hydroInit2 M p pos rnd q (i, j)).run m).2 ⟨.U, i, j, 0, v⟩ =
      match hydroCell2 M p (rnd i j 0) (cellX p pos i) (cellY p pos j) q with
      | some s => s.get v
      | none => m ⟨.U, i, j, 0, v⟩ := by
  unfold hydroInit2
  cases hydroCell2 M p (rnd i j 0) (cellX p pos i) (cellY p pos j) q with
  | none => cases q <;> simp [storeCell2, storeGrav2, upd]
  | some s => cases q <;> simp [storeCell2, storeGrav2, upd, setMem2, hv]

theorem run_hydroInit2_grav (M : MathLib R) (p : Params R) (pos : Int × Int × Int)
    (rnd : Int → Int → Int → Nat → R) (q : HydroProblem R) (m : Mem Arr R) (i j : Int) (v : Nat)
    (hv : v < 2) :
    ((hydroInit2 M p pos rnd q (i, j)).run m).2 ⟨.grav, i, j, 0, v⟩ =
      match q with
      | .rayleighTaylor r => if v = 0 then r.gx else r.gy
      | _ => m ⟨.grav, i, j, 0, v⟩ := by
  unfold hydroInit2
  cases hydroCell2 M p (rnd i j 0) (cellX p pos i) (cellY p pos j) q with
  | none => cases q <;> simp [storeCell2, storeGrav2, upd] ; grind
  | some s => cases q <;> simp [storeCell2, storeGrav2, upd, setMem2] ; grind

/-! ### hydro, 3D -/

theorem foot_hydroInit3 (M : MathLib R) (p : Params R) (pos : Int × Int × Int)
    (rnd : Int → Int → Int → Nat → R) (q : HydroProblem R) (t : Int × Int × Int) :
    (hydroInit3 M p pos rnd q t).Foot (fun _ => False)
      (fun l => (l.i = t.1 ∧ l.j = t.2.1 ∧ l.k = t.2.2) ∧
        ((l.arr = .U ∧ l.v < 5) ∨ ((∃ r, q = .rayleighTaylor r) ∧ l.arr = .grav ∧ l.v < 3)))
      (fun _ => False) := by
  refine foot_bind ?_ (fun _ => ?_)
  · unfold storeCell3
    split
    · exact foot_putHS3 (fun v hv => ⟨⟨rfl, rfl, rfl⟩, Or.inl ⟨rfl, hv⟩⟩)
    · exact foot_pure _ _ _ _
  · unfold storeGrav3
    split
    · rename_i r
      exact foot_bind ((foot_wr _ _ _ _ _).2 ⟨⟨rfl, rfl, rfl⟩, Or.inr ⟨⟨r, rfl⟩, rfl, by simp⟩⟩)
        (fun _ => foot_bind ((foot_wr _ _ _ _ _).2 ⟨⟨rfl, rfl, rfl⟩, Or.inr ⟨⟨r, rfl⟩, rfl, by simp⟩⟩)
          (fun _ => (foot_wr _ _ _ _ _).2 ⟨⟨rfl, rfl, rfl⟩, Or.inr ⟨⟨r, rfl⟩, rfl, by simp⟩⟩))
    · exact foot_pure _ _ _ _

theorem own_hydroInit3 (M : MathLib R) (p : Params R) (pos : Int × Int × Int)
    (rnd : Int → Int → Int → Nat → R) (q : HydroProblem R) :
    Own3 (fun a => a = .U ∨ a = .grav) (hydroInit3 M p pos rnd q) := by
  refine own3_of_foot (foot_hydroInit3 M p pos rnd q) (fun _ _ h => h.elim) ?_
  rintro t l ⟨⟨h1, h2, h3⟩, h | ⟨_, h⟩⟩
  · exact ⟨Or.inl h.1, by rw [h1, h2, h3]⟩
  · exact ⟨Or.inr h.1, by rw [h1, h2, h3]⟩

/-- the memory after `init(U)`, 3D hydro -/
theorem initHydro3_iff (M : MathLib R) (p : Params R) (pos : Int × Int × Int)
    (rnd : Int → Int → Int → Nat → R) (q : HydroProblem R) (m m' : Mem Arr R) :
    runLaunches (initHydro3 M p pos rnd q) m m' ↔ m' = fun l =>
      if (l.arr = .U ∨ l.arr = .grav) ∧ (l.i, l.j, l.k) ∈ range3 p.isize p.jsize p.ksize then
        ((hydroInit3 M p pos rnd q (l.i, l.j, l.k)).run m).2 l else m l := by
  classical
  simp only [initHydro3, runLaunches, List.map, Kern.seqs, Kern.seq_skip]
  refine (forRange3_is (own_hydroInit3 M p pos rnd q) (range3 p.isize p.jsize p.ksize) m m').trans ?_
  constructor <;> (rintro rfl; funext l; split_ifs <;> simp_all)

theorem run_hydroInit3_U (M : MathLib R) (p : Params R) (pos : Int × Int × Int)
    (rnd : Int → Int → Int → Nat → R) (q : HydroProblem R) (m : Mem Arr R) (i j k : Int) (v : Nat)
    (hv : v < 5) :
    ((hydroInit3 M p pos rnd q (i, j, k)).run m).2 ⟨.U, i, j, k, v⟩ =
      match hydroCell3 M p (rnd i j k) (cellX p pos i) (cellY p pos j) (cellZ p pos k) q with
      | some s => s.get v
      | none => m ⟨.U, i, j, k, v⟩ := by
  unfold hydroInit3
  cases hydroCell3 M p (rnd i j k) (cellX p pos i) (cellY p pos j) (cellZ p pos k) q with
  | none => cases q <;> simp [storeCell3, storeGrav3, upd]
  | some s => cases q <;> simp [storeCell3, storeGrav3, upd, setMem3, hv]

theorem run_hydroInit3_grav (M : MathLib R) (p : Params R) (pos : Int × Int × Int)
    (rnd : Int → Int → Int → Nat → R) (q : HydroProblem R) (m : Mem Arr R) (i j k : Int) (v : Nat)
    (hv : v < 3) :
    ((hydroInit3 M p pos rnd q (i, j, k)).run m).2 ⟨.grav, i, j, k, v⟩ =
      match q with
      | .rayleighTaylor r => if v = 0 then r.gx else if v = 1 then r.gy else r.gz
      | _ => m ⟨.grav, i, j, k, v⟩ := by
  unfold hydroInit3
  cases hydroCell3 M p (rnd i j k) (cellX p pos i) (cellY p pos j) (cellZ p pos k) q with
  | none => cases q <;> simp [storeCell3, storeGrav3, upd] ; grind
  | some s => cases q <;> simp [storeCell3, storeGrav3, upd, setMem3] ; grind

end EulerKokkos
