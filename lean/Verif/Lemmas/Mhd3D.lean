import Verif.Lemmas.Mhd2D
import Verif.Lemmas.Step3D
import Verif.Spec.MhdScheme3D

/-! # Footprints of the 3D MHD kernels -/

set_option linter.constructorNameAsVariable false
set_option linter.unusedSectionVars false
set_option linter.unusedSimpArgs false
set_option linter.unnecessarySeqFocus false
set_option linter.unusedTactic false
set_option linter.unreachableTactic false

namespace EulerKokkos

open Prog (rd wr add upd run_bind run_rd run_wr run_pure foot_bind foot_rd foot_wr foot_add
  foot_pure foot_ite foot_pif foot_mono Foot forRange pif)
open Spec

variable {R : Type} [RealOps R]

/-- number of variables of a view in 3D MHD runs, `/repo/src/muscl/SolverMHDMuscl.h:316-377` -/
def nvM3 : Arr → Nat
  | .Emf | .ElecField | .sFaceMag | .DeltaA | .DeltaB | .DeltaC => 3
  | _ => 8

/-- the element `l` lies in one of the views `arrs`, in a box of cells around `t` -/
def AccM3 (arrs : List Arr) (t : Int × Int × Int) (lo hi : Int) (l : Loc Arr) : Prop :=
  l.arr ∈ arrs ∧ (t.1 + lo ≤ l.i ∧ l.i ≤ t.1 + hi) ∧ (t.2.1 + lo ≤ l.j ∧ l.j ≤ t.2.1 + hi) ∧
    (t.2.2 + lo ≤ l.k ∧ l.k ≤ t.2.2 + hi) ∧ l.v < nvM3 l.arr

theorem accM3_mk {arrs : List Arr} {t : Int × Int × Int} {lo hi i j k : Int} {v : Nat} {a : Arr}
    (ha : a ∈ arrs) (h : t.1 + lo ≤ i ∧ i ≤ t.1 + hi ∧ t.2.1 + lo ≤ j ∧ j ≤ t.2.1 + hi ∧
      t.2.2 + lo ≤ k ∧ k ≤ t.2.2 + hi)
    (hv : v < nvM3 a) : AccM3 arrs t lo hi ⟨a, i, j, k, v⟩ :=
  ⟨ha, ⟨h.1, h.2.1⟩, ⟨h.2.2.1, h.2.2.2.1⟩, h.2.2.2.2, hv⟩

/-- `body` reads boxes of `ins`, writes its own cell of `outs` (which it may also read), when `G` -/
def OwnFootM3 (G : Int × Int × Int → Prop) (ins outs : List Arr) (lo hi : Int)
    (body : Int × Int × Int → Prog Arr R Unit) : Prop :=
  ∀ t, (body t).Foot (fun l => G t ∧ (AccM3 ins t lo hi l ∨ AccM3 outs t 0 0 l))
    (fun l => G t ∧ AccM3 outs t 0 0 l) (fun _ => False)

theorem OwnFootM3.own {G : Int × Int × Int → Prop} {ins outs : List Arr} {lo hi : Int}
    {body : Int × Int × Int → Prog Arr R Unit} (h : OwnFootM3 G ins outs lo hi body)
    (hd : ∀ a ∈ ins, a ∉ outs) : Own3 (· ∈ outs) body := by
  have key : ∀ (t : Int × Int × Int) (l : Loc Arr), AccM3 outs t 0 0 l → (l.i, l.j, l.k) = t := by
    rintro ⟨a, b, c⟩ l ⟨_, h2, h3, h4, _⟩
    simp only at h2 h3 h4
    have e1 : l.i = a := by omega
    have e2 : l.j = b := by omega
    have e3 : l.k = c := by omega
    rw [e1, e2, e3]
  refine own3_of_foot h ?_ ?_
  · rintro t l ⟨_, ⟨h1, _⟩ | h2⟩
    · exact Or.inl (hd _ h1)
    · exact Or.inr (key t l h2)
  · rintro t l ⟨_, h1⟩
    exact ⟨h1.1, key t l h1⟩

/-- `body` reads boxes of `ins` and atomically adds in boxes of `outs`, when `G` -/
def AddFootM3 (G : Int × Int × Int → Prop) (ins outs : List Arr) (lo hi : Int)
    (body : Int × Int × Int → Prog Arr R Unit) : Prop :=
  ∀ t, (body t).Foot (fun l => G t ∧ AccM3 ins t lo hi l) (fun _ => False)
    (fun l => G t ∧ AccM3 outs t (-1) 0 l)

theorem nvM3_ping {inA outA : Arr} (h : PingPong inA outA) : nvM3 inA = 8 ∧ nvM3 outA = 8 := by
  rcases h with ⟨rfl, rfl⟩ | ⟨rfl, rfl⟩ <;> exact ⟨rfl, rfl⟩

section Foot
variable {Rd Wr Ad : Loc Arr → Prop}

theorem foot_mean4 {a : Arr} {v : Nat} {c1 c2 c3 c4 : Int × Int × Int}
    (h : ∀ c, c = c1 ∨ c = c2 ∨ c = c3 ∨ c = c4 → Rd ⟨a, c.1, c.2.1, c.2.2, v⟩) :
    (mean4 a v c1 c2 c3 c4 : Prog Arr R R).Foot Rd Wr Ad :=
  ⟨h c1 (by simp), fun _ => ⟨h c2 (by simp), fun _ => ⟨h c3 (by simp), fun _ =>
    ⟨h c4 (by simp), fun _ => trivial⟩⟩⟩⟩

theorem foot_mean2 {a : Arr} {v : Nat} {c1 c2 : Int × Int × Int}
    (h1 : Rd ⟨a, c1.1, c1.2.1, c1.2.2, v⟩) (h2 : Rd ⟨a, c2.1, c2.2.1, c2.2.2, v⟩) :
    (mean2 a v c1 c2 : Prog Arr R R).Foot Rd Wr Ad :=
  ⟨h1, fun _ => ⟨h2, fun _ => trivial⟩⟩

theorem foot_diffRd {a : Arr} {v : Nat} {c1 c2 : Int × Int × Int}
    (h1 : Rd ⟨a, c1.1, c1.2.1, c1.2.2, v⟩) (h2 : Rd ⟨a, c2.1, c2.2.1, c2.2.2, v⟩) :
    (diffRd a v c1 c2 : Prog Arr R R).Foot Rd Wr Ad :=
  ⟨h1, fun _ => ⟨h2, fun _ => trivial⟩⟩

theorem foot_magSlope3 {p : Params R} {a : Arr} {v : Nat} {c0 c1 c2 : Int × Int × Int}
    (h0 : Rd ⟨a, c0.1, c0.2.1, c0.2.2, v⟩)
    (h1 : Rd ⟨a, c1.1, c1.2.1, c1.2.2, v⟩) (h2 : Rd ⟨a, c2.1, c2.2.1, c2.2.2, v⟩) :
    (magSlope3 p a v c0 c1 c2 : Prog Arr R R).Foot Rd Wr Ad :=
  ⟨h0, fun _ => ⟨h1, fun _ => ⟨h2, fun _ => trivial⟩⟩⟩

theorem foot_atomicAddM5 {a : Arr} {i j k : Int} {s : MS R} {c : R}
    (h : ∀ v < 8, Ad ⟨a, i, j, k, v⟩) : (atomicAddM5 a i j k s c).Foot Rd Wr Ad :=
  ⟨h 0 (by omega), h 1 (by omega), h 2 (by omega), h 3 (by omega), h 4 (by omega), trivial⟩

theorem foot_atomicSubM5 {a : Arr} {i j k : Int} {s : MS R} {c : R}
    (h : ∀ v < 8, Ad ⟨a, i, j, k, v⟩) : (atomicSubM5 a i j k s c).Foot Rd Wr Ad :=
  ⟨h 0 (by omega), h 1 (by omega), h 2 (by omega), h 3 (by omega), h 4 (by omega), trivial⟩

end Foot

set_option hygiene false in
macro "footM3_steps" : tactic => `(tactic| (
  repeat' (first
    | exact foot_pure _ _ _ _
    | (apply foot_getMS; intro v hv)
    | (apply foot_putMS; intro v hv)
    | (apply foot_mean4; rintro c (rfl | rfl | rfl | rfl))
    | (refine foot_mean2 ?_ ?_)
    | (refine foot_diffRd ?_ ?_)
    | (refine foot_magSlope3 ?_ ?_ ?_)
    | (refine (foot_rd _ _ _ _).2 ?_)
    | (refine (foot_wr _ _ _ _ _).2 ?_)
    | (apply foot_atomicAddM5; intro v hv)
    | (apply foot_atomicSubM5; intro v hv)
    | (refine foot_bind ?_ (fun _ => ?_)))))

set_option hygiene false in
macro "accM3" hU:ident : tactic => `(tactic| (
  refine accM3_mk ?_ ?_ ?_
  focus (simp; done)
  focus (first | omega | (simp only; omega))
  focus
    first
      | exact hv
      | (rw [$hU:ident]; first | exact hv | decide)
      | decide))

variable {U W : Arr}

theorem foot_convertMhd3 (p : Params R) (hU : nvM3 U = 8) :
    OwnFootM3 (fun t => t.2.2 ≥ 0 ∧ t.2.2 < p.ksize - 1 ∧ t.2.1 ≥ 0 ∧ t.2.1 < p.jsize - 1 ∧ t.1 ≥ 0 ∧
      t.1 < p.isize - 1) [U] [.Q] 0 1
      (convertMhd3 p U .Q) := by
  intro t
  unfold convertMhd3
  refine foot_ite (fun hc => ?_) (fun _ => foot_pure _ _ _ _)
  footM3_steps
  all_goals
    refine ⟨hc, ?_⟩
    first
      | (left; accM3 hU)
      | (right; accM3 hU)
      | accM3 hU

theorem foot_elecFieldMhd3 (p : Params R) (hU : nvM3 U = 8) :
    OwnFootM3 (innerGuardM3 p) [U, .Q] [.ElecField] (-1) 0 (elecFieldMhd3 p U .Q) := by
  intro t
  unfold elecFieldMhd3
  refine foot_ite (fun hc => ?_) (fun _ => foot_pure _ _ _ _)
  footM3_steps
  all_goals
    refine ⟨hc, ?_⟩
    first
      | (left; accM3 hU)
      | accM3 hU

theorem foot_magSlopesMhd3 (p : Params R) (hU : nvM3 U = 8) :
    OwnFootM3 (innerGuardM3 p) [U] [.DeltaA, .DeltaB, .DeltaC] (-1) 1 (magSlopesMhd3 p U) := by
  intro t
  unfold magSlopesMhd3
  refine foot_ite (fun hc => ?_) (fun _ => foot_pure _ _ _ _)
  footM3_steps
  all_goals
    refine ⟨hc, ?_⟩
    first
      | (left; accM3 hU)
      | accM3 hU

/-- views written by the trace kernel -/
def traceOuts3 : List Arr :=
  [.Qm_x, .Qp_x, .Qm_y, .Qp_y, .Qm_z, .Qp_z, .QEdge 0, .QEdge 1, .QEdge 2, .QEdge 3, .QEdge 4, .QEdge 5,
    .QEdge 6, .QEdge 7, .QEdge 8, .QEdge 9, .QEdge 10, .QEdge 11]

theorem foot_computeTraceMhd3 (p : Params R) (hU : nvM3 U = 8) (dtdx dtdy dtdz : R) :
    OwnFootM3 (traceGuardM3 p) [U, .Q, .ElecField, .DeltaA, .DeltaB, .DeltaC] traceOuts3 (-1) 1
      (computeTraceMhd3 p U .Q dtdx dtdy dtdz) := by
  intro t
  unfold computeTraceMhd3 getTraceIn3
  refine foot_ite (fun hc => ?_) (fun _ => foot_pure _ _ _ _)
  footM3_steps
  all_goals
    refine ⟨hc, ?_⟩
    first
      | (left; accM3 hU)
      | (refine accM3_mk (by simp [traceOuts3]) ?_ hv; omega)

theorem foot_fluxesAndStoreMhd3 (p : Params R) (jk : JunkM R) :
    OwnFootM3 (faceGuardM3 p) [.Qm_x, .Qp_x, .Qm_y, .Qp_y, .Qm_z, .Qp_z] [.Fx, .Fy, .Fz] (-1) 0
      (fluxesAndStoreMhd3 p .Fx .Fy .Fz jk) := by
  intro t
  unfold fluxesAndStoreMhd3
  refine foot_ite (fun hc => ?_) (fun _ => foot_pure _ _ _ _)
  footM3_steps
  all_goals
    refine ⟨hc, ?_⟩
    first
      | (left; exact accM3_mk (by simp) (by omega) (by simp only [nvM3]; omega))
      | exact accM3_mk (by simp) (by omega) (by simp only [nvM3]; omega)

/-- views holding the edge states -/
def edges3 : List Arr :=
  [.QEdge 0, .QEdge 1, .QEdge 2, .QEdge 3, .QEdge 4, .QEdge 5,
    .QEdge 6, .QEdge 7, .QEdge 8, .QEdge 9, .QEdge 10, .QEdge 11]

theorem foot_getEdge4M3 (d : EmfDir) (t : Int × Int × Int) {Rd Wr Ad : Loc Arr → Prop}
    (h : ∀ l, AccM3 edges3 t (-1) 0 l → Rd l) :
    (getEdge4M3 d t.1 t.2.1 t.2.2 : Prog Arr R (Edge4 R)).Foot Rd Wr Ad := by
  cases d <;> unfold getEdge4M3 <;> footM3_steps <;>
    exact h _ (accM3_mk (by decide) (by omega) (by simp only [nvM3]; omega))

theorem foot_emfAndStoreMhd3 (p : Params R) :
    OwnFootM3 (faceGuardM3 p) edges3 [.Emf] (-1) 0 (emfAndStoreMhd3 p .Emf) := by
  intro t
  unfold emfAndStoreMhd3
  refine foot_ite (fun hc => ?_) (fun _ => foot_pure _ _ _ _)
  refine foot_bind (foot_getEdge4M3 _ t (fun l hl => ⟨hc, Or.inl hl⟩)) (fun e => ?_)
  refine foot_bind ((foot_wr _ _ _ _ _).2 ⟨hc, accM3_mk (by simp) (by omega) (by decide)⟩) (fun _ => ?_)
  refine foot_bind (foot_getEdge4M3 _ t (fun l hl => ⟨hc, Or.inl hl⟩)) (fun e => ?_)
  refine foot_bind ((foot_wr _ _ _ _ _).2 ⟨hc, accM3_mk (by simp) (by omega) (by decide)⟩) (fun _ => ?_)
  refine foot_bind (foot_getEdge4M3 _ t (fun l hl => ⟨hc, Or.inl hl⟩)) (fun e => ?_)
  exact ((foot_wr _ _ _ _ _).2 ⟨hc, accM3_mk (by simp) (by omega) (by decide)⟩)

theorem foot_updateMhd3 (p : Params R) (hU : nvM3 U = 8) (dtdx dtdy dtdz : R) :
    OwnFootM3 (cellGuard3 p) [.Fx, .Fy, .Fz] [U] 0 1 (updateMhd3 p U .Fx .Fy .Fz dtdx dtdy dtdz) := by
  intro t
  unfold updateMhd3
  refine foot_ite (fun hc => ?_) (fun _ => foot_pure _ _ _ _)
  footM3_steps
  all_goals
    refine ⟨hc, ?_⟩
    first
      | (right; accM3 hU)
      | (left; accM3 hU)
      | accM3 hU

theorem foot_updateEmfMhd3 (p : Params R) (hU : nvM3 U = 8) (dtdx dtdy dtdz : R) :
    OwnFootM3 (cellGuard3 p) [.Emf] [U] 0 1 (updateEmfMhd3 p U .Emf dtdx dtdy dtdz) := by
  intro t
  unfold updateEmfMhd3
  refine foot_ite (fun hc => ?_) (fun _ => foot_pure _ _ _ _)
  footM3_steps
  all_goals
    refine ⟨hc, ?_⟩
    first
      | (right; accM3 hU)
      | (left; accM3 hU)
      | accM3 hU

theorem foot_computeSlopesMhd3 (p : Params R) (hU : nvM3 U = 8) (jk : JunkM R) :
    OwnFootM3 (innerGuardM3 p) [U, .Q] [.Sx, .Sy, .Sz] (-1) 1 (computeSlopesMhd3 p U .Q jk) := by
  intro t
  unfold computeSlopesMhd3
  refine foot_ite (fun hc => ?_) (fun _ => foot_pure _ _ _ _)
  footM3_steps
  all_goals
    refine ⟨hc, ?_⟩
    first
      | (left; accM3 hU)
      | accM3 hU

theorem foot_updatedPrimVarMhd3 (p : Params R) (hU : nvM3 U = 8) (dtdx dtdy dtdz : R) :
    OwnFootM3 (traceGuardM3 p) [U, .Q, .Sx, .Sy, .Sz] [.Q2] 0 1
      (updatedPrimVarMhd3 p U .Q .Q2 dtdx dtdy dtdz) := by
  intro t
  unfold updatedPrimVarMhd3
  refine foot_ite (fun hc => ?_) (fun _ => foot_pure _ _ _ _)
  footM3_steps
  all_goals
    refine ⟨hc, ?_⟩
    first
      | (left; accM3 hU)
      | accM3 hU

theorem foot_sourceFaceMagMhd3 (p : Params R) (dtdx dtdy dtdz : R) :
    OwnFootM3 (innerGuardM3 p) [.ElecField] [.sFaceMag] 0 1 (sourceFaceMagMhd3 p dtdx dtdy dtdz) := by
  intro t
  unfold sourceFaceMagMhd3
  refine foot_ite (fun hc => ?_) (fun _ => foot_pure _ _ _ _)
  footM3_steps
  all_goals
    refine ⟨hc, ?_⟩
    first
      | exact Or.inl (accM3_mk (by simp) (by first | omega | (simp only; omega)) (by decide))
      | exact accM3_mk (by simp) (by first | omega | (simp only; omega)) (by decide)

/-! ## Kernels with atomic updates -/

theorem foot_atomicFlux3 (d : Dir) (p : Params R) (hU : nvM3 U = 8) {G : Prop} (hG : G)
    (t : Int × Int × Int) (f : MS R) (c : R) {Rd Wr : Loc Arr → Prop} :
    (atomicFlux3 d p U t.1 t.2.1 t.2.2 f c).Foot Rd Wr (fun l => G ∧ AccM3 [U] t (-1) 0 l) := by
  cases d <;> unfold atomicFlux3 <;>
    refine foot_bind (foot_pif (fun _ => ?_)) (fun _ => foot_pif (fun _ => ?_))
  all_goals
    footM3_steps
    exact ⟨hG, by accM3 hU⟩

theorem foot_atomicEmf3 (d : EmfDir) (p : Params R) (hU : nvM3 U = 8) {G : Prop} (hG : G)
    (t : Int × Int × Int) (e dtdx dtdy dtdz : R) {Rd Wr : Loc Arr → Prop} :
    (atomicEmf3 d p U t.1 t.2.1 t.2.2 e dtdx dtdy dtdz).Foot Rd Wr
      (fun l => G ∧ AccM3 [U] t (-1) 0 l) := by
  cases d <;> unfold atomicEmf3
  all_goals
    repeat' (first | (refine foot_bind ?_ (fun _ => ?_)) | (refine foot_pif (fun _ => ?_)) |
      (refine (foot_add _ _ _ _ _).2 ?_))
    all_goals exact ⟨hG, by accM3 hU⟩

theorem foot_fluxesAndUpdateMhd3 (p : Params R) (hU : nvM3 U = 8) (dtdx dtdy dtdz : R) (jk : JunkM R) :
    AddFootM3 (faceGuardM3 p) [.Qm_x, .Qp_x, .Qm_y, .Qp_y, .Qm_z, .Qp_z] [U] (-1) 0
      (fluxesAndUpdateMhd3 p U dtdx dtdy dtdz jk) := by
  intro t
  unfold fluxesAndUpdateMhd3
  refine foot_ite (fun hc => ?_) (fun _ => foot_pure _ _ _ _)
  repeat' (first
    | exact foot_atomicFlux3 _ p hU hc t _ _
    | (apply foot_getMS; intro v hv; exact ⟨hc, by accM3 hU⟩)
    | (refine foot_bind ?_ (fun _ => ?_)))

theorem foot_emfAndUpdateMhd3 (p : Params R) (hU : nvM3 U = 8) (dtdx dtdy dtdz : R) :
    AddFootM3 (faceGuardM3 p) edges3 [U] (-1) 0 (emfAndUpdateMhd3 p U dtdx dtdy dtdz) := by
  intro t
  unfold emfAndUpdateMhd3
  refine foot_ite (fun hc => ?_) (fun _ => foot_pure _ _ _ _)
  repeat' (first
    | exact foot_atomicEmf3 _ p hU hc t _ _ _ _
    | exact foot_getEdge4M3 _ t (fun l hl => ⟨hc, hl⟩)
    | (refine foot_bind ?_ (fun _ => ?_)))

theorem foot_fluxAlongMhd3 (d : Dir) (p : Params R) {inA outA : Arr} (hi : nvM3 inA = 8)
    (ho : nvM3 outA = 8) (dtdx dtdy dtdz : R) (jk : JunkM R) :
    AddFootM3 (faceGuardM3 p) [inA, .Sx, .Sy, .Sz, .Q2, .sFaceMag] [outA] (-1) 0
      (fluxAlongMhd3 d p inA outA .Q2 dtdx dtdy dtdz jk) := by
  intro t
  unfold fluxAlongMhd3
  refine foot_ite (fun hc => ?_) (fun _ => foot_pure _ _ _ _)
  cases d <;> simp only [Dir.slopes, Dir.num, Dir.delta] <;>
  repeat' (first
    | exact foot_atomicFlux3 _ p ho hc t _ _
    | (apply foot_getMS; intro v hv; exact ⟨hc, by accM3 hi⟩)
    | (refine (foot_rd _ _ _ _).2 ⟨hc, by accM3 hi⟩)
    | (refine foot_bind ?_ (fun _ => ?_)))

theorem foot_reconstructEdge3 {G : Prop} (hG : G) (d0 d1 : Dir) (p : Params R) {inA : Arr}
    (hi : nvM3 inA = 8) (q : MS R) (t : Int × Int × Int) (i j k : Int)
    (h : t.1 - 1 ≤ i ∧ i ≤ t.1 ∧ t.2.1 - 1 ≤ j ∧ j ≤ t.2.1 ∧ t.2.2 - 1 ≤ k ∧ k ≤ t.2.2) (e : EdgeLoc)
    {Wr Ad : Loc Arr → Prop} :
    (reconstructEdge3 d0 d1 p inA q i j k e).Foot
      (fun l => G ∧ AccM3 [inA, .Sx, .Sy, .Sz, .Q2, .sFaceMag] t (-2) 2 l) Wr Ad := by
  have r01 : ∀ b : Bool, 0 ≤ (if b then (1 : Int) else 0) ∧ (if b then (1 : Int) else 0) ≤ 1 := by
    intro b; cases b <;> simp
  have h1 := r01 e.right
  have h2 := r01 e.top
  unfold reconstructEdge3 limitedSlope3
  simp only
  generalize (if e.right then (1 : Int) else 0) = r at h1 ⊢
  generalize (if e.top then (1 : Int) else 0) = u at h2 ⊢
  cases d0 <;> cases d1 <;> simp only [Dir.slopes, Dir.num, Dir.delta, mul_one, mul_zero, add_zero] <;>
  repeat' (first
    | exact foot_pure _ _ _ _
    | (apply foot_getMS; intro v hv; exact ⟨hG, by accM3 hi⟩)
    | (refine (foot_rd _ _ _ _).2 ⟨hG, by accM3 hi⟩)
    | (refine foot_bind ?_ (fun _ => ?_)))

theorem foot_reconstructEmfMhd3 (d : EmfDir) (p : Params R) {inA outA : Arr} (hi : nvM3 inA = 8)
    (ho : nvM3 outA = 8) (dtdx dtdy dtdz : R) :
    AddFootM3 (faceGuardM3 p) [inA, .Sx, .Sy, .Sz, .Q2, .sFaceMag] [outA] (-2) 2
      (reconstructEmfMhd3 d p inA outA .Q2 dtdx dtdy dtdz) := by
  intro t
  unfold reconstructEmfMhd3
  refine foot_ite (fun hc => ?_) (fun _ => foot_pure _ _ _ _)
  refine foot_bind ?_ (fun _ => foot_atomicEmf3 _ p ho hc t _ _ _ _)
  have hQ : nvM3 .Q2 = 8 := rfl
  have ms : ∀ i j k, t.1 - 1 ≤ i ∧ i ≤ t.1 ∧ t.2.1 - 1 ≤ j ∧ j ≤ t.2.1 ∧ t.2.2 - 1 ≤ k ∧ k ≤ t.2.2 →
      (getMS .Q2 i j k : Prog Arr R (MS R)).Foot
        (fun l => faceGuardM3 p t ∧ AccM3 [inA, .Sx, .Sy, .Sz, .Q2, .sFaceMag] t (-2) 2 l)
        (fun _ => False) (fun l => faceGuardM3 p t ∧ AccM3 [outA] t (-1) 0 l) := fun i j k h =>
    foot_getMS (fun v hv => ⟨hc, by accM3 hQ⟩)
  have re := fun d0 d1 q i j k h e => foot_reconstructEdge3 (R := R) hc d0 d1 p hi q t i j k h e
    (Wr := fun _ => False) (Ad := fun l => faceGuardM3 p t ∧ AccM3 [outA] t (-1) 0 l)
  cases d <;> unfold getRecEdge3
  all_goals
    refine foot_bind (ms _ _ _ (by omega)) (fun _ => ?_)
    refine foot_bind (ms _ _ _ (by omega)) (fun _ => ?_)
    refine foot_bind (ms _ _ _ (by omega)) (fun _ => ?_)
    refine foot_bind (ms _ _ _ (by omega)) (fun _ => ?_)
    refine foot_bind (re _ _ _ _ _ _ (by omega) _) (fun _ => ?_)
    refine foot_bind (re _ _ _ _ _ _ (by omega) _) (fun _ => ?_)
    refine foot_bind (re _ _ _ _ _ _ (by omega) _) (fun _ => ?_)
    refine foot_bind (re _ _ _ _ _ _ (by omega) _) (fun _ => ?_)
    exact foot_pure _ _ _ _

end EulerKokkos
