import Verif.Lemmas.Mhd
import Verif.Spec.MhdScheme2D

/-! # Footprints of the 2D MHD kernels -/

set_option linter.constructorNameAsVariable false
set_option linter.unusedSectionVars false
set_option linter.unusedSimpArgs false
set_option linter.unnecessarySeqFocus false
set_option linter.unusedTactic false
set_option linter.unreachableTactic false

namespace EulerKokkos

open Prog (rd wr add upd run_bind run_rd run_wr run_pure foot_bind foot_rd foot_wr foot_add
  foot_pure foot_ite foot_pif foot_mono Foot forRange pif)
open Spec

variable {R : Type} [RealOps R]

/-- number of variables of a view in 2D MHD runs, `/repo/src/muscl/SolverMHDMuscl.h:268-310` -/
def nvM2 : Arr → Nat
  | .Emf | .ElecField => 1
  | .sFaceMag => 2
  | _ => 8

/-- the element `l` lies in one of the views `arrs`, in a box of cells around `t` -/
def AccM2 (arrs : List Arr) (t : Int × Int) (lo hi : Int) (l : Loc Arr) : Prop :=
  l.arr ∈ arrs ∧ (t.1 + lo ≤ l.i ∧ l.i ≤ t.1 + hi) ∧ (t.2 + lo ≤ l.j ∧ l.j ≤ t.2 + hi) ∧ l.k = 0 ∧
    l.v < nvM2 l.arr

theorem accM2_mk {arrs : List Arr} {t : Int × Int} {lo hi i j : Int} {v : Nat} {a : Arr}
    (ha : a ∈ arrs) (h : t.1 + lo ≤ i ∧ i ≤ t.1 + hi ∧ t.2 + lo ≤ j ∧ j ≤ t.2 + hi)
    (hv : v < nvM2 a) : AccM2 arrs t lo hi ⟨a, i, j, 0, v⟩ :=
  ⟨ha, ⟨h.1, h.2.1⟩, h.2.2, rfl, hv⟩

/-- `body` reads boxes of `ins`, writes its own cell of `outs` (which it may also read), when `G` -/
def OwnFootM2 (G : Int × Int → Prop) (ins outs : List Arr) (lo hi : Int)
    (body : Int × Int → Prog Arr R Unit) : Prop :=
  ∀ t, (body t).Foot (fun l => G t ∧ (AccM2 ins t lo hi l ∨ AccM2 outs t 0 0 l))
    (fun l => G t ∧ AccM2 outs t 0 0 l) (fun _ => False)

theorem OwnFootM2.own {G : Int × Int → Prop} {ins outs : List Arr} {lo hi : Int}
    {body : Int × Int → Prog Arr R Unit} (h : OwnFootM2 G ins outs lo hi body)
    (hd : ∀ a ∈ ins, a ∉ outs) : Own2 (· ∈ outs) body := by
  refine own2_of_foot h ?_ ?_
  · rintro t l ⟨_, ⟨h1, _⟩ | ⟨_, h2, h3, _⟩⟩
    · exact Or.inl (hd _ h1)
    · right; ext <;> simp only <;> omega
  · rintro t l ⟨_, h1, h2, h3, _⟩
    refine ⟨h1, ?_⟩
    ext <;> simp only <;> omega

theorem nvM2_ping {inA outA : Arr} (h : PingPong inA outA) : nvM2 inA = 8 ∧ nvM2 outA = 8 := by
  rcases h with ⟨rfl, rfl⟩ | ⟨rfl, rfl⟩ <;> exact ⟨rfl, rfl⟩

set_option hygiene false in
macro "footM_steps" : tactic => `(tactic| (
  repeat' (first
    | exact foot_pure _ _ _ _
    | (apply foot_getMS; intro v hv)
    | (apply foot_getBF; intro v hv)
    | (apply foot_putMS; intro v hv)
    | (refine (foot_rd _ _ _ _).2 ?_)
    | (refine (foot_wr _ _ _ _ _).2 ?_)
    | (apply foot_atomicAddM6; intro v hv)
    | (apply foot_atomicSubM6; intro v hv)
    | (refine foot_bind ?_ (fun _ => ?_)))))

set_option hygiene false in
macro "accM2" hU:ident : tactic => `(tactic| (
  refine accM2_mk ?_ ?_ ?_
  focus (simp; done)
  focus omega
  focus
    first
      | exact hv
      | (rw [$hU:ident]; first | exact hv | decide)
      | decide))

variable {U W : Arr}

theorem foot_convertMhd2 (p : Params R) (hU : nvM2 U = 8) :
    OwnFootM2 (fun t => t.2 ≥ 0 ∧ t.2 < p.jsize - 1 ∧ t.1 ≥ 0 ∧ t.1 < p.isize - 1) [U] [.Q] 0 1
      (convertMhd2 p U .Q) := by
  intro t
  unfold convertMhd2
  refine foot_ite (fun hc => ?_) (fun _ => foot_pure _ _ _ _)
  footM_steps
  all_goals
    refine ⟨hc, ?_⟩
    first
      | (left; accM2 hU)
      | (right; accM2 hU)
      | accM2 hU

theorem offs3_bd {o : Int × Int} (h : o ∈ offs3) : -1 ≤ o.1 ∧ o.1 ≤ 1 ∧ -1 ≤ o.2 ∧ o.2 ≤ 1 := by
  unfold offs3 at h
  revert o; decide

theorem offs4_bd {o : Int × Int} (h : o ∈ offs4) : -1 ≤ o.1 ∧ o.1 ≤ 2 ∧ -1 ≤ o.2 ∧ o.2 ≤ 2 := by
  unfold offs4 at h
  revert o; decide

theorem foot_computeTraceMhd2 (p : Params R) (hU : nvM2 U = 8) (dtdx dtdy : R) (jk : JunkM R) :
    OwnFootM2 (traceGuardM2 p) [U, .Q]
      [.Qm_x, .Qp_x, .Qm_y, .Qp_y, .QEdge 0, .QEdge 1, .QEdge 2, .QEdge 3] (-1) 2
      (computeTraceMhd2 p U .Q dtdx dtdy jk) := by
  intro t
  unfold computeTraceMhd2
  refine foot_ite (fun hc => ?_) (fun _ => foot_pure _ _ _ _)
  refine foot_bind (foot_gather (fun o ho => foot_getMS (fun v hv => ⟨hc, Or.inl ?_⟩)))
    (fun _ => ?_)
  · have := offs3_bd ho
    accM2 hU
  refine foot_bind (foot_gather (fun o ho => foot_getBF (fun v hv => ⟨hc, Or.inl ?_⟩)))
    (fun _ => ?_)
  · have := offs4_bd ho
    accM2 hU
  footM_steps
  all_goals
    refine ⟨hc, ?_⟩
    accM2 hU

theorem foot_fluxesAndStoreMhd2 (p : Params R) (jk : JunkM R) :
    OwnFootM2 (faceGuardM2 p) [.Qm_x, .Qp_x, .Qm_y, .Qp_y] [.Fx, .Fy] (-1) 0
      (fluxesAndStoreMhd2 p .Fx .Fy jk) := by
  intro t
  unfold fluxesAndStoreMhd2
  refine foot_ite (fun hc => ?_) (fun _ => foot_pure _ _ _ _)
  footM_steps
  all_goals
    refine ⟨hc, ?_⟩
    first
      | (left; exact accM2_mk (by simp) (by omega) (by simp only [nvM2]; omega))
      | exact accM2_mk (by simp) (by omega) (by simp only [nvM2]; omega)

theorem foot_getEdge4 (G : Prop) (hG : G) (t : Int × Int) {Wr Ad : Loc Arr → Prop} {outs : List Arr} :
    (getEdge4 t.1 t.2 : Prog Arr R (Edge4 R)).Foot
      (fun l => G ∧ (AccM2 [.QEdge 0, .QEdge 1, .QEdge 2, .QEdge 3] t (-1) 0 l ∨
        AccM2 outs t 0 0 l)) Wr Ad := by
  unfold getEdge4
  footM_steps
  all_goals exact ⟨hG, Or.inl (accM2_mk (by simp) (by omega) (by simp only [nvM2]; omega))⟩

theorem foot_emfAndStoreMhd2 (p : Params R) :
    OwnFootM2 (faceGuardM2 p) [.QEdge 0, .QEdge 1, .QEdge 2, .QEdge 3] [.Emf] (-1) 0
      (emfAndStoreMhd2 p .Emf) := by
  intro t
  unfold emfAndStoreMhd2
  refine foot_ite (fun hc => ?_) (fun _ => foot_pure _ _ _ _)
  refine foot_bind (foot_getEdge4 _ hc t) (fun e => ?_)
  exact (foot_wr _ _ _ _ _).2 ⟨hc, accM2_mk (by simp) (by omega) (by simp [nvM2])⟩

theorem foot_updateMhd2 (p : Params R) (hU : nvM2 U = 8) (dtdx dtdy : R) :
    OwnFootM2 (cellGuard2 p) [.Fx, .Fy] [U] 0 1 (updateMhd2 p U .Fx .Fy dtdx dtdy) := by
  intro t
  unfold updateMhd2
  refine foot_ite (fun hc => ?_) (fun _ => foot_pure _ _ _ _)
  footM_steps
  all_goals
    refine ⟨hc, ?_⟩
    first
      | (right; accM2 hU)
      | (left; accM2 hU)
      | accM2 hU

theorem foot_updateEmfMhd2 (p : Params R) (hU : nvM2 U = 8) (dtdx dtdy : R) :
    OwnFootM2 (cellGuard2 p) [.Emf] [U] 0 1 (updateEmfMhd2 p U .Emf dtdx dtdy) := by
  intro t
  unfold updateEmfMhd2
  refine foot_ite (fun hc => ?_) (fun _ => foot_pure _ _ _ _)
  footM_steps
  all_goals
    refine ⟨hc, ?_⟩
    first
      | (right; accM2 hU)
      | (left; accM2 hU)
      | accM2 hU

theorem foot_computeSlopesMhd2 (p : Params R) (hU : nvM2 U = 8) (jk : JunkM R) :
    OwnFootM2 (fun t => t.2 ≥ 1 ∧ t.2 < p.jsize - 1 ∧ t.1 ≥ 1 ∧ t.1 < p.isize - 1) [U, .Q]
      [.Sx, .Sy] (-1) 1 (computeSlopesMhd2 p U .Q jk) := by
  intro t
  unfold computeSlopesMhd2
  refine foot_ite (fun hc => ?_) (fun _ => foot_pure _ _ _ _)
  footM_steps
  all_goals
    refine ⟨hc, ?_⟩
    first
      | (left; accM2 hU)
      | accM2 hU

theorem foot_updatedPrimVarMhd2 (p : Params R) (hU : nvM2 U = 8) (dtdx dtdy : R) :
    OwnFootM2 (traceGuardM2 p) [U, .Q, .Sx, .Sy] [.Q2] 0 1
      (updatedPrimVarMhd2 p U .Q .Q2 dtdx dtdy) := by
  intro t
  unfold updatedPrimVarMhd2
  refine foot_ite (fun hc => ?_) (fun _ => foot_pure _ _ _ _)
  footM_steps
  all_goals
    refine ⟨hc, ?_⟩
    first
      | (left; accM2 hU)
      | accM2 hU

theorem foot_elecFieldMhd2 (p : Params R) (hU : nvM2 U = 8) :
    OwnFootM2 (fun t => t.2 > 0 ∧ t.2 < p.jsize ∧ t.1 > 0 ∧ t.1 < p.isize) [U, .Q] [.ElecField] (-1) 0
      (elecFieldMhd2 p U .Q) := by
  intro t
  unfold elecFieldMhd2
  refine foot_ite (fun hc => ?_) (fun _ => foot_pure _ _ _ _)
  footM_steps
  all_goals
    refine ⟨hc, ?_⟩
    first
      | (left; accM2 hU)
      | accM2 hU

theorem foot_sourceFaceMagMhd2 (p : Params R) (dtdx dtdy : R) :
    OwnFootM2 (fun t => t.2 > 0 ∧ t.2 < p.jsize - 1 ∧ t.1 > 0 ∧ t.1 < p.isize - 1) [.ElecField]
      [.sFaceMag] 0 1 (sourceFaceMagMhd2 p dtdx dtdy) := by
  intro t
  unfold sourceFaceMagMhd2
  refine foot_ite (fun hc => ?_) (fun _ => foot_pure _ _ _ _)
  footM_steps
  all_goals
    refine ⟨hc, ?_⟩
    first
      | exact Or.inl (accM2_mk (by simp) (by omega) (by simp [nvM2]))
      | exact accM2_mk (by simp) (by omega) (by simp [nvM2, IX, IY])

/-! ## Kernels with atomic updates -/

/-- `body` reads boxes of `ins` and atomically adds in boxes of `outs`, when `G` -/
def AddFootM2 (G : Int × Int → Prop) (ins outs : List Arr) (lo hi : Int)
    (body : Int × Int → Prog Arr R Unit) : Prop :=
  ∀ t, (body t).Foot (fun l => G t ∧ AccM2 ins t lo hi l) (fun _ => False)
    (fun l => G t ∧ AccM2 outs t (-1) 0 l)

theorem foot_atomicX2 (p : Params R) (hU : nvM2 U = 8) {G : Prop} (hG : G) (t : Int × Int) (f : MS R)
    (c : R) {Rd Wr : Loc Arr → Prop} :
    (atomicX2 p U t.1 t.2 f c).Foot Rd Wr (fun l => G ∧ AccM2 [U] t (-1) 0 l) := by
  unfold atomicX2
  refine foot_bind (foot_pif (fun _ => ?_)) (fun _ => foot_pif (fun _ => ?_))
  all_goals
    footM_steps
    exact ⟨hG, by accM2 hU⟩

theorem foot_atomicY2 (p : Params R) (hU : nvM2 U = 8) {G : Prop} (hG : G) (t : Int × Int) (f : MS R)
    (c : R) {Rd Wr : Loc Arr → Prop} :
    (atomicY2 p U t.1 t.2 f c).Foot Rd Wr (fun l => G ∧ AccM2 [U] t (-1) 0 l) := by
  unfold atomicY2
  refine foot_bind (foot_pif (fun _ => ?_)) (fun _ => foot_pif (fun _ => ?_))
  all_goals
    footM_steps
    exact ⟨hG, by accM2 hU⟩

theorem foot_atomicEmf2 (hU : nvM2 U = 8) {G : Prop} (hG : G) (t : Int × Int) (e dtdx dtdy : R)
    {Rd Wr : Loc Arr → Prop} :
    (atomicEmf2 U t.1 t.2 e dtdx dtdy).Foot Rd Wr (fun l => G ∧ AccM2 [U] t (-1) 0 l) := by
  unfold atomicEmf2
  repeat' (first | (refine foot_bind ?_ (fun _ => ?_)) | (refine (foot_add _ _ _ _ _).2 ?_))
  all_goals exact ⟨hG, by accM2 hU⟩

theorem foot_fluxesAndUpdateMhd2 (p : Params R) (hU : nvM2 U = 8) (dtdx dtdy : R) (jk : JunkM R) :
    AddFootM2 (faceGuardM2 p) [.Qm_x, .Qp_x, .Qm_y, .Qp_y] [U] (-1) 0
      (fluxesAndUpdateMhd2 p U dtdx dtdy jk) := by
  intro t
  unfold fluxesAndUpdateMhd2
  refine foot_ite (fun hc => ?_) (fun _ => foot_pure _ _ _ _)
  repeat' (first
    | exact foot_atomicX2 p hU hc t _ _
    | exact foot_atomicY2 p hU hc t _ _
    | (apply foot_getMS; intro v hv; exact ⟨hc, by accM2 hU⟩)
    | (refine foot_bind ?_ (fun _ => ?_)))

theorem foot_emfAndUpdateMhd2 (p : Params R) (hU : nvM2 U = 8) (dtdx dtdy : R) :
    AddFootM2 (faceGuardM2 p) [.QEdge 0, .QEdge 1, .QEdge 2, .QEdge 3] [U] (-1) 0
      (emfAndUpdateMhd2 p U dtdx dtdy) := by
  intro t
  unfold emfAndUpdateMhd2
  refine foot_ite (fun hc => ?_) (fun _ => foot_pure _ _ _ _)
  refine foot_bind (foot_mono (fun l h => ?_) (fun _ h => h) (fun _ h => h)
    (foot_getEdge4 (outs := []) _ hc t)) (fun e => foot_atomicEmf2 hU hc t _ _ _)
  rcases h with ⟨h1, h2 | h2⟩
  · exact ⟨h1, h2⟩
  · simp [AccM2] at h2

theorem foot_fluxAlongXMhd2 (p : Params R) {inA outA : Arr} (hi : nvM2 inA = 8) (ho : nvM2 outA = 8)
    (dtdx : R) (jk : JunkM R) :
    AddFootM2 (faceGuardM2 p) [inA, .Sx, .Q2, .sFaceMag] [outA] (-1) 0
      (fluxAlongXMhd2 p inA outA .Q2 dtdx jk) := by
  intro t
  unfold fluxAlongXMhd2
  refine foot_ite (fun hc => ?_) (fun _ => foot_pure _ _ _ _)
  repeat' (first
    | exact foot_atomicX2 p ho hc t _ _
    | (apply foot_getMS; intro v hv; exact ⟨hc, by accM2 hi⟩)
    | (refine (foot_rd _ _ _ _).2 ⟨hc, by accM2 hi⟩)
    | (refine foot_bind ?_ (fun _ => ?_)))

theorem foot_fluxAlongYMhd2 (p : Params R) {inA outA : Arr} (hi : nvM2 inA = 8) (ho : nvM2 outA = 8)
    (dtdy : R) (jk : JunkM R) :
    AddFootM2 (faceGuardM2 p) [inA, .Sy, .Q2, .sFaceMag] [outA] (-1) 0
      (fluxAlongYMhd2 p inA outA .Q2 dtdy jk) := by
  intro t
  unfold fluxAlongYMhd2
  refine foot_ite (fun hc => ?_) (fun _ => foot_pure _ _ _ _)
  repeat' (first
    | exact foot_atomicY2 p ho hc t _ _
    | (apply foot_getMS; intro v hv; exact ⟨hc, by accM2 hi⟩)
    | (refine (foot_rd _ _ _ _).2 ⟨hc, by accM2 hi⟩)
    | (refine foot_bind ?_ (fun _ => ?_)))

theorem foot_reconstructEmfMhd2 (p : Params R) {inA outA : Arr} (hi : nvM2 inA = 8)
    (ho : nvM2 outA = 8) (dtdx dtdy : R) :
    AddFootM2 (faceGuardM2 p) [inA, .Sx, .Sy, .Q2, .sFaceMag] [outA] (-2) 1
      (reconstructEmfMhd2 p inA outA .Q2 dtdx dtdy) := by
  intro t
  unfold reconstructEmfMhd2 reconstructEdge2 limitedSlope2
  refine foot_ite (fun hc => ?_) (fun _ => foot_pure _ _ _ _)
  repeat' (first
    | exact foot_pure _ _ _ _
    | exact foot_atomicEmf2 ho hc t _ _ _
    | (apply foot_getMS; intro v hv; exact ⟨hc, by accM2 hi⟩)
    | (refine (foot_rd _ _ _ _).2 ⟨hc, by accM2 hi⟩)
    | (refine foot_bind ?_ (fun _ => ?_)))

end EulerKokkos
