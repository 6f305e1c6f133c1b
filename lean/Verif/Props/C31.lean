import Verif.Props.C29

/-! # C31 — no out-of-bounds access in a 3D hydro step -/

set_option linter.constructorNameAsVariable false
set_option linter.unusedSectionVars false
set_option linter.unusedSimpArgs false

namespace EulerKokkos

open Spec
variable {R : Type} [RealOps R]

theorem safe_makeBoundary3 {p : Params R} (hw : p.WF) {g : GravityParams} {inA : Arr}
    (hA : inA = .U ∨ inA = .U2) (f : Face) (t : Int) (ht : 0 ≤ t) :
    (makeBoundary3 false p inA f t).Safe (Alloc3 p g) := by
  have hgw := hw.gw_pos
  have hx := hw.nx_pos
  have hy := hw.ny_pos
  have hz := hw.nz_pos
  have hI := hw.isize_eq
  have hJ := hw.jsize_eq
  have hK := hw.ksize_eq
  obtain ⟨dec, enc, h1, -, -⟩ := faceCode3 false inA hw f
  rw [h1 t ht]
  refine Prog.foot_ite (fun hg => ?_) (fun _ => Prog.foot_pure _ _ _ _)
  have hb : ∀ (c : Int × Int × Int), 0 ≤ c.1 → c.1 < p.isize → 0 ≤ c.2.1 → c.2.1 < p.jsize →
      0 ≤ c.2.2 → c.2.2 < p.ksize → ∀ v < p.nbvar, Alloc3 p g ⟨inA, c.1, c.2.1, c.2.2, v⟩ := by
    intro c a1 a2 a3 a4 a5 a6 v hv
    refine ⟨⟨a1, a2⟩, ⟨a3, a4⟩, ⟨a5, a6⟩, ?_⟩
    rcases hA with rfl | rfl <;> exact hv
  refine foot_copyVars (hb _ ?_ ?_ ?_ ?_ ?_ ?_) (hb _ ?_ ?_ ?_ ?_ ?_ ?_)
  all_goals
    cases f <;> simp only [G3, faceSrc, bcSrcMin, bcSrcMax] at hg ⊢ <;>
      first
        | (split_ifs <;> omega)
        | omega

/-- allocated box: from a cell of the window `t + [lo, hi]` -/
theorem alloc3_box {p : Params R} {g : GravityParams} {a : Arr} {n : Nat} {t : Int × Int × Int}
    {lo hi : Int} {l : Loc Arr} (h : Box3 a n t lo hi l)
    (hb : (0 ≤ t.1 + lo ∧ t.1 + hi < p.isize) ∧ (0 ≤ t.2.1 + lo ∧ t.2.1 + hi < p.jsize) ∧
      (0 ≤ t.2.2 + lo ∧ t.2.2 + hi < p.ksize))
    (ha : ∀ v < n, match (motive := Arr → Prop) a with
      | .U | .U2 | .Q => v < p.nbvar
      | .Fx => (p.implementationVersion = 0 ∨ p.implementationVersion = 1) ∧ v < p.nbvar
      | .Fy | .Fz => p.implementationVersion = 0 ∧ v < p.nbvar
      | .Sx | .Sy | .Sz => p.implementationVersion = 1 ∧ v < p.nbvar
      | .grav => g.enabled = true ∧ v < 3
      | _ => False) : Alloc3 p g l := by
  obtain ⟨a', i, j, k, v⟩ := l
  obtain ⟨h1, h2, h3, h4, h5⟩ := h
  simp only at h1 h2 h3 h4 h5
  subst h1
  exact ⟨⟨by simp only; omega, by simp only; omega⟩, ⟨by simp only; omega, by simp only; omega⟩,
    ⟨by simp only; omega, by simp only; omega⟩, ha v h5⟩

theorem cell3_box {a : Arr} {t : Int × Int × Int} {l : Loc Arr}
    (h : Cell3 a t.1 t.2.1 t.2.2 l) : Box3 a 5 t 0 0 l := by
  obtain ⟨h1, h2, h3, h4, h5⟩ := h
  exact ⟨h1, by omega, by omega, by omega, h5⟩

/-- **C31.** Every element read, written or atomically updated by any iteration of any kernel of a
3D step, on every path, is an allocated element; deep copies are between views of equal extents.
For every grid with at least one cell, all three versions, all parameters. -/
theorem C31_no_out_of_bounds_3d {p : Params R} (hw : p.WF) (hn : p.nbvar = 5) (g : GravityParams)
    (dt : R) (jk : Junk R) {inA outA : Arr} (hpp : PingPong inA outA) :
    ∀ L ∈ launches3 p g dt jk inA outA, L.Safe (Alloc3 p g) := by
  have hgw := hw.gw_pos
  have hx := hw.nx_pos
  have hy := hw.ny_pos
  have hz := hw.nz_pos
  have hI := hw.isize_eq
  have hJ := hw.jsize_eq
  have hK := hw.ksize_eq
  have hin : inA = .U ∨ inA = .U2 := by rcases hpp with ⟨rfl, rfl⟩ | ⟨rfl, rfl⟩ <;> simp
  have hout : outA = .U ∨ outA = .U2 := by rcases hpp with ⟨rfl, rfl⟩ | ⟨rfl, rfl⟩ <;> simp
  -- cells and boxes of the views
  have face_lo : ∀ t, faceGuard3 p t → (0 ≤ t.1 + -2 ∧ t.1 + 1 < p.isize) ∧
      (0 ≤ t.2.1 + -2 ∧ t.2.1 + 1 < p.jsize) ∧ (0 ≤ t.2.2 + -2 ∧ t.2.2 + 1 < p.ksize) := by
    rintro t ⟨c1, c2, c3, c4, c5, c6⟩; omega
  have cell_lo : ∀ t, cellGuard3 p t → (0 ≤ t.1 + 0 ∧ t.1 + 1 < p.isize) ∧
      (0 ≤ t.2.1 + 0 ∧ t.2.1 + 1 < p.jsize) ∧ (0 ≤ t.2.2 + 0 ∧ t.2.2 + 1 < p.ksize) := by
    rintro t ⟨c1, c2, c3, c4, c5, c6⟩; omega
  have hgrav : g.enabled = true → ∀ t, (gravitySource3 p inA outA .grav dt t).Safe (Alloc3 p g) := by
    intro hg t
    refine foot_to_safe (foot_gravitySource3 p inA outA .grav dt t) ?_ ?_ (fun _ h => h.elim)
    · rintro l ⟨c, h | h | h⟩
      · refine alloc3_box (cell3_box h) (by have := cell_lo t c; omega) (fun v hv => ?_)
        rcases hin with rfl | rfl <;> simp only <;> omega
      · refine alloc3_box (cell3_box h) (by have := cell_lo t c; omega) (fun v hv => ?_)
        rcases hout with rfl | rfl <;> simp only <;> omega
      · exact alloc3_box h (by have := cell_lo t c; omega) (fun v hv => ⟨hg, hv⟩)
    · rintro l ⟨c, h⟩
      refine alloc3_box (cell3_box h) (by have := cell_lo t c; omega) (fun v hv => ?_)
      rcases hout with rfl | rfl <;> simp only <;> omega
  intro L hL
  unfold launches3 at hL
  simp only [List.cons_append, List.nil_append, List.mem_cons] at hL
  rcases hL with rfl | rfl | rfl | rfl | rfl | rfl | rfl | rfl | hL
  · exact fun t ht => safe_makeBoundary3 hw hin _ t (mem_range1.1 ht).1
  · exact fun t ht => safe_makeBoundary3 hw hin _ t (mem_range1.1 ht).1
  · exact fun t ht => safe_makeBoundary3 hw hin _ t (mem_range1.1 ht).1
  · exact fun t ht => safe_makeBoundary3 hw hin _ t (mem_range1.1 ht).1
  · exact fun t ht => safe_makeBoundary3 hw hin _ t (mem_range1.1 ht).1
  · exact fun t ht => safe_makeBoundary3 hw hin _ t (mem_range1.1 ht).1
  · intro l
    unfold Alloc3
    rcases hpp with ⟨rfl, rfl⟩ | ⟨rfl, rfl⟩ <;> exact Iff.rfl
  · intro t _
    refine foot_to_safe (foot_convertToPrimitives3 p inA .Q t) ?_ ?_ (fun _ h => h.elim)
    all_goals
      rintro l ⟨c, h⟩
      refine alloc3_box (cell3_box h) (by omega) (fun v hv => ?_)
    · rcases hin with rfl | rfl <;> simp only <;> omega
    · simp only; omega
  have hgL : ∀ L ∈ (if g.enabled = true then
      [Launch.par (range3 p.isize p.jsize p.ksize) (gravitySource3 p inA outA .grav dt)] else []),
      L.Safe (Alloc3 p g) := by
    intro L hL
    split at hL
    · simp only [List.mem_singleton] at hL
      subst hL
      exact fun t _ => hgrav ‹_› t
    · simp at hL
  have hface : ∀ t l, FaceRd3 p (· = .Q) .grav g t l → Alloc3 p g l := by
    rintro t l ⟨c, ⟨e, h⟩ | ⟨hg, h⟩⟩
    · rw [e] at h
      exact alloc3_box h (face_lo t c) (fun v hv => by simp only; omega)
    · exact alloc3_box h (by have := face_lo t c; omega) (fun v hv => ⟨hg, hv⟩)
  split at hL
  · rename_i hv
    simp only [List.cons_append, List.nil_append, List.mem_cons] at hL
    rcases hL with rfl | rfl | hL
    · intro t _
      refine foot_to_safe (foot_computeAndStoreFluxes3 p .Q .Fx .Fy .Fz .grav dt g jk t) (hface t) ?_
        (fun _ h => h.elim)
      rintro l ⟨c, h | h | h⟩ <;>
        refine alloc3_box (cell3_box h) (by have := face_lo t c; omega)
          (fun v hv => by simp only; omega)
    · intro t _
      refine foot_to_safe (foot_update3 p outA .Fx .Fy .Fz t) ?_ ?_ (fun _ h => h.elim)
      · rintro l ⟨c, h | ⟨e, h⟩⟩
        · refine alloc3_box (cell3_box h) (by have := cell_lo t c; omega) (fun v hv => ?_)
          rcases hout with rfl | rfl <;> simp only <;> omega
        · rcases e with e | e | e <;> rw [e] at h <;>
            exact alloc3_box h (cell_lo t c) (fun v hv => by simp only; omega)
      · rintro l ⟨c, h⟩
        refine alloc3_box (cell3_box h) (by have := cell_lo t c; omega) (fun v hv => ?_)
        rcases hout with rfl | rfl <;> simp only <;> omega
    · exact hgL L hL
  split at hL
  · rename_i hv
    have hupd : ∀ (d : Dir) t, (updateDir3 d p outA .Fx t).Safe (Alloc3 p g) := by
      intro d t
      refine foot_to_safe (foot_updateDir3 d p outA .Fx t) ?_ ?_ (fun _ h => h.elim)
      · rintro l ⟨c, h | ⟨e, h⟩⟩
        · refine alloc3_box (cell3_box h) (by have := cell_lo t c; omega) (fun v hv => ?_)
          rcases hout with rfl | rfl <;> simp only <;> omega
        · rw [e] at h
          exact alloc3_box h (cell_lo t c) (fun v hv => by simp only; omega)
      · rintro l ⟨c, h⟩
        refine alloc3_box (cell3_box h) (by have := cell_lo t c; omega) (fun v hv => ?_)
        rcases hout with rfl | rfl <;> simp only <;> omega
    have htr : ∀ (d : Dir) t, (computeTraceAndFluxes3 d p .Q .Sx .Sy .Sz .Fx .grav dt g jk t).Safe
        (Alloc3 p g) := by
      intro d t
      refine foot_to_safe (foot_computeTraceAndFluxes3 d p .Q .Sx .Sy .Sz .Fx .grav dt g jk t) ?_ ?_
        (fun _ h => h.elim)
      · rintro l ⟨c, ⟨e, h⟩ | ⟨hg, h⟩⟩
        · rcases e with e | e | e | e <;> rw [e] at h <;>
            exact alloc3_box h (by have := face_lo t c; omega) (fun v hv => by simp only; omega)
        · exact alloc3_box h (by have := face_lo t c; omega) (fun v hv => ⟨hg, hv⟩)
      · rintro l ⟨c, h⟩
        exact alloc3_box (cell3_box h) (by have := face_lo t c; omega)
          (fun v hv => by simp only; omega)
    simp only [List.cons_append, List.nil_append, List.mem_cons] at hL
    rcases hL with rfl | rfl | rfl | rfl | rfl | rfl | rfl | hL
    · intro t _
      refine foot_to_safe (foot_computeSlopes3 p .Q .Sx .Sy .Sz jk t) ?_ ?_ (fun _ h => h.elim)
      · rintro l ⟨⟨c1, c2, c3, c4, c5, c6⟩, h⟩
        exact alloc3_box h (by omega) (fun v hv => by simp only; omega)
      · rintro l ⟨⟨c1, c2, c3, c4, c5, c6⟩, h | h | h⟩ <;>
          exact alloc3_box (cell3_box h) (by omega) (fun v hv => by simp only; omega)
    · exact fun t _ => htr _ t
    · exact fun t _ => hupd _ t
    · exact fun t _ => htr _ t
    · exact fun t _ => hupd _ t
    · exact fun t _ => htr _ t
    · exact fun t _ => hupd _ t
    · exact hgL L hL
  split at hL
  · simp only [List.cons_append, List.nil_append, List.mem_cons] at hL
    rcases hL with rfl | hL
    · intro t _
      refine foot_to_safe (foot_computeAllFluxesAndUpdate3 p .Q outA .grav dt g jk t) (hface t)
        (fun _ h => h.elim) ?_
      rintro l ⟨i', j', k', c, h⟩
      refine alloc3_box (t := (i', j', k')) (cell3_box h) (by have := cell_lo _ c; omega)
        (fun v hv => ?_)
      rcases hout with rfl | rfl <;> simp only <;> omega
    · exact hgL L hL
  · simp at hL

/-- Non-vacuity: a one-cell 3D grid. -/
example : ({ rawSample .periodic .periodic 2 5 with nx := 1, ny := 1, nz := 1 } : Params ℝ).init.WF ∧
    ({ rawSample .periodic .periodic 2 5 with nx := 1, ny := 1, nz := 1 } : Params ℝ).init.nbvar = 5 :=
  ⟨Params.init_wf _ (by simp) (by simp) (by simp) (by simp [rawSample]), rfl⟩

end EulerKokkos
