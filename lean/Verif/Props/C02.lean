import Verif.Lemmas.HydroStep2D
import Verif.Props.Sample

/-!
# C02, C03, C04, C06 — the 2D hydro time step: schedules, versions, memory accesses
-/

set_option linter.constructorNameAsVariable false
set_option linter.unusedSectionVars false
set_option linter.unusedSimpArgs false

namespace EulerKokkos

open Spec
variable {R : Type} [RealOps R]

theorem det_godunov2 {p : Params R} (hw : p.WF) (hf : Faces2Ok p) (g : GravityParams) (dt : R)
    (jk : Junk R) {inA outA : Arr} (hpp : PingPong inA outA)
    (hA : p.implementationVersion = 2 → Deterministic (Prog.forRange (range2 p.isize p.jsize)
      (computeAllFluxesAndUpdate2 p .Q outA .grav dt g jk))) :
    Deterministic (godunov2 p g dt jk inA outA) := by
  obtain ⟨F, hF, _⟩ := makeBoundaries2_is hw hf false inA
  exact det_seq hF.det (det_seqs (det_scheme2 p g dt jk hpp hA))

/-- the launch list is what the step executes -/
theorem launches2_correct (p : Params R) (g : GravityParams) (dt : R) (jk : Junk R)
    (inA outA : Arr) (m m' : Mem Arr R) :
    godunov2 p g dt jk inA outA m m' ↔
      Kern.seqs ((launches2 p g dt jk inA outA).map Launch.kern) m m' := by
  have : godunov2 p g dt jk inA outA =
      Kern.seqs ((launches2 p g dt jk inA outA).map Launch.kern) := by
    unfold godunov2 launches2 scheme2 makeBoundaries2 gravityStep2 makeBoundaryK2 deepCopy
    by_cases hg : g.enabled = true <;> by_cases h0 : p.implementationVersion = 0 <;>
      by_cases h1 : p.implementationVersion = 1 <;> by_cases h2 : p.implementationVersion = 2 <;>
      simp [hg, h0, h1, h2, Kern.seqs, Kern.seq_assoc, Launch.kern]
  rw [this]

/-- **C02.** Versions 0 and 1: for every interleaving of the iterations of every kernel of a step
the final arrays are the same (and every run completes), for any arithmetic (IEEE included), any
initial memory, any `dt`. -/
theorem C02_step_deterministic {p : Params R} (hw : p.WF) (hf : Faces2Ok p)
    (hi : p.implementationVersion = 0 ∨ p.implementationVersion = 1) (g : GravityParams) (dt : R)
    (jk : Junk R) {inA outA : Arr} (hpp : PingPong inA outA) (m : Mem Arr R) :
    ∃! m', godunov2 p g dt jk inA outA m m' :=
  det_godunov2 hw hf g dt jk hpp (fun h => by omega) m

/-- **C02, kernel by kernel**: each parallel loop taken alone is schedule independent. -/
theorem C02_each_kernel_deterministic {p : Params R} (hw : p.WF) (hf : Faces2Ok p)
    (hi : p.implementationVersion = 0 ∨ p.implementationVersion = 1) (g : GravityParams) (dt : R)
    (jk : Junk R) {inA outA : Arr} (hpp : PingPong inA outA) :
    ∀ L ∈ launches2 p g dt jk inA outA, ∀ m, ∃! m', L.kern m m' := by
  have hs := det_scheme2 p g dt jk hpp (fun h => by omega)
  obtain ⟨f1, f2, f3, f4⟩ := hf
  intro L hL m
  unfold launches2 at hL
  simp only [List.cons_append, List.nil_append, List.mem_cons] at hL
  rcases hL with rfl | rfl | rfl | rfl | rfl | rfl | hL
  · exact (makeBoundaryK2_is false inA hw .xmin f1).det m
  · exact (makeBoundaryK2_is false inA hw .xmax f2).det m
  · exact (makeBoundaryK2_is false inA hw .ymin f3).det m
  · exact (makeBoundaryK2_is false inA hw .ymax f4).det m
  · exact ⟨_, rfl, fun y h => h⟩
  · exact hs _ (by unfold scheme2; simp [Launch.kern]) m
  · refine hs _ ?_ m
    unfold scheme2
    unfold gravityStep2
    rcases hi with hi | hi <;> by_cases hg : g.enabled = true <;> simp [hi, hg] at hL ⊢ <;>
      rcases hL with rfl | rfl | rfl | rfl | rfl | rfl <;> simp [Launch.kern]

/-- **C03.** Version 2 (atomic accumulation), exact additions: every interleaving of the single
memory operations of a step ends in the same memory. -/
theorem C03_atomic_step_deterministic {p : Params ℝ} (hw : p.WF) (hf : Faces2Ok p)
    (g : GravityParams) (dt : ℝ) (jk : Junk ℝ) {inA outA : Arr} (hpp : PingPong inA outA)
    (m : Mem Arr ℝ) : ∃! m', godunov2 p g dt jk inA outA m m' :=
  det_godunov2 hw hf g dt jk hpp (fun _ => det_allFluxes2 p g dt jk
    (by rcases hpp with ⟨rfl, rfl⟩ | ⟨rfl, rfl⟩ <;> decide)
    (by rcases hpp with ⟨rfl, rfl⟩ | ⟨rfl, rfl⟩ <;> decide)) m

/-- **C04 (bit for bit, versions 0 and 1).** For any arithmetic with exact multiplication by ±1
(IEEE), any schedule and any content of uninitialised locals, versions 0 and 1 write the same
state `fullStep2`; the input view keeps its interior. -/
theorem C04_versions_0_1_agree {p : Params R} (hp : Hydro2 p) (hS : SignLaws R)
    (hi : p.implementationVersion = 0 ∨ p.implementationVersion = 1)
    (g : GravityParams) (dt : R) (jk : Junk R) {inA outA : Arr} (hpp : PingPong inA outA)
    {m m' : Mem Arr R} (hm : godunov2 p g dt jk inA outA m m') (i j : Int) (hij : inGrid2 p i j) :
    hs2 m' outA i j = fullStep2 p g dt (gravOf m .grav) (hs2 m inA) i j :=
  (godunov2_result hp hS (schemeOK2_01 hp hi) hpp hm).2.2 i j hij

/-- **C04 (all versions, exact arithmetic).** -/
theorem C04_all_versions_agree {p : Params ℝ} (hp : Hydro2 p)
    (hi : p.implementationVersion = 0 ∨ p.implementationVersion = 1 ∨
      p.implementationVersion = 2)
    (g : GravityParams) (dt : ℝ) (jk : Junk ℝ) {inA outA : Arr} (hpp : PingPong inA outA)
    {m m' : Mem Arr ℝ} (hm : godunov2 p g dt jk inA outA m m') (i j : Int) (hij : inGrid2 p i j) :
    hs2 m' outA i j = fullStep2 p g dt (gravOf m .grav) (hs2 m inA) i j :=
  (godunov2_result hp signLaws_real (schemeOK2_real hp hi) hpp hm).2.2 i j hij

theorem iterStep2_params {p q : Params R} {g : GravityParams}
    (h : ∀ dt gf u, fullStep2 q g dt gf u = fullStep2 p g dt gf u) (gf : Grav2 R) (dts : List R)
    (u : Fld2 R) : iterStep2 q g gf dts u = iterStep2 p g gf dts u := by
  induction dts generalizing u with
  | nil => rfl
  | cons dt dts ih => unfold iterStep2; rw [h]; exact ih _

/-- **C04, direct form**: two solvers that differ only by the version (0, 1 or 2), by the schedule
and by uninitialised locals, starting from the same state, end a run of any number of steps with
the same state in every cell. -/
theorem C04_runs_agree {p q : Params ℝ} (hp : Hydro2 p)
    (hv : p.implementationVersion = 0 ∨ p.implementationVersion = 1 ∨ p.implementationVersion = 2)
    (hv' : q.implementationVersion = 0 ∨ q.implementationVersion = 1 ∨ q.implementationVersion = 2)
    (hq : q = { p with implementationVersion := q.implementationVersion })
    (g : GravityParams) (jk jk' : Junk ℝ) (dts : List ℝ) (n : Nat) {m a b : Mem Arr ℝ}
    (ha : hydroRun2 p g jk n dts m a) (hb : hydroRun2 q g jk' n dts m b)
    (i j : Int) (hij : inGrid2 p i j) :
    hs2 a (pingIn (n + dts.length)) i j = hs2 b (pingIn (n + dts.length)) i j := by
  have hp' : Hydro2 q := by
    obtain ⟨⟨w1, w2, w3, w4, w5, w6, w7, w8, w9, w10, w11, w12, w13⟩, nb, ⟨v1, v2⟩, f⟩ := hp
    rw [hq]
    exact ⟨⟨w1, w2, w3, w4, w5, w6, w7, w8, w9, w10, w11, w12, w13⟩, nb, ⟨v1, v2⟩, f⟩
  have e1 := (hydroRun2_result hp signLaws_real (schemeOK2_real hp hv) dts n ha).1 i j hij
  have e2 := (hydroRun2_result hp' signLaws_real (schemeOK2_real hp' hv') dts n hb).1 i j
    (by rw [hq]; exact hij)
  rw [e1, e2]
  have hstep : ∀ dt gf u, fullStep2 q g dt gf u = fullStep2 p g dt gf u := by
    intro dt gf u; rw [hq]; rfl
  rw [iterStep2_params hstep]

/-- Non-vacuity: the sample parameters (4 × 3 cells, periodic / reflecting) satisfy `Hydro2`. -/
theorem sample_hydro2 (a b : BC) : Hydro2 (sample a b) where
  wf := sample_wf a b
  nbvar := rfl
  valid := ⟨by right; left; simp [sample, rawSample, Params.init],
    by simp [sample, rawSample, Params.init]⟩
  faces := (sample_faces3 a b).1

example : Hydro2 (sample .periodic .dirichlet) ∧ PingPong .U .U2 ∧
    (sample .periodic .dirichlet).implementationVersion = 0 :=
  ⟨sample_hydro2 _ _, Or.inl ⟨rfl, rfl⟩, rfl⟩

/-! ## C06 -/

theorem foot_to_safe {α : Type} {q : Prog Arr R α} {Rd Wr Ad ok : Loc Arr → Prop}
    (h : q.Foot Rd Wr Ad) (h1 : ∀ l, Rd l → ok l) (h2 : ∀ l, Wr l → ok l) (h3 : ∀ l, Ad l → ok l) :
    q.Safe ok := Prog.foot_mono h1 h2 h3 h

theorem safe_makeBoundary2 {p : Params R} (hw : p.WF) {g : GravityParams} {inA : Arr}
    (hA : inA = .U ∨ inA = .U2) (f : Face) (t : Int) (ht : 0 ≤ t) :
    (makeBoundary2 false p inA f t).Safe (Alloc2 p g) := by
  have hgw := hw.gw_pos
  have hx := hw.nx_pos
  have hy := hw.ny_pos
  have hI := hw.isize_eq
  have hJ := hw.jsize_eq
  obtain ⟨dec, enc, h1, -, -⟩ := faceCode2 false inA hw f
  rw [h1 t ht]
  refine Prog.foot_ite (fun hg => ?_) (fun _ => Prog.foot_pure _ _ _ _)
  have hb : ∀ (c : Int × Int × Int), 0 ≤ c.1 → c.1 < p.isize → 0 ≤ c.2.1 → c.2.1 < p.jsize →
      c.2.2 = 0 → ∀ v < p.nbvar, Alloc2 p g ⟨inA, c.1, c.2.1, c.2.2, v⟩ := by
    intro c a1 a2 a3 a4 a5 v hv
    refine ⟨⟨a1, a2⟩, ⟨a3, a4⟩, a5, ?_⟩
    rcases hA with rfl | rfl <;> exact hv
  refine foot_copyVars (hb _ ?_ ?_ ?_ ?_ ?_) (hb _ ?_ ?_ ?_ ?_ ?_)
  all_goals
    cases f <;> simp only [G2, faceSrc, bcSrcMin, bcSrcMax] at hg ⊢ <;>
      first
        | exact hg.2.elim
        | (split_ifs <;> omega)
        | omega

/-- **C06.** Every element read, written or atomically updated by any iteration of any kernel of a
2D step, on every path, is an allocated element; deep copies are between views of equal extents.
For every grid with at least one cell, all three versions, all parameters. -/
theorem C06_no_out_of_bounds_2d {p : Params R} (hw : p.WF) (hn : p.nbvar = 4) (g : GravityParams)
    (dt : R) (jk : Junk R) {inA outA : Arr} (hpp : PingPong inA outA) :
    ∀ L ∈ launches2 p g dt jk inA outA, L.Safe (Alloc2 p g) := by
  have hgw := hw.gw_pos
  have hx := hw.nx_pos
  have hy := hw.ny_pos
  have hI := hw.isize_eq
  have hJ := hw.jsize_eq
  have hin : inA = .U ∨ inA = .U2 := by rcases hpp with ⟨rfl, rfl⟩ | ⟨rfl, rfl⟩ <;> simp
  have hout : outA = .U ∨ outA = .U2 := by rcases hpp with ⟨rfl, rfl⟩ | ⟨rfl, rfl⟩ <;> simp
  have hgrav : g.enabled = true → ∀ t, (gravitySource2 p inA outA .grav dt t).Safe (Alloc2 p g) := by
    intro hg t
    refine foot_to_safe (foot_gravitySource2 p inA outA .grav dt t) ?_ ?_ (fun _ h => h.elim)
    · rintro ⟨a, i, j, k, v⟩ ⟨⟨c1, c2, c3, c4⟩, ⟨h1, h2, h3, h4, h5⟩ | ⟨h1, h2, h3, h4, h5⟩ |
        ⟨h1, h2, h3, h4, h5⟩⟩ <;> simp only at h1 h2 h3 h4 h5 <;>
        refine ⟨⟨by simp only; omega, by simp only; omega⟩, ⟨by simp only; omega, by simp only; omega⟩,
          h4, ?_⟩ <;> subst h1
      · rcases hin with rfl | rfl <;> simp only <;> omega
      · rcases hout with rfl | rfl <;> simp only <;> omega
      · exact ⟨hg, h5⟩
    · rintro ⟨a, i, j, k, v⟩ ⟨⟨c1, c2, c3, c4⟩, h1, h2, h3, h4, h5⟩
      simp only at h1 h2 h3 h4 h5
      refine ⟨⟨by simp only; omega, by simp only; omega⟩, ⟨by simp only; omega, by simp only; omega⟩,
          h4, ?_⟩
      subst h1
      rcases hout with rfl | rfl <;> simp only <;> omega
  intro L hL
  unfold launches2 at hL
  simp only [List.cons_append, List.nil_append, List.mem_cons] at hL
  rcases hL with rfl | rfl | rfl | rfl | rfl | rfl | hL
  · exact fun t ht => safe_makeBoundary2 hw hin _ t (mem_range1.1 ht).1
  · exact fun t ht => safe_makeBoundary2 hw hin _ t (mem_range1.1 ht).1
  · exact fun t ht => safe_makeBoundary2 hw hin _ t (mem_range1.1 ht).1
  · exact fun t ht => safe_makeBoundary2 hw hin _ t (mem_range1.1 ht).1
  · intro l
    unfold Alloc2
    rcases hpp with ⟨rfl, rfl⟩ | ⟨rfl, rfl⟩ <;> exact Iff.rfl
  · intro t _
    refine foot_to_safe (foot_convertToPrimitives2 p inA .Q t) ?_ ?_ (fun _ h => h.elim)
    all_goals
      rintro ⟨a, i, j, k, v⟩ ⟨c, h1, h2, h3, h4, h5⟩
      simp only at h1 h2 h3 h4 h5
      refine ⟨⟨by simp only; omega, by simp only; omega⟩, ⟨by simp only; omega, by simp only; omega⟩,
          h4, ?_⟩
      subst h1
    · rcases hin with rfl | rfl <;> simp only <;> omega
    · simp only; omega
  have hgL : ∀ L ∈ (if g.enabled = true then
      [Launch.par (range2 p.isize p.jsize) (gravitySource2 p inA outA .grav dt)] else []),
      L.Safe (Alloc2 p g) := by
    intro L hL
    split at hL
    · simp only [List.mem_singleton] at hL
      subst hL
      exact fun t _ => hgrav ‹_› t
    · simp at hL
  have hface : ∀ t l, FaceRd2 p (· = .Q) .grav g t l → Alloc2 p g l := by
    rintro ⟨s, t⟩ ⟨a, i, j, k, v⟩ ⟨⟨c1, c2, c3, c4⟩, ⟨h0, h1, h2, h3, h4, h5⟩ |
      ⟨h0, h1, h2, h3, h4, h5⟩⟩ <;> simp only at h0 h1 h2 h3 h4 h5 c1 c2 c3 c4 <;>
      refine ⟨⟨by simp only; omega, by simp only; omega⟩, ⟨by simp only; omega, by simp only; omega⟩,
          h4, ?_⟩
    · subst h0; simp only; omega
    · subst h1; exact ⟨h0, h5⟩
  split at hL
  · rename_i hv
    simp only [List.cons_append, List.nil_append, List.mem_cons] at hL
    rcases hL with rfl | rfl | hL
    · intro t _
      refine foot_to_safe (foot_computeAndStoreFluxes2 p .Q .Fx .Fy .grav dt g jk t) (hface t) ?_
        (fun _ h => h.elim)
      rintro ⟨a, i, j, k, v⟩ ⟨⟨c1, c2, c3, c4⟩, ⟨h1, h2, h3, h4, h5⟩ | ⟨h1, h2, h3, h4, h5⟩⟩ <;>
        simp only at h1 h2 h3 h4 h5 <;> subst h1 <;>
        exact ⟨⟨by simp only; omega, by simp only; omega⟩, ⟨by simp only; omega, by simp only; omega⟩,
          h4, by simp only; omega⟩
    · intro t _
      refine foot_to_safe (foot_update2 p outA .Fx .Fy t) ?_ ?_ (fun _ h => h.elim)
      · rintro ⟨a, i, j, k, v⟩ ⟨⟨c1, c2, c3, c4⟩, ⟨h1, h2, h3, h4, h5⟩ | ⟨h0, h1, h2, h3, h4, h5⟩⟩
        · simp only at h1 h2 h3 h4 h5
          refine ⟨⟨by simp only; omega, by simp only; omega⟩, ⟨by simp only; omega, by simp only; omega⟩,
            h4, ?_⟩
          subst h1
          rcases hout with rfl | rfl <;> simp only <;> omega
        · simp only at h0 h1 h2 h3 h4 h5
          refine ⟨⟨by simp only; omega, by simp only; omega⟩, ⟨by simp only; omega, by simp only; omega⟩,
            h4, ?_⟩
          rcases h0 with rfl | rfl <;> simp only <;> omega
      · rintro ⟨a, i, j, k, v⟩ ⟨⟨c1, c2, c3, c4⟩, h1, h2, h3, h4, h5⟩
        simp only at h1 h2 h3 h4 h5
        refine ⟨⟨by simp only; omega, by simp only; omega⟩, ⟨by simp only; omega, by simp only; omega⟩,
            h4, ?_⟩
        subst h1
        rcases hout with rfl | rfl <;> simp only <;> omega
    · exact hgL L hL
  split at hL
  · rename_i hv
    have hupd : ∀ (d : Dir) t, (updateDir2 d p outA .Fx t).Safe (Alloc2 p g) := by
      intro d t
      refine foot_to_safe (foot_updateDir2 d p outA .Fx t) ?_ ?_ (fun _ h => h.elim)
      · rintro ⟨a, i, j, k, v⟩ ⟨⟨c1, c2, c3, c4⟩, ⟨h1, h2, h3, h4, h5⟩ | ⟨h0, h1, h2, h3, h4, h5⟩⟩
        · simp only at h1 h2 h3 h4 h5
          refine ⟨⟨by simp only; omega, by simp only; omega⟩, ⟨by simp only; omega, by simp only; omega⟩,
            h4, ?_⟩
          subst h1
          rcases hout with rfl | rfl <;> simp only <;> omega
        · simp only at h0 h1 h2 h3 h4 h5
          refine ⟨⟨by simp only; omega, by simp only; omega⟩, ⟨by simp only; omega, by simp only; omega⟩,
            h4, ?_⟩
          subst h0; simp only; omega
      · rintro ⟨a, i, j, k, v⟩ ⟨⟨c1, c2, c3, c4⟩, h1, h2, h3, h4, h5⟩
        simp only at h1 h2 h3 h4 h5
        refine ⟨⟨by simp only; omega, by simp only; omega⟩, ⟨by simp only; omega, by simp only; omega⟩,
            h4, ?_⟩
        subst h1
        rcases hout with rfl | rfl <;> simp only <;> omega
    have htr : ∀ (d : Dir) t, (computeTraceAndFluxes2 d p .Q .Sx .Sy .Fx .grav dt g jk t).Safe
        (Alloc2 p g) := by
      intro d t
      refine foot_to_safe (foot_computeTraceAndFluxes2 d p .Q .Sx .Sy .Fx .grav dt g jk t) ?_ ?_
        (fun _ h => h.elim)
      · rintro ⟨a, i, j, k, v⟩ ⟨⟨c1, c2, c3, c4⟩, ⟨h0, h1, h2, h3, h4, h5⟩ |
          ⟨h0, h1, h2, h3, h4, h5⟩⟩ <;> simp only at h0 h1 h2 h3 h4 h5 <;>
          refine ⟨⟨by simp only; omega, by simp only; omega⟩, ⟨by simp only; omega,
            by simp only; omega⟩, h4, ?_⟩
        · rcases h0 with rfl | rfl | rfl <;> simp only <;> omega
        · subst h1; exact ⟨h0, h5⟩
      · rintro ⟨a, i, j, k, v⟩ ⟨⟨c1, c2, c3, c4⟩, h1, h2, h3, h4, h5⟩
        simp only at h1 h2 h3 h4 h5
        refine ⟨⟨by simp only; omega, by simp only; omega⟩, ⟨by simp only; omega, by simp only; omega⟩,
            h4, ?_⟩
        subst h1; simp only; omega
    simp only [List.cons_append, List.nil_append, List.mem_cons] at hL
    rcases hL with rfl | rfl | rfl | rfl | rfl | hL
    · intro t _
      refine foot_to_safe (foot_computeSlopes2 p .Q .Sx .Sy t) ?_ ?_ (fun _ h => h.elim)
      · rintro ⟨a, i, j, k, v⟩ ⟨⟨c1, c2, c3, c4⟩, h1, h2, h3, h4, h5⟩
        simp only at h1 h2 h3 h4 h5
        refine ⟨⟨by simp only; omega, by simp only; omega⟩, ⟨by simp only; omega, by simp only; omega⟩,
            h4, ?_⟩
        subst h1; simp only; omega
      · rintro ⟨a, i, j, k, v⟩ ⟨⟨c1, c2, c3, c4⟩, ⟨h1, h2, h3, h4, h5⟩ | ⟨h1, h2, h3, h4, h5⟩⟩ <;>
          simp only at h1 h2 h3 h4 h5 <;> subst h1 <;>
          exact ⟨⟨by simp only; omega, by simp only; omega⟩, ⟨by simp only; omega,
            by simp only; omega⟩, h4, by simp only; omega⟩
    · exact fun t _ => htr _ t
    · exact fun t _ => hupd _ t
    · exact fun t _ => htr _ t
    · exact fun t _ => hupd _ t
    · exact hgL L hL
  split at hL
  · simp only [List.cons_append, List.nil_append, List.mem_cons] at hL
    rcases hL with rfl | hL
    · intro t _
      refine foot_to_safe (foot_computeAllFluxesAndUpdate2 p .Q outA .grav dt g jk t) (hface t)
        (fun _ h => h.elim) ?_
      rintro ⟨a, i, j, k, v⟩ ⟨i', j', ⟨c1, c2, c3, c4⟩, h1, h2, h3, h4, h5⟩
      simp only at h1 h2 h3 h4 h5 c1 c2 c3 c4
      refine ⟨⟨by simp only; omega, by simp only; omega⟩, ⟨by simp only; omega, by simp only; omega⟩,
            h4, ?_⟩
      subst h1
      rcases hout with rfl | rfl <;> simp only <;> omega
    · exact hgL L hL
  · simp at hL

/-- Non-vacuity of C06: a one-cell grid. -/
example : ({ rawSample .periodic .periodic 2 4 with nx := 1, ny := 1, nz := 1 } : Params ℝ).init.WF :=
  Params.init_wf _ (by simp) (by simp) (by simp) (by simp [rawSample])

end EulerKokkos
