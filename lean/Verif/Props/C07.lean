import Verif.Props.Sample

/-!
# C07, C08, C09 — ghost cells

`make_boundaries_serial` implements the requested boundary conditions, for every interleaving of
the iterations of its kernels, on every grid thick enough for the sources to be interior cells
(`Faces2Ok`/`Faces3Ok`: `n ≥ ghostWidth`, or absorbing faces), hydro and MHD.
-/

set_option linter.constructorNameAsVariable false
set_option linter.unusedSectionVars false

namespace EulerKokkos

open Spec
variable {R : Type} [RealOps R]

/-- **C07.** Whatever the schedule, the 2D ghost fill ends (in exactly one memory) with: everything
that is not a ghost value of `U` unchanged, and each cell of the grid holding `ghost2`. -/
theorem C07_ghost_fill_2d {p : Params R} (hw : p.WF) (hf : Faces2Ok p) (hS : SignLaws R)
    (mhd : Bool) (U : Arr) (m : Mem Arr R) :
    (∃ m', makeBoundaries2 mhd p U m m') ∧
    ∀ m', makeBoundaries2 mhd p U m m' →
      (∀ l : Loc Arr, (l.arr ≠ U ∨ interior2 p l.i l.j) → m' l = m l) ∧
      ∀ i j v, inGrid2 p i j → v < p.nbvar →
        m' ⟨U, i, j, 0, v⟩ = ghost2 mhd p (fun i j v => m ⟨U, i, j, 0, v⟩) i j v := by
  obtain ⟨F, hF, hm⟩ := makeBoundaries2_is hw hf mhd U
  refine ⟨⟨F m, (hF m _).2 rfl⟩, fun m' h => ?_⟩
  obtain rfl := (hF m m').1 h
  refine ⟨fun l hl => (hm m).1 l ?_, fun i j v hij hv => (hm m).2 hS i j v hij hv⟩
  rintro ⟨h1, _, _, h2, _⟩
  exact hl.elim (fun h => h h1) h2

/-- **C07, periodic.** With periodic x faces, a ghost cell left of the domain equals the interior
cell one period to the right, and conversely (rows inside the domain). -/
theorem C07_periodic_x_2d {p : Params R} (hw : p.WF) (hf : Faces2Ok p) (hS : SignLaws R)
    (h1 : p.boundary_type_xmin = .periodic) (h2 : p.boundary_type_xmax = .periodic)
    (mhd : Bool) (U : Arr) {m m' : Mem Arr R} (hm : makeBoundaries2 mhd p U m m')
    (i j : Int) (v : Nat) (hj : p.ghostWidth ≤ j ∧ j < p.ghostWidth + p.ny) (hv : v < p.nbvar) :
    (0 ≤ i → i < p.ghostWidth → m' ⟨U, i, j, 0, v⟩ = m ⟨U, i + p.nx, j, 0, v⟩) ∧
    (p.ghostWidth + p.nx ≤ i → i < p.nx + 2 * p.ghostWidth →
      m' ⟨U, i, j, 0, v⟩ = m ⟨U, i - p.nx, j, 0, v⟩) := by
  have hgw := hw.gw_pos
  have hx := hw.nx_pos
  constructor <;> intro a b
  · rw [((C07_ghost_fill_2d hw hf hS mhd U m).2 m' hm).2 i j v ⟨by omega, by omega, by omega,
      by omega⟩ hv]
    simp [ghost2, signed, srcCoord, flips, h1, h2, show ¬ j < p.ghostWidth by omega,
      show ¬ p.ghostWidth + p.ny ≤ j by omega, b]
  · rw [((C07_ghost_fill_2d hw hf hS mhd U m).2 m' hm).2 i j v ⟨by omega, by omega, by omega,
      by omega⟩ hv]
    simp [ghost2, signed, srcCoord, flips, h1, h2, show ¬ j < p.ghostWidth by omega,
      show ¬ p.ghostWidth + p.ny ≤ j by omega, a, show ¬ i < p.ghostWidth by omega]

/-- **C07, reflecting.** With a reflecting left face, the ghost cell at distance `d` outside the
wall holds the interior cell at distance `d` inside; the x momentum (and in MHD the x field) is
negated, everything else is copied. -/
theorem C07_reflecting_xmin_2d {p : Params R} (hw : p.WF) (hf : Faces2Ok p) (hS : SignLaws R)
    (h1 : p.boundary_type_xmin = .dirichlet)
    (mhd : Bool) (U : Arr) {m m' : Mem Arr R} (hm : makeBoundaries2 mhd p U m m')
    (d j : Int) (hd : 0 ≤ d ∧ d < p.ghostWidth) (v : Nat)
    (hj : p.ghostWidth ≤ j ∧ j < p.ghostWidth + p.ny) (hv : v < p.nbvar) :
    m' ⟨U, p.ghostWidth - 1 - d, j, 0, v⟩ =
      if v = IU ∨ (mhd = true ∧ v = IA) then - m ⟨U, p.ghostWidth + d, j, 0, v⟩
      else m ⟨U, p.ghostWidth + d, j, 0, v⟩ := by
  have hgw := hw.gw_pos
  have hx := hw.nx_pos
  rw [((C07_ghost_fill_2d hw hf hS mhd U m).2 m' hm).2 _ j v ⟨by omega, by omega, by omega,
      by omega⟩ hv]
  simp [ghost2, signed, srcCoord, flips, h1, show ¬ j < p.ghostWidth by omega,
    show ¬ p.ghostWidth + p.ny ≤ j by omega, normalVar,
    show ¬ p.ghostWidth + p.nx ≤ p.ghostWidth - 1 - d by omega,
    show p.ghostWidth - 1 - d < p.ghostWidth by omega,
    show 2 * p.ghostWidth - 1 - (p.ghostWidth - 1 - d) = p.ghostWidth + d by ring]

/-- **C07, absorbing.** With an absorbing upper face every ghost cell above equals the last
interior cell of its column. -/
theorem C07_absorbing_ymax_2d {p : Params R} (hw : p.WF) (hf : Faces2Ok p) (hS : SignLaws R)
    (h1 : p.boundary_type_ymax = .neumann)
    (mhd : Bool) (U : Arr) {m m' : Mem Arr R} (hm : makeBoundaries2 mhd p U m m')
    (i j : Int) (v : Nat) (hi : p.ghostWidth ≤ i ∧ i < p.ghostWidth + p.nx)
    (hj : p.ghostWidth + p.ny ≤ j ∧ j < p.ny + 2 * p.ghostWidth) (hv : v < p.nbvar) :
    m' ⟨U, i, j, 0, v⟩ = m ⟨U, i, p.ghostWidth + p.ny - 1, 0, v⟩ := by
  have hgw := hw.gw_pos
  have hy := hw.ny_pos
  rw [((C07_ghost_fill_2d hw hf hS mhd U m).2 m' hm).2 i j v ⟨by omega, by omega, by omega,
      by omega⟩ hv]
  simp [ghost2, signed, srcCoord, flips, h1, show ¬ j < p.ghostWidth by omega,
    show p.ghostWidth + p.ny ≤ j by omega, show ¬ p.ghostWidth + p.nx ≤ i by omega,
    show ¬ i < p.ghostWidth by omega]

/-- The ghost fill is a projection: filling twice is filling once. -/
theorem C07_idempotent_2d {p : Params R} (hw : p.WF) (hf : Faces2Ok p) (hS : SignLaws R)
    (mhd : Bool) (U : Arr) {m m' m'' : Mem Arr R} (h1 : makeBoundaries2 mhd p U m m')
    (h2 : makeBoundaries2 mhd p U m' m'') (i j : Int) (v : Nat) (hij : inGrid2 p i j)
    (hv : v < p.nbvar) : m'' ⟨U, i, j, 0, v⟩ = m' ⟨U, i, j, 0, v⟩ := by
  obtain ⟨f1, f2, f3, f4⟩ := id hf
  have a := (C07_ghost_fill_2d hw hf hS mhd U m).2 m' h1
  have b := (C07_ghost_fill_2d hw hf hS mhd U m').2 m'' h2
  rw [b.2 i j v hij hv, a.2 i j v hij hv]
  obtain ⟨h3, h4, h5, h6⟩ := hij
  have sx := srcCoord_interior hw.nx_pos f1 f2 h3 h4
  have sy := srcCoord_interior hw.ny_pos f3 f4 h5 h6
  unfold ghost2
  beta_reduce
  rw [a.1 _ (Or.inr ⟨sx.1, sx.2, sy.1, sy.2⟩)]

/-- **C08.** The 3D ghost fill, every schedule. -/
theorem C08_ghost_fill_3d {p : Params R} (hw : p.WF) (hf : Faces3Ok p) (hS : SignLaws R)
    (mhd : Bool) (U : Arr) (m : Mem Arr R) :
    (∃ m', makeBoundaries3 mhd p U m m') ∧
    ∀ m', makeBoundaries3 mhd p U m m' →
      (∀ l : Loc Arr, (l.arr ≠ U ∨ interior3 p l.i l.j l.k) → m' l = m l) ∧
      ∀ i j k v, inGrid3 p i j k → v < p.nbvar →
        m' ⟨U, i, j, k, v⟩ = ghost3 mhd p (fun i j k v => m ⟨U, i, j, k, v⟩) i j k v := by
  obtain ⟨F, hF, hm⟩ := makeBoundaries3_is hw hf mhd U
  refine ⟨⟨F m, (hF m _).2 rfl⟩, fun m' h => ?_⟩
  obtain rfl := (hF m m').1 h
  refine ⟨fun l hl => (hm m).1 l ?_, fun i j k v hij hv => (hm m).2 hS i j k v hij hv⟩
  rintro ⟨h1, _, h2, _⟩
  exact hl.elim (fun h => h h1) h2

/-- Non-vacuity of C07/C08: a 4 × 3 (× 5) grid, mixed boundary conditions, hydro and MHD. -/
example : (sample .periodic .dirichlet).WF ∧ Faces3Ok (sample .periodic .dirichlet) ∧
    SignLaws ℝ := ⟨sample_wf _ _, sample_faces3 _ _, signLaws_real⟩
example : (sampleMHD .dirichlet .neumann).WF ∧ Faces3Ok (sampleMHD .dirichlet .neumann) :=
  ⟨sampleMHD_wf _ _, sampleMHD_faces3 _ _⟩

/-! ## C09 -/

/-- the iteration writes (on some path) the element `l` -/
def Prog.mayWrite {A R α : Type} (l : Loc A) : Prog A R α → Prop
  | .pure _ => False
  | .read _ k => ∃ x, (k x).mayWrite l
  | .write l' _ k => l = l' ∨ k.mayWrite l
  | .aadd _ _ k => k.mayWrite l

theorem Prog.mayWrite_bind {A R α β : Type} (l : Loc A) (q : Prog A R α) (f : α → Prog A R β) :
    (q.bind f).mayWrite l → q.mayWrite l ∨ ∃ a, (f a).mayWrite l := by
  induction q with
  | pure a => intro h; exact Or.inr ⟨a, h⟩
  | read l' k ih =>
    rintro ⟨x, hx⟩
    rcases ih x hx with h | h
    · exact Or.inl ⟨x, h⟩
    · exact Or.inr h
  | write l' x k ih =>
    rintro (h | h)
    · exact Or.inl (Or.inl h)
    · exact (ih h).imp Or.inr id
  | aadd l' x k ih => intro h; exact (ih h).imp id id

theorem Prog.mayWrite_bind_left {A R α β : Type} (l : Loc A) (q : Prog A R α) (f : α → Prog A R β) :
    q.mayWrite l → (q.bind f).mayWrite l := by
  induction q with
  | pure a => intro h; exact h.elim
  | read l' k ih => rintro ⟨x, hx⟩; exact ⟨x, ih x hx⟩
  | write l' x k ih =>
    rintro (h | h)
    · exact Or.inl h
    · exact Or.inr (ih h)
  | aadd l' x k ih => intro h; exact ih h

theorem Prog.mayWrite_bind_right [Inhabited R] {A α β : Type} (l : Loc A) (q : Prog A R α)
    (f : α → Prog A R β) (h : ∀ a, (f a).mayWrite l) : (q.bind f).mayWrite l := by
  induction q with
  | pure a => exact h a
  | read l' k ih => exact ⟨default, ih _⟩
  | write l' x k ih => exact Or.inr ih
  | aadd l' x k ih => exact ih

theorem mayWrite_copyVars {nb : Nat} {U : Arr} {d s : Int × Int × Int} {sgn : Nat → R}
    (l : Loc Arr) : (copyVars nb U d s sgn).mayWrite l ↔
      l.arr = U ∧ cellOf l = d ∧ l.v < nb := by
  have : Inhabited R := ⟨lit 0⟩
  unfold copyVars
  induction nb with
  | zero => simp only [Prog.forN]; simp [Prog.mayWrite]
  | succ n ih =>
    obtain ⟨d1, d2, d3⟩ := d
    obtain ⟨a, i, j, k, v⟩ := l
    simp only [cellOf, Prod.mk.injEq] at ih ⊢
    constructor
    · intro h
      rcases Prog.mayWrite_bind _ _ _ h with h | ⟨_, x, h⟩
      · obtain ⟨h1, h2, h3⟩ := ih.1 h; exact ⟨h1, h2, by omega⟩
      · rcases h with h | h
        · rw [Loc.mk.injEq] at h
          obtain ⟨rfl, rfl, rfl, rfl, rfl⟩ := h
          exact ⟨rfl, ⟨rfl, rfl, rfl⟩, by omega⟩
        · exact h.elim
    · rintro ⟨rfl, ⟨rfl, rfl, rfl⟩, hv⟩
      rcases Nat.lt_succ_iff_lt_or_eq.1 hv with h | rfl
      · exact Prog.mayWrite_bind_left _ _ _ (ih.2 ⟨rfl, ⟨rfl, rfl, rfl⟩, h⟩)
      · exact Prog.mayWrite_bind_right _ _ _ (fun _ => ⟨default, Or.inl rfl⟩)

/-- **C09 (2D).** Each ghost value of each face is written by exactly one index of the loop
`[0, nbIter)`, whatever the shape of the grid (unbounded integers). -/
theorem C09_each_ghost_written_once_2d {p : Params R} (hw : p.WF) (mhd : Bool) (U : Arr) (f : Face)
    (i j : Int) (v : Nat) (hv : v < p.nbvar)
    (hg : match f with
      | .xmin => (0 ≤ i ∧ i < p.ghostWidth) ∧ (0 ≤ j ∧ j < p.jsize)
      | .xmax => (p.nx + p.ghostWidth ≤ i ∧ i < p.isize) ∧ (0 ≤ j ∧ j < p.jsize)
      | .ymin => (0 ≤ i ∧ i < p.isize) ∧ (0 ≤ j ∧ j < p.ghostWidth)
      | .ymax => (0 ≤ i ∧ i < p.isize) ∧ (p.ny + p.ghostWidth ≤ j ∧ j < p.jsize)
      | _ => False) :
    ∃! t : Int, (0 ≤ t ∧ t < nbIter2 p) ∧
      (makeBoundary2 mhd p U f t).mayWrite ⟨U, i, j, 0, v⟩ := by
  obtain ⟨dec, enc, h1, h2, h3⟩ := faceCode2 mhd U hw f
  have hG : G2 p f (i, j, 0) := by
    cases f <;> simp only [G2] at hg ⊢ <;> first | exact hg.elim | exact ⟨trivial, by omega⟩
  obtain ⟨e1, e2, e3⟩ := h2 _ hG
  refine ⟨enc (i, j, 0), ⟨⟨e1, e2⟩, ?_⟩, ?_⟩
  · rw [h1 _ e1, e3, if_pos hG, mayWrite_copyVars]
    exact ⟨rfl, rfl, hv⟩
  · rintro t ⟨⟨t1, t2⟩, ht⟩
    rw [h1 t t1] at ht
    by_cases hd : G2 p f (dec t)
    · rw [if_pos hd, mayWrite_copyVars] at ht
      have := h3 t t1 hd
      rw [← ht.2.1] at this
      exact this.symm
    · rw [if_neg hd] at ht; exact ht.elim

/-- **C09 (3D).** -/
theorem C09_each_ghost_written_once_3d {p : Params R} (hw : p.WF) (mhd : Bool) (U : Arr) (f : Face)
    (i j k : Int) (v : Nat) (hv : v < p.nbvar)
    (hi : 0 ≤ i ∧ i < p.isize) (hj : 0 ≤ j ∧ j < p.jsize) (hk : 0 ≤ k ∧ k < p.ksize)
    (hg : match f with
      | .xmin => i < p.ghostWidth
      | .xmax => p.nx + p.ghostWidth ≤ i
      | .ymin => j < p.ghostWidth
      | .ymax => p.ny + p.ghostWidth ≤ j
      | .zmin => k < p.ghostWidth
      | .zmax => p.nz + p.ghostWidth ≤ k) :
    ∃! t : Int, (0 ≤ t ∧ t < nbIter3 p) ∧
      (makeBoundary3 mhd p U f t).mayWrite ⟨U, i, j, k, v⟩ := by
  obtain ⟨dec, enc, h1, h2, h3⟩ := faceCode3 mhd U hw f
  have hG : G3 p f (i, j, k) := by
    cases f <;> simp only [G3] at hg ⊢ <;> omega
  obtain ⟨e1, e2, e3⟩ := h2 _ hG
  refine ⟨enc (i, j, k), ⟨⟨e1, e2⟩, ?_⟩, ?_⟩
  · rw [h1 _ e1, e3, if_pos hG, mayWrite_copyVars]
    exact ⟨rfl, rfl, hv⟩
  · rintro t ⟨⟨t1, t2⟩, ht⟩
    rw [h1 t t1] at ht
    by_cases hd : G3 p f (dec t)
    · rw [if_pos hd, mayWrite_copyVars] at ht
      have := h3 t t1 hd
      rw [← ht.2.1] at this
      exact this.symm
    · rw [if_neg hd] at ht; exact ht.elim

/-- the largest C++ `int` -/
def intMax : Int := 2147483647

/-- **C09, limit.** The 3D loop bound is computed in `int`; it is representable for every grid whose
largest extent (with ghosts) is at most 26754. -/
theorem C09_bound_fits_int {p : Params R} (hw : p.WF) (hg : p.ghostWidth ≤ 3)
    (h1 : p.isize ≤ 26754) (h2 : p.jsize ≤ 26754) (h3 : p.ksize ≤ 26754) :
    0 ≤ nbIter3 p ∧ nbIter3 p ≤ intMax := by
  have hgw := hw.gw_pos
  have hx := hw.nx_pos
  have hI := hw.isize_eq
  have e : nbIter3 p = p.ghostWidth * (max (max p.isize p.jsize) p.ksize *
    max (max p.isize p.jsize) p.ksize) := by unfold nbIter3; ring
  have hM : max (max p.isize p.jsize) p.ksize ≤ 26754 := max_le (max_le h1 h2) h3
  have hM0 : 0 ≤ max (max p.isize p.jsize) p.ksize :=
    le_trans (by omega) (le_trans (le_max_left p.isize p.jsize) (le_max_left _ _))
  set M := max (max p.isize p.jsize) p.ksize
  rw [e]
  have hMM : M * M ≤ 26754 * 26754 := by nlinarith
  have hMM0 : 0 ≤ M * M := by positivity
  unfold intMax
  constructor <;> nlinarith

/-- **C09 fails beyond the limit.** On a thin 32764 × 1 × 1 hydro grid (a few megabytes) the 3D
loop bound does not fit in a C++ `int`, although each ghost layer is tiny: the covering property
does not hold for the compiled code there. -/
theorem C09_bound_overflows_thin_grid {p : Params R} (hw : p.WF) (hg : p.ghostWidth = 2)
    (h1 : p.nx = 32764) (h2 : p.ny = 1) (h3 : p.nz = 1) :
    intMax < nbIter3 p ∧ p.ghostWidth * p.jsize * p.ksize = 50 := by
  have hI := hw.isize_eq
  have hJ := hw.jsize_eq
  have hK := hw.ksize_eq
  rw [h1, hg] at hI; rw [h2, hg] at hJ; rw [h3, hg] at hK
  unfold nbIter3 intMax
  rw [hI, hJ, hK, hg]
  decide

/-- Non-vacuity of C09: a ghost value of the sample grid. -/
example : (sample .periodic .dirichlet).WF ∧ (3 : Nat) < (sample .periodic .dirichlet).nbvar ∧
    ((0 : Int) ≤ 1 ∧ (1 : Int) < (sample .periodic .dirichlet).ghostWidth) ∧
    ((0 : Int) ≤ 6 ∧ (6 : Int) < (sample .periodic .dirichlet).jsize) :=
  ⟨sample_wf _ _, by simp [sample, rawSample, Params.init], by simp [sample, rawSample, Params.init],
    by simp [sample, rawSample, Params.init]⟩

end EulerKokkos
