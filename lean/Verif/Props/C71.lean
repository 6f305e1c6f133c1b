import Verif.Spec.MhdPrimitives
import Verif.Spec.Euler
import Verif.Lemmas.MhdFull3D
import Verif.Lemmas.MhdFull2D
import Verif.Props.C18
import Verif.Props.C52

/-!
# C71 — MHD: the primitive variables the step works with are those of the conserved contents
-/

set_option linter.constructorNameAsVariable false
set_option linter.unusedSectionVars false
set_option linter.unusedSimpArgs false

namespace EulerKokkos
open Spec

theorem constoprim_of {s : Settings ℝ} (hs : GoodSettings s) (hi : ¬ 0 < s.cIso) (u : MS ℝ) (nb : BF ℝ) :
    PrimitivesOf s u nb.x nb.y nb.z (constoprimMhd s u nb).1 := by
  have h0 : ¬ gtb s.cIso (lit 0) = true := by simpa [gtb] using hi
  have hd : (0:ℝ) < max u.d s.smallr := lt_of_lt_of_le hs.smallr (le_max_right _ _)
  unfold constoprimMhd
  dsimp only
  rw [if_neg h0]
  simp only [RealOps.fmax_real, RealOps.lit_real]
  push_cast
  refine ⟨rfl, by field_simp, by field_simp, by field_simp, by ring, by ring, by ring, ?_⟩
  simp only
  congr 1
  field_simp
  ring

/-- The primitive variables of given contents are unique. -/
theorem Spec.PrimitivesOf.unique {s : Settings ℝ} (hs : GoodSettings s) {u : MS ℝ} {x y z : ℝ} {q q' : MS ℝ}
    (h : PrimitivesOf s u x y z q) (h' : PrimitivesOf s u x y z q') : q = q' := by
  have hd : (0:ℝ) < max u.d s.smallr := lt_of_lt_of_le hs.smallr (le_max_right _ _)
  have hd1 : 0 < q.d := by rw [h.d]; exact hd
  have e : q.d = q'.d := by rw [h.d, h'.d]
  have eu : q.u = q'.u := mul_left_cancel₀ hd1.ne' (by rw [h.u, e, h'.u])
  have ev : q.v = q'.v := mul_left_cancel₀ hd1.ne' (by rw [h.v, e, h'.v])
  have ew : q.w = q'.w := mul_left_cancel₀ hd1.ne' (by rw [h.w, e, h'.w])
  have ea : q.a = q'.a := by rw [h.a, h'.a]
  have eb : q.b = q'.b := by rw [h.b, h'.b]
  have ec : q.c = q'.c := by rw [h.c, h'.c]
  have ep : q.p = q'.p := by rw [h.p, h'.p, e, eu, ev, ew, ea, eb, ec]
  ext <;> assumption

/-- the contents of a cell in a state above the floors have that state as primitive variables -/
theorem contents_primitives {s : Settings ℝ} (hs : GoodSettings s) {q : MS ℝ} (hd : s.smallr ≤ q.d)
    (hp : q.d * s.smallp ≤ q.p) {l r : BF ℝ} (hx : q.a = (l.x + r.x) / 2) (hy : q.b = (l.y + r.y) / 2)
    (hz : q.c = (l.z + r.z) / 2) :
    PrimitivesOf s (cellContents s.gamma0 q l) r.x r.y r.z q := by
  have hg := hs.gamma
  have hg' : s.gamma0 - 1 ≠ 0 := by linarith
  refine ⟨(max_eq_left hd).symm, rfl, rfl, rfl, hx, hy, hz, ?_⟩
  have e : (s.gamma0 - 1) * ((cellContents s.gamma0 q l).p - q.d * (q.u ^ 2 + q.v ^ 2 + q.w ^ 2) / 2 -
    (q.a ^ 2 + q.b ^ 2 + q.c ^ 2) / 2) = q.p := by
    unfold cellContents mhdCons mhdEnergy magPressure
    simp only
    field_simp
    ring
  rw [e, max_eq_left hp]

/-- **C71 (3D).** Whatever the contents of the state array, when the step begins (ghost cells filled,
conversion kernel run, any schedule) the array of primitive variables holds for every cell but the last
layer of ghost cells the primitive variables of that cell; they are at or above the floors, and positive. -/
theorem C71_primitives_3d {p : Params ℝ} (hp : Mhd3 p) (hs : GoodSettings p.settings)
    (hi : p.settings.cIso ≤ 0) {inA outA : Arr} (hpp : PingPong inA outA) {m m' : Mem Arr ℝ}
    (hm : runLaunches (preMhd3 p inA outA) m m') {i j k : Int}
    (hI : 0 ≤ i ∧ i < p.isize - 1) (hJ : 0 ≤ j ∧ j < p.jsize - 1) (hK : 0 ≤ k ∧ k < p.ksize - 1) :
    let u := ms m' inA
    let q := ms m' .Q i j k
    PrimitivesOf p.settings (u i j k) (u (i + 1) j k).a (u i (j + 1) k).b (u i j (k + 1)).c q ∧
    p.settings.smallr ≤ q.d ∧ q.d * p.settings.smallp ≤ q.p ∧ 0 < q.d ∧ 0 < q.p := by
  obtain ⟨_, _, _, _, b5⟩ := preMhd3_result hp signLaws_real hpp hm
  have e := b5 i j k hI.1 hI.2 hJ.1 hJ.2 hK.1 hK.2
  have h := constoprim_of hs (not_lt.2 hi) (ms m' inA i j k)
    ⟨(ms m' inA (i + 1) j k).a, (ms m' inA i (j + 1) k).b, (ms m' inA i j (k + 1)).c⟩
  intro u q
  have hq : q = _ := e
  have h' : PrimitivesOf p.settings (u i j k) (u (i + 1) j k).a (u i (j + 1) k).b (u i j (k + 1)).c q := by
    rw [hq]; exact h
  have h1 : p.settings.smallr ≤ q.d := by rw [h'.d]; exact le_max_right _ _
  have h2 : q.d * p.settings.smallp ≤ q.p := by rw [h'.p]; exact le_max_right _ _
  have h3 : 0 < q.d := lt_of_lt_of_le hs.smallr h1
  exact ⟨h', h1, h2, h3, lt_of_lt_of_le (mul_pos h3 hs.smallp_pos) h2⟩

/-- **C71 (2D).** In 2D the field through the upper z face is taken to be zero. -/
theorem C71_primitives_2d {p : Params ℝ} (hp : Mhd2 p) (hs : GoodSettings p.settings)
    (hi : p.settings.cIso ≤ 0) {inA outA : Arr} (hpp : PingPong inA outA) {m m' : Mem Arr ℝ}
    (hm : runLaunches (preMhd2 p inA outA) m m') {i j : Int}
    (hI : 0 ≤ i ∧ i < p.isize - 1) (hJ : 0 ≤ j ∧ j < p.jsize - 1) :
    let u := ms2 m' inA
    let q := ms2 m' .Q i j
    PrimitivesOf p.settings (u i j) (u (i + 1) j).a (u i (j + 1)).b 0 q ∧
    p.settings.smallr ≤ q.d ∧ q.d * p.settings.smallp ≤ q.p ∧ 0 < q.d ∧ 0 < q.p := by
  obtain ⟨_, _, _, _, b5⟩ := preMhd2_result hp signLaws_real hpp hm
  have e := b5 i j hI.1 hI.2 hJ.1 hJ.2
  have h := constoprim_of hs (not_lt.2 hi) (ms2 m' inA i j)
    ⟨(ms2 m' inA (i + 1) j).a, (ms2 m' inA i (j + 1)).b, lit 0⟩
  intro u q
  have hq : q = _ := e
  have h' : PrimitivesOf p.settings (u i j) (u (i + 1) j).a (u i (j + 1)).b 0 q := by
    rw [hq]; simpa [primM2, RealOps.lit_real] using h
  have h1 : p.settings.smallr ≤ q.d := by rw [h'.d]; exact le_max_right _ _
  have h2 : q.d * p.settings.smallp ≤ q.p := by rw [h'.p]; exact le_max_right _ _
  have h3 : 0 < q.d := lt_of_lt_of_le hs.smallr h1
  exact ⟨h', h1, h2, h3, lt_of_lt_of_le (mul_pos h3 hs.smallp_pos) h2⟩

/-- **C71 (round trip, 3D).** A cell whose contents are the conserved variables (energy: thermal plus
kinetic plus magnetic) of a state above the floors, with a face field of the mean `B`, is converted back
to exactly that state. -/
theorem C71_round_trip_3d {p : Params ℝ} (hp : Mhd3 p) (hs : GoodSettings p.settings)
    (hi : p.settings.cIso ≤ 0) {inA outA : Arr} (hpp : PingPong inA outA) {m m' : Mem Arr ℝ}
    (hm : runLaunches (preMhd3 p inA outA) m m') {i j k : Int}
    (hI : 0 ≤ i ∧ i < p.isize - 1) (hJ : 0 ≤ j ∧ j < p.jsize - 1) (hK : 0 ≤ k ∧ k < p.ksize - 1)
    {q : MS ℝ} (hd : p.settings.smallr ≤ q.d) (hpr : q.d * p.settings.smallp ≤ q.p) {l : BF ℝ}
    (hu : ms m' inA i j k = cellContents p.settings.gamma0 q l)
    (hx : q.a = (l.x + (ms m' inA (i + 1) j k).a) / 2)
    (hy : q.b = (l.y + (ms m' inA i (j + 1) k).b) / 2)
    (hz : q.c = (l.z + (ms m' inA i j (k + 1)).c) / 2) :
    ms m' .Q i j k = q := by
  have h := (C71_primitives_3d hp hs hi hpp hm hI hJ hK).1
  rw [hu] at h
  exact h.unique hs (contents_primitives hs hd hpr (r := ⟨_, _, _⟩) hx hy hz)

/-- **C71 (round trip, 2D).** The same holds in 2D if the third field component vanishes.  Otherwise
the step works with half of it, and with a pressure that is too large by `3/8 (γ-1) Bz²`: part of the
magnetic energy is taken for thermal energy. -/
theorem C71_round_trip_2d {p : Params ℝ} (hp : Mhd2 p) (hs : GoodSettings p.settings)
    (hi : p.settings.cIso ≤ 0) {inA outA : Arr} (hpp : PingPong inA outA) {m m' : Mem Arr ℝ}
    (hm : runLaunches (preMhd2 p inA outA) m m') {i j : Int}
    (hI : 0 ≤ i ∧ i < p.isize - 1) (hJ : 0 ≤ j ∧ j < p.jsize - 1)
    {q : MS ℝ} (hd : p.settings.smallr ≤ q.d) (hpr : q.d * p.settings.smallp ≤ q.p) {lx ly : ℝ}
    (hu : ms2 m' inA i j = cellContents p.settings.gamma0 q ⟨lx, ly, q.c⟩)
    (hx : q.a = (lx + (ms2 m' inA (i + 1) j).a) / 2)
    (hy : q.b = (ly + (ms2 m' inA i (j + 1)).b) / 2) :
    ms2 m' .Q i j = { q with c := q.c / 2, p := q.p + 3 / 8 * (p.settings.gamma0 - 1) * q.c ^ 2 } ∧
    (q.c = 0 → ms2 m' .Q i j = q) := by
  have h := (C71_primitives_2d hp hs hi hpp hm hI hJ).1
  have hg := hs.gamma
  have hg' : p.settings.gamma0 - 1 ≠ 0 := by linarith
  have hge : 0 ≤ 3 / 8 * (p.settings.gamma0 - 1) * q.c ^ 2 := by
    have : 0 ≤ p.settings.gamma0 - 1 := by linarith
    positivity
  rw [hu] at h
  have key : cellContents p.settings.gamma0 q ⟨lx, ly, q.c⟩ = cellContents p.settings.gamma0
      { q with c := q.c / 2, p := q.p + 3 / 8 * (p.settings.gamma0 - 1) * q.c ^ 2 } ⟨lx, ly, q.c⟩ := by
    unfold cellContents mhdCons mhdEnergy magPressure
    ext <;> simp only
    field_simp
    try ring
  rw [key] at h
  have e := h.unique hs (contents_primitives hs
    (q := { q with c := q.c / 2, p := q.p + 3 / 8 * (p.settings.gamma0 - 1) * q.c ^ 2 })
    hd (by simp only; linarith) (l := ⟨lx, ly, q.c⟩)
    (r := ⟨(ms2 m' inA (i + 1) j).a, (ms2 m' inA i (j + 1)).b, 0⟩) hx hy (by simp))
  refine ⟨e, fun h0 => ?_⟩
  rw [e]
  ext <;> simp [h0]

/-- Non-vacuity: the sample parameters meet the hypotheses; a memory where every cell holds
`ρ = 1`, `p = 2`, velocity `(1,2,3)`, `B = (1,1,1)`; the conversion runs on it. -/
example : Mhd3 (sampleM .periodic .neumann 0) ∧ GoodSettings (sampleM .periodic .neumann 0).settings ∧
    (sampleM .periodic .neumann 0).settings.cIso ≤ 0 ∧
    (sampleM .periodic .neumann 0).settings.smallr ≤ 1 ∧
    1 * (sampleM .periodic .neumann 0).settings.smallp ≤ 2 ∧
    ∃ m m', runLaunches (preMhd3 (sampleM .periodic .neumann 0) .U .U2) m m' ∧
      ms m' .U 4 4 4 = cellContents (sampleM .periodic .neumann 0).settings.gamma0
        ⟨1, 2, 1, 2, 3, 1, 1, 1⟩ ⟨1, 1, 1⟩ := by
  have hp := sampleM_mhd3 .periodic .neumann 0
  refine ⟨hp, (sampleM_goodGrid _ _ _).settings, le_refl _, ?_, ?_, ?_⟩
  · show (1/1000 : ℝ) ≤ 1; norm_num
  · show 1 * ((1/1000 : ℝ) * (1/1000) / (7/5)) ≤ 2; norm_num
  let c := cellContents (sampleM .periodic .neumann 0).settings.gamma0 ⟨1, 2, 1, 2, 3, 1, 1, 1⟩ ⟨1, 1, 1⟩
  let m : Mem Arr ℝ := fun l => if l.v = 0 then c.d else if l.v = 1 then c.p else if l.v = 2 then c.u else
    if l.v = 3 then c.v else if l.v = 4 then c.w else 1
  obtain ⟨m', hm⟩ : ∃ m', runLaunches (preMhd3 (sampleM .periodic .neumann 0) .U .U2) m m' := by
    obtain ⟨_, a, h, _⟩ := sampleM_step3 .periodic .neumann 0 m
    exact ⟨a, h⟩
  refine ⟨m, m', hm, ?_⟩
  have h := (preMhd3_result hp signLaws_real (.inl ⟨rfl, rfl⟩) hm).2.2.1 4 4 4
    ⟨⟨by decide, by decide⟩, ⟨by decide, by decide⟩, by decide, by decide⟩
  rw [h]; rfl

end EulerKokkos
