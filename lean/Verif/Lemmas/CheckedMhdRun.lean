import Verif.Lemmas.CheckedMhdStep3
import Verif.Lemmas.CheckedRun
import Verif.Lemmas.MhdDriver

/-!
# Checked arithmetic: MHD memory and time step
-/

set_option linter.unusedSimpArgs false
set_option linter.constructorNameAsVariable false
set_option linter.unusedSectionVars false

namespace EulerKokkos

open Chk Spec Prog

/-- all components are numbers -/
def MS.IsNum (q : MS Chk) : Prop :=
  q.d.IsNum ∧ q.p.IsNum ∧ q.u.IsNum ∧ q.v.IsNum ∧ q.w.IsNum ∧ q.a.IsNum ∧ q.b.IsNum ∧ q.c.IsNum

theorem MS.isNum_map (q : MS ℝ) : (q.map ok).IsNum :=
  ⟨⟨_, rfl⟩, ⟨_, rfl⟩, ⟨_, rfl⟩, ⟨_, rfl⟩, ⟨_, rfl⟩, ⟨_, rfl⟩, ⟨_, rfl⟩, ⟨_, rfl⟩⟩

theorem ms_reals {m : Mem Arr Chk} {a : Arr} {i j k : Int} (h : (ms m a i j k).IsNum) :
    ms m a i j k = (ms (reals m) a i j k).map ok := by
  obtain ⟨h1, h2, h3, h4, h5, h6, h7, h8⟩ := h
  exact ms_ext h1.eq h2.eq h3.eq h4.eq h5.eq h6.eq h7.eq h8.eq

theorem ms2_reals {m : Mem Arr Chk} {a : Arr} {i j : Int} (h : (ms2 m a i j).IsNum) :
    ms2 m a i j = (ms2 (reals m) a i j).map ok := ms_reals h

theorem Mhd2.mapOk {p : Params ℝ} (hp : Mhd2 p) : Mhd2 (p.map ok) := by
  obtain ⟨⟨w1, w2, w3, w4, w5, w6, w7, w8, w9, w10, w11, w12, w13⟩, g, nb, ⟨v1, v2⟩, f⟩ := hp
  exact ⟨⟨w1, w2, w3, w4, w5, w6, w7, w8, w9, w10, w11, w12, w13⟩, g, nb, ⟨v1, v2⟩, f⟩

theorem Mhd3.mapOk {p : Params ℝ} (hp : Mhd3 p) : Mhd3 (p.map ok) := by
  obtain ⟨⟨w1, w2, w3, w4, w5, w6, w7, w8, w9, w10, w11, w12, w13⟩, g, nb, ⟨v1, v2⟩, f⟩ := hp
  exact ⟨⟨w1, w2, w3, w4, w5, w6, w7, w8, w9, w10, w11, w12, w13⟩, g, nb, ⟨v1, v2⟩, f⟩

theorem computeDtMhd2_ok {p : Params ℝ} (hg : GoodGrid p) {m : Mem Arr Chk} {m' : Mem Arr ℝ} {Q : Arr}
    {t : Int × Int} (h : cellGuard2 p t → ms2 m Q t.1 t.2 = (ms2 m' Q t.1 t.2).map ok ∧
      PhysM (ms2 m' Q t.1 t.2)) (a : ℝ) :
    ((computeDtMhd2 (p.map ok) Q t (ok a)).run m).1 = ok ((computeDtMhd2 p Q t a).run m').1 := by
  unfold computeDtMhd2
  by_cases hc : cellGuard2 p t
  · have hc' : cellGuard2 (p.map ok) t := hc
    rw [if_pos hc, if_pos hc']
    simp only [run_bind, run_getMS, run_pure]
    obtain ⟨h1, h2⟩ := h hc
    unfold ms2 at h1 h2
    have hx := hg.dx.ne'
    have hy := hg.dy.ne'
    have e := findSpeedInfo_ok hg.settings h2
    rw [h1]
    simp only [Params.map] at e ⊢
    rw [e]
    simp (disch := assumption) only [ok_fmax, ok_add, ok_div]
  · have hc' : ¬ cellGuard2 (p.map ok) t := hc
    rw [if_neg hc, if_neg hc']
    rfl

theorem computeDtMhd3_ok {p : Params ℝ} (hg : GoodGrid p) {m : Mem Arr Chk} {m' : Mem Arr ℝ} {Q : Arr}
    {t : Int × Int × Int} (h : cellGuard3 p t → ms m Q t.1 t.2.1 t.2.2 = (ms m' Q t.1 t.2.1 t.2.2).map ok ∧
      PhysM (ms m' Q t.1 t.2.1 t.2.2)) (a : ℝ) :
    ((computeDtMhd3 (p.map ok) Q t (ok a)).run m).1 = ok ((computeDtMhd3 p Q t a).run m').1 := by
  unfold computeDtMhd3
  by_cases hc : cellGuard3 p t
  · have hc' : cellGuard3 (p.map ok) t := hc
    rw [if_pos hc, if_pos hc']
    simp only [run_bind, run_getMS, run_pure]
    obtain ⟨h1, h2⟩ := h hc
    have hx := hg.dx.ne'
    have hy := hg.dy.ne'
    have hz := hg.dz.ne'
    have e := findSpeedInfo_ok hg.settings h2
    rw [h1]
    simp only [Params.map] at e ⊢
    rw [e]
    simp (disch := assumption) only [ok_fmax, ok_add, ok_div]
  · have hc' : ¬ cellGuard3 (p.map ok) t := hc
    rw [if_neg hc, if_neg hc']
    rfl

/-- the reduction on numbers is the exact one (2D) -/
theorem dtLocalM2_ok {p : Params ℝ} (hw : p.WF) (hg : GoodGrid p) {ident : ℝ} (hid : ident ≤ 0)
    {m : Mem Arr Chk} {Q : FldM2 ℝ}
    (hm : ∀ i j, interior2 p i j → ms2 m .Q i j = (Q i j).map ok ∧ PhysM (Q i j)) {d : Chk}
    (h : computeDtLocalMhd2 (p.map ok) (ok ident) m d) :
    ∃ x : ℝ, d = ok x ∧ x = p.settings.cfl / sSup {r | ∃ i j, interior2 p i j ∧
      r = mhdRate2 p.settings.gamma0 p.dx p.dy (Q i j)} ∧ 0 < x := by
  obtain ⟨r, h, rfl⟩ := h
  have hN : ∀ i j, interior2 p i j → ms2 (reals m) .Q i j = Q i j := by
    intro i j hij
    obtain ⟨h1, _⟩ := hm i j hij
    have h2 := ms2_reals (m := m) (a := .Q) (i := i) (j := j) (h1 ▸ MS.isNum_map _)
    rw [h1] at h2
    have inj : ∀ a b : MS ℝ, a.map ok = b.map ok → a = b := by
      rintro ⟨⟩ ⟨⟩ h
      simpa [MS.map] using h
    exact (inj _ _ h2).symm
  obtain ⟨r', e, h'⟩ := parReduce_ok (body' := computeDtMhd2 p .Q) (m' := reals m)
    (fun t a => computeDtMhd2_ok hg (fun hc => by
      have hi := (cellGuard2_interior hw t).1 hc
      rw [hN _ _ hi]
      exact hm _ _ hi) a) h
  obtain ⟨e1, e2⟩ := dtLocalM2_eq hw hg hid hN (fun i j hij => (hm i j hij).2)
    (dt := p.settings.cfl / r') ⟨r', h', rfl⟩
  refine ⟨p.settings.cfl / r', ?_, e1, e2⟩
  have hr : r' ≠ 0 := by
    rintro rfl
    rw [_root_.div_zero] at e2
    exact lt_irrefl _ e2
  rw [e]
  exact ok_div hr

/-- the reduction on numbers is the exact one (3D) -/
theorem dtLocalM3_ok {p : Params ℝ} (hw : p.WF) (hg : GoodGrid p) {ident : ℝ} (hid : ident ≤ 0)
    {m : Mem Arr Chk} {Q : FldM3 ℝ}
    (hm : ∀ i j k, interior3 p i j k → ms m .Q i j k = (Q i j k).map ok ∧ PhysM (Q i j k)) {d : Chk}
    (h : computeDtLocalMhd3 (p.map ok) (ok ident) m d) :
    ∃ x : ℝ, d = ok x ∧ x = p.settings.cfl / sSup {r | ∃ i j k, interior3 p i j k ∧
      r = mhdRate3 p.settings.gamma0 p.dx p.dy p.dz (Q i j k)} ∧ 0 < x := by
  obtain ⟨r, h, rfl⟩ := h
  have hN : ∀ i j k, interior3 p i j k → ms (reals m) .Q i j k = Q i j k := by
    intro i j k hij
    obtain ⟨h1, _⟩ := hm i j k hij
    have h2 := ms_reals (m := m) (a := .Q) (i := i) (j := j) (k := k) (h1 ▸ MS.isNum_map _)
    rw [h1] at h2
    have inj : ∀ a b : MS ℝ, a.map ok = b.map ok → a = b := by
      rintro ⟨⟩ ⟨⟩ h
      simpa [MS.map] using h
    exact (inj _ _ h2).symm
  obtain ⟨r', e, h'⟩ := parReduce_ok (body' := computeDtMhd3 p .Q) (m' := reals m)
    (fun t a => computeDtMhd3_ok hg (fun hc => by
      have hi := (cellGuard3_interior hw t).1 hc
      rw [hN _ _ _ hi]
      exact hm _ _ _ hi) a) h
  obtain ⟨e1, e2⟩ := dtLocalM3_eq hw hg hid hN (fun i j k hij => (hm i j k hij).2)
    (dt := p.settings.cfl / r') ⟨r', h', rfl⟩
  refine ⟨p.settings.cfl / r', ?_, e1, e2⟩
  have hr : r' ≠ 0 := by
    rintro rfl
    rw [_root_.div_zero] at e2
    exact lt_irrefl _ e2
  rw [e]
  exact ok_div hr

end EulerKokkos
