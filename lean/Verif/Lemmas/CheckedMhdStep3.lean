import Verif.Lemmas.CheckedMhdStep

/-!
# Checked arithmetic: the 3D MHD step
-/

set_option linter.unusedSimpArgs false
set_option linter.constructorNameAsVariable false
set_option linter.unusedSectionVars false

namespace EulerKokkos

open Chk Spec

theorem slopeM7_ok (s : Settings ℝ) (q a b c : MS ℝ) :
    slopeM7 (s.map ok) (q.map ok) (a.map ok) (b.map ok) (c.map ok) = (slopeM7 s q a b c).map ok := by
  unfold slopeM7
  have e : ∀ t, RealOps.beq (s.map ok).slope_type (lit t) = RealOps.beq s.slope_type (lit t) := fun _ => rfl
  simp only [e]
  cases (RealOps.beq s.slope_type (lit 1) || RealOps.beq s.slope_type (lit 2))
  · rfl
  · simp only [if_true]
    simp only [Settings.map, MS.map, slopeScalarDir_ok]

/-- componentwise image -/
def Quad.map {R S : Type} (f : R → S) (q : Quad R) : Quad S := ⟨f q.ll, f q.lr, f q.rl, f q.rr⟩

/-- componentwise image -/
def Dbf3.map {R S : Type} (f : R → S) (d : Dbf3 R) : Dbf3 S :=
  ⟨f d.aly, f d.alz, f d.blx, f d.blz, f d.clx, f d.cly, f d.ary, f d.arz, f d.brx, f d.brz, f d.crx,
    f d.cry⟩

/-- componentwise image -/
def TraceIn3.map {R S : Type} (f : R → S) (n : TraceIn3 R) : TraceIn3 S :=
  ⟨n.q.map f, n.xp.map f, n.xm.map f, n.yp.map f, n.ym.map f, n.zp.map f, n.zm.map f, f n.al, f n.ar, f n.bl,
    f n.br, f n.cl, f n.cr, n.dbf.map f, n.ex.map f, n.ey.map f, n.ez.map f⟩

/-- componentwise image -/
def TraceM3.map {R S : Type} (f : R → S) (t : TraceM3 R) : TraceM3 S :=
  ⟨t.qmx.map f, t.qpx.map f, t.qmy.map f, t.qpy.map f, t.qmz.map f, t.qpz.map f, t.ex.map f, t.ey.map f,
    t.ez.map f⟩

/-- the four states are physical -/
structure Edge4.Phys (e : Edge4 ℝ) : Prop where
  rt : PhysM e.rt
  rb : PhysM e.rb
  lt : PhysM e.lt
  lb : PhysM e.lb

/-- all states are physical -/
structure TraceM3.Phys (t : TraceM3 ℝ) : Prop where
  qmx : PhysM t.qmx
  qpx : PhysM t.qpx
  qmy : PhysM t.qmy
  qpy : PhysM t.qpy
  qmz : PhysM t.qmz
  qpz : PhysM t.qpz
  ex : t.ex.Phys
  ey : t.ey.Phys
  ez : t.ez.Phys

theorem traceMhd3_phys {s : Settings ℝ} (hs : GoodSettings s) (n : TraceIn3 ℝ) (x y z : ℝ) :
    (traceMhd3 s n x y z).Phys := by
  refine ⟨?_, ?_, ?_, ?_, ?_, ?_, ⟨?_, ?_, ?_, ?_⟩, ⟨?_, ?_, ?_, ?_⟩, ⟨?_, ?_, ?_, ?_⟩⟩ <;>
  · unfold traceMhd3
    exact flooredP_phys hs _

theorem traceMhd3_ok (s : Settings ℝ) (n : TraceIn3 ℝ) (hd : n.q.d ≠ 0) (x y z : ℝ) :
    traceMhd3 (s.map ok) (n.map ok) (ok x) (ok y) (ok z) = (traceMhd3 s n x y z).map ok := by
  obtain ⟨q, xp, xm, yp, ym, zp, zm, al, ar, bl, br, cl, cr, dbf, ex, ey, ez⟩ := n
  unfold traceMhd3
  simp only [TraceIn3.map, slopeM7_ok, map_half, ok_lit, ok_mul, ok_sub,
    sourceM3_ok _ _ _ _ _ _ _ _ _ _ _ hd]
  rfl

theorem fillM3_ok {p : Params ℝ} (hw : p.WF) (hf : Faces3Ok p) {U : FldM3 Chk} {u : FldM3 ℝ}
    (hU : ∀ i j k, interior3 p i j k → U i j k = (u i j k).map ok) (i j k : Int) (hij : inGrid3 p i j k) :
    fillM3 (p.map ok) U i j k = (fillM3 p u i j k).map ok := by
  obtain ⟨⟨a, b⟩, ⟨c, d⟩, e, f⟩ := hij
  have h1 := srcCoord_interior hw.nx_pos hf.1.1 hf.1.2.1 a b
  have h2 := srcCoord_interior hw.ny_pos hf.1.2.2.1 hf.1.2.2.2 c d
  have h3 := srcCoord_interior hw.nz_pos hf.2.1 hf.2.2 e f
  have e := hU _ _ _ ⟨h1, h2, h3⟩
  unfold fillM3 ghost3
  simp only [Params.map]
  rw [e]
  have g : ∀ (q : MS ℝ) v, (q.map ok).get v = ok (q.get v) := by
    intro q v
    unfold MS.get
    split <;> rfl
  simp only [g, signed_ok]
  rfl

theorem primM3_phys {p : Params ℝ} (hs : GoodSettings p.settings) (u : FldM3 ℝ) (i j k : Int) :
    PhysM (primM3 p u i j k) :=
  (constoprimMhd_ok hs (u i j k) ⟨(u (i + 1) j k).a, (u i (j + 1) k).b, (u i j (k + 1)).c⟩).2

section
variable {p : Params ℝ} (hs : GoodSettings p.settings) {U : FldM3 Chk} {u : FldM3 ℝ} {i j k : Int} {n m : Int}
  (hU : ∀ a b c : Int, n ≤ a ∧ a ≤ m → n ≤ b ∧ b ≤ m → n ≤ c ∧ c ≤ m →
    U (i + a) (j + b) (k + c) = (u (i + a) (j + b) (k + c)).map ok)

include hs hU in
theorem primM3_ok (a b c : Int) (ha : n ≤ a ∧ a ≤ m - 1) (hb : n ≤ b ∧ b ≤ m - 1) (hc : n ≤ c ∧ c ≤ m - 1) :
    primM3 (p.map ok) U (i + a) (j + b) (k + c) = (primM3 p u (i + a) (j + b) (k + c)).map ok := by
  have h0 := hU a b c (by omega) (by omega) (by omega)
  have h1 := hU (a + 1) b c (by omega) (by omega) (by omega)
  have h2 := hU a (b + 1) c (by omega) (by omega) (by omega)
  have h3 := hU a b (c + 1) (by omega) (by omega) (by omega)
  rw [show i + (a + 1) = i + a + 1 by ring] at h1
  rw [show j + (b + 1) = j + b + 1 by ring] at h2
  rw [show k + (c + 1) = k + c + 1 by ring] at h3
  unfold primM3
  rw [h0, h1, h2, h3]
  exact (constoprimMhd_ok hs (u (i + a) (j + b) (k + c)) ⟨(u (i + a + 1) (j + b) (k + c)).a,
    (u (i + a) (j + b + 1) (k + c)).b, (u (i + a) (j + b) (k + c + 1)).c⟩).1
end

theorem elecM3_ok {Q U : FldM3 Chk} {q u : FldM3 ℝ} {i j k : Int}
    (hQ : ∀ a b c : Int, -1 ≤ a ∧ a ≤ 0 → -1 ≤ b ∧ b ≤ 0 → -1 ≤ c ∧ c ≤ 0 →
      Q (i + a) (j + b) (k + c) = (q (i + a) (j + b) (k + c)).map ok)
    (hU : ∀ a b c : Int, -1 ≤ a ∧ a ≤ 0 → -1 ≤ b ∧ b ≤ 0 → -1 ≤ c ∧ c ≤ 0 →
      U (i + a) (j + b) (k + c) = (u (i + a) (j + b) (k + c)).map ok) (d : Dir) :
    elecM3 Q U d i j k = ok (elecM3 q u d i j k) := by
  have q000 := hQ 0 0 0 (by omega) (by omega) (by omega)
  have qm00 := hQ (-1) 0 0 (by omega) (by omega) (by omega)
  have q0m0 := hQ 0 (-1) 0 (by omega) (by omega) (by omega)
  have q00m := hQ 0 0 (-1) (by omega) (by omega) (by omega)
  have qmm0 := hQ (-1) (-1) 0 (by omega) (by omega) (by omega)
  have qm0m := hQ (-1) 0 (-1) (by omega) (by omega) (by omega)
  have q0mm := hQ 0 (-1) (-1) (by omega) (by omega) (by omega)
  have u000 := hU 0 0 0 (by omega) (by omega) (by omega)
  have um00 := hU (-1) 0 0 (by omega) (by omega) (by omega)
  have u0m0 := hU 0 (-1) 0 (by omega) (by omega) (by omega)
  have u00m := hU 0 0 (-1) (by omega) (by omega) (by omega)
  simp only [add_zero, ← sub_eq_add_neg] at q000 qm00 q0m0 q00m qmm0 qm0m q0mm u000 um00 u0m0 u00m
  cases d
  · simp only [elecM3, q000, q0m0, q00m, q0mm, u000, u0m0, u00m]
    rfl
  · simp only [elecM3, q000, qm00, q00m, qm0m, u000, um00, u00m]
    rfl
  · simp only [elecM3, q000, qm00, q0m0, qmm0, u000, um00, u0m0]
    rfl

theorem faceSlopeM3_ok {p : Params ℝ} {U : Int → Int → Int → Chk} {u : Int → Int → Int → ℝ} {i j k : Int}
    (hU : ∀ a b c : Int, -1 ≤ a ∧ a ≤ 1 → -1 ≤ b ∧ b ≤ 1 → -1 ≤ c ∧ c ≤ 1 →
      U (i + a) (j + b) (k + c) = ok (u (i + a) (j + b) (k + c))) (d : Dir) :
    faceSlopeM3 (p.map ok) U d i j k = ok (faceSlopeM3 p u d i j k) := by
  have h0 := hU 0 0 0 (by omega) (by omega) (by omega)
  have e : fmin (p.map ok).settings.slope_type (lit 2 : Chk) = ok (fmin p.settings.slope_type (lit 2)) := rfl
  rw [add_zero, add_zero, add_zero] at h0
  unfold faceSlopeM3
  cases d
  · have h1 := hU 1 0 0 (by omega) (by omega) (by omega)
    have h2 := hU (-1) 0 0 (by omega) (by omega) (by omega)
    simp only [Dir.delta, sub_eq_add_neg, neg_zero, add_zero] at h1 h2 ⊢
    rw [h0, h1, h2, e, slopeScalarDir_ok]
  · have h1 := hU 0 1 0 (by omega) (by omega) (by omega)
    have h2 := hU 0 (-1) 0 (by omega) (by omega) (by omega)
    simp only [Dir.delta, sub_eq_add_neg, neg_zero, add_zero] at h1 h2 ⊢
    rw [h0, h1, h2, e, slopeScalarDir_ok]
  · have h1 := hU 0 0 1 (by omega) (by omega) (by omega)
    have h2 := hU 0 0 (-1) (by omega) (by omega) (by omega)
    simp only [Dir.delta, sub_eq_add_neg, neg_zero, add_zero] at h1 h2 ⊢
    rw [h0, h1, h2, e, slopeScalarDir_ok]

theorem traceInM3_ok {p : Params ℝ} {Q U : FldM3 Chk} {q u : FldM3 ℝ} {i j k : Int}
    (hQ : ∀ a b c : Int, -1 ≤ a ∧ a ≤ 1 → -1 ≤ b ∧ b ≤ 1 → -1 ≤ c ∧ c ≤ 1 →
      Q (i + a) (j + b) (k + c) = (q (i + a) (j + b) (k + c)).map ok)
    (hU : ∀ a b c : Int, -1 ≤ a ∧ a ≤ 2 → -1 ≤ b ∧ b ≤ 2 → -1 ≤ c ∧ c ≤ 2 →
      U (i + a) (j + b) (k + c) = (u (i + a) (j + b) (k + c)).map ok) :
    traceInM3 (p.map ok) Q U i j k = (traceInM3 p q u i j k).map ok := by
  have hE : ∀ (d : Dir) (x y z : Int), 0 ≤ x ∧ x ≤ 1 → 0 ≤ y ∧ y ≤ 1 → 0 ≤ z ∧ z ≤ 1 →
      elecM3 Q U d (i + x) (j + y) (k + z) = ok (elecM3 q u d (i + x) (j + y) (k + z)) := by
    intro d x y z hx hy hz
    refine elecM3_ok ?_ ?_ d
    · intro a b c ha hb hc
      have := hQ (x + a) (y + b) (z + c) (by omega) (by omega) (by omega)
      simpa only [add_assoc] using this
    · intro a b c ha hb hc
      have := hU (x + a) (y + b) (z + c) (by omega) (by omega) (by omega)
      simpa only [add_assoc] using this
  have hS : ∀ (g : ∀ {R : Type}, MS R → R) (_ : ∀ q : MS ℝ, g (q.map ok) = ok (g q)) (d : Dir) (x y z : Int),
      0 ≤ x ∧ x ≤ 1 → 0 ≤ y ∧ y ≤ 1 → 0 ≤ z ∧ z ≤ 1 →
      faceSlopeM3 (p.map ok) (fun i j k => g (U i j k)) d (i + x) (j + y) (k + z) =
        ok (faceSlopeM3 p (fun i j k => g (u i j k)) d (i + x) (j + y) (k + z)) := by
    intro g hg d x y z hx hy hz
    refine faceSlopeM3_ok ?_ d
    intro a b c ha hb hc
    have := hU (x + a) (y + b) (z + c) (by omega) (by omega) (by omega)
    simp only [add_assoc] at this ⊢
    rw [this, hg]
  have z01 : (0 : Int) ≤ 0 ∧ (0 : Int) ≤ 1 := by omega
  have o01 : (0 : Int) ≤ 1 ∧ (1 : Int) ≤ 1 := by omega
  have a1 := fun d => hS (fun q => q.a) (fun _ => rfl) d 0 0 0 z01 z01 z01
  have a2 := fun d => hS (fun q => q.a) (fun _ => rfl) d 1 0 0 o01 z01 z01
  have b1 := fun d => hS (fun q => q.b) (fun _ => rfl) d 0 0 0 z01 z01 z01
  have b2 := fun d => hS (fun q => q.b) (fun _ => rfl) d 0 1 0 z01 o01 z01
  have c1 := fun d => hS (fun q => q.c) (fun _ => rfl) d 0 0 0 z01 z01 z01
  have c2 := fun d => hS (fun q => q.c) (fun _ => rfl) d 0 0 1 z01 z01 o01
  have e1 := fun d => hE d 0 0 0 z01 z01 z01
  have e2 := fun d => hE d 1 0 0 o01 z01 z01
  have e3 := fun d => hE d 0 1 0 z01 o01 z01
  have e4 := fun d => hE d 0 0 1 z01 z01 o01
  have e5 := fun d => hE d 1 1 0 o01 o01 z01
  have e6 := fun d => hE d 1 0 1 o01 z01 o01
  have e7 := fun d => hE d 0 1 1 z01 o01 o01
  have q1 := hQ 0 0 0 (by omega) (by omega) (by omega)
  have q2 := hQ 1 0 0 (by omega) (by omega) (by omega)
  have q3 := hQ (-1) 0 0 (by omega) (by omega) (by omega)
  have q4 := hQ 0 1 0 (by omega) (by omega) (by omega)
  have q5 := hQ 0 (-1) 0 (by omega) (by omega) (by omega)
  have q6 := hQ 0 0 1 (by omega) (by omega) (by omega)
  have q7 := hQ 0 0 (-1) (by omega) (by omega) (by omega)
  have u1 := hU 0 0 0 (by omega) (by omega) (by omega)
  have u2 := hU 1 0 0 (by omega) (by omega) (by omega)
  have u3 := hU 0 1 0 (by omega) (by omega) (by omega)
  have u4 := hU 0 0 1 (by omega) (by omega) (by omega)
  simp only [add_zero, ← sub_eq_add_neg] at a1 a2 b1 b2 c1 c2 e1 e2 e3 e4 e5 e6 e7 q1 q2 q3 q4 q5 q6 q7 u1 u2 u3 u4
  unfold traceInM3
  simp only [a1, a2, b1, b2, c1, c2, e1, e2, e3, e4, e5, e6, e7, q1, q2, q3, q4, q5, q6, q7, u1, u2, u3, u4]
  rfl

namespace Spec

/-- The faces of the interior cells of a 3D field are regular (versions 0 and 1). -/
def RegularStepM3 (p : Params ℝ) (dt : ℝ) (u : FldM3 ℝ) : Prop :=
  let v := fillM3 p u
  let T := traceM3 p dt (primM3 p v) v
  (∀ i j k, interior3 p i j k ∨ interior3 p (i - 1) j k →
    RegularFace p (T (i - 1) j k).qmx (T i j k).qpx) ∧
  (∀ i j k, interior3 p i j k ∨ interior3 p i (j - 1) k →
    RegularFace p (T i (j - 1) k).qmy.swapXY (T i j k).qpy.swapXY) ∧
  (∀ i j k, interior3 p i j k ∨ interior3 p i j (k - 1) →
    RegularFace p (T i j (k - 1)).qmz.swapXZ (T i j k).qpz.swapXZ)

end Spec

theorem traceM3_ok {p : Params ℝ} (hs : GoodSettings p.settings) (hx : p.dx ≠ 0) (hy : p.dy ≠ 0)
    (hz : p.dz ≠ 0) (dt : ℝ) {U : FldM3 Chk} {u : FldM3 ℝ} {i j k : Int}
    (hU : ∀ a b c : Int, -1 ≤ a ∧ a ≤ 2 → -1 ≤ b ∧ b ≤ 2 → -1 ≤ c ∧ c ≤ 2 →
      U (i + a) (j + b) (k + c) = (u (i + a) (j + b) (k + c)).map ok) :
    traceM3 (p.map ok) (ok dt) (primM3 (p.map ok) U) U i j k =
      (traceM3 p dt (primM3 p u) u i j k).map ok := by
  have e1 : (ok dt / (p.map ok).dx : Chk) = ok (dt / p.dx) := ok_div hx
  have e2 : (ok dt / (p.map ok).dy : Chk) = ok (dt / p.dy) := ok_div hy
  have e3 : (ok dt / (p.map ok).dz : Chk) = ok (dt / p.dz) := ok_div hz
  have hn := traceInM3_ok (p := p) (Q := primM3 (p.map ok) U) (q := primM3 p u)
    (fun a b c ha hb hc => primM3_ok hs hU a b c (by omega) (by omega) (by omega)) hU
  unfold traceM3
  rw [e1, e2, e3, hn]
  exact traceMhd3_ok p.settings _ (primM3_phys hs u i j k).d.ne' _ _ _

/-- one step from given fluxes, checked -/
theorem stepOfM3_ok {p : Params ℝ} (hx : p.dx ≠ 0) (hy : p.dy ≠ 0) (hz : p.dz ≠ 0) (dt : ℝ)
    {FC : FluxM3 Chk} {F : FluxM3 ℝ} {U : FldM3 Chk} {u : FldM3 ℝ} {i j k : Int} (hin : interior3 p i j k)
    (hU : U i j k = (u i j k).map ok)
    (fx : ∀ a : Int, 0 ≤ a ∧ a ≤ 1 → FC.x (i + a) j k = (F.x (i + a) j k).map ok)
    (fy : ∀ a : Int, 0 ≤ a ∧ a ≤ 1 → FC.y i (j + a) k = (F.y i (j + a) k).map ok)
    (fz : ∀ a : Int, 0 ≤ a ∧ a ≤ 1 → FC.z i j (k + a) = (F.z i j (k + a)).map ok)
    (fe : ∀ (d : EmfDir) (a b c : Int), 0 ≤ a ∧ a ≤ 1 → 0 ≤ b ∧ b ≤ 1 → 0 ≤ c ∧ c ≤ 1 →
      FC.e d (i + a) (j + b) (k + c) = ok (F.e d (i + a) (j + b) (k + c))) :
    stepOfM3 (p.map ok) (ok dt) FC U i j k = (stepOfM3 p dt F u i j k).map ok := by
  have hin' : interior3 (p.map ok) i j k := hin
  have e1 : (ok dt / (p.map ok).dx : Chk) = ok (dt / p.dx) := ok_div hx
  have e2 : (ok dt / (p.map ok).dy : Chk) = ok (dt / p.dy) := ok_div hy
  have e3 : (ok dt / (p.map ok).dz : Chk) = ok (dt / p.dz) := ok_div hz
  have z01 : (0 : Int) ≤ 0 ∧ (0 : Int) ≤ 1 := by omega
  have o01 : (0 : Int) ≤ 1 ∧ (1 : Int) ≤ 1 := by omega
  have x0 := fx 0 z01
  have x1 := fx 1 o01
  have y0 := fy 0 z01
  have y1 := fy 1 o01
  have z0 := fz 0 z01
  have z1 := fz 1 o01
  have a0 := fun d => fe d 0 0 0 z01 z01 z01
  have a1 := fun d => fe d 1 0 0 o01 z01 z01
  have a2 := fun d => fe d 0 1 0 z01 o01 z01
  have a3 := fun d => fe d 0 0 1 z01 z01 o01
  simp only [add_zero] at x0 y0 z0 a0 a1 a2 a3
  unfold stepOfM3
  rw [if_pos hin, if_pos hin', e1, e2, e3]
  unfold ctUpdate3 fluxUpdateM3
  rw [hU, x0, x1, y0, y1, z0, z1]
  simp only [a0, a1, a2, a3]
  rfl

theorem fluxOfTraces_ok {p : Params ℝ} (hs : GoodSettings p.settings) {TC : Int → Int → Int → TraceM3 Chk}
    {T : Int → Int → Int → TraceM3 ℝ} (P : ∀ i j k, (T i j k).Phys) {i j k : Int} (hin : interior3 p i j k)
    (r1 : ∀ i j k, interior3 p i j k ∨ interior3 p (i - 1) j k →
      RegularFace p (T (i - 1) j k).qmx (T i j k).qpx)
    (r2 : ∀ i j k, interior3 p i j k ∨ interior3 p i (j - 1) k →
      RegularFace p (T i (j - 1) k).qmy.swapXY (T i j k).qpy.swapXY)
    (r3 : ∀ i j k, interior3 p i j k ∨ interior3 p i j (k - 1) →
      RegularFace p (T i j (k - 1)).qmz.swapXZ (T i j k).qpz.swapXZ)
    (hT : ∀ a b c : Int, (-1 ≤ a ∧ a ≤ 1) → (-1 ≤ b ∧ b ≤ 1) → (-1 ≤ c ∧ c ≤ 1) →
      TC (i + a) (j + b) (k + c) = (T (i + a) (j + b) (k + c)).map ok) :
    (∀ a : Int, 0 ≤ a ∧ a ≤ 1 →
      (fluxOfTraces (p.map ok) TC).x (i + a) j k = ((fluxOfTraces p T).x (i + a) j k).map ok) ∧
    (∀ a : Int, 0 ≤ a ∧ a ≤ 1 →
      (fluxOfTraces (p.map ok) TC).y i (j + a) k = ((fluxOfTraces p T).y i (j + a) k).map ok) ∧
    (∀ a : Int, 0 ≤ a ∧ a ≤ 1 →
      (fluxOfTraces (p.map ok) TC).z i j (k + a) = ((fluxOfTraces p T).z i j (k + a)).map ok) ∧
    (∀ (d : EmfDir) (a b c : Int), 0 ≤ a ∧ a ≤ 1 → 0 ≤ b ∧ b ≤ 1 → 0 ≤ c ∧ c ≤ 1 →
      (fluxOfTraces (p.map ok) TC).e d (i + a) (j + b) (k + c) =
        ok ((fluxOfTraces p T).e d (i + a) (j + b) (k + c))) := by
  refine ⟨?_, ?_, ?_, ?_⟩
  · intro a h
    have t1 := hT (a - 1) 0 0 (by omega) (by omega) (by omega)
    have t2 := hT a 0 0 (by omega) (by omega) (by omega)
    rw [show i + (a - 1) = i + a - 1 by ring, add_zero, add_zero] at t1
    rw [add_zero, add_zero] at t2
    unfold fluxOfTraces
    dsimp only
    rw [t1, t2]
    refine riemannMhd_ok hs (P _ _ _).qmx (P _ _ _).qpx (r1 _ _ _ ?_) MS.zero
    by_cases h0 : a = 0
    · left; rw [h0, add_zero]; exact hin
    · right; rw [show a = 1 by omega]; simpa using hin
  · intro a h
    have t1 := hT 0 (a - 1) 0 (by omega) (by omega) (by omega)
    have t2 := hT 0 a 0 (by omega) (by omega) (by omega)
    rw [show j + (a - 1) = j + a - 1 by ring, add_zero, add_zero] at t1
    rw [add_zero, add_zero] at t2
    unfold fluxOfTraces
    dsimp only
    rw [t1, t2]
    have hr : RegularFace p (T i (j + a - 1) k).qmy.swapXY (T i (j + a) k).qpy.swapXY := by
      refine r2 _ _ _ ?_
      by_cases h0 : a = 0
      · left; rw [h0, add_zero]; exact hin
      · right; rw [show a = 1 by omega]; simpa using hin
    exact congrArg MS.swapXY (riemannMhd_ok hs (phys_swapXY (P _ _ _).qmy) (phys_swapXY (P _ _ _).qpy) hr
      MS.zero)
  · intro a h
    have t1 := hT 0 0 (a - 1) (by omega) (by omega) (by omega)
    have t2 := hT 0 0 a (by omega) (by omega) (by omega)
    rw [show k + (a - 1) = k + a - 1 by ring, add_zero, add_zero] at t1
    rw [add_zero, add_zero] at t2
    unfold fluxOfTraces
    dsimp only
    rw [t1, t2]
    have hr : RegularFace p (T i j (k + a - 1)).qmz.swapXZ (T i j (k + a)).qpz.swapXZ := by
      refine r3 _ _ _ ?_
      by_cases h0 : a = 0
      · left; rw [h0, add_zero]; exact hin
      · right; rw [show a = 1 by omega]; simpa using hin
    exact congrArg MS.swapXZ (riemannMhd_ok hs (phys_swapXZ (P _ _ _).qmz) (phys_swapXZ (P _ _ _).qpz) hr
      MS.zero)
  · intro d a b c ha hb hc
    have t : ∀ x y z : Int, 0 ≤ x ∧ x ≤ 1 → 0 ≤ y ∧ y ≤ 1 → 0 ≤ z ∧ z ≤ 1 →
        TC (i + a - x) (j + b - y) (k + c - z) = (T (i + a - x) (j + b - y) (k + c - z)).map ok := by
      intro x y z hx hy hz
      have := hT (a - x) (b - y) (c - z) (by omega) (by omega) (by omega)
      simpa only [add_sub_assoc] using this
    have z01 : (0 : Int) ≤ 0 ∧ (0 : Int) ≤ 1 := by omega
    have o01 : (0 : Int) ≤ 1 ∧ (1 : Int) ≤ 1 := by omega
    have t000 := t 0 0 0 z01 z01 z01
    have t100 := t 1 0 0 o01 z01 z01
    have t010 := t 0 1 0 z01 o01 z01
    have t001 := t 0 0 1 z01 z01 o01
    have t110 := t 1 1 0 o01 o01 z01
    have t101 := t 1 0 1 o01 z01 o01
    have t011 := t 0 1 1 z01 o01 o01
    simp only [sub_zero] at t000 t100 t010 t001 t110 t101 t011
    unfold fluxOfTraces
    dsimp only
    generalize i + a = i at *
    generalize j + b = j at *
    generalize k + c = k at *
    cases d
    · dsimp only
      rw [t000, t010, t001, t011]
      exact emf_ok hs .x (e := ⟨(T i (j - 1) (k - 1)).ex.rt, (T i (j - 1) k).ex.rb, (T i j (k - 1)).ex.lt,
        (T i j k).ex.lb⟩) (P _ _ _).ex.rt (P _ _ _).ex.rb (P _ _ _).ex.lt (P _ _ _).ex.lb
    · dsimp only
      rw [t000, t100, t001, t101]
      exact emf_ok hs .y (e := ⟨(T (i - 1) j (k - 1)).ey.rt, (T i j (k - 1)).ey.lt, (T (i - 1) j k).ey.rb,
        (T i j k).ey.lb⟩) (P _ _ _).ey.rt (P _ _ _).ey.lt (P _ _ _).ey.rb (P _ _ _).ey.lb
    · dsimp only
      rw [t000, t100, t010, t110]
      exact emf_ok hs .z (e := ⟨(T (i - 1) (j - 1) k).ez.rt, (T (i - 1) j k).ez.rb, (T i (j - 1) k).ez.lt,
        (T i j k).ez.lb⟩) (P _ _ _).ez.rt (P _ _ _).ez.rb (P _ _ _).ez.lt (P _ _ _).ez.lb

/-- One 3D MHD step of versions 0 and 1, checked. -/
theorem fullStepM3_ok {p : Params ℝ} (hw : p.WF) (hf : Faces3Ok p) (hg : 3 ≤ p.ghostWidth)
    (hs : GoodSettings p.settings) (hx : p.dx ≠ 0) (hy : p.dy ≠ 0) (hz : p.dz ≠ 0) (dt : ℝ)
    {U : FldM3 Chk} {u : FldM3 ℝ} (hreg : RegularStepM3 p dt u)
    (hU : ∀ i j k, interior3 p i j k → U i j k = (u i j k).map ok)
    (i j k : Int) (hin : interior3 p i j k) :
    stepOfM3 (p.map ok) (ok dt) (fluxesM3 (p.map ok) (ok dt) (fillM3 (p.map ok) U)) (fillM3 (p.map ok) U) i j k =
      (stepOfM3 p dt (fluxesM3 p dt (fillM3 p u)) (fillM3 p u) i j k).map ok := by
  have hF := fillM3_ok hw hf hU
  obtain ⟨r1, r2, r3⟩ := hreg
  have hin' := hin
  obtain ⟨⟨a, b⟩, ⟨c, d⟩, e, f⟩ := hin'
  have hT : ∀ a b c : Int, (-1 ≤ a ∧ a ≤ 1) → (-1 ≤ b ∧ b ≤ 1) → (-1 ≤ c ∧ c ≤ 1) →
      traceM3 (p.map ok) (ok dt) (primM3 (p.map ok) (fillM3 (p.map ok) U)) (fillM3 (p.map ok) U)
        (i + a) (j + b) (k + c) =
      (traceM3 p dt (primM3 p (fillM3 p u)) (fillM3 p u) (i + a) (j + b) (k + c)).map ok := by
    intro a' b' c' h1 h2 h3
    refine traceM3_ok hs hx hy hz dt ?_
    intro x y z h1 h2 h3
    apply hF
    refine ⟨⟨?_, ?_⟩, ⟨?_, ?_⟩, ?_, ?_⟩ <;> omega
  have P : ∀ i j k, (traceM3 p dt (primM3 p (fillM3 p u)) (fillM3 p u) i j k).Phys := by
    intro i j k
    unfold traceM3
    exact traceMhd3_phys hs _ _ _ _
  obtain ⟨x, y, z, e⟩ := fluxOfTraces_ok hs P hin r1 r2 r3 hT
  exact stepOfM3_ok hx hy hz dt hin (hF i j k (interior_inGrid3 hw hin)) x y z e

end EulerKokkos
