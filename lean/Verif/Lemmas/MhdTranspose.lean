import Verif.Props.C23
import Verif.Props.C55
import Verif.Props.C53
import Verif.Lemmas.CheckedMhdStep
import Verif.Lemmas.RunSymmetry
import Verif.Lemmas.MhdFull2D

/-!
# The 2D MHD scheme treats x and y alike

Every function of the scheme commutes with the exchange of the axes.
-/

set_option linter.unusedSimpArgs false

namespace EulerKokkos
open Spec RealOps

/-- a 2D MHD field with the axes exchanged: velocities and magnetic field components (with the faces they live on)
change places -/
def trM (u : FldM2 ℝ) : FldM2 ℝ := fun i j => transposeM (u j i)

theorem transposeM_transposeM (q : MS ℝ) : transposeM (transposeM q) = q := rfl

theorem fillM2_tr (p : Params ℝ) (u : FldM2 ℝ) : fillM2 (transposeParams p) (trM u) = trM (fillM2 p u) := by
  funext i j
  unfold fillM2 ghost2 trM transposeM transposeParams
  simp only [MS.get, normalVar, ID, IP, IU, IV, IW, IA, IB, IC]
  refine MS.ext ?_ ?_ ?_ ?_ ?_ ?_ ?_ ?_ <;> simp [signed]

theorem constoprim_tr (s : Settings ℝ) (u : MS ℝ) (nb : BF ℝ) :
    (constoprimMhd s (transposeM u) ⟨nb.y, nb.x, nb.z⟩).1 = transposeM (constoprimMhd s u nb).1 := by
  unfold constoprimMhd
  dsimp only [transposeM]
  split_ifs
  · rfl
  · refine MS.ext ?_ ?_ ?_ ?_ ?_ ?_ ?_ ?_ <;> dsimp only
    simp only [fmax_real, lit_real]
    congr 1
    ring

theorem primM2_tr (p : Params ℝ) (u : FldM2 ℝ) : primM2 (transposeParams p) (trM u) = trM (primM2 p u) := by
  funext i j
  exact constoprim_tr p.settings (u j i) ⟨(u (j + 1) i).a, (u j (i + 1)).b, lit 0⟩

/-- a neighbourhood with the axes exchanged -/
def trQ (q : Int × Int → MS ℝ) : Int × Int → MS ℝ := fun o => transposeM (q (o.2, o.1))
/-- the same for face fields -/
def trB (b : Int × Int → BF ℝ) : Int × Int → BF ℝ := fun o => ⟨(b (o.2, o.1)).y, (b (o.2, o.1)).x, (b (o.2, o.1)).z⟩

theorem elecZ2_tr (q : Int × Int → MS ℝ) (b : Int × Int → BF ℝ) (x y : Int) :
    elecZ2 (trQ q) (trB b) x y = -elecZ2 q b y x := by
  simp only [elecZ2, trQ, trB, transposeM, lit_real]
  ring

theorem sourceM2_tr (s : Settings ℝ) (q dx dy : MS ℝ) (dAx dBy a b : ℝ) :
    sourceM2 s (transposeM q) (transposeM dy) (transposeM dx) dBy dAx b a = transposeM (sourceM2 s q dx dy dAx dBy a b) := by
  unfold sourceM2 transposeM
  refine MS.ext ?_ ?_ ?_ ?_ ?_ ?_ ?_ ?_ <;> dsimp only <;> ring

theorem slopeM_tr (s : Settings ℝ) (q a b : MS ℝ) :
    slopeM s (transposeM q) (transposeM a) (transposeM b) MS.zero = transposeM (slopeM s q a b MS.zero) := by
  unfold slopeM
  split_ifs
  · rfl
  · rfl

theorem half_tr (q : MS ℝ) : (transposeM q).half = transposeM q.half := rfl

theorem floored_tr (s : Settings ℝ) (q : MS ℝ) : MS.floored s (transposeM q) = transposeM (MS.floored s q) := rfl

/-- the outputs of the reconstruction with the axes exchanged -/
def trT (t : TraceM2 ℝ) : TraceM2 ℝ :=
  ⟨transposeM t.qmy, transposeM t.qpy, transposeM t.qmx, transposeM t.qpx, transposeM t.rt, transposeM t.lt, transposeM t.rb,
    transposeM t.lb⟩

theorem traceMhd2_tr (s : Settings ℝ) (q : Int × Int → MS ℝ) (b : Int × Int → BF ℝ) (x y : ℝ) :
    traceMhd2 s (trQ q) (trB b) y x MS.zero MS.zero = trT (traceMhd2 s q b x y MS.zero MS.zero) := by
  have e1 : (slopeM s (trQ q (0, 0)) (trQ q (1, 0)) (trQ q (-1, 0)) MS.zero).half =
      transposeM (slopeM s (q (0, 0)) (q (0, 1)) (q (0, -1)) MS.zero).half := by
    simp only [trQ]; rw [slopeM_tr, half_tr]
  have e2 : (slopeM s (trQ q (0, 0)) (trQ q (0, 1)) (trQ q (0, -1)) MS.zero).half =
      transposeM (slopeM s (q (0, 0)) (q (1, 0)) (q (-1, 0)) MS.zero).half := by
    simp only [trQ]; rw [slopeM_tr, half_tr]
  unfold traceMhd2 trT
  dsimp only
  rw [e1, e2]
  simp only [elecZ2_tr, ← floored_tr]
  generalize (slopeM s (q (0, 0)) (q (1, 0)) (q (-1, 0)) MS.zero).half = dx
  generalize (slopeM s (q (0, 0)) (q (0, 1)) (q (0, -1)) MS.zero).half = dy
  simp only [trQ, trB, sourceM2_tr]
  generalize sourceM2 s _ _ _ _ _ _ _ = so
  generalize elecZ2 q b 0 0 = E00
  generalize elecZ2 q b 0 1 = E01
  generalize elecZ2 q b 1 0 = E10
  generalize elecZ2 q b 1 1 = E11
  simp only [TraceM2.mk.injEq]
  refine ⟨?_, ?_, ?_, ?_, ?_, ?_, ?_, ?_⟩ <;> congr 1 <;> simp only [transposeM] <;>
    refine MS.ext ?_ ?_ ?_ ?_ ?_ ?_ ?_ ?_ <;> dsimp only <;> ring

theorem traceM2_tr (p : Params ℝ) (dt : ℝ) (q u : FldM2 ℝ) (i j : Int) :
    traceM2 (transposeParams p) dt (trM q) (trM u) i j = trT (traceM2 p dt q u j i) :=
  traceMhd2_tr p.settings (fun o => q (j + o.1) (i + o.2))
    (fun o => ⟨(u (j + o.1) (i + o.2)).a, (u (j + o.1) (i + o.2)).b, (u (j + o.1) (i + o.2)).c⟩) (dt / p.dx) (dt / p.dy)

theorem tracesM2_tr (p : Params ℝ) (dt : ℝ) (u : FldM2 ℝ) (i j : Int) :
    tracesM2 (transposeParams p) dt (trM u) i j = trT (tracesM2 p dt u j i) := by
  unfold tracesM2
  rw [primM2_tr, traceM2_tr]

/-- the edge field of the corner states with the axes exchanged -/
theorem computeEmf_tr {s : Settings ℝ} (hs : GoodSettings s) {rt rb lt lb : MS ℝ} (h1 : PhysM rt) (h2 : PhysM rb)
    (h3 : PhysM lt) (h4 : PhysM lb) :
    computeEmf s .z ⟨transposeM rt, transposeM lt, transposeM rb, transposeM lb⟩ = -computeEmf s .z ⟨rt, rb, lt, lb⟩ := by
  let iso : MS ℝ → ℝ := fun q => if gtb s.cIso (lit 0) then q.d * s.cIso * s.cIso else q.p
  have hiso : ∀ {q : MS ℝ}, PhysM q → 0 < iso q := by
    intro q hq
    show 0 < ite _ _ _
    split_ifs with h
    · have : 0 < s.cIso := by simpa [gtb] using h
      have := hq.d
      positivity
    · exact hq.p
  have key := C55_emf_transpose hs (q := ⟨⟨rt.d, iso rt, rt.u, rt.v, rt.w, (1/2 : ℝ) * (rt.a + lt.a), (1/2 : ℝ) * (rt.b + rb.b), rt.c⟩,
    ⟨lt.d, iso lt, lt.u, lt.v, lt.w, (1/2 : ℝ) * (rt.a + lt.a), (1/2 : ℝ) * (lt.b + lb.b), lt.c⟩,
    ⟨rb.d, iso rb, rb.u, rb.v, rb.w, (1/2 : ℝ) * (rb.a + lb.a), (1/2 : ℝ) * (rt.b + rb.b), rb.c⟩,
    ⟨lb.d, iso lb, lb.u, lb.v, lb.w, (1/2 : ℝ) * (rb.a + lb.a), (1/2 : ℝ) * (lt.b + lb.b), lb.c⟩⟩)
    ⟨⟨h1.d, hiso h1⟩, ⟨h3.d, hiso h3⟩, ⟨h2.d, hiso h2⟩, ⟨h4.d, hiso h4⟩⟩
  unfold computeEmf
  dsimp only [EmfDir.frame, transposeM, Corners.transpose, emfOf] at key ⊢
  have e : (lit (1/2) : ℝ) = 1/2 := by simp [lit_real]
  rw [e]
  exact key

theorem traceMhd2_edges_phys {s : Settings ℝ} (hs : GoodSettings s) (q : Int × Int → MS ℝ) (b : Int × Int → BF ℝ) (x y : ℝ)
    (j0 j1 : MS ℝ) :
    let t := traceMhd2 s q b x y j0 j1
    PhysM t.rt ∧ PhysM t.rb ∧ PhysM t.lt ∧ PhysM t.lb :=
  ⟨floored_phys hs _, floored_phys hs _, floored_phys hs _, floored_phys hs _⟩

theorem stepM2_tr {p : Params ℝ} (hs : GoodSettings p.settings) (dt : ℝ) (u : FldM2 ℝ) :
    stepM2 (transposeParams p) dt (trM u) = trM (stepM2 p dt u) := by
  have hT := tracesM2_tr p dt u
  have hX : ∀ i j, fluxXM2 (transposeParams p) (tracesM2 (transposeParams p) dt (trM u)) i j =
      transposeM (fluxYM2 p (tracesM2 p dt u) j i) := by
    intro i j
    simp only [fluxXM2, fluxYM2, hT]
    rfl
  have hY : ∀ i j, fluxYM2 (transposeParams p) (tracesM2 (transposeParams p) dt (trM u)) i j =
      transposeM (fluxXM2 p (tracesM2 p dt u) j i) := by
    intro i j
    simp only [fluxXM2, fluxYM2, hT]
    rfl
  have hE : ∀ i j, emfM2 (transposeParams p) (tracesM2 (transposeParams p) dt (trM u)) i j =
      -emfM2 p (tracesM2 p dt u) j i := by
    intro i j
    have ph : ∀ i j, PhysM (tracesM2 p dt u i j).rt ∧ PhysM (tracesM2 p dt u i j).rb ∧ PhysM (tracesM2 p dt u i j).lt ∧
        PhysM (tracesM2 p dt u i j).lb := fun i j => traceMhd2_edges_phys hs _ _ _ _ _ _
    simp only [emfM2, hT, trT]
    exact computeEmf_tr hs (ph _ _).1 (ph _ _).2.1 (ph _ _).2.2.1 (ph _ _).2.2.2
  funext i j
  have hint : interior2 (transposeParams p) i j ↔ interior2 p j i := by
    unfold interior2 transposeParams; simp only; tauto
  unfold trM
  unfold stepM2
  by_cases h : interior2 p j i
  · rw [if_pos (hint.2 h), if_pos h]
    simp only [ctUpdate2, fluxUpdateM2]
    have hX' := hX; have hY' := hY; have hE' := hE
    unfold trM at hX' hY' hE'
    simp only [hX', hY', hE']
    generalize fluxXM2 p (tracesM2 p dt u) j i = A
    generalize fluxXM2 p (tracesM2 p dt u) (j + 1) i = B
    generalize fluxYM2 p (tracesM2 p dt u) j i = C
    generalize fluxYM2 p (tracesM2 p dt u) j (i + 1) = D
    simp only [MS.plus6, MS.minus6, transposeM, transposeParams]
    refine MS.ext ?_ ?_ ?_ ?_ ?_ ?_ ?_ ?_ <;> dsimp only <;> ring
  · rw [if_neg (fun k => h (hint.1 k)), if_neg h]

theorem fullStepM2_tr {p : Params ℝ} (hs : GoodSettings p.settings) (dt : ℝ) (u : FldM2 ℝ) :
    fullStepM2 (transposeParams p) dt (trM u) = trM (fullStepM2 p dt u) := by
  unfold fullStepM2
  rw [fillM2_tr, stepM2_tr hs]

theorem rateM2_tr (γ dx dy : ℝ) (q : MS ℝ) : mhdRate2 γ dy dx (transposeM q) = mhdRate2 γ dx dy q := by
  unfold mhdRate2
  rw [fastSpeed_transpose, fastSpeed_transpose]
  simp only [transposeM]
  ring

theorem cflDtM2_tr (p : Params ℝ) (u : FldM2 ℝ) : cflDtM2 (transposeParams p) (trM u) = cflDtM2 p u := by
  unfold cflDtM2
  rw [fillM2_tr, primM2_tr]
  have hint : ∀ i j, interior2 (transposeParams p) i j ↔ interior2 p j i := by
    intro i j; unfold interior2 transposeParams; simp only; tauto
  congr 2
  ext r
  constructor
  · rintro ⟨i, j, hij, rfl⟩
    exact ⟨j, i, (hint i j).1 hij, rateM2_tr _ _ _ _⟩
  · rintro ⟨i, j, hij, rfl⟩
    exact ⟨j, i, (hint j i).2 hij, (rateM2_tr _ _ _ _).symm⟩

theorem transpose_mhd2 {p : Params ℝ} (hp : Mhd2 p) : Mhd2 (transposeParams p) := by
  obtain ⟨⟨w1, w2, w3, w4, w5, w6, w7, w8, w9, w10, w11, w12, w13⟩, gw, nb, ⟨v1, v2⟩, ⟨f1, f2, f3, f4⟩⟩ := hp
  exact ⟨⟨w2, w1, w3, w4, w6, w5, w7, w9, w8, w10, w12, w11, w13⟩, gw, nb, ⟨v1, v2⟩, ⟨f3, f4, f1, f2⟩⟩

/-- the 2D MHD method commutes with the exchange of the axes -/
theorem related_trM2 {p : Params ℝ} (hp : Mhd2 p) (hs : GoodSettings p.settings) :
    Related p (transposeParams p) (mhd2 p) (mhd2 (transposeParams p))
      (fun x y => ∀ i j, interior2 p i j → y j i = transposeM (x i j)) where
  tEnd := rfl
  nOutput := rfl
  nStepmax := rfl
  dt x y h := by
    show cflDtM2 p x = cflDtM2 (transposeParams p) y
    have hq := transpose_mhd2 hp
    have hc : ∀ i j, interior2 (transposeParams p) i j → y i j = trM x i j := fun i j hij =>
      h j i (by unfold interior2 transposeParams at hij; unfold interior2; simp only at hij; tauto)
    rw [← cflDtM2_tr]
    unfold cflDtM2
    congr 2
    ext r
    refine exists_congr fun i => exists_congr fun j => and_congr_right fun hij => ?_
    obtain ⟨h1, h2, h3, h4⟩ := hij
    have hgw := hq.gw
    have e : ∀ a b, i ≤ a → a ≤ i + 1 → j ≤ b → b ≤ j + 1 →
        fillM2 (transposeParams p) (trM x) a b = fillM2 (transposeParams p) y a b :=
      fun a b k1 k2 k3 k4 => (fillM2_congr hq.wf hq.faces hc a b ⟨by omega, by omega, by omega, by omega⟩).symm
    rw [primM2_congr e]
  adv dt x y h i j hij := by
    show fullStepM2 (transposeParams p) dt y j i = transposeM (fullStepM2 p dt x i j)
    have hij' : interior2 (transposeParams p) j i := by
      unfold interior2 transposeParams; unfold interior2 at hij; simp only; tauto
    rw [fullStepM2_congr (transpose_mhd2 hp) (u' := trM x) ?_ _ _ hij', fullStepM2_tr hs]
    · rfl
    · exact fun i j hij =>
        h j i (by unfold interior2 transposeParams at hij; unfold interior2; simp only at hij; tauto)

end EulerKokkos
