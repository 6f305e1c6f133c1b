import Verif.Lemmas.MhdReverse
import Verif.Lemmas.MhdFull2D
import Verif.Props.C18

/-!
# Reversal of the magnetic field: the 2D MHD scheme
-/

set_option linter.constructorNameAsVariable false
set_option linter.unusedSectionVars false
set_option linter.unusedSimpArgs false

namespace EulerKokkos
open Spec

/-- face-centred field with the opposite sign -/
def revBF (b : BF ℝ) : BF ℝ := ⟨-b.x, -b.y, -b.z⟩

theorem constoprimMhd_rev (s : Settings ℝ) (u : MS ℝ) (nb : BF ℝ) :
    constoprimMhd s (reverseB u) (revBF nb) = (reverseB (constoprimMhd s u nb).1, (constoprimMhd s u nb).2) := by
  unfold constoprimMhd
  extract_lets d vx vy vz a b c ek em ei p d' vx' vy' vz' a' b' c' ek' em' ei' p'
  have h_d : d = d' := rfl
  have h_vx : vx = vx' := rfl
  have h_vy : vy = vy' := rfl
  have h_vz : vz = vz' := rfl
  have h_a : a = -a' := by simp only [a, a', reverseB, revBF]; ring
  have h_b : b = -b' := by simp only [b, b', reverseB, revBF]; ring
  have h_c : c = -c' := by simp only [c, c', reverseB, revBF]; ring
  have h_em : em = em' := by simp only [em, em', h_a, h_b, h_c]; ring
  have h_ei : ei = ei' := by
    simp only [ei, ei', h_em]; rfl
  have h_p : p = p' := by simp only [p, p', h_ei]; rfl
  rw [h_d, h_vx, h_vy, h_vz, h_a, h_b, h_c, h_p]
  split_ifs <;> rfl

theorem slopeM_rev (s : Settings ℝ) (q a b : MS ℝ) :
    slopeM s (reverseB q) (reverseB a) (reverseB b) MS.zero = reverseB (slopeM s q a b MS.zero) := by
  unfold slopeM
  split_ifs
  · simp only [reverseB, slopeScalarDir_neg]
  · rw [revB_zero]

theorem floored_rev (s : Settings ℝ) (q : MS ℝ) : MS.floored s (reverseB q) = reverseB (MS.floored s q) := rfl

theorem sourceM2_rev (s : Settings ℝ) (q dx dy : MS ℝ) (dA dB k l : ℝ) :
    sourceM2 s (reverseB q) (reverseB dx) (reverseB dy) (-dA) (-dB) k l = reverseB (sourceM2 s q dx dy dA dB k l) := by
  unfold sourceM2
  dsimp only [reverseB]
  refine MS.ext ?_ ?_ ?_ ?_ ?_ ?_ ?_ ?_ <;> dsimp only <;> ring

theorem elecZ2_rev (q : Int × Int → MS ℝ) (b : Int × Int → BF ℝ) (x y : Int) :
    elecZ2 (fun o => reverseB (q o)) (fun o => revBF (b o)) x y = -elecZ2 q b x y := by
  simp only [elecZ2, reverseB, revBF]; ring

/-- face and edge states with the opposite field -/
def revTrace2 (t : TraceM2 ℝ) : TraceM2 ℝ :=
  ⟨reverseB t.qmx, reverseB t.qpx, reverseB t.qmy, reverseB t.qpy, reverseB t.rt, reverseB t.rb, reverseB t.lt,
    reverseB t.lb⟩

theorem half_rev (q : MS ℝ) : (reverseB q).half = reverseB q.half := by
  simp only [MS.half, reverseB]
  refine MS.ext ?_ ?_ ?_ ?_ ?_ ?_ ?_ ?_ <;> dsimp only <;> ring

theorem traceMhd2_rev (s : Settings ℝ) (q : Int × Int → MS ℝ) (b : Int × Int → BF ℝ) (k l : ℝ) :
    traceMhd2 s (fun o => reverseB (q o)) (fun o => revBF (b o)) k l MS.zero MS.zero =
      revTrace2 (traceMhd2 s q b k l MS.zero MS.zero) := by
  unfold traceMhd2
  simp only [elecZ2_rev, slopeM_rev, half_rev]
  dsimp only [revBF]
  simp only [slopeScalarDir_neg]
  have hd : ∀ x y : ℝ, lit (1/2) * (-x - -y) = -(lit (1/2) * (x - y)) := by intro x y; ring
  have hh : ∀ x : ℝ, lit (1/2) * (-x) = -(lit (1/2) * x) := by intro x; ring
  simp only [hd, sourceM2_rev, hh]
  generalize (slopeM s (q (0, 0)) (q (1, 0)) (q (-1, 0)) MS.zero).half = dx
  generalize (slopeM s (q (0, 0)) (q (0, 1)) (q (0, -1)) MS.zero).half = dy
  generalize sourceM2 s (q (0, 0)) dx dy _ _ k l = so
  unfold revTrace2
  refine (TraceM2.mk.injEq ..).mpr ⟨?_, ?_, ?_, ?_, ?_, ?_, ?_, ?_⟩ <;>
    (rw [← floored_rev]; refine congrArg _ ?_
     dsimp only [reverseB]
     refine MS.ext ?_ ?_ ?_ ?_ ?_ ?_ ?_ ?_ <;> dsimp only <;> ring)

theorem primM2_rev (p : Params ℝ) (u : FldM2 ℝ) :
    primM2 p (fun i j => reverseB (u i j)) = fun i j => reverseB (primM2 p u i j) := by
  funext i j
  unfold primM2
  have h := congrArg Prod.fst (constoprimMhd_rev p.settings (u i j) ⟨(u (i + 1) j).a, (u i (j + 1)).b, lit 0⟩)
  dsimp only [revBF] at h
  have e : (-lit 0 : ℝ) = lit 0 := by simp [RealOps.lit_real]
  rw [e] at h
  exact h

theorem tracesM2_rev (p : Params ℝ) (dt : ℝ) (u : FldM2 ℝ) (i j : Int) :
    tracesM2 p dt (fun i j => reverseB (u i j)) i j = revTrace2 (tracesM2 p dt u i j) := by
  unfold tracesM2 traceM2
  rw [primM2_rev, ← traceMhd2_rev]
  rfl

theorem fluxXM2_rev (p : Params ℝ) (T : Int → Int → TraceM2 ℝ) (i j : Int) :
    fluxXM2 p (fun i j => revTrace2 (T i j)) i j = reverseB (fluxXM2 p T i j) :=
  riemannMhd_rev _ _ _ _

theorem fluxYM2_rev (p : Params ℝ) (T : Int → Int → TraceM2 ℝ) (i j : Int) :
    fluxYM2 p (fun i j => revTrace2 (T i j)) i j = reverseB (fluxYM2 p T i j) :=
  congrArg MS.swapXY (riemannMhd_rev p.settings p.riemannSolverType (T i (j - 1)).qmy.swapXY
    (T i j).qpy.swapXY)

theorem emfM2_rev (p : Params ℝ) (T : Int → Int → TraceM2 ℝ) (i j : Int) :
    emfM2 p (fun i j => revTrace2 (T i j)) i j = -emfM2 p T i j :=
  computeEmf_rev _ _ ⟨_, _, _, _⟩

theorem stepM2_rev (p : Params ℝ) (dt : ℝ) (u : FldM2 ℝ) (i j : Int) :
    stepM2 p dt (fun i j => reverseB (u i j)) i j = reverseB (stepM2 p dt u i j) := by
  have hT : tracesM2 p dt (fun i j => reverseB (u i j)) = fun i j => revTrace2 (tracesM2 p dt u i j) := by
    funext i j; exact tracesM2_rev p dt u i j
  unfold stepM2
  rw [hT]
  generalize tracesM2 p dt u = T
  by_cases h : interior2 p i j
  · rw [if_pos h, if_pos h]
    unfold ctUpdate2 fluxUpdateM2 MS.plus6 MS.minus6
    simp only [fluxXM2_rev, fluxYM2_rev, emfM2_rev]
    generalize fluxXM2 p T i j = a
    generalize fluxXM2 p T (i + 1) j = b
    generalize fluxYM2 p T i j = c
    generalize fluxYM2 p T i (j + 1) = d
    dsimp only [reverseB]
    refine MS.ext ?_ ?_ ?_ ?_ ?_ ?_ ?_ ?_ <;> dsimp only <;> ring
  · rw [if_neg h, if_neg h]

theorem signed_rev (b : Prop) [Decidable b] (x : ℝ) : signed b (-x) = -signed b x := by
  unfold signed; split_ifs <;> ring

theorem fillM2_rev (p : Params ℝ) (u : FldM2 ℝ) :
    fillM2 p (fun i j => reverseB (u i j)) = fun i j => reverseB (fillM2 p u i j) := by
  funext i j
  unfold fillM2 ghost2
  simp only [reverseB, MS.get, ID, IP, IU, IV, IW, IA, IB, IC, signed_rev]

theorem fullStepM2_rev (p : Params ℝ) (dt : ℝ) (u : FldM2 ℝ) (i j : Int) :
    fullStepM2 p dt (fun i j => reverseB (u i j)) i j = reverseB (fullStepM2 p dt u i j) := by
  unfold fullStepM2
  rw [fillM2_rev, stepM2_rev]

theorem fastSpeed_rev (γ bn : ℝ) (q : MS ℝ) : fastSpeed γ (-bn) (reverseB q) = fastSpeed γ bn q := by
  unfold fastSpeed reverseB
  simp only [neg_sq]

theorem mhdRate2_rev (γ x y : ℝ) (q : MS ℝ) : mhdRate2 γ x y (reverseB q) = mhdRate2 γ x y q := by
  unfold mhdRate2
  have h1 := fastSpeed_rev γ q.a q
  have h2 := fastSpeed_rev γ q.b q
  dsimp only [reverseB] at h1 h2 ⊢
  rw [h1, h2]

theorem cflDtM2_rev (p : Params ℝ) (u : FldM2 ℝ) : cflDtM2 p (fun i j => reverseB (u i j)) = cflDtM2 p u := by
  unfold cflDtM2
  rw [fillM2_rev, primM2_rev]
  simp only [mhdRate2_rev]

end EulerKokkos
