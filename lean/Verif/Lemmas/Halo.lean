import Verif.Lemmas.Spmd
import Verif.Lemmas.Mpi
import Verif.Lemmas.GhostFill
import Verif.Spec.Decomposition

/-!
# Halo exchange: one direction, and its composition over the axes
-/

set_option linter.constructorNameAsVariable false
set_option linter.unusedSectionVars false
set_option linter.unusedSimpArgs false

namespace EulerKokkos

variable {R : Type} [RealOps R]
open Spec Spmd

/-- A boundary condition for which the decomposed run agrees with the serial one: one of the four
named conditions, or any value when there is one process along the axis (an undefined value is
treated as "one period away" by the serial code; a decomposed run then wraps around inside the local
block). -/
def Spec.BCmpi (b : BC) (m : Int) : Prop :=
  m = 1 ∨ b = .dirichlet ∨ b = .neumann ∨ b = .periodic ∨ b = .copy

/-- **One axis of the decomposed ghost fill**: `g` is the global line, `A` the line of this process
(position `P` of `m`), `Lf` and `Rt` the lines of its neighbours. -/
theorem axisMpi (hS : SignLaws R) {mhd : Bool} {b1 b2 : BC} {n gw m P : Int}
    (hn1 : 1 ≤ n) (hn : gw ≤ n) (hP : 0 ≤ P) (hPm : P < m) (h1 : BCmpi b1 m) (h2 : BCmpi b2 m)
    {axis v : Nat} {g A Lf Rt mA mB : Int → R}
    (hA : ∀ c, gw ≤ c → c < gw + n → A c = g (P * n + c))
    (hL : ∀ c, gw ≤ c → c < gw + n → Lf c = g ((P - 1) % m * n + c))
    (hR : ∀ c, gw ≤ c → c < gw + n → Rt c = g ((P + 1) % m * n + c))
    (f1 : ∀ c, 0 ≤ c → c < n + 2 * gw → mA c =
      if c < gw then
        if (if P = 0 then b1 else .copy) = .copy ∨ (if P = 0 then b1 else .copy) = .periodic then
          Lf (c + n)
        else A (bcSrcMin b1 n gw c) * bcSign mhd b1 (IU + axis) (IA + axis) v
      else A c)
    (f2 : ∀ c, 0 ≤ c → c < n + 2 * gw → mB c =
      if n + gw ≤ c then
        if (if P = m - 1 then b2 else .copy) = .copy ∨
            (if P = m - 1 then b2 else .copy) = .periodic then Rt (c - n)
        else mA (bcSrcMax b2 n gw c) * bcSign mhd b2 (IU + axis) (IA + axis) v
      else mA c) (c : Int) (hc : 0 ≤ c) (hc' : c < n + 2 * gw) :
    mB c = signed (normalVar mhd axis v ∧ flips b1 b2 (n * m) gw (P * n + c))
      (g (srcCoord b1 b2 (n * m) gw (P * n + c))) := by
  have hsg : ∀ (b : BC) (x : R), x * bcSign mhd b (IU + axis) (IA + axis) v =
      signed (normalVar mhd axis v ∧ b = .dirichlet) x := by
    intro b x
    unfold bcSign signed normalVar
    by_cases hh : b = .dirichlet ∧ (v = IU + axis ∨ (mhd = true ∧ v = IA + axis))
    · rw [if_pos hh, if_pos hh.symm, hS.mul_neg_one]
    · rw [if_neg hh, if_neg (fun h => hh h.symm), hS.mul_one]
  have hmn : n * m = (m - 1) * n + n := by ring
  have hPn : 0 ≤ P * n := Int.mul_nonneg hP (by omega)
  -- interior of the global line
  have inner : ∀ C, gw ≤ C → C < gw + n * m →
      signed (normalVar mhd axis v ∧ flips b1 b2 (n * m) gw C)
        (g (srcCoord b1 b2 (n * m) gw C)) = g C := by
    intro C hC hC'
    have e : srcCoord b1 b2 (n * m) gw C = C := by
      unfold srcCoord; rw [if_neg (by omega), if_neg (by omega)]
    have e2 : ¬ flips b1 b2 (n * m) gw C := by
      unfold flips; rintro (⟨h, _⟩ | ⟨h, _⟩) <;> omega
    rw [e]; unfold signed; rw [if_neg (fun h => e2 h.2)]
  have hPn2 : P * n ≤ (m - 1) * n := Int.mul_le_mul_of_nonneg_right (by omega) (by omega)
  rw [f2 c hc hc']
  by_cases c1 : c < gw
  · rw [if_neg (by omega), f1 c hc hc', if_pos c1]
    by_cases p0 : P = 0
    · subst p0
      simp only [if_true, zero_mul, zero_add]
      have hfl : flips b1 b2 (n * m) gw c ↔ b1 = .dirichlet := by
        unfold flips
        constructor
        · rintro (⟨_, h⟩ | ⟨h, _⟩)
          · exact h
          · nlinarith
        · exact fun h => Or.inl ⟨c1, h⟩
      by_cases hb : b1 = .copy ∨ b1 = .periodic
      · rw [if_pos hb, hL _ (by omega) (by omega)]
        have e : (0 - 1) % m = m - 1 := by
          rw [← Int.add_emod_right, Int.emod_eq_of_lt (by omega) (by omega)]; ring
        have e1 : srcCoord b1 b2 (n * m) gw c = (0 - 1) % m * n + (c + n) := by
          rw [e]
          unfold srcCoord; rw [if_pos c1]
          rcases hb with rfl | rfl <;> simp only <;> linarith
        have e2 : ¬ flips b1 b2 (n * m) gw c := by
          rw [hfl]; rcases hb with rfl | rfl <;> simp
        rw [e1]; unfold signed; rw [if_neg (fun h => e2 h.2)]
      · rw [if_neg hb, hsg]
        have e1 : gw ≤ bcSrcMin b1 n gw c ∧ bcSrcMin b1 n gw c < gw + n ∧
            srcCoord b1 b2 (n * m) gw c = bcSrcMin b1 n gw c := by
          unfold bcSrcMin srcCoord
          rw [if_pos c1]
          rcases h1 with rfl | rfl | rfl | rfl | rfl
          · cases b1 <;> simp at hb ⊢ <;> omega
          · simp; omega
          · simp; omega
          · simp at hb
          · simp at hb
        rw [hA _ e1.1 e1.2.1, e1.2.2]
        unfold signed
        simp only [hfl, zero_mul, zero_add]
    · have hP1 : n ≤ P * n := by
        have : 1 * n ≤ P * n := Int.mul_le_mul_of_nonneg_right (by omega) (by omega)
        omega
      simp only [if_neg p0, true_or, if_true]
      have e : (P - 1) % m = P - 1 := Int.emod_eq_of_lt (by omega) (by omega)
      rw [hL _ (by omega) (by omega), inner _ (by omega) (by omega), e]
      congr 1; ring
  · by_cases c2 : n + gw ≤ c
    · rw [if_pos c2]
      by_cases p0 : P = m - 1
      · subst p0
        simp only [if_true]
        have hfl : flips b1 b2 (n * m) gw ((m - 1) * n + c) ↔ b2 = .dirichlet := by
          unfold flips
          constructor
          · rintro (⟨h, _⟩ | ⟨_, h⟩)
            · omega
            · exact h
          · exact fun h => Or.inr ⟨by omega, h⟩
        by_cases hb : b2 = .copy ∨ b2 = .periodic
        · rw [if_pos hb, hR _ (by omega) (by omega)]
          have e : (m - 1 + 1) % m = 0 := by simp
          have e1 : srcCoord b1 b2 (n * m) gw ((m - 1) * n + c) =
              (m - 1 + 1) % m * n + (c - n) := by
            rw [e]
            unfold srcCoord; rw [if_neg (by omega), if_pos (by omega)]
            rcases hb with rfl | rfl <;> simp only <;> linarith
          have e2 : ¬ flips b1 b2 (n * m) gw ((m - 1) * n + c) := by
            rw [hfl]; rcases hb with rfl | rfl <;> simp
          rw [e1]; unfold signed; rw [if_neg (fun h => e2 h.2)]
        · rw [if_neg hb, hsg]
          have e1 : gw ≤ bcSrcMax b2 n gw c ∧ bcSrcMax b2 n gw c < gw + n ∧
              srcCoord b1 b2 (n * m) gw ((m - 1) * n + c) = (m - 1) * n + bcSrcMax b2 n gw c := by
            have q1 : ¬ (m - 1) * n + c < gw := by omega
            have q2 : gw + n * m ≤ (m - 1) * n + c := by omega
            unfold bcSrcMax srcCoord
            simp only [if_neg q1, if_pos q2]
            rcases h2 with rfl | rfl | rfl | rfl | rfl
            · cases b2 <;> simp at hb ⊢ <;> omega
            · simp only [if_true]; refine ⟨?_, ?_, ?_⟩ <;> linarith
            · simp only [reduceCtorEq, if_false, if_true]; refine ⟨?_, ?_, ?_⟩ <;> linarith
            · simp at hb
            · simp at hb
          rw [f1 _ (by omega) (by omega), if_neg (by omega), hA _ e1.1 e1.2.1, e1.2.2]
          unfold signed
          simp only [hfl]
      · have hP1 : P * n ≤ (m - 2) * n := Int.mul_le_mul_of_nonneg_right (by omega) (by omega)
        simp only [if_neg p0, true_or, if_true]
        have e : (P + 1) % m = P + 1 := Int.emod_eq_of_lt (by omega) (by omega)
        have : (m - 2) * n = (m - 1) * n - n := by ring
        rw [hR _ (by omega) (by omega), inner _ (by omega) (by omega), e]
        congr 1; ring
    · rw [if_neg c2, f1 c hc hc', if_neg c1, hA _ (by omega) (by omega),
        inner _ (by omega) (by omega)]

/-! ### One direction -/

/-- the view is not one of the border buffers -/
def NotBuf (U : Arr) : Prop := ∀ f, U ≠ .send f ∧ U ≠ .recv f

/-- ghost layer of one face as a function on memories -/
def fillFun (mhd : Bool) (T : Topo) (p : Params R) (U : Arr) (e : Int × Int × Int)
    (G : Int × Int × Int → Prop) [DecidablePred G] (f : Face) (r : T.Rank) (m : Mem Arr R) :
    Mem Arr R :=
  if fromNeighbour T p r f then boxCopy p.nbvar U (.recv f) e (unpackOff p f) (0, 0, 0) m
  else faceFill p.nbvar U G (faceSrc p f) (faceSign mhd p f) m

theorem boxCopy_eval {nb : Nat} {B A : Arr} {e o s : Int × Int × Int} {m : Mem Arr R}
    {i j k : Int} {v : Nat} (hv : v < nb) :
    boxCopy nb B A e o s m ⟨B, i, j, k, v⟩ =
      if InBox e (unshift3 o (i, j, k)) then
        m ⟨A, s.1 + (i - o.1), s.2.1 + (j - o.2.1), s.2.2 + (k - o.2.2), v⟩
      else m ⟨B, i, j, k, v⟩ := by
  unfold boxCopy cellCopy cellOf shift3 unshift3
  by_cases hg : InBox e (i - o.1, j - o.2.1, k - o.2.2)
  · simp [hg, hv]
  · simp [hg]

theorem boxCopy_off {nb : Nat} {B A : Arr} {e o s : Int × Int × Int} {m : Mem Arr R} {l : Loc Arr}
    (hl : ¬ (l.arr = B ∧ InBox e (unshift3 o (cellOf l)) ∧ l.v < nb)) :
    boxCopy nb B A e o s m l = m l := by
  unfold boxCopy cellCopy; rw [if_neg hl]

theorem fillFun_off {mhd : Bool} {T : Topo} {p : Params R} {U : Arr} {e : Int × Int × Int}
    {G : Int × Int × Int → Prop} [DecidablePred G] {f : Face} {r : T.Rank} {m : Mem Arr R}
    (hG : ∀ c, InBox e (unshift3 (unpackOff p f) c) ↔ G c) {l : Loc Arr}
    (hl : ¬ (l.arr = U ∧ G (cellOf l) ∧ l.v < p.nbvar)) : fillFun mhd T p U e G f r m l = m l := by
  unfold fillFun
  split
  · exact boxCopy_off (by rwa [hG])
  · exact faceFill_off hl

theorem fillFun_eval {mhd : Bool} {T : Topo} {p : Params R} {U : Arr} {e : Int × Int × Int}
    {G : Int × Int × Int → Prop} [DecidablePred G] {f : Face} {r : T.Rank} {m : Mem Arr R}
    (hG : ∀ c, InBox e (unshift3 (unpackOff p f) c) ↔ G c) {i j k : Int} {v : Nat}
    (hv : v < p.nbvar) :
    fillFun mhd T p U e G f r m ⟨U, i, j, k, v⟩ =
      if G (i, j, k) then
        if fromNeighbour T p r f then
          m ⟨.recv f, i - (unpackOff p f).1, j - (unpackOff p f).2.1, k - (unpackOff p f).2.2, v⟩
        else m ⟨U, (faceSrc p f (i, j, k)).1, (faceSrc p f (i, j, k)).2.1,
          (faceSrc p f (i, j, k)).2.2, v⟩ * faceSign mhd p f v
      else m ⟨U, i, j, k, v⟩ := by
  unfold fillFun
  by_cases h : fromNeighbour T p r f
  · simp only [if_pos h]
    rw [boxCopy_eval hv]
    simp only [hG, zero_add]
  · simp only [if_neg h]
    rw [faceFill_eval hv]

/-- **One direction of the halo exchange**, all ranks together: what each process holds afterwards,
in terms of what it and its two neighbours held before. -/
theorem exchangeDir_bulk {mhd : Bool} {T : Topo} {p : Params R} {U : Arr} {lay : Layout}
    {fmin fmax : Face} {tag : Nat} {e : Int × Int × Int} (hU : NotBuf U)
    (hne : fmin ≠ fmax)
    {Gmin Gmax : Int × Int × Int → Prop} [DecidablePred Gmin] [DecidablePred Gmax]
    {pmin pmax : Kern Arr R} {kmin kmax : T.Rank → Kern Arr R}
    (hpmin : pmin.Is (boxCopy p.nbvar (.send fmin) U e (0, 0, 0) (packOff p fmin)))
    (hpmax : pmax.Is (boxCopy p.nbvar (.send fmax) U e (0, 0, 0) (packOff p fmax)))
    (hkmin : ∀ r, (kmin r).Is (fillFun mhd T p U e Gmin fmin r))
    (hkmax : ∀ r, (kmax r).Is (fillFun mhd T p U e Gmax fmax r))
    (hGmin : ∀ c, InBox e (unshift3 (unpackOff p fmin) c) ↔ Gmin c)
    (hGmax : ∀ c, InBox e (unshift3 (unpackOff p fmax) c) ↔ Gmax c)
    (s : T.Rank → Mem Arr R) :
    ∃ s', BulkRel
      [ (.loc fun _ => Kern.seq pmin pmax : Phase T.Rank (Mem Arr R) (Msg R)),
        .exch (T.neighborRank fmin) (T.neighborRank fmax) tag tag
          (sendView lay e p.nbvar (.send fmin)) (recvView lay e p.nbvar (.recv fmax)),
        .exch (T.neighborRank fmax) (T.neighborRank fmin) tag tag
          (sendView lay e p.nbvar (.send fmax)) (recvView lay e p.nbvar (.recv fmin)),
        .loc fun r => Kern.seq (kmin r) (kmax r),
        barrier _ _ ] s s' ∧ ∀ r,
      (∀ l : Loc Arr, (∀ f, f = fmin ∨ f = fmax → l.arr ≠ .send f ∧ l.arr ≠ .recv f) →
        ¬ (l.arr = U ∧ (Gmin (cellOf l) ∨ Gmax (cellOf l)) ∧ l.v < p.nbvar) → s' r l = s r l) ∧
      (∀ i j k v, InBox e (i, j, k) → v < p.nbvar →
        s' r ⟨.recv fmin, i, j, k, v⟩ = s' (T.neighborRank fmin r) ⟨.send fmax, i, j, k, v⟩ ∧
        s' r ⟨.recv fmax, i, j, k, v⟩ = s' (T.neighborRank fmax r) ⟨.send fmin, i, j, k, v⟩ ∧
        s' r ⟨.send fmin, i, j, k, v⟩ = s r ⟨U, (packOff p fmin).1 + i, (packOff p fmin).2.1 + j,
          (packOff p fmin).2.2 + k, v⟩ ∧
        s' r ⟨.send fmax, i, j, k, v⟩ = s r ⟨U, (packOff p fmax).1 + i, (packOff p fmax).2.1 + j,
          (packOff p fmax).2.2 + k, v⟩) ∧
      ∃ ma : Mem Arr R, ∀ i j k v, v < p.nbvar →
        ma ⟨U, i, j, k, v⟩ = (if Gmin (i, j, k) then
          if fromNeighbour T p r fmin then
            s (T.neighborRank fmin r) ⟨U, (packOff p fmax).1 + (i - (unpackOff p fmin).1),
              (packOff p fmax).2.1 + (j - (unpackOff p fmin).2.1),
              (packOff p fmax).2.2 + (k - (unpackOff p fmin).2.2), v⟩
          else s r ⟨U, (faceSrc p fmin (i, j, k)).1, (faceSrc p fmin (i, j, k)).2.1,
            (faceSrc p fmin (i, j, k)).2.2, v⟩ * faceSign mhd p fmin v
          else s r ⟨U, i, j, k, v⟩) ∧
        s' r ⟨U, i, j, k, v⟩ = (if Gmax (i, j, k) then
          if fromNeighbour T p r fmax then
            s (T.neighborRank fmax r) ⟨U, (packOff p fmin).1 + (i - (unpackOff p fmax).1),
              (packOff p fmin).2.1 + (j - (unpackOff p fmax).2.1),
              (packOff p fmin).2.2 + (k - (unpackOff p fmax).2.2), v⟩
          else ma ⟨U, (faceSrc p fmax (i, j, k)).1, (faceSrc p fmax (i, j, k)).2.1,
            (faceSrc p fmax (i, j, k)).2.2, v⟩ * faceSign mhd p fmax v
          else ma ⟨U, i, j, k, v⟩) := by
  set F1 : Mem Arr R → Mem Arr R := fun m =>
    boxCopy p.nbvar (.send fmax) U e (0, 0, 0) (packOff p fmax)
      (boxCopy p.nbvar (.send fmin) U e (0, 0, 0) (packOff p fmin) m) with hF1
  set s1 : T.Rank → Mem Arr R := fun r => F1 (s r) with hs1
  set s2 : T.Rank → Mem Arr R := fun r => recvView lay e p.nbvar (.recv fmax)
    (sendView lay e p.nbvar (.send fmin) (s1 (T.neighborRank fmax r))) (s1 r) with hs2
  set s3 : T.Rank → Mem Arr R := fun r => recvView lay e p.nbvar (.recv fmin)
    (sendView lay e p.nbvar (.send fmax) (s2 (T.neighborRank fmin r))) (s2 r) with hs3
  set s4 : T.Rank → Mem Arr R := fun r => fillFun mhd T p U e Gmax fmax r
    (fillFun mhd T p U e Gmin fmin r (s3 r)) with hs4
  -- what the buffers hold
  have v1 : ∀ r (l : Loc Arr), (∀ f, f = fmin ∨ f = fmax → l.arr ≠ .send f) →
      s1 r l = s r l := by
    intro r l hl
    simp only [hs1, hF1]
    rw [boxCopy_off (fun h => hl _ (Or.inr rfl) h.1), boxCopy_off (fun h => hl _ (Or.inl rfl) h.1)]
  have v1min : ∀ r i j k v, InBox e (i, j, k) → v < p.nbvar → s1 r ⟨.send fmin, i, j, k, v⟩ =
      s r ⟨U, (packOff p fmin).1 + i, (packOff p fmin).2.1 + j, (packOff p fmin).2.2 + k, v⟩ := by
    intro r i j k v hb hv
    simp only [hs1, hF1]
    rw [boxCopy_off (fun h => hne (by simpa using h.1)), boxCopy_eval hv,
      if_pos (by simpa [unshift3] using hb)]
    simp
  have v1max : ∀ r i j k v, InBox e (i, j, k) → v < p.nbvar → s1 r ⟨.send fmax, i, j, k, v⟩ =
      s r ⟨U, (packOff p fmax).1 + i, (packOff p fmax).2.1 + j, (packOff p fmax).2.2 + k, v⟩ := by
    intro r i j k v hb hv
    simp only [hs1, hF1]
    rw [boxCopy_eval hv, if_pos (by simpa [unshift3] using hb), boxCopy_off
      (fun h => (hU fmin).1 h.1)]
    simp
  have hin : ∀ (l : Loc Arr), inView e p.nbvar l ↔ InBox e (cellOf l) ∧ l.v < p.nbvar := by
    intro l; unfold inView InBox cellOf; tauto
  have v2 : ∀ r (l : Loc Arr), (∀ f, f = fmin ∨ f = fmax → l.arr ≠ .recv f) →
      s2 r l = s1 r l := by
    intro r l hl
    simp only [hs2, recv_send]
    rw [if_neg (fun h => hl _ (Or.inr rfl) h.1)]
  have v3 : ∀ r (l : Loc Arr), (∀ f, f = fmin ∨ f = fmax → l.arr ≠ .recv f) →
      s3 r l = s1 r l := by
    intro r l hl
    simp only [hs3, recv_send]
    rw [if_neg (fun h => hl _ (Or.inl rfl) h.1), v2 r l hl]
  have v3max : ∀ r i j k v, InBox e (i, j, k) → v < p.nbvar → s3 r ⟨.recv fmax, i, j, k, v⟩ =
      s1 (T.neighborRank fmax r) ⟨.send fmin, i, j, k, v⟩ := by
    intro r i j k v hb hv
    simp only [hs3, recv_send]
    rw [if_neg (fun h => hne (by simpa using h.1.symm))]
    simp only [hs2, recv_send]
    rw [if_pos ⟨trivial, (hin _).mpr ⟨hb, hv⟩⟩]
  have v3min : ∀ r i j k v, InBox e (i, j, k) → v < p.nbvar → s3 r ⟨.recv fmin, i, j, k, v⟩ =
      s1 (T.neighborRank fmin r) ⟨.send fmax, i, j, k, v⟩ := by
    intro r i j k v hb hv
    simp only [hs3, recv_send]
    rw [if_pos ⟨trivial, (hin _).mpr ⟨hb, hv⟩⟩]
    exact v2 _ _ (fun f _ => by simp)
  have v4 : ∀ r (l : Loc Arr), l.arr ≠ U → s4 r l = s3 r l := by
    intro r l hl
    simp only [hs4]
    rw [fillFun_off hGmax (fun h => hl h.1), fillFun_off hGmin (fun h => hl h.1)]
  refine ⟨s4, ?_, fun r => ⟨?_, ?_, ?_⟩⟩
  · refine BulkRel.cons (b := s1) (BulkRel.loc fun r m' => ?_) ?_
    · exact (Kern.Is.seq hpmin hpmax) (s r) m'
    · refine BulkRel.cons (b := s2) (BulkRel.exch s1) ?_
      refine BulkRel.cons (b := s3) (BulkRel.exch s2) ?_
      refine BulkRel.cons (b := s4) (BulkRel.loc fun r m' => ?_) (BulkRel.coll s4)
      exact (Kern.Is.seq (hkmin r) (hkmax r)) (s3 r) m'
  · intro l hl hn
    simp only [hs4]
    rw [fillFun_off hGmax (fun h => hn ⟨h.1, Or.inr h.2.1, h.2.2⟩),
      fillFun_off hGmin (fun h => hn ⟨h.1, Or.inl h.2.1, h.2.2⟩),
      v3 r l (fun f hf => (hl f hf).2), v1 r l (fun f hf => (hl f hf).1)]
  · intro i j k v hb hv
    have a1 : ∀ r f, s4 r ⟨.send f, i, j, k, v⟩ = s1 r ⟨.send f, i, j, k, v⟩ := by
      intro r f
      rw [v4 _ _ (hU f).1.symm, v3 _ _ (fun f _ => by simp)]
    refine ⟨?_, ?_, ?_, ?_⟩
    · rw [v4 _ _ (hU fmin).2.symm, v3min r i j k v hb hv, a1]
    · rw [v4 _ _ (hU fmax).2.symm, v3max r i j k v hb hv, a1]
    · rw [a1, v1min r i j k v hb hv]
    · rw [a1, v1max r i j k v hb hv]
  · have hUv : ∀ r i j k v, s3 r ⟨U, i, j, k, v⟩ = s r ⟨U, i, j, k, v⟩ := by
      intro r i j k v
      rw [v3 r _ (fun f _ => (hU f).2), v1 r _ (fun f _ => (hU f).1)]
    refine ⟨fillFun mhd T p U e Gmin fmin r (s3 r), fun i j k v hv => ⟨?_, ?_⟩⟩
    · rw [fillFun_eval hGmin hv]
      by_cases hg : Gmin (i, j, k)
      · have hb := (hGmin _).mpr hg
        simp only [if_pos hg]
        by_cases hf : fromNeighbour T p r fmin
        · simp only [if_pos hf]
          rw [v3min r _ _ _ v hb hv, v1max _ _ _ _ v hb hv]
        · simp only [if_neg hf]
          rw [hUv]
      · simp only [if_neg hg]
        rw [hUv]
    · simp only [hs4]
      rw [fillFun_eval hGmax hv]
      by_cases hg : Gmax (i, j, k)
      · have hb := (hGmax _).mpr hg
        simp only [if_pos hg]
        by_cases hf : fromNeighbour T p r fmax
        · simp only [if_pos hf]
          rw [fillFun_off hGmin (fun h => (hU fmax).2 h.1.symm), v3max r _ _ _ v hb hv,
            v1min _ _ _ _ v hb hv]
        · simp only [if_neg hf]
      · simp only [if_neg hg]

/-- the exchange of one direction is correctly matched whenever the two neighbour maps are inverse -/
theorem exchangeDir_matched {S M : Type} {ρ : Type} {k1 k2 : ρ → S → S → Prop}
    {a b : ρ → ρ} {tag : Nat} {pk1 pk2 : S → M} {up1 up2 : M → S → S} {c : S → M}
    {cb : (ρ → M) → S → S} (h1 : ∀ r, b (a r) = r) (h2 : ∀ r, a (b r) = r) :
    Matched [ (.loc k1 : Phase ρ S M), .exch a b tag tag pk1 up1, .exch b a tag tag pk2 up2,
      .loc k2, .coll c cb ] := by
  refine Matched.cons (.single trivial) ?_
  refine Matched.cons (.single ⟨rfl, h1, h2⟩) ?_
  refine Matched.cons (.single ⟨rfl, h2, h1⟩) ?_
  exact Matched.cons (.single trivial) (.single trivial)

end EulerKokkos
