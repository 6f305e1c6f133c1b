import Verif.Lemmas.Halo2
import Verif.Props.Sample

/-!
# C10, C12, C38: the MPI halo exchange
-/

set_option linter.constructorNameAsVariable false
set_option linter.unusedSectionVars false
set_option linter.unusedSimpArgs false

namespace EulerKokkos

variable {R : Type} [RealOps R]
open Spec Spmd

/-! ### C38: packing, sending, receiving and unpacking one face -/

/-- ghost cells of a block behind face `g`: the `ghostWidth` layers outside the interior; the layer
spans the whole block, ghost cells included, along the other axes -/
def Spec.behind (p : Params R) (d : Dim) (g : Face) (c : Int × Int × Int) : Prop :=
  (match g with
    | .xmin => 0 ≤ c.1 ∧ c.1 < p.ghostWidth
    | .xmax => p.ghostWidth + p.nx ≤ c.1 ∧ c.1 < 2 * p.ghostWidth + p.nx
    | _ => 0 ≤ c.1 ∧ c.1 < 2 * p.ghostWidth + p.nx) ∧
  (match g with
    | .ymin => 0 ≤ c.2.1 ∧ c.2.1 < p.ghostWidth
    | .ymax => p.ghostWidth + p.ny ≤ c.2.1 ∧ c.2.1 < 2 * p.ghostWidth + p.ny
    | _ => 0 ≤ c.2.1 ∧ c.2.1 < 2 * p.ghostWidth + p.ny) ∧
  (match d with
    | .two => c.2.2 = 0
    | .three => match g with
      | .zmin => 0 ≤ c.2.2 ∧ c.2.2 < p.ghostWidth
      | .zmax => p.ghostWidth + p.nz ≤ c.2.2 ∧ c.2.2 < 2 * p.ghostWidth + p.nz
      | _ => 0 ≤ c.2.2 ∧ c.2.2 < 2 * p.ghostWidth + p.nz)

instance (p : Params R) (d : Dim) (g : Face) : DecidablePred (behind p d g) := by
  rintro c
  cases d <;> cases g <;> unfold behind <;> infer_instance

/-- the same place of space in the local numbering of the block on the other side of face `g` -/
def Spec.inNeighbour (p : Params R) : Face → Int × Int × Int → Int × Int × Int
  | .xmin, (i, j, k) => (i + p.nx, j, k)
  | .xmax, (i, j, k) => (i - p.nx, j, k)
  | .ymin, (i, j, k) => (i, j + p.ny, k)
  | .ymax, (i, j, k) => (i, j - p.ny, k)
  | .zmin, (i, j, k) => (i, j, k + p.nz)
  | .zmax, (i, j, k) => (i, j, k - p.nz)

/-- **C38 (2D).** In every schedule of the two kernels: the neighbour packs its border opposite to
`g`, the message is received and unpacked.  The message has exactly the size of the receive buffer;
every ghost cell behind face `g` gets, for each variable, the value its place of space has in the
neighbour; nothing else of the receiver's data changes, and the sender's data does not change.
Pack and unpack have exactly one outcome. -/
theorem C38_lossless_2d {p : Params R} (hw : p.WF) (lay : Layout) {U : Arr} (hU : NotBuf U)
    {g : Face} (hg : g.is2) (snd rcv : Mem Arr R) :
    ∃ snd', (∀ m', packK2 lay p U (opposite g) snd m' ↔ m' = snd') ∧
      (∀ l, (∀ f, l.arr ≠ .send f) → snd' l = snd l) ∧
      (sendView lay (bufExt2 p (opposite g)) p.nbvar (.send (opposite g)) snd').count =
        viewSize (bufExt2 p g) p.nbvar ∧
      ∃ rcv', (∀ m', unpackK2 lay p U g
          (recvView lay (bufExt2 p g) p.nbvar (.recv g)
            (sendView lay (bufExt2 p (opposite g)) p.nbvar (.send (opposite g)) snd') rcv) m' ↔
          m' = rcv') ∧
        ∀ i j k v, rcv' ⟨U, i, j, k, v⟩ =
          if behind p .two g (i, j, k) ∧ v < p.nbvar then
            snd ⟨U, (inNeighbour p g (i, j, k)).1, (inNeighbour p g (i, j, k)).2.1,
              (inNeighbour p g (i, j, k)).2.2, v⟩
          else rcv ⟨U, i, j, k, v⟩ := by
  have hI := hw.isize_eq
  have hJ := hw.jsize_eq
  have hgw := hw.gw_pos
  have hx := hw.nx_pos
  have hy := hw.ny_pos
  have ho : (opposite g).is2 := by cases g <;> trivial
  have hext : bufExt2 p (opposite g) = bufExt2 p g := by cases g <;> rfl
  refine ⟨_, packK2_is lay hw U (opposite g) (hU _).1 ho snd, ?_, by rw [hext]; rfl, _,
    unpackK2_is lay hw U g (hU g).2.symm hg _, ?_⟩
  · intro l hl
    exact boxCopy_off (fun h => hl _ h.1)
  · intro i j k v
    by_cases hv : v < p.nbvar
    · rw [boxCopy_eval hv, hext, recv_send]
      have hb : InBox (bufExt2 p g) (unshift3 (unpackOff p g) (i, j, k)) ↔
          behind p .two g (i, j, k) := by
        cases g <;> simp only [InBox, bufExt2, unshift3, unpackOff, behind, and_true] <;>
          first
            | omega
            | exact hg.elim
      by_cases hc : behind p .two g (i, j, k)
      · have hc' := hb.mpr hc
        rw [if_pos hc', if_pos ⟨hc, hv⟩]
        have hv' : inView (bufExt2 p g) p.nbvar ⟨Arr.recv g, 0 + (i - (unpackOff p g).1),
            0 + (j - (unpackOff p g).2.1), 0 + (k - (unpackOff p g).2.2), v⟩ := by
          simp only [inView, zero_add]
          exact ⟨hc'.1, hc'.2.1, hc'.2.2, hv⟩
        simp only [hv', and_self, if_true]
        rw [boxCopy_eval hv, if_pos (by simpa [unshift3, InBox] using hc')]
        congr 2 <;> cases g <;> simp only [packOff, opposite, unpackOff, inNeighbour] <;>
          first
            | omega
            | exact hg.elim
      · rw [if_neg (fun h => hc (hb.mp h)), if_neg (fun h => hc h.1)]
        have : ¬ ((⟨U, i, j, k, v⟩ : Loc Arr).arr = Arr.recv g ∧
            inView (bufExt2 p g) p.nbvar (⟨U, i, j, k, v⟩ : Loc Arr)) := fun h => (hU g).2 h.1
        simp only [this, if_false]
    · rw [boxCopy_off (fun h => hv h.2.2), hext, recv_send, if_neg (fun h => hv h.2)]
      have : ¬ ((⟨U, i, j, k, v⟩ : Loc Arr).arr = Arr.recv g ∧
            inView (bufExt2 p g) p.nbvar (⟨U, i, j, k, v⟩ : Loc Arr)) := fun h => (hU g).2 h.1
      simp only [this, if_false]

/-- **C38 (3D).** -/
theorem C38_lossless_3d {p : Params R} (hw : p.WF) (lay : Layout) {U : Arr} (hU : NotBuf U)
    (g : Face) (snd rcv : Mem Arr R) :
    ∃ snd', (∀ m', packK3 lay p U (opposite g) snd m' ↔ m' = snd') ∧
      (∀ l, (∀ f, l.arr ≠ .send f) → snd' l = snd l) ∧
      (sendView lay (bufExt3 p (opposite g)) p.nbvar (.send (opposite g)) snd').count =
        viewSize (bufExt3 p g) p.nbvar ∧
      ∃ rcv', (∀ m', unpackK3 lay p U g
          (recvView lay (bufExt3 p g) p.nbvar (.recv g)
            (sendView lay (bufExt3 p (opposite g)) p.nbvar (.send (opposite g)) snd') rcv) m' ↔
          m' = rcv') ∧
        ∀ i j k v, rcv' ⟨U, i, j, k, v⟩ =
          if behind p .three g (i, j, k) ∧ v < p.nbvar then
            snd ⟨U, (inNeighbour p g (i, j, k)).1, (inNeighbour p g (i, j, k)).2.1,
              (inNeighbour p g (i, j, k)).2.2, v⟩
          else rcv ⟨U, i, j, k, v⟩ := by
  have hI := hw.isize_eq
  have hJ := hw.jsize_eq
  have hK := hw.ksize_eq
  have hgw := hw.gw_pos
  have hx := hw.nx_pos
  have hy := hw.ny_pos
  have hz := hw.nz_pos
  have hext : bufExt3 p (opposite g) = bufExt3 p g := by cases g <;> rfl
  refine ⟨_, packK3_is lay hw U (opposite g) (hU _).1 snd, ?_, by rw [hext]; rfl, _,
    unpackK3_is lay hw U g (hU g).2.symm _, ?_⟩
  · intro l hl
    exact boxCopy_off (fun h => hl _ h.1)
  · intro i j k v
    by_cases hv : v < p.nbvar
    · rw [boxCopy_eval hv, hext, recv_send]
      have hb : InBox (bufExt3 p g) (unshift3 (unpackOff p g) (i, j, k)) ↔
          behind p .three g (i, j, k) := by
        cases g <;> simp only [InBox, bufExt3, unshift3, unpackOff, behind, and_true] <;> omega
      by_cases hc : behind p .three g (i, j, k)
      · have hc' := hb.mpr hc
        rw [if_pos hc', if_pos ⟨hc, hv⟩]
        have hv' : inView (bufExt3 p g) p.nbvar ⟨Arr.recv g, 0 + (i - (unpackOff p g).1),
            0 + (j - (unpackOff p g).2.1), 0 + (k - (unpackOff p g).2.2), v⟩ := by
          simp only [inView, zero_add]
          exact ⟨hc'.1, hc'.2.1, hc'.2.2, hv⟩
        simp only [hv', and_self, if_true]
        rw [boxCopy_eval hv, if_pos (by simpa [unshift3, InBox] using hc')]
        congr 2 <;> cases g <;> simp only [packOff, opposite, unpackOff, inNeighbour] <;> omega
      · rw [if_neg (fun h => hc (hb.mp h)), if_neg (fun h => hc h.1)]
        have : ¬ ((⟨U, i, j, k, v⟩ : Loc Arr).arr = Arr.recv g ∧
            inView (bufExt3 p g) p.nbvar (⟨U, i, j, k, v⟩ : Loc Arr)) := fun h => (hU g).2 h.1
        simp only [this, if_false]
    · rw [boxCopy_off (fun h => hv h.2.2), hext, recv_send, if_neg (fun h => hv h.2)]
      have : ¬ ((⟨U, i, j, k, v⟩ : Loc Arr).arr = Arr.recv g ∧
            inView (bufExt3 p g) p.nbvar (⟨U, i, j, k, v⟩ : Loc Arr)) := fun h => (hU g).2 h.1
      simp only [this, if_false]

/-- **C38, "every cell of the layer exactly once"**: with blocks at least as wide as the ghost
layer, the ghost cells behind `g` correspond one to one to the interior cells of the neighbour
within `ghostWidth` of the opposite face (along the axis of `g`). -/
theorem C38_layer_bijection {p : Params R} (hw : p.WF) (hwide : Wide3 p) (d : Dim) (g : Face)
    (hd : d = .two → g.is2) :
    (∀ c c', behind p d g c → behind p d g c' → inNeighbour p g c = inNeighbour p g c' → c = c') ∧
    (∀ c, behind p d g c → inNeighbour p (opposite g) (inNeighbour p g c) = c) ∧
    (∀ i j k, behind p d g (i, j, k) →
      match g with
      | .xmin => p.nx ≤ i + p.nx ∧ i + p.nx < p.ghostWidth + p.nx ∧ p.ghostWidth ≤ i + p.nx
      | .xmax => p.ghostWidth ≤ i - p.nx ∧ i - p.nx < 2 * p.ghostWidth ∧
          i - p.nx < p.ghostWidth + p.nx
      | .ymin => p.ny ≤ j + p.ny ∧ j + p.ny < p.ghostWidth + p.ny ∧ p.ghostWidth ≤ j + p.ny
      | .ymax => p.ghostWidth ≤ j - p.ny ∧ j - p.ny < 2 * p.ghostWidth ∧
          j - p.ny < p.ghostWidth + p.ny
      | .zmin => p.nz ≤ k + p.nz ∧ k + p.nz < p.ghostWidth + p.nz ∧ p.ghostWidth ≤ k + p.nz
      | .zmax => p.ghostWidth ≤ k - p.nz ∧ k - p.nz < 2 * p.ghostWidth ∧
          k - p.nz < p.ghostWidth + p.nz) := by
  obtain ⟨⟨h1, h2⟩, h3⟩ := hwide
  have hgw := hw.gw_pos
  refine ⟨?_, ?_, ?_⟩
  · rintro ⟨i, j, k⟩ ⟨i', j', k'⟩ _ _ h
    cases g <;> simp only [inNeighbour, Prod.mk.injEq] at h ⊢ <;> omega
  · rintro ⟨i, j, k⟩ _
    cases g <;> simp only [inNeighbour, opposite, Prod.mk.injEq, and_true, true_and, add_sub_cancel_right, sub_add_cancel]
  · intro i j k h
    cases d <;> cases g <;> simp only [behind] at h ⊢ <;> first | omega | exact (hd rfl).elim

/-! ### C12: messages are matched, no deadlock -/

/-- **C12 (2D).** Any process grid (also 1 or 2 processes along an axis), any schedule of the ranks,
with or without buffering by the MPI library: the exchange takes a bounded number of steps; as long
as it is not complete some rank can make a step even if the library buffers nothing (no deadlock);
once complete no message is left over, and every receive buffer holds what the neighbour *on that
side* put in its send buffer for the opposite side. -/
theorem C12_exchange_2d {p : Params R} (hw : p.WF) (hf : Faces2Ok p) (T : Topo) (lay : Layout)
    (mhd : Bool) {U : Arr} (hU : NotBuf U) (s : T.Rank → Mem Arr R) {buf : Prop} {n : Nat}
    {c : Config T.Rank (Mem Arr R) (Msg R)}
    (hs : Steps buf (makeBoundariesMpi2 lay mhd T p U) n (Config.init s) c) :
    n ≤ 30 * T.size ∧
    (¬ c.Done (makeBoundariesMpi2 lay mhd T p U) →
      ∃ c', Step False (makeBoundariesMpi2 lay mhd T p U) c c') ∧
    (c.Done (makeBoundariesMpi2 lay mhd T p U) →
      (∀ a b t, c.chan a b t = []) ∧
      ∀ (r : T.Rank) (g : Face) (l : Loc Arr), g.is2 → inView (bufExt2 p g) p.nbvar l →
        c.st r { l with arr := .recv g } =
          c.st (T.neighborRank g r) { l with arr := .send (opposite g) }) := by
  obtain ⟨f1, f2, f3, f4⟩ := hf
  obtain ⟨s1, hb1, h1⟩ := exchangeDir_bulk (mhd := mhd) (T := T) (p := p) (U := U) (lay := lay)
    (fmin := .xmin) (fmax := .xmax) (tag := 111) (e := bufExt2 p .xmin) hU (by simp)
    (packK2_is lay hw U .xmin (hU _).1 trivial) (packK2_is lay hw U .xmax (hU _).1 trivial)
    (fillFace2_is hw lay mhd T hU .xmin trivial f1)
    (fillFace2_is hw lay mhd T hU .xmax trivial f2)
    (inBox_G2 hw .xmin trivial) (inBox_G2 hw .xmax trivial) s
  obtain ⟨s2, hb2, h2⟩ := exchangeDir_bulk (mhd := mhd) (T := T) (p := p) (U := U) (lay := lay)
    (fmin := .ymin) (fmax := .ymax) (tag := 211) (e := bufExt2 p .ymin) hU (by simp)
    (packK2_is lay hw U .ymin (hU _).1 trivial) (packK2_is lay hw U .ymax (hU _).1 trivial)
    (fillFace2_is hw lay mhd T hU .ymin trivial f3)
    (fillFace2_is hw lay mhd T hU .ymax trivial f4)
    (inBox_G2 hw .ymin trivial) (inBox_G2 hw .ymax trivial) s1
  have hb : BulkRel (makeBoundariesMpi2 lay mhd T p U) s s2 := hb1.append hb2
  obtain ⟨r1, r2, r3⟩ := hb.run matched2 hs
  refine ⟨?_, r2, fun hd => ⟨(r3 hd).2, ?_⟩⟩
  · rw [Fintype.card_fin] at r1
    exact r1
  · rw [(r3 hd).1]
    rintro r g ⟨a, i, j, k, v⟩ hg ⟨q1, q2, q3, q4⟩
    have hx : ∀ (r : T.Rank) (f : Face), f = .xmin ∨ f = .xmax →
        s2 r ⟨.send f, i, j, k, v⟩ = s1 r ⟨.send f, i, j, k, v⟩ ∧
        s2 r ⟨.recv f, i, j, k, v⟩ = s1 r ⟨.recv f, i, j, k, v⟩ := by
      intro r f hf
      have hne : ∀ f', f' = Face.ymin ∨ f' = Face.ymax → f ≠ f' := by
        rcases hf with rfl | rfl <;> rintro f' (rfl | rfl) <;> simp
      constructor
      · exact (h2 r).1 _ (fun f' h' => ⟨by simpa using hne f' h', by simp⟩)
          (fun h => (hU f).1 h.1.symm)
      · exact (h2 r).1 _ (fun f' h' => ⟨by simp, by simpa using hne f' h'⟩)
          (fun h => (hU f).2 h.1.symm)
    cases g
    · rw [(hx _ _ (Or.inl rfl)).2]
      simp only [opposite]
      rw [(hx _ _ (Or.inr rfl)).1]
      exact ((h1 r).2.1 i j k v ⟨q1, q2, q3⟩ q4).1
    · rw [(hx _ _ (Or.inr rfl)).2]
      simp only [opposite]
      rw [(hx _ _ (Or.inl rfl)).1]
      exact ((h1 r).2.1 i j k v ⟨q1, q2, q3⟩ q4).2.1
    · exact ((h2 r).2.1 i j k v ⟨q1, q2, q3⟩ q4).1
    · exact ((h2 r).2.1 i j k v ⟨q1, q2, q3⟩ q4).2.1
    · exact hg.elim
    · exact hg.elim

/-- **C12 (3D).** -/
theorem C12_exchange_3d {p : Params R} (hw : p.WF) (hf : Faces3Ok p) (T : Topo) (lay : Layout)
    (mhd : Bool) {U : Arr} (hU : NotBuf U) (s : T.Rank → Mem Arr R) {buf : Prop} {n : Nat}
    {c : Config T.Rank (Mem Arr R) (Msg R)}
    (hs : Steps buf (makeBoundariesMpi3 lay mhd T p U) n (Config.init s) c) :
    n ≤ 45 * T.size ∧
    (¬ c.Done (makeBoundariesMpi3 lay mhd T p U) →
      ∃ c', Step False (makeBoundariesMpi3 lay mhd T p U) c c') ∧
    (c.Done (makeBoundariesMpi3 lay mhd T p U) →
      (∀ a b t, c.chan a b t = []) ∧
      ∀ (r : T.Rank) (g : Face) (l : Loc Arr), inView (bufExt3 p g) p.nbvar l →
        c.st r { l with arr := .recv g } =
          c.st (T.neighborRank g r) { l with arr := .send (opposite g) }) := by
  obtain ⟨⟨f1, f2, f3, f4⟩, f5, f6⟩ := hf
  obtain ⟨s1, hb1, h1⟩ := exchangeDir_bulk (mhd := mhd) (T := T) (p := p) (U := U) (lay := lay)
    (fmin := .xmin) (fmax := .xmax) (tag := 111) (e := bufExt3 p .xmin) hU (by simp)
    (packK3_is lay hw U .xmin (hU _).1) (packK3_is lay hw U .xmax (hU _).1)
    (fillFace3_is hw lay mhd T hU .xmin f1) (fillFace3_is hw lay mhd T hU .xmax f2)
    (inBox_G3 hw .xmin) (inBox_G3 hw .xmax) s
  obtain ⟨s2, hb2, h2⟩ := exchangeDir_bulk (mhd := mhd) (T := T) (p := p) (U := U) (lay := lay)
    (fmin := .ymin) (fmax := .ymax) (tag := 211) (e := bufExt3 p .ymin) hU (by simp)
    (packK3_is lay hw U .ymin (hU _).1) (packK3_is lay hw U .ymax (hU _).1)
    (fillFace3_is hw lay mhd T hU .ymin f3) (fillFace3_is hw lay mhd T hU .ymax f4)
    (inBox_G3 hw .ymin) (inBox_G3 hw .ymax) s1
  obtain ⟨s3, hb3, h3⟩ := exchangeDir_bulk (mhd := mhd) (T := T) (p := p) (U := U) (lay := lay)
    (fmin := .zmin) (fmax := .zmax) (tag := 311) (e := bufExt3 p .zmin) hU (by simp)
    (packK3_is lay hw U .zmin (hU _).1) (packK3_is lay hw U .zmax (hU _).1)
    (fillFace3_is hw lay mhd T hU .zmin f5) (fillFace3_is hw lay mhd T hU .zmax f6)
    (inBox_G3 hw .zmin) (inBox_G3 hw .zmax) s2
  have hb : BulkRel (makeBoundariesMpi3 lay mhd T p U) s s3 := (hb1.append hb2).append hb3
  obtain ⟨r1, r2, r3⟩ := hb.run matched3 hs
  refine ⟨?_, r2, fun hd => ⟨(r3 hd).2, ?_⟩⟩
  · rw [Fintype.card_fin] at r1
    exact r1
  · rw [(r3 hd).1]
    rintro r g ⟨a, i, j, k, v⟩ ⟨q1, q2, q3, q4⟩
    have hx : ∀ (r : T.Rank) (f : Face), f = .xmin ∨ f = .xmax →
        s2 r ⟨.send f, i, j, k, v⟩ = s1 r ⟨.send f, i, j, k, v⟩ ∧
        s2 r ⟨.recv f, i, j, k, v⟩ = s1 r ⟨.recv f, i, j, k, v⟩ := by
      intro r f hf
      have hne : ∀ f', f' = Face.ymin ∨ f' = Face.ymax → f ≠ f' := by
        rcases hf with rfl | rfl <;> rintro f' (rfl | rfl) <;> simp
      constructor
      · exact (h2 r).1 _ (fun f' h' => ⟨by simpa using hne f' h', by simp⟩)
          (fun h => (hU f).1 h.1.symm)
      · exact (h2 r).1 _ (fun f' h' => ⟨by simp, by simpa using hne f' h'⟩)
          (fun h => (hU f).2 h.1.symm)
    have hy : ∀ (r : T.Rank) (f : Face), f ≠ .zmin ∧ f ≠ .zmax →
        s3 r ⟨.send f, i, j, k, v⟩ = s2 r ⟨.send f, i, j, k, v⟩ ∧
        s3 r ⟨.recv f, i, j, k, v⟩ = s2 r ⟨.recv f, i, j, k, v⟩ := by
      intro r f hf
      have hne : ∀ f', f' = Face.zmin ∨ f' = Face.zmax → f ≠ f' := by
        rintro f' (rfl | rfl)
        · exact hf.1
        · exact hf.2
      constructor
      · exact (h3 r).1 _ (fun f' h' => ⟨by simpa using hne f' h', by simp⟩)
          (fun h => (hU f).1 h.1.symm)
      · exact (h3 r).1 _ (fun f' h' => ⟨by simp, by simpa using hne f' h'⟩)
          (fun h => (hU f).2 h.1.symm)
    cases g
    · rw [(hy _ _ (by simp)).2, (hx _ _ (Or.inl rfl)).2]
      simp only [opposite]
      rw [(hy _ _ (by simp)).1, (hx _ _ (Or.inr rfl)).1]
      exact ((h1 r).2.1 i j k v ⟨q1, q2, q3⟩ q4).1
    · rw [(hy _ _ (by simp)).2, (hx _ _ (Or.inr rfl)).2]
      simp only [opposite]
      rw [(hy _ _ (by simp)).1, (hx _ _ (Or.inl rfl)).1]
      exact ((h1 r).2.1 i j k v ⟨q1, q2, q3⟩ q4).2.1
    · rw [(hy _ _ (by simp)).2]
      simp only [opposite]
      rw [(hy _ _ (by simp)).1]
      exact ((h2 r).2.1 i j k v ⟨q1, q2, q3⟩ q4).1
    · rw [(hy _ _ (by simp)).2]
      simp only [opposite]
      rw [(hy _ _ (by simp)).1]
      exact ((h2 r).2.1 i j k v ⟨q1, q2, q3⟩ q4).2.1
    · exact ((h3 r).2.1 i j k v ⟨q1, q2, q3⟩ q4).1
    · exact ((h3 r).2.1 i j k v ⟨q1, q2, q3⟩ q4).2.1

/-! ### C10: the exchange reproduces the serial ghost fill -/

theorem globalParams_wf {p : Params R} (hw : p.WF) (T : Topo) : (globalParams T p).WF := by
  have hx := hw.nx_pos
  have hy := hw.ny_pos
  have hz := hw.nz_pos
  have tx := T.hx
  have ty := T.hy
  have tz := T.hz
  refine Params.init_wf _ ?_ ?_ ?_ hw.gw_pos
  · show (1 : Int) ≤ p.nx * T.mx
    nlinarith
  · show (1 : Int) ≤ p.ny * T.my
    nlinarith
  · show (1 : Int) ≤ p.nz * T.mz
    nlinarith

theorem le_mul_topo {g n : Int} {m : Nat} (hn : 1 ≤ n) (h : g ≤ n) (hm : 0 < m) :
    g ≤ n * m := by
  have : n * 1 ≤ n * (m : Int) := Int.mul_le_mul_of_nonneg_left (by omega) (by omega)
  omega

theorem globalParams_faces2 {p : Params R} (hw : p.WF) (hwide : Wide2 p) (T : Topo) :
    Faces2Ok (globalParams T p) := by
  have a := le_mul_topo hw.nx_pos hwide.1 T.hx
  have b := le_mul_topo hw.ny_pos hwide.2 T.hy
  exact ⟨Or.inr a, Or.inr a, Or.inr b, Or.inr b⟩

theorem globalParams_faces3 {p : Params R} (hw : p.WF) (hwide : Wide3 p) (T : Topo) :
    Faces3Ok (globalParams T p) := by
  have c := le_mul_topo hw.nz_pos hwide.2 T.hz
  exact ⟨globalParams_faces2 hw hwide.1 T, Or.inr c, Or.inr c⟩

/-- position of a local cell of a rank in the global grid (ghost cells included) -/
def Spec.globalCell (T : Topo) (p : Params R) (r : T.Rank) (i j k : Int) : Int × Int × Int :=
  ((T.coords r).1 * p.nx + i, (T.coords r).2.1 * p.ny + j, (T.coords r).2.2 * p.nz + k)

/-- a view of every rank holds the block of the global view, at the cells where `on` holds -/
def Spec.HoldsBlock (T : Topo) (p : Params R) (U : Arr) (on : Int → Int → Int → Prop)
    (s : T.Rank → Mem Arr R) (G : Mem Arr R) : Prop :=
  ∀ (r : T.Rank) i j k v, on i j k → v < p.nbvar → s r ⟨U, i, j, k, v⟩ =
    G ⟨U, (globalCell T p r i j k).1, (globalCell T p r i j k).2.1, (globalCell T p r i j k).2.2, v⟩

/-- a view of every rank holds the block of the global view (2D) -/
def Spec.HoldsBlock2 (T : Topo) (p : Params R) (U : Arr) (on : Int → Int → Prop)
    (s : T.Rank → Mem Arr R) (G : Mem Arr R) : Prop :=
  ∀ (r : T.Rank) i j v, on i j → v < p.nbvar → s r ⟨U, i, j, 0, v⟩ =
    G ⟨U, (globalCell T p r i j 0).1, (globalCell T p r i j 0).2.1, 0, v⟩

/-- **C10 (2D).** The global memory `G` is distributed over the ranks (interior cells only).  Let
`G'` be any result of the serial ghost fill on the global grid.  Then every complete execution of
the MPI exchange, whatever the schedule, leaves on every rank exactly the block of `G'` — interior,
ghost layers and corners — and changes nothing but ghost cells and border buffers. -/
theorem C10_halo_2d {p : Params R} (hw : p.WF) (hS : SignLaws R) (hwide : Wide2 p) (T : Topo)
    (hbc : NamedBC2 T p) (lay : Layout) (mhd : Bool) {U : Arr} (hU : NotBuf U)
    {G G' : Mem Arr R} (hG : makeBoundaries2 mhd (globalParams T p) U G G')
    {s : T.Rank → Mem Arr R} (hs : HoldsBlock2 T p U (interior2 p) s G) {buf : Prop} {n : Nat}
    {c : Config T.Rank (Mem Arr R) (Msg R)}
    (hst : Steps buf (makeBoundariesMpi2 lay mhd T p U) n (Config.init s) c)
    (hd : c.Done (makeBoundariesMpi2 lay mhd T p U)) :
    HoldsBlock2 T p U (inGrid2 p) c.st G' ∧
    ∀ r (l : Loc Arr), (∀ f, l.arr ≠ .send f ∧ l.arr ≠ .recv f) →
      ¬ (l.arr = U ∧ l.k = 0 ∧ inGrid2 p l.i l.j ∧ ¬ interior2 p l.i l.j ∧ l.v < p.nbvar) →
      c.st r l = s r l := by
  obtain ⟨s', hb, h⟩ := halo2 (lay := lay) (mhd := mhd) hw hS hU hwide hbc s
  have hst' := ((hb.run matched2 hst).2.2 hd).1
  rw [hst']
  obtain ⟨F, hF, hF'⟩ := makeBoundaries2_is (globalParams_wf hw T) (globalParams_faces2 hw hwide T)
    mhd U
  have hGe : G' = F G := (hF G G').mp hG
  refine ⟨?_, fun r => (h r).1⟩
  intro r i j v hij hv
  rw [(h r).2 (fun i j v => G ⟨U, i, j, 0, v⟩) (fun r' i j v hij hv => hs r' i j v hij hv) i j v
    hij hv, hGe]
  refine ((hF' G).2 hS _ _ v ?_ hv).symm
  obtain ⟨⟨x1, x2⟩, ⟨y1, y2⟩, _⟩ := T.coords_range r
  obtain ⟨h1, h2, h3, h4⟩ := hij
  have hx := hw.nx_pos
  have hy := hw.ny_pos
  have a1 : 0 ≤ (T.coords r).1 * p.nx := Int.mul_nonneg x1 (by omega)
  have a2 : (T.coords r).1 * p.nx ≤ (T.mx - 1) * p.nx :=
    Int.mul_le_mul_of_nonneg_right (by omega) (by omega)
  have b1 : 0 ≤ (T.coords r).2.1 * p.ny := Int.mul_nonneg y1 (by omega)
  have b2 : (T.coords r).2.1 * p.ny ≤ (T.my - 1) * p.ny :=
    Int.mul_le_mul_of_nonneg_right (by omega) (by omega)
  have a3 : ((T.mx : Int) - 1) * p.nx = p.nx * T.mx - p.nx := by ring
  have b3 : ((T.my : Int) - 1) * p.ny = p.ny * T.my - p.ny := by ring
  refine ⟨?_, ?_, ?_, ?_⟩
  · show 0 ≤ (T.coords r).1 * p.nx + i
    omega
  · show (T.coords r).1 * p.nx + i < p.nx * T.mx + 2 * p.ghostWidth
    omega
  · show 0 ≤ (T.coords r).2.1 * p.ny + j
    omega
  · show (T.coords r).2.1 * p.ny + j < p.ny * T.my + 2 * p.ghostWidth
    omega

/-- **C10 (3D).** -/
theorem C10_halo_3d {p : Params R} (hw : p.WF) (hS : SignLaws R) (hwide : Wide3 p) (T : Topo)
    (hbc : NamedBC3 T p) (lay : Layout) (mhd : Bool) {U : Arr} (hU : NotBuf U)
    {G G' : Mem Arr R} (hG : makeBoundaries3 mhd (globalParams T p) U G G')
    {s : T.Rank → Mem Arr R} (hs : HoldsBlock T p U (interior3 p) s G) {buf : Prop} {n : Nat}
    {c : Config T.Rank (Mem Arr R) (Msg R)}
    (hst : Steps buf (makeBoundariesMpi3 lay mhd T p U) n (Config.init s) c)
    (hd : c.Done (makeBoundariesMpi3 lay mhd T p U)) :
    HoldsBlock T p U (inGrid3 p) c.st G' ∧
    ∀ r (l : Loc Arr), (∀ f, l.arr ≠ .send f ∧ l.arr ≠ .recv f) →
      ¬ (l.arr = U ∧ inGrid3 p l.i l.j l.k ∧ ¬ interior3 p l.i l.j l.k ∧ l.v < p.nbvar) →
      c.st r l = s r l := by
  obtain ⟨s', hb, h⟩ := halo3 (lay := lay) (mhd := mhd) hw hS hU hwide hbc s
  have hst' := ((hb.run matched3 hst).2.2 hd).1
  rw [hst']
  obtain ⟨F, hF, hF'⟩ := makeBoundaries3_is (globalParams_wf hw T) (globalParams_faces3 hw hwide T)
    mhd U
  have hGe : G' = F G := (hF G G').mp hG
  refine ⟨?_, fun r => (h r).1⟩
  intro r i j k v hij hv
  rw [(h r).2 (fun i j k v => G ⟨U, i, j, k, v⟩)
    (fun r' i j k v hij hv => hs r' i j k v hij hv) i j k v hij hv, hGe]
  refine ((hF' G).2 hS _ _ _ v ?_ hv).symm
  obtain ⟨⟨x1, x2⟩, ⟨y1, y2⟩, z1, z2⟩ := T.coords_range r
  obtain ⟨⟨h1, h2⟩, ⟨h3, h4⟩, h5, h6⟩ := hij
  have hx := hw.nx_pos
  have hy := hw.ny_pos
  have hz := hw.nz_pos
  have a1 : 0 ≤ (T.coords r).1 * p.nx := Int.mul_nonneg x1 (by omega)
  have a2 : (T.coords r).1 * p.nx ≤ (T.mx - 1) * p.nx :=
    Int.mul_le_mul_of_nonneg_right (by omega) (by omega)
  have b1 : 0 ≤ (T.coords r).2.1 * p.ny := Int.mul_nonneg y1 (by omega)
  have b2 : (T.coords r).2.1 * p.ny ≤ (T.my - 1) * p.ny :=
    Int.mul_le_mul_of_nonneg_right (by omega) (by omega)
  have c1 : 0 ≤ (T.coords r).2.2 * p.nz := Int.mul_nonneg z1 (by omega)
  have c2 : (T.coords r).2.2 * p.nz ≤ (T.mz - 1) * p.nz :=
    Int.mul_le_mul_of_nonneg_right (by omega) (by omega)
  have a3 : ((T.mx : Int) - 1) * p.nx = p.nx * T.mx - p.nx := by ring
  have b3 : ((T.my : Int) - 1) * p.ny = p.ny * T.my - p.ny := by ring
  have c3 : ((T.mz : Int) - 1) * p.nz = p.nz * T.mz - p.nz := by ring
  refine ⟨⟨?_, ?_⟩, ⟨?_, ?_⟩, ?_, ?_⟩
  · show 0 ≤ (T.coords r).1 * p.nx + i
    omega
  · show (T.coords r).1 * p.nx + i < p.nx * T.mx + 2 * p.ghostWidth
    omega
  · show 0 ≤ (T.coords r).2.1 * p.ny + j
    omega
  · show (T.coords r).2.1 * p.ny + j < p.ny * T.my + 2 * p.ghostWidth
    omega
  · show 0 ≤ (T.coords r).2.2 * p.nz + k
    omega
  · show (T.coords r).2.2 * p.nz + k < p.nz * T.mz + 2 * p.ghostWidth
    omega

/-! ### Non-vacuity -/

theorem sample_wide3 (a b : BC) : Wide3 (sample a b) := by
  unfold Wide3 Wide2 sample rawSample Params.init; simp

theorem sample_named3 (T : Topo) : NamedBC3 T (sample .dirichlet .periodic) := by
  unfold NamedBC3 NamedBC2 BCmpi sample rawSample Params.init; simp

theorem notBuf_U : NotBuf .U := fun f => ⟨by simp, by simp⟩

-- every execution can be continued to completion: a complete execution exists for the 3 × 2 grid
example (s : topo321.Rank → Mem Arr ℝ) :
    ∃ n c, Steps False (makeBoundariesMpi2 .left false topo321 (sample .dirichlet .periodic) .U) n
      (Config.init s) c ∧
      c.Done (makeBoundariesMpi2 .left false topo321 (sample .dirichlet .periodic) .U) := by
  by_contra hno
  push Not at hno
  have : ∀ n, ∃ c, Steps False
      (makeBoundariesMpi2 .left false topo321 (sample .dirichlet .periodic) .U) n
      (Config.init s) c := by
    intro n
    induction n with
    | zero => exact ⟨_, Steps.zero _⟩
    | succ n ih =>
      obtain ⟨c, hc⟩ := ih
      obtain ⟨_, h, _⟩ := C12_exchange_2d (sample_wf _ _) (sample_faces3 _ _).1 topo321 .left false
        notBuf_U s hc
      obtain ⟨c', hc'⟩ := h (hno n c hc)
      exact ⟨c', hc.succ hc'⟩
  obtain ⟨c, hc⟩ := this (30 * topo321.size + 1)
  have := (C12_exchange_2d (sample_wf _ _) (sample_faces3 _ _).1 topo321 .left false
        notBuf_U s hc).1
  omega

-- a distributed global memory exists
example (G : Mem Arr ℝ) : ∃ s, HoldsBlock2 topo321 (sample .dirichlet .periodic) .U
    (interior2 (sample .dirichlet .periodic)) s G :=
  ⟨fun r l => G ⟨.U, (globalCell topo321 (sample .dirichlet .periodic) r l.i l.j 0).1,
    (globalCell topo321 (sample .dirichlet .periodic) r l.i l.j 0).2.1, 0, l.v⟩,
    fun _ _ _ _ _ _ => rfl⟩

end EulerKokkos
