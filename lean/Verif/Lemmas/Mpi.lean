import Verif.Model.Mpi
import Verif.Lemmas.GhostFill
import Mathlib.Tactic.Linarith
import Mathlib.Tactic.Ring

/-!
# Topology, buffers and messages: basic facts
-/

set_option linter.constructorNameAsVariable false
set_option linter.unusedSectionVars false
set_option linter.unnecessarySeqFocus false
set_option linter.unusedSimpArgs false

namespace EulerKokkos

variable {R : Type} [RealOps R]
open Prog (rd wr forN forRange)
open Spec

namespace Topo

theorem coords_range (T : Topo) (r : T.Rank) :
    (0 ≤ (T.coords r).1 ∧ (T.coords r).1 < T.mx) ∧
    (0 ≤ (T.coords r).2.1 ∧ (T.coords r).2.1 < T.my) ∧
    (0 ≤ (T.coords r).2.2 ∧ (T.coords r).2.2 < T.mz) := by
  obtain ⟨r, hr⟩ := r
  obtain ⟨mx, my, mz, hx, hy, hz⟩ := T
  simp only [coords, size] at *
  have h1 : r / (my * mz) < mx := by
    rw [Nat.div_lt_iff_lt_mul (Nat.mul_pos hy hz), ← Nat.mul_assoc]; exact hr
  have h2 : r / mz % my < my := Nat.mod_lt _ hy
  have h3 : r % mz < mz := Nat.mod_lt _ hz
  refine ⟨⟨Int.natCast_nonneg _, ?_⟩, ⟨Int.natCast_nonneg _, ?_⟩, Int.natCast_nonneg _, ?_⟩ <;>
    exact_mod_cast (by assumption)

/-- `MPI_Cart_coords` after `MPI_Cart_rank`: the coordinates wrapped into the topology -/
theorem coords_cartRank (T : Topo) (x y z : Int) :
    T.coords (T.cartRank x y z) = (x % T.mx, y % T.my, z % T.mz) := by
  obtain ⟨mx, my, mz, hx, hy, hz⟩ := T
  simp only [coords, cartRank, cartRankNat]
  have a1 := Int.emod_lt_of_pos x (by omega : (0 : Int) < mx)
  have a2 := Int.emod_nonneg x (by omega : (mx : Int) ≠ 0)
  have b1 := Int.emod_lt_of_pos y (by omega : (0 : Int) < my)
  have b2 := Int.emod_nonneg y (by omega : (my : Int) ≠ 0)
  have c1 := Int.emod_lt_of_pos z (by omega : (0 : Int) < mz)
  have c2 := Int.emod_nonneg z (by omega : (mz : Int) ≠ 0)
  generalize x % mx = a at *
  generalize y % my = b at *
  generalize z % mz = c at *
  obtain ⟨a, rfl⟩ := Int.eq_ofNat_of_zero_le a2
  obtain ⟨b, rfl⟩ := Int.eq_ofNat_of_zero_le b2
  obtain ⟨c, rfl⟩ := Int.eq_ofNat_of_zero_le c2
  simp only [Int.toNat_natCast]
  have e1 : ((a * my + b) * mz + c) / mz = a * my + b := by
    rw [Nat.add_comm, Nat.add_mul_div_right _ _ hz, Nat.div_eq_of_lt (by omega), Nat.zero_add]
  have e2 : (a * my + b) / my = a := by
    rw [Nat.add_comm, Nat.add_mul_div_right _ _ hy, Nat.div_eq_of_lt (by omega), Nat.zero_add]
  have e3 : (a * my + b) % my = b := by
    rw [Nat.add_comm, Nat.add_mul_mod_self_right, Nat.mod_eq_of_lt (by omega)]
  have e4 : ((a * my + b) * mz + c) % mz = c := by
    rw [Nat.add_comm, Nat.add_mul_mod_self_right, Nat.mod_eq_of_lt (by omega)]
  rw [Nat.mul_comm my mz, ← Nat.div_div_eq_div_mul, e1, e2, e3, e4]

/-- `MPI_Cart_rank` after `MPI_Cart_coords` -/
theorem cartRank_coords (T : Topo) (r : T.Rank) :
    T.cartRank (T.coords r).1 (T.coords r).2.1 (T.coords r).2.2 = r := by
  obtain ⟨⟨a1, a2⟩, ⟨b1, b2⟩, c1, c2⟩ := T.coords_range r
  apply Fin.ext
  simp only [cartRank, cartRankNat]
  rw [Int.emod_eq_of_lt a1 a2, Int.emod_eq_of_lt b1 b2, Int.emod_eq_of_lt c1 c2]
  obtain ⟨r, hr⟩ := r
  simp only [coords, Int.toNat_natCast]
  rw [Nat.mul_comm T.my T.mz, ← Nat.div_div_eq_div_mul]
  rw [Nat.mul_comm (r / T.mz / T.my), Nat.div_add_mod, Nat.mul_comm, Nat.div_add_mod]

theorem cartRank_emod (T : Topo) (x y z : Int) :
    T.cartRank (x % T.mx) (y % T.my) (z % T.mz) = T.cartRank x y z := by
  apply Fin.ext
  simp only [cartRank, cartRankNat, Int.emod_emod_of_dvd, dvd_refl]

theorem cartRank_congr (T : Topo) {x y z x' y' z' : Int} (hx : x % T.mx = x' % T.mx)
    (hy : y % T.my = y' % T.my) (hz : z % T.mz = z' % T.mz) :
    T.cartRank x y z = T.cartRank x' y' z' := by
  apply Fin.ext
  simp only [cartRank, cartRankNat, hx, hy, hz]

theorem rank_ext (T : Topo) {r s : T.Rank} (h : T.coords r = T.coords s) : r = s := by
  rw [← T.cartRank_coords r, ← T.cartRank_coords s, h]

end Topo

/-! ### Buffers -/

theorem foot_copyCell {nb : Nat} {A B : Arr} {d s : Int × Int × Int}
    {Rd Wr Ad : Loc Arr → Prop} (hr : ∀ v < nb, Rd ⟨A, s.1, s.2.1, s.2.2, v⟩)
    (hw : ∀ v < nb, Wr ⟨B, d.1, d.2.1, d.2.2, v⟩) :
    (copyCell (R := R) nb B A d s).Foot Rd Wr Ad := by
  unfold copyCell
  refine Prog.foot_forN fun v hv => ?_
  exact Prog.foot_bind (by simpa using hr v hv) (fun x => by simpa using hw v hv)

theorem run_copyCell {nb : Nat} {A B : Arr} {d s : Int × Int × Int} (hAB : A ≠ B)
    (m : Mem Arr R) (l : Loc Arr) :
    ((copyCell nb B A d s).run m).2 l =
      if l.arr = B ∧ cellOf l = d ∧ l.v < nb then m ⟨A, s.1, s.2.1, s.2.2, l.v⟩ else m l := by
  unfold copyCell
  induction nb generalizing l with
  | zero => simp [forN]
  | succ n ih =>
    obtain ⟨d1, d2, d3⟩ := d
    obtain ⟨s1, s2, s3⟩ := s
    simp only [forN, Prog.run_bind, Prog.run_rd, Prog.run_wr]
    unfold Prog.upd
    obtain ⟨a, i, j, k, v⟩ := l
    simp only [cellOf, Prod.mk.injEq] at ih ⊢
    by_cases hl : (⟨a, i, j, k, v⟩ : Loc Arr) = ⟨B, d1, d2, d3, n⟩
    · rw [if_pos hl]
      rw [Loc.mk.injEq] at hl
      obtain ⟨rfl, rfl, rfl, rfl, rfl⟩ := hl
      rw [if_pos ⟨rfl, ⟨rfl, rfl, rfl⟩, by omega⟩, ih, if_neg]
      rintro ⟨h, _⟩
      exact hAB h
    · rw [if_neg hl, ih]
      simp only
      by_cases hc : a = B ∧ (i = d1 ∧ j = d2 ∧ k = d3) ∧ v < n
      · rw [if_pos hc, if_pos ⟨hc.1, hc.2.1, by omega⟩]
      · rw [if_neg hc, if_neg]
        rintro ⟨h1, h2, h3⟩
        apply hc
        refine ⟨h1, h2, ?_⟩
        rcases Nat.lt_succ_iff_lt_or_eq.1 h3 with h | h
        · exact h
        · exact absurd (by rw [h1, h2.1, h2.2.1, h2.2.2, h]) hl

/-- A kernel that copies cells of view `A` into the cells `G` of view `B`, one cell per iteration. -/
theorem copyKernel {body : Int → Prog Arr R Unit} {N : Int} {nb : Nat} {A B : Arr} (hAB : A ≠ B)
    {G : Int × Int × Int → Prop} [DecidablePred G] {dec : Int → Int × Int × Int}
    {enc : Int × Int × Int → Int} {src : Int × Int × Int → Int × Int × Int}
    (hbody : ∀ t, body t = copyCell nb B A (dec t) (src (dec t)))
    (henc : ∀ c, G c → 0 ≤ enc c ∧ enc c < N ∧ dec (enc c) = c)
    (hdec : ∀ t, 0 ≤ t → t < N → G (dec t) ∧ enc (dec t) = t) :
    (forRange (range1 N) body).Is (fun m l =>
      if l.arr = B ∧ G (cellOf l) ∧ l.v < nb then
        m ⟨A, (src (cellOf l)).1, (src (cellOf l)).2.1, (src (cellOf l)).2.2, l.v⟩
      else m l) := by
  have h := Prog.forRange_owner (range1 N) body (fun l => enc (cellOf l))
    (fun l => l.arr = B ∧ G (cellOf l)) (by
      intro t ht
      rw [mem_range1] at ht
      rw [hbody t]
      obtain ⟨g1, g2⟩ := hdec t ht.1 ht.2
      refine foot_copyCell (fun v _ => Or.inl ?_) (fun v _ => ⟨⟨rfl, ?_⟩, ?_⟩)
      · rintro ⟨h, _⟩; exact hAB h
      · exact g1
      · exact g2)
  intro m m'
  rw [h m m']
  beta_reduce
  refine Eq.congr rfl (funext fun l => ?_)
  by_cases hg : l.arr = B ∧ G (cellOf l)
  · obtain ⟨e1, e2, e3⟩ := henc _ hg.2
    rw [if_pos ⟨hg, mem_range1.2 ⟨e1, e2⟩⟩, hbody _, e3, run_copyCell hAB]
    simp [hg.1, hg.2]
  · rw [if_neg (fun h => hg h.1), if_neg (fun h => hg ⟨h.1, h.2.1⟩)]

/-- the effect of such a kernel -/
def cellCopy (nb : Nat) (B A : Arr) (G : Int × Int × Int → Prop) [DecidablePred G]
    (src : Int × Int × Int → Int × Int × Int) (m : Mem Arr R) : Mem Arr R := fun l =>
  if l.arr = B ∧ G (cellOf l) ∧ l.v < nb then
    m ⟨A, (src (cellOf l)).1, (src (cellOf l)).2.1, (src (cellOf l)).2.2, l.v⟩
  else m l

/-- the box `[0,e₁)×[0,e₂)×[0,e₃)` -/
def InBox (e c : Int × Int × Int) : Prop :=
  (0 ≤ c.1 ∧ c.1 < e.1) ∧ (0 ≤ c.2.1 ∧ c.2.1 < e.2.1) ∧ (0 ≤ c.2.2 ∧ c.2.2 < e.2.2)

instance (e : Int × Int × Int) : DecidablePred (InBox e) := fun c => by
  unfold InBox; infer_instance

/-- shift of a coordinate triple -/
def shift3 (o c : Int × Int × Int) : Int × Int × Int := (o.1 + c.1, o.2.1 + c.2.1, o.2.2 + c.2.2)

/-- first interior layer sent through a face, as an offset (`offset` of
`/repo/src/shared/mpiBorderUtils.h`) -/
def packOff (p : Params R) (f : Face) : Int × Int × Int :=
  match f with
  | .xmin => (p.ghostWidth, 0, 0)
  | .xmax => (p.isize - 2 * p.ghostWidth, 0, 0)
  | .ymin => (0, p.ghostWidth, 0)
  | .ymax => (0, p.jsize - 2 * p.ghostWidth, 0)
  | .zmin => (0, 0, p.ghostWidth)
  | .zmax => (0, 0, p.ksize - 2 * p.ghostWidth)

/-- first ghost layer of a face, as an offset -/
def unpackOff (p : Params R) (f : Face) : Int × Int × Int :=
  match f with
  | .xmin => (0, 0, 0)
  | .xmax => (p.isize - p.ghostWidth, 0, 0)
  | .ymin => (0, 0, 0)
  | .ymax => (0, p.jsize - p.ghostWidth, 0)
  | .zmin => (0, 0, 0)
  | .zmax => (0, 0, p.ksize - p.ghostWidth)

/-- faces of a 2D grid -/
def Face.is2 : Face → Prop
  | .zmin | .zmax => False
  | _ => True

/-- inverse of `shift3` -/
def unshift3 (o c : Int × Int × Int) : Int × Int × Int := (c.1 - o.1, c.2.1 - o.2.1, c.2.2 - o.2.2)

/-- copy of a box of cells at offset `s` of view `A` to offset `o` of view `B` -/
def boxCopy (nb : Nat) (B A : Arr) (e o s : Int × Int × Int) (m : Mem Arr R) : Mem Arr R :=
  cellCopy nb B A (fun c => InBox e (unshift3 o c)) (fun c => shift3 s (unshift3 o c)) m

section kernels
variable {p : Params R} (lay : Layout)

theorem boxCopy2 {body : Int → Prog Arr R Unit} {nb : Nat} {A B : Arr} (hAB : A ≠ B) {Nx Ny : Int}
    {o s : Int × Int × Int} (hx : 0 < Nx) (hy : 0 < Ny)
    (hbody : ∀ t, body t = copyCell nb B A
      (shift3 o ((index2coord2 lay t Nx Ny).1, (index2coord2 lay t Nx Ny).2, 0))
      (shift3 s ((index2coord2 lay t Nx Ny).1, (index2coord2 lay t Nx Ny).2, 0))) :
    (forRange (range1 (Nx * Ny)) body).Is (boxCopy nb B A (Nx, Ny, 1) o s) := by
  refine copyKernel hAB (G := fun c => InBox _ (unshift3 o c)) (src := fun c => shift3 s (unshift3 o c))
      (dec := fun t => shift3 o ((index2coord2 lay t Nx Ny).1,
      (index2coord2 lay t Nx Ny).2, 0))
      (enc := fun c => coord2index2 lay (unshift3 o c).1 (unshift3 o c).2.1 Nx Ny)
      (fun t => ?_) ?_ ?_
  · rw [hbody]
    congr 1
    simp [shift3, unshift3]
  · rintro ⟨i, j, k⟩ h
    obtain ⟨o1, o2, o3⟩ := o
    simp only [InBox, unshift3] at h
    obtain ⟨h1, h2, h3⟩ := h
    obtain ⟨r1, r2⟩ := C01_index_range_2d lay _ _ Nx Ny h1 h2
    refine ⟨r1, r2, ?_⟩
    simp only [unshift3]
    rw [C01_coord_index_coord_2d lay _ _ Nx Ny h1 h2]
    simp only [shift3, Prod.mk.injEq]
    omega
  · intro t t1 t2
    obtain ⟨o1, o2, o3⟩ := o
    obtain ⟨r1, r2, r3⟩ := C01_index_coord_index_2d lay t Nx Ny hx hy ⟨t1, t2⟩
    simp only [InBox, unshift3, shift3, add_sub_cancel_left]
    exact ⟨⟨r1, r2, by simp⟩, r3⟩

theorem boxCopy3 {body : Int → Prog Arr R Unit} {nb : Nat} {A B : Arr} (hAB : A ≠ B)
    {Nx Ny Nz : Int} {o s : Int × Int × Int} (hx : 0 < Nx) (hy : 0 < Ny) (hz : 0 < Nz)
    (hbody : ∀ t, body t = copyCell nb B A (shift3 o (index2coord3 lay t Nx Ny Nz))
      (shift3 s (index2coord3 lay t Nx Ny Nz))) :
    (forRange (range1 (Nx * Ny * Nz)) body).Is (boxCopy nb B A (Nx, Ny, Nz) o s) := by
  refine copyKernel hAB (G := fun c => InBox _ (unshift3 o c)) (src := fun c => shift3 s (unshift3 o c))
      (dec := fun t => shift3 o (index2coord3 lay t Nx Ny Nz))
      (enc := fun c => coord2index3 lay (unshift3 o c).1 (unshift3 o c).2.1 (unshift3 o c).2.2
        Nx Ny Nz)
      (fun t => ?_) ?_ ?_
  · rw [hbody]
    congr 1
    simp [shift3, unshift3]
  · rintro ⟨i, j, k⟩ h
    obtain ⟨o1, o2, o3⟩ := o
    simp only [InBox, unshift3] at h
    obtain ⟨h1, h2, h3⟩ := h
    obtain ⟨r1, r2⟩ := C01_index_range_3d lay _ _ _ Nx Ny Nz h1 h2 h3
    refine ⟨r1, r2, ?_⟩
    simp only [unshift3]
    rw [C01_coord_index_coord_3d lay _ _ _ Nx Ny Nz h1 h2 h3]
    simp only [shift3, Prod.mk.injEq]
    omega
  · intro t t1 t2
    obtain ⟨o1, o2, o3⟩ := o
    obtain ⟨r1, r2, r3, r4⟩ := C01_index_coord_index_3d lay t Nx Ny Nz hx hy hz ⟨t1, t2⟩
    simp only [InBox, unshift3, shift3, add_sub_cancel_left]
    exact ⟨⟨r1, r2, r3⟩, r4⟩

theorem packK2_is (hw : p.WF) (U : Arr) (f : Face) (hU : U ≠ .send f) (hf : f.is2) :
    (packK2 lay p U f).Is (boxCopy p.nbvar (.send f) U (bufExt2 p f) (0, 0, 0) (packOff p f)) := by
  have h1 := hw.gw_pos
  have h2 := hw.isize_eq
  have h3 := hw.jsize_eq
  have h4 := hw.nx_pos
  have h5 := hw.ny_pos
  unfold packK2
  cases f <;> first | exact hf.elim | skip
  all_goals
    refine boxCopy2 lay hU (by omega) (by omega) (fun t => ?_)
    simp only [packBuf2, shift3, packOff, Int.zero_add]

theorem unpackK2_is (hw : p.WF) (U : Arr) (f : Face) (hU : Arr.recv f ≠ U) (hf : f.is2) :
    (unpackK2 lay p U f).Is
      (boxCopy p.nbvar U (.recv f) (bufExt2 p f) (unpackOff p f) (0, 0, 0)) := by
  have h1 := hw.gw_pos
  have h2 := hw.isize_eq
  have h3 := hw.jsize_eq
  have h4 := hw.nx_pos
  have h5 := hw.ny_pos
  unfold unpackK2
  cases f <;> first | exact hf.elim | skip
  all_goals
    refine boxCopy2 lay hU (by omega) (by omega) (fun t => ?_)
    simp only [unpackBuf2, shift3, unpackOff, Int.zero_add]

theorem packK3_is (hw : p.WF) (U : Arr) (f : Face) (hU : U ≠ .send f) :
    (packK3 lay p U f).Is (boxCopy p.nbvar (.send f) U (bufExt3 p f) (0, 0, 0) (packOff p f)) := by
  have h1 := hw.gw_pos
  have h2 := hw.isize_eq
  have h3 := hw.jsize_eq
  have h4 := hw.nx_pos
  have h5 := hw.ny_pos
  have h6 := hw.nz_pos
  have h7 := hw.ksize_eq
  unfold packK3
  cases f
  all_goals
    refine boxCopy3 lay hU (by omega) (by omega) (by omega) (fun t => ?_)
    simp only [packBuf3, shift3, packOff, Int.zero_add]

theorem unpackK3_is (hw : p.WF) (U : Arr) (f : Face) (hU : Arr.recv f ≠ U) :
    (unpackK3 lay p U f).Is
      (boxCopy p.nbvar U (.recv f) (bufExt3 p f) (unpackOff p f) (0, 0, 0)) := by
  have h1 := hw.gw_pos
  have h2 := hw.isize_eq
  have h3 := hw.jsize_eq
  have h4 := hw.nx_pos
  have h5 := hw.ny_pos
  have h6 := hw.nz_pos
  have h7 := hw.ksize_eq
  unfold unpackK3
  cases f
  all_goals
    refine boxCopy3 lay hU (by omega) (by omega) (by omega) (fun t => ?_)
    simp only [unpackBuf3, shift3, unpackOff, Int.zero_add]

end kernels

/-! ### Messages -/

theorem view_roundtrip (lay : Layout) {e : Int × Int × Int} {nb i j k v : Int}
    (hi : 0 ≤ i ∧ i < e.1) (hj : 0 ≤ j ∧ j < e.2.1) (hk : 0 ≤ k ∧ k < e.2.2)
    (hv : 0 ≤ v ∧ v < nb) :
    viewElem lay e nb (viewOffset lay e nb i j k v) = (i, j, k, v) ∧
      0 ≤ viewOffset lay e nb i j k v ∧ viewOffset lay e nb i j k v < viewSize e nb := by
  obtain ⟨a, b, c⟩ := e
  simp only at hi hj hk
  have dm : ∀ x n q : Int, 0 ≤ x → x < n → (x + n * q) % n = x ∧ (x + n * q) / n = q := by
    intro x n q h0 h1
    constructor
    · rw [Int.add_mul_emod_self_left, Int.emod_eq_of_lt h0 h1]
    · rw [Int.add_mul_ediv_left _ _ (by omega), Int.ediv_eq_zero_of_lt h0 h1, Int.zero_add]
  have nn : ∀ x n q N : Int, 0 ≤ x → x < n → 0 ≤ q → q < N →
      0 ≤ x + n * q ∧ x + n * q < n * N := by
    intro x n q N h0 h1 h2 h3
    have e1 : 0 ≤ n * q := Int.mul_nonneg (by omega) h2
    have e2 : n * (q + 1) ≤ n * N := Int.mul_le_mul_of_nonneg_left (by omega) (by omega)
    rw [Int.mul_add] at e2
    constructor <;> omega
  cases lay with
  | left =>
    simp only [viewElem, viewOffset, viewSize]
    obtain ⟨a1, a2⟩ := dm i a (j + b * (k + c * v)) hi.1 hi.2
    obtain ⟨b1, b2⟩ := dm j b (k + c * v) hj.1 hj.2
    obtain ⟨c1, c2⟩ := dm k c v hk.1 hk.2
    obtain ⟨u1, u2⟩ := nn k c v nb hk.1 hk.2 hv.1 hv.2
    obtain ⟨v1, v2⟩ := nn j b _ _ hj.1 hj.2 u1 u2
    obtain ⟨w1, w2⟩ := nn i a _ _ hi.1 hi.2 v1 v2
    refine ⟨?_, w1, by rw [show a * b * c * nb = a * (b * (c * nb)) by ring]; exact w2⟩
    rw [a1, a2, b1, b2, c1, c2]
  | right =>
    simp only [viewElem, viewOffset, viewSize]
    have r1 : ((i * b + j) * c + k) * nb + v = v + nb * (k + c * (j + b * i)) := by ring
    obtain ⟨a1, a2⟩ := dm v nb (k + c * (j + b * i)) hv.1 hv.2
    obtain ⟨b1, b2⟩ := dm k c (j + b * i) hk.1 hk.2
    obtain ⟨c1, c2⟩ := dm j b i hj.1 hj.2
    obtain ⟨u1, u2⟩ := nn j b i a hj.1 hj.2 hi.1 hi.2
    obtain ⟨v1, v2⟩ := nn k c _ _ hk.1 hk.2 u1 u2
    obtain ⟨w1, w2⟩ := nn v nb _ _ hv.1 hv.2 v1 v2
    rw [r1]
    refine ⟨?_, w1, by rw [show a * b * c * nb = nb * (c * (b * a)) by ring]; exact w2⟩
    rw [a1, a2, b1, b2, c1, c2]

/-- a message received into a view of the same shape: element by element copy -/
theorem recv_send (lay : Layout) (e : Int × Int × Int) (nb : Nat) (a b : Arr) (ms m : Mem Arr R) :
    recvView lay e nb b (sendView lay e nb a ms) m =
      fun l => if l.arr = b ∧ inView e nb l then ms { l with arr := a } else m l := by
  funext l
  unfold recvView
  by_cases h : l.arr = b ∧ inView e nb l
  · obtain ⟨h1, h2, h3, h4⟩ := h.2
    obtain ⟨r1, r2, r3⟩ := view_roundtrip lay (nb := nb) (v := l.v) h1 h2 h3
      ⟨by omega, by exact_mod_cast h4⟩
    have : viewOffset lay e nb l.i l.j l.k l.v < (sendView lay e nb a ms).count := r3
    rw [if_pos ⟨h.1, h.2, this⟩, if_pos h]
    simp only [sendView, r1, Int.toNat_natCast]
  · rw [if_neg h, if_neg (fun hc => h ⟨hc.1, hc.2.1⟩)]

end EulerKokkos
