import Verif.Props.C10
import Verif.Model.MpiRun
import Verif.Lemmas.HydroStep3D
import Verif.Props.C29

/-!
# One distributed step: the scheme commutes with the shift to a block
-/

set_option linter.constructorNameAsVariable false
set_option linter.unusedSectionVars false
set_option linter.unusedSimpArgs false

namespace EulerKokkos
open Spec Spmd

variable {R : Type} [RealOps R]

/-- parameters that give the same scheme: same physics, same spacings -/
structure SameScheme (p P : Params R) : Prop where
  settings : P.settings = p.settings
  dx : P.dx = p.dx
  dy : P.dy = p.dy
  dz : P.dz = p.dz
  riemann : P.riemannSolverType = p.riemannSolverType

theorem step2_shift {p P : Params R} (h : SameScheme p P) {g : GravityParams} {dt : R}
    {gf : Grav2 R} {u : Fld2 R} {X Y i j : Int} (h1 : interior2 p i j)
    (h2 : interior2 P (X + i) (Y + j)) :
    step2 P g dt gf u (X + i) (Y + j) =
      step2 p g dt (fun a b => gf (X + a) (Y + b)) (fun a b => u (X + a) (Y + b)) i j := by
  unfold step2
  rw [if_pos h1, if_pos h2]
  simp only [fluxUpdate2, fluxX2, fluxY2, face2, slopes2, prim2, gravity2, h.settings, h.dx, h.dy,
    h.riemann, add_assoc, add_sub_assoc]

theorem step3_shift {zk : Bool} {p P : Params R} (h : SameScheme p P) {g : GravityParams} {dt : R}
    {gf : Grav3 R} {u : Fld3 R} {X Y Z i j k : Int} (h1 : interior3 p i j k)
    (h2 : interior3 P (X + i) (Y + j) (Z + k)) :
    step3 zk P g dt gf u (X + i) (Y + j) (Z + k) =
      step3 zk p g dt (fun a b c => gf (X + a) (Y + b) (Z + c))
        (fun a b c => u (X + a) (Y + b) (Z + c)) i j k := by
  unfold step3
  rw [if_pos h1, if_pos h2]
  simp only [fluxUpdate3, fluxX3, fluxY3, fluxZ3, face3, trace3, slopes3, prim3, gravity3,
    h.settings, h.dx, h.dy, h.dz, h.riemann, add_assoc, add_sub_assoc]

/-- the two sets of parameters of a distributed run -/
theorem sameScheme_local (T : Topo) (p : Params R) :
    SameScheme (localParams T p) (globalParams T p) := ⟨rfl, rfl, rfl, rfl, rfl⟩

theorem globalParams_local (T : Topo) (p : Params R) :
    globalParams T (localParams T p) = globalParams T p := rfl

/-- interior cells of a block are interior cells of the global grid -/
theorem interior2_block {p : Params R} (hw : p.WF) (T : Topo) (r : T.Rank) {i j : Int}
    (h : interior2 p i j) :
    interior2 (globalParams T p) ((T.coords r).1 * p.nx + i) ((T.coords r).2.1 * p.ny + j) := by
  obtain ⟨⟨x1, x2⟩, ⟨y1, y2⟩, _⟩ := T.coords_range r
  obtain ⟨h1, h2, h3, h4⟩ := h
  have hx := hw.nx_pos
  have hy := hw.ny_pos
  have a1 : 0 ≤ (T.coords r).1 * p.nx := Int.mul_nonneg x1 (by omega)
  have a2 : (T.coords r).1 * p.nx ≤ (T.mx - 1) * p.nx :=
    Int.mul_le_mul_of_nonneg_right (by omega) (by omega)
  have b1 : 0 ≤ (T.coords r).2.1 * p.ny := Int.mul_nonneg y1 (by omega)
  have b2 : (T.coords r).2.1 * p.ny ≤ (T.my - 1) * p.ny :=
    Int.mul_le_mul_of_nonneg_right (by omega) (by omega)
  have a3 : ((T.mx : Int) - 1) * p.nx = p.nx * T.mx - p.nx := by ring
  have b3 : ((T.my : Int) - 1) * p.ny = p.ny * T.my - p.ny := by ring
  refine ⟨?_, ?_, ?_, ?_⟩
  · show p.ghostWidth ≤ (T.coords r).1 * p.nx + i
    omega
  · show (T.coords r).1 * p.nx + i < p.ghostWidth + p.nx * T.mx
    omega
  · show p.ghostWidth ≤ (T.coords r).2.1 * p.ny + j
    omega
  · show (T.coords r).2.1 * p.ny + j < p.ghostWidth + p.ny * T.my
    omega

theorem interior3_block {p : Params R} (hw : p.WF) (T : Topo) (r : T.Rank) {i j k : Int}
    (h : interior3 p i j k) :
    interior3 (globalParams T p) ((T.coords r).1 * p.nx + i) ((T.coords r).2.1 * p.ny + j)
      ((T.coords r).2.2 * p.nz + k) := by
  obtain ⟨_, _, z1, z2⟩ := T.coords_range r
  obtain ⟨⟨h1, h2⟩, ⟨h3, h4⟩, h5, h6⟩ := h
  have hz := hw.nz_pos
  have c1 : 0 ≤ (T.coords r).2.2 * p.nz := Int.mul_nonneg z1 (by omega)
  have c2 : (T.coords r).2.2 * p.nz ≤ (T.mz - 1) * p.nz :=
    Int.mul_le_mul_of_nonneg_right (by omega) (by omega)
  have c3 : ((T.mz : Int) - 1) * p.nz = p.nz * T.mz - p.nz := by ring
  obtain ⟨b1, b2, b3, b4⟩ := interior2_block hw T r (i := i) (j := j) ⟨h1, h2, h3, h4⟩
  refine ⟨⟨b1, b2⟩, ⟨b3, b4⟩, ?_, ?_⟩
  · show p.ghostWidth ≤ (T.coords r).2.2 * p.nz + k
    omega
  · show (T.coords r).2.2 * p.nz + k < p.ghostWidth + p.nz * T.mz
    omega

/-- conversely every interior cell of the global grid is one of a block -/
theorem block_exists {n m g : Int} (hn : 1 ≤ n) {a : Int} (h1 : g ≤ a)
    (h2 : a < g + n * m) :
    ∃ x i, 0 ≤ x ∧ x < m ∧ g ≤ i ∧ i < g + n ∧ x * n + i = a := by
  refine ⟨(a - g) / n, g + (a - g) % n, Int.ediv_nonneg (by omega) (by omega), ?_, ?_, ?_, ?_⟩
  · refine Int.ediv_lt_of_lt_mul (by omega) ?_
    rw [mul_comm]; omega
  · have := Int.emod_nonneg (a - g) (by omega : n ≠ 0); omega
  · have := Int.emod_lt_of_pos (a - g) (by omega : 0 < n); omega
  · have := Int.emod_add_mul_ediv (a - g) n
    rw [mul_comm]; omega

/-- **One distributed step on fields (2D).** -/
theorem distStep2 {lay : Layout} {T : Topo} {p : Params R} (hp : Hydro2 (localParams T p))
    (hS : SignLaws R) (hwide : Wide2 (localParams T p)) (hbc : NamedBC2 T (localParams T p))
    (hK : SchemeOK2 (localParams T p)) {g : GravityParams} {dt : R} {inA outA : Arr}
    (hpp : PingPong inA outA) {s : T.Rank → Mem Arr R} {u : Fld2 R} {gf : Grav2 R}
    (hu : ∀ r i j, interior2 (localParams T p) i j →
      hs2 (s r) inA i j = u ((T.coords r).1 * p.nx + i) ((T.coords r).2.1 * p.ny + j))
    (hgf : g.enabled = true → ∀ r i j, inGrid2 (localParams T p) i j →
      gravOf (s r) .grav i j = gf ((T.coords r).1 * p.nx + i) ((T.coords r).2.1 * p.ny + j)) :
    ∃ s₁, BulkRel (makeBoundariesMpi2 lay false T (localParams T p) inA) s s₁ ∧
      (∀ r, gravOf (s₁ r) .grav = gravOf (s r) .grav) ∧
      (∀ r i j, inGrid2 (localParams T p) i j → hs2 (s₁ r) inA i j =
        fill2 (globalParams T p) u ((T.coords r).1 * p.nx + i) ((T.coords r).2.1 * p.ny + j)) ∧
      ∀ r jk m', Kern.seqs (scheme2 (localParams T p) g dt jk inA outA) (s₁ r) m' →
        gravOf m' .grav = gravOf (s r) .grav ∧
        ∀ i j, interior2 (localParams T p) i j → hs2 m' outA i j =
          fullStep2 (globalParams T p) g dt gf u ((T.coords r).1 * p.nx + i)
            ((T.coords r).2.1 * p.ny + j) := by
  have hU : NotBuf inA := by
    rcases hpp with ⟨rfl, rfl⟩ | ⟨rfl, rfl⟩ <;> exact fun f => ⟨by simp, by simp⟩
  have n2 : Arr.grav ≠ inA := by rcases hpp with ⟨rfl, rfl⟩ | ⟨rfl, rfl⟩ <;> decide
  have n3 : ¬ SchemeOuts outA .grav := by
    rcases hpp with ⟨rfl, rfl⟩ | ⟨rfl, rfl⟩ <;> simp [SchemeOuts]
  obtain ⟨s₁, hb, h⟩ := halo2 (lay := lay) (mhd := false) hp.wf hS hU hwide hbc s
  have hgrav : ∀ r, gravOf (s₁ r) .grav = gravOf (s r) .grav := by
    intro r
    funext i j
    unfold gravOf
    rw [(h r).1 _ (fun f => ⟨by simp, by simp⟩) (fun hc => n2 hc.1),
      (h r).1 _ (fun f => ⟨by simp, by simp⟩) (fun hc => n2 hc.1)]
  have hv := hp.nbvar
  have hfill : ∀ r i j, inGrid2 (localParams T p) i j → hs2 (s₁ r) inA i j =
      fill2 (globalParams T p) u ((T.coords r).1 * p.nx + i) ((T.coords r).2.1 * p.ny + j) := by
    intro r i j hij
    have e := fun v (hv4 : v < 4) => (h r).2 (fun a b v => (u a b).get v) (by
      intro r' i j v hij hv
      have hv' : v = ID ∨ v = IP ∨ v = IU ∨ v = IV := by
        simp only [ID, IP, IU, IV]; omega
      have := hu r' i j hij
      have e2 : (hs2 (s r') inA i j).get v =
        (u ((T.coords r').1 * p.nx + i) ((T.coords r').2.1 * p.ny + j)).get v := by rw [this]
      rw [show (localParams T p).nx = p.nx from rfl, show (localParams T p).ny = p.ny from rfl]
      rw [← e2]
      rcases hv' with rfl | rfl | rfl | rfl <;> simp [hs2, HS.get, ID, IP, IU, IV]) i j v hij
      (by omega)
    unfold hs2 fill2
    rw [e ID (by decide), e IP (by decide), e IU (by decide), e IV (by decide)]
    simp [ghost2, signed, normalVar, ID, IP, IU, IV, IA, HS.get]
    exact ⟨rfl, rfl, rfl, rfl⟩
  refine ⟨s₁, hb, hgrav, hfill, fun r jk m' hm => ?_⟩
  obtain ⟨c1, c2⟩ := hK g dt jk inA outA hpp (s₁ r) m' hm
  refine ⟨(c1.grav n3).trans (hgrav r), fun i j hij => ?_⟩
  have hgw := hp.wf.gw_pos
  obtain ⟨a1, a2, a3, a4⟩ := id hij
  rw [c2 i j ⟨by omega, by omega, by omega, by omega⟩]
  unfold fullStep2
  have hblk : interior2 (globalParams T p) ((T.coords r).1 * p.nx + i) ((T.coords r).2.1 * p.ny + j) :=
    interior2_block hp.wf T r hij
  rw [step2_shift (sameScheme_local T p) hij hblk]
  refine step2_congr (fun a b h1 h2 h3 h4 => ?_) (fun he a b h1 h2 h3 h4 => ?_)
  · exact hfill r a b ⟨by omega, by omega, by omega, by omega⟩
  · rw [hgrav r]
    exact hgf he r a b ⟨by omega, by omega, by omega, by omega⟩

/-- **One distributed step on fields (3D).** -/
theorem distStep3 {zk : Bool} {lay : Layout} {T : Topo} {p : Params R} (hp : Hydro3 (localParams T p))
    (hS : SignLaws R) (hwide : Wide3 (localParams T p)) (hbc : NamedBC3 T (localParams T p))
    (hK : SchemeOK3 zk (localParams T p)) {g : GravityParams} {dt : R} {inA outA : Arr}
    (hpp : PingPong inA outA) {s : T.Rank → Mem Arr R} {u : Fld3 R} {gf : Grav3 R}
    (hu : ∀ r i j k, interior3 (localParams T p) i j k →
      hs3 (s r) inA i j k = u ((T.coords r).1 * p.nx + i) ((T.coords r).2.1 * p.ny + j) ((T.coords r).2.2 * p.nz + k))
    (hgf : g.enabled = true → ∀ r i j k, inGrid3 (localParams T p) i j k →
      gravOf3 (s r) .grav i j k = gf ((T.coords r).1 * p.nx + i) ((T.coords r).2.1 * p.ny + j) ((T.coords r).2.2 * p.nz + k)) :
    ∃ s₁, BulkRel (makeBoundariesMpi3 lay false T (localParams T p) inA) s s₁ ∧
      (∀ r, gravOf3 (s₁ r) .grav = gravOf3 (s r) .grav) ∧
      (∀ r i j k, inGrid3 (localParams T p) i j k → hs3 (s₁ r) inA i j k =
        fill3 (globalParams T p) u ((T.coords r).1 * p.nx + i) ((T.coords r).2.1 * p.ny + j) ((T.coords r).2.2 * p.nz + k)) ∧
      ∀ r jk m', Kern.seqs (scheme3 (localParams T p) g dt jk inA outA) (s₁ r) m' →
        gravOf3 m' .grav = gravOf3 (s r) .grav ∧
        ∀ i j k, interior3 (localParams T p) i j k → hs3 m' outA i j k =
          fullStep3 zk (globalParams T p) g dt gf u ((T.coords r).1 * p.nx + i)
            ((T.coords r).2.1 * p.ny + j) ((T.coords r).2.2 * p.nz + k) := by
  have hU : NotBuf inA := by
    rcases hpp with ⟨rfl, rfl⟩ | ⟨rfl, rfl⟩ <;> exact fun f => ⟨by simp, by simp⟩
  have n2 : Arr.grav ≠ inA := by rcases hpp with ⟨rfl, rfl⟩ | ⟨rfl, rfl⟩ <;> decide
  have n3 : ¬ SchemeOuts3 outA .grav := by
    rcases hpp with ⟨rfl, rfl⟩ | ⟨rfl, rfl⟩ <;> simp [SchemeOuts3]
  obtain ⟨s₁, hb, h⟩ := halo3 (lay := lay) (mhd := false) hp.wf hS hU hwide hbc s
  have hgrav : ∀ r, gravOf3 (s₁ r) .grav = gravOf3 (s r) .grav := by
    intro r
    funext i j k
    unfold gravOf3
    rw [(h r).1 _ (fun f => ⟨by simp, by simp⟩) (fun hc => n2 hc.1),
      (h r).1 _ (fun f => ⟨by simp, by simp⟩) (fun hc => n2 hc.1),
      (h r).1 _ (fun f => ⟨by simp, by simp⟩) (fun hc => n2 hc.1)]
  have hv := hp.nbvar
  have hfill : ∀ r i j k, inGrid3 (localParams T p) i j k → hs3 (s₁ r) inA i j k =
      fill3 (globalParams T p) u ((T.coords r).1 * p.nx + i) ((T.coords r).2.1 * p.ny + j) ((T.coords r).2.2 * p.nz + k) := by
    intro r i j k hij
    have e := fun v (hv4 : v < 5) => (h r).2 (fun a b c v => (u a b c).get v) (by
      intro r' i j k v hij hv
      have hv' : v = ID ∨ v = IP ∨ v = IU ∨ v = IV ∨ v = IW := by
        simp only [ID, IP, IU, IV, IW]; omega
      have := hu r' i j k hij
      have e2 : (hs3 (s r') inA i j k).get v =
        (u ((T.coords r').1 * p.nx + i) ((T.coords r').2.1 * p.ny + j) ((T.coords r').2.2 * p.nz + k)).get v := by rw [this]
      rw [show (localParams T p).nx = p.nx from rfl, show (localParams T p).ny = p.ny from rfl,
        show (localParams T p).nz = p.nz from rfl]
      rw [← e2]
      rcases hv' with rfl | rfl | rfl | rfl | rfl <;> simp [hs3, HS.get, ID, IP, IU, IV, IW]) i j k v hij
      (by omega)
    unfold hs3 fill3
    rw [e ID (by decide), e IP (by decide), e IU (by decide), e IV (by decide), e IW (by decide)]
    simp [ghost3, signed, normalVar, ID, IP, IU, IV, IW, IA, HS.get]
    exact ⟨rfl, rfl, rfl, rfl, rfl⟩
  refine ⟨s₁, hb, hgrav, hfill, fun r jk m' hm => ?_⟩
  obtain ⟨c1, c2⟩ := hK g dt jk inA outA hpp (s₁ r) m' hm
  refine ⟨(c1.grav3 n3).trans (hgrav r), fun i j k hij => ?_⟩
  have hgw := hp.wf.gw_pos
  obtain ⟨⟨a1, a2⟩, ⟨a3, a4⟩, a5, a6⟩ := id hij
  rw [c2 i j k ⟨⟨by omega, by omega⟩, ⟨by omega, by omega⟩, by omega, by omega⟩]
  unfold fullStep3
  have hblk : interior3 (globalParams T p) ((T.coords r).1 * p.nx + i) ((T.coords r).2.1 * p.ny + j) ((T.coords r).2.2 * p.nz + k) :=
    interior3_block hp.wf T r hij
  rw [step3_shift (sameScheme_local T p) hij hblk]
  refine step3_congr (fun a b c h1 h2 h3 h4 h5 h6 => ?_) (fun he a b c h1 h2 h3 h4 h5 h6 => ?_)
  · exact hfill r a b c ⟨⟨by omega, by omega⟩, ⟨by omega, by omega⟩, by omega, by omega⟩
  · rw [hgrav r]
    exact hgf he r a b c ⟨⟨by omega, by omega⟩, ⟨by omega, by omega⟩, by omega, by omega⟩


end EulerKokkos
