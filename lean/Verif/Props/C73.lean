import Verif.Props.C53
import Verif.Lemmas.RunSymmetry
import Verif.Lemmas.Mirror3

/-!
# C73 — closed boxes: mass and energy in the files of complete hydro runs

A box is closed if along each axis both sides are periodic or both are reflecting walls.
-/

set_option linter.constructorNameAsVariable false
set_option linter.unusedSectionVars false
set_option linter.unusedSimpArgs false

namespace EulerKokkos
open Spec

/-- both sides of an axis are periodic, or both are reflecting walls -/
def Spec.ClosedAxis (a b : BC) : Prop :=
  (a = .periodic ∧ b = .periodic) ∨ (a = .dirichlet ∧ b = .dirichlet)

/-- nothing can leave the 2D box -/
structure Spec.ClosedBox2 {α : Type} (p : Params α) : Prop where
  x : ClosedAxis p.boundary_type_xmin p.boundary_type_xmax
  y : ClosedAxis p.boundary_type_ymin p.boundary_type_ymax

/-- nothing can leave the 3D box -/
structure Spec.ClosedBox3 {α : Type} (p : Params α) : Prop extends ClosedBox2 p where
  z : ClosedAxis p.boundary_type_zmin p.boundary_type_zmax

/-- the quantities a closed box keeps: mass and energy, and the momentum along each periodic axis -/
def Spec.Kept {α : Type} (p : Params α) (v : Nat) : Prop :=
  v = ID ∨ v = IP ∨ (v = IU ∧ p.boundary_type_xmin = .periodic) ∨
    (v = IV ∧ p.boundary_type_ymin = .periodic)

/-- the same in 3D -/
def Spec.Kept3 {α : Type} (p : Params α) (v : Nat) : Prop :=
  Kept p v ∨ (v = IW ∧ p.boundary_type_zmin = .periodic)

/-! ## One axis -/

theorem srcCoord_wall_min {b : BC} {n gw c : Int} (hn : gw ≤ n) (h0 : 0 ≤ c) (h1 : c < 2 * gw) :
    srcCoord .dirichlet b n gw (2 * gw - 1 - c) = srcCoord .dirichlet b n gw c := by
  unfold srcCoord
  simp only
  by_cases h : c < gw
  · rw [if_neg (by omega), if_neg (by omega), if_pos h]
  · rw [if_pos (by omega), if_neg h, if_neg (by omega)]; omega

theorem srcCoord_wall_max {a : BC} {n gw c : Int} (hn : gw ≤ n) (h0 : n ≤ c) (h1 : c < n + 2 * gw) :
    srcCoord a .dirichlet n gw (2 * (gw + n) - 1 - c) = srcCoord a .dirichlet n gw c := by
  unfold srcCoord
  simp only
  by_cases h : c < gw + n
  · rw [if_neg (by omega), if_pos (by omega), if_neg (by omega), if_neg (by omega)]; omega
  · rw [if_neg (by omega), if_neg (by omega), if_neg (by omega), if_pos (by omega)]

theorem flips_wall_min {b : BC} {n gw c : Int} (hn : gw ≤ n) (h0 : 0 ≤ c) (h1 : c < 2 * gw) :
    flips .dirichlet b n gw (2 * gw - 1 - c) ↔ ¬ flips .dirichlet b n gw c := by
  unfold flips
  by_cases h : c < gw
  · constructor
    · rintro (⟨k, _⟩ | ⟨k, _⟩) <;> omega
    · intro k; exact absurd (.inl ⟨h, rfl⟩) k
  · constructor
    · rintro _ (⟨k, _⟩ | ⟨k, _⟩) <;> omega
    · intro _; exact .inl ⟨by omega, rfl⟩

theorem flips_wall_max {a : BC} {n gw c : Int} (hn : gw ≤ n) (h0 : n ≤ c) (h1 : c < n + 2 * gw) :
    flips a .dirichlet n gw (2 * (gw + n) - 1 - c) ↔ ¬ flips a .dirichlet n gw c := by
  unfold flips
  by_cases h : c < gw + n
  · constructor
    · rintro _ (⟨k, _⟩ | ⟨k, _⟩) <;> omega
    · intro _; exact .inr ⟨by omega, rfl⟩
  · constructor
    · rintro (⟨k, _⟩ | ⟨k, _⟩) <;> omega
    · intro k; exact absurd (.inr ⟨by omega, rfl⟩) k

theorem signed_not {P Q : Prop} [Decidable P] [Decidable Q] (h : P ↔ ¬ Q) (x : ℝ) :
    signed P x = -signed Q x := by
  unfold signed
  by_cases hq : Q
  · rw [if_neg (fun k => h.1 k hq), if_pos hq, neg_neg]
  · rw [if_pos (h.2 hq), if_neg hq]

/-- a flux that is its own mirror image moves nothing but normal momentum -/
theorem mirrorFlux_fix {f : HS ℝ} (h : f = mirrorFlux f) : f.d = 0 ∧ f.p = 0 ∧ f.v = 0 ∧ f.w = 0 := by
  rw [HS.ext_iff] at h
  obtain ⟨h1, h2, _, h3, h4⟩ := h
  unfold mirrorFlux at h1 h2 h3 h4
  simp only at h1 h2 h3 h4
  exact ⟨by linarith, by linarith, by linarith, by linarith⟩

/-- 2D fluxes without gravity kick do not depend on the gravity field -/
theorem fluxX2_noKick {p : Params ℝ} {g : GravityParams}
    (hg : (g.enabled && g.hancock_predictor_enabled) = false) (dt : ℝ) (gf gf' : Grav2 ℝ) (q : Fld2 ℝ) :
    fluxX2 p g dt gf q = fluxX2 p ⟨false, false⟩ dt gf' q := by
  funext i j; simp [fluxX2, face2, kick2, hg]
theorem fluxY2_noKick {p : Params ℝ} {g : GravityParams}
    (hg : (g.enabled && g.hancock_predictor_enabled) = false) (dt : ℝ) (gf gf' : Grav2 ℝ) (q : Fld2 ℝ) :
    fluxY2 p g dt gf q = fluxY2 p ⟨false, false⟩ dt gf' q := by
  funext i j; simp [fluxY2, face2, kick2, hg]
theorem fluxX3_noKick {p : Params ℝ} {g : GravityParams}
    (hg : (g.enabled && g.hancock_predictor_enabled) = false) (dt : ℝ) (gf gf' : Grav3 ℝ) (q : Fld3 ℝ) :
    fluxX3 p g dt gf q = fluxX3 p ⟨false, false⟩ dt gf' q := by
  funext i j k; simp [fluxX3, face3, kick3, hg]
theorem fluxY3_noKick {p : Params ℝ} {g : GravityParams}
    (hg : (g.enabled && g.hancock_predictor_enabled) = false) (dt : ℝ) (gf gf' : Grav3 ℝ) (q : Fld3 ℝ) :
    fluxY3 p g dt gf q = fluxY3 p ⟨false, false⟩ dt gf' q := by
  funext i j k; simp [fluxY3, face3, kick3, hg]
theorem fluxZ3_noKick {p : Params ℝ} {g : GravityParams}
    (hg : (g.enabled && g.hancock_predictor_enabled) = false) (zk : Bool) (dt : ℝ) (gf gf' : Grav3 ℝ)
    (q : Fld3 ℝ) : fluxZ3 zk p g dt gf q = fluxZ3 true p ⟨false, false⟩ dt gf' q := by
  funext i j k; cases zk <;> simp [fluxZ3, face3, kick3, hg]

/-! ## Sides of the 2D box -/

/-- the variable `v` (not the momentum along the axis unless it is periodic) is balanced between the two
sides of an axis: equal fluxes (periodic) or none (walls) -/
theorem sidesX2 {p : Params ℝ} (hw : p.WF) (hgw : 2 ≤ p.ghostWidth) (hn : p.ghostWidth ≤ p.nx)
    (hs : GoodSettings p.settings)
    (hc : ClosedAxis p.boundary_type_xmin p.boundary_type_xmax)
    (hr : p.boundary_type_xmin = .dirichlet → p.riemannSolverType = .llf ∨ p.riemannSolverType = .hll ∨
      p.riemannSolverType = .hllc)
    (dt : ℝ) (gf : Grav2 ℝ) (u : Fld2 ℝ) (j : Int) :
    let q := prim2 p (fill2 p u)
    let a := fluxX2 p ⟨false, false⟩ dt gf q p.ghostWidth j
    let b := fluxX2 p ⟨false, false⟩ dt gf q (p.ghostWidth + p.nx) j
    a.d = b.d ∧ a.p = b.p ∧ (p.boundary_type_xmin = .periodic → a.u = b.u) ∧ a.v = b.v := by
  intro q a b
  rcases hc with ⟨h1, h2⟩ | ⟨h1, h2⟩
  · have e : b = a := by
      have := fluxX2_shift p ⟨false, false⟩ dt gf q p.nx 0 p.ghostWidth j
      rw [add_zero] at this
      show fluxX2 p _ dt gf q _ j = _
      rw [← this]
      refine fluxX2_congr (fun a b k1 k2 _ _ => ?_) (fun h => by cases h)
      show (computePrimitives2 _ (fill2 p u _ _)).1 = (computePrimitives2 _ (fill2 p u _ _)).1
      rw [add_zero]
      have : fill2 p u (a + p.nx) b = fill2 p u a b := by
        unfold fill2
        simp [h1, h2, srcCoord_periodic hn (show 0 ≤ a by omega) (show a < 2 * p.ghostWidth by omega), flips,
          signed]
      rw [this]
    rw [e]; exact ⟨rfl, rfl, fun _ => rfl, rfl⟩
  · have key : ∀ B, (B = p.ghostWidth ∨ B = p.ghostWidth + p.nx) →
        fluxX2 p ⟨false, false⟩ dt gf q B j = mirrorFlux (fluxX2 p ⟨false, false⟩ dt gf q B j) := by
      intro B hB
      have e := fluxX2_refl hs (hr h1) ⟨false, false⟩ dt (2 * B - 1) gf q B j
      rw [show 2 * B - 1 - B + 1 = B by omega] at e
      rw [← e]
      refine fluxX2_congr (fun a b k1 k2 _ _ => ?_) (fun h => by cases h)
      show _ = mirror ((computePrimitives2 _ (fill2 p u _ _)).1)
      rw [← computePrimitives2_mirror]
      show (computePrimitives2 _ (fill2 p u _ _)).1 = _
      have : fill2 p u a b = mirror (fill2 p u (2 * B - 1 - a) b) := by
        unfold fill2 mirror
        dsimp only
        rw [h1, h2]
        rcases hB with rfl | rfl
        · rw [srcCoord_wall_min hn (by omega) (by omega),
            signed_not (flips_wall_min hn (by omega) (by omega)), neg_neg]
        · rw [srcCoord_wall_max hn (by omega) (by omega),
            signed_not (flips_wall_max hn (by omega) (by omega)), neg_neg]
      rw [this]
    obtain ⟨a1, a2, a3, _⟩ := mirrorFlux_fix (key _ (.inl rfl))
    obtain ⟨b1, b2, b3, _⟩ := mirrorFlux_fix (key _ (.inr rfl))
    exact ⟨a1.trans b1.symm, a2.trans b2.symm, (fun h => by rw [h1] at h; cases h), a3.trans b3.symm⟩

theorem sidesY2 {p : Params ℝ} (hp : Hydro2 p) (hgw : 2 ≤ p.ghostWidth) (hn : p.ghostWidth ≤ p.ny)
    (hs : GoodSettings p.settings)
    (hc : ClosedAxis p.boundary_type_ymin p.boundary_type_ymax)
    (hr : p.boundary_type_ymin = .dirichlet → p.riemannSolverType = .llf ∨ p.riemannSolverType = .hll ∨
      p.riemannSolverType = .hllc)
    (dt : ℝ) (gf : Grav2 ℝ) (u : Fld2 ℝ) (i : Int) :
    let q := prim2 p (fill2 p u)
    let a := fluxY2 p ⟨false, false⟩ dt gf q i p.ghostWidth
    let b := fluxY2 p ⟨false, false⟩ dt gf q i (p.ghostWidth + p.ny)
    a.d = b.d ∧ a.p = b.p ∧ (p.boundary_type_ymin = .periodic → a.v = b.v) ∧ a.u = b.u := by
  intro q a b
  have h := sidesX2 (transpose_hydro2 hp).wf hgw hn hs hc hr dt (trG gf) (trF u) i
  dsimp only at h
  rw [trF_fill, trF_prim] at h
  simp only [trF_fluxX] at h
  exact h

/-! ## Sides of the 3D box -/

theorem fluxX3_shift' (p : Params ℝ) (g : GravityParams) (dt : ℝ) (gf : Grav3 ℝ) (q : Fld3 ℝ)
    (a i j k : Int) :
    fluxX3 p g dt (fun i j k => gf (i + a) j k) (fun i j k => q (i + a) j k) i j k =
      fluxX3 p g dt gf q (i + a) j k := by
  unfold fluxX3 face3 trace3 slopes3
  rw [show i + a - 1 = i - 1 + a by ring]
  simp only [show i + a + 1 = i + 1 + a by ring, show i - 1 + a + 1 = i - 1 + 1 + a by ring,
    show i + a - 1 = i - 1 + a by ring, show i - 1 + a - 1 = i - 1 - 1 + a by ring]

theorem sidesX3 {p : Params ℝ} (hgw : 2 ≤ p.ghostWidth) (hn : p.ghostWidth ≤ p.nx)
    (hs : GoodSettings p.settings)
    (hc : ClosedAxis p.boundary_type_xmin p.boundary_type_xmax)
    (hr : p.boundary_type_xmin = .dirichlet → p.riemannSolverType = .llf ∨ p.riemannSolverType = .hllc)
    (dt : ℝ) (gf : Grav3 ℝ) (u : Fld3 ℝ) (j k : Int) :
    let q := prim3 p (fill3 p u)
    let a := fluxX3 p ⟨false, false⟩ dt gf q p.ghostWidth j k
    let b := fluxX3 p ⟨false, false⟩ dt gf q (p.ghostWidth + p.nx) j k
    a.d = b.d ∧ a.p = b.p ∧ (p.boundary_type_xmin = .periodic → a.u = b.u) ∧ a.v = b.v ∧ a.w = b.w := by
  intro q a b
  rcases hc with ⟨h1, h2⟩ | ⟨h1, h2⟩
  · have ef : ∀ i j k, 0 ≤ i → i < 2 * p.ghostWidth → q (i + p.nx) j k = q i j k := by
      intro i j k hi hi'
      show (computePrimitives3 _ (fill3 p u _ _ _)).1 = (computePrimitives3 _ (fill3 p u _ _ _)).1
      have : fill3 p u (i + p.nx) j k = fill3 p u i j k := by
        unfold fill3
        simp [h1, h2, srcCoord_periodic hn hi hi', flips, signed]
      rw [this]
    have e : b = a := by
      have := fluxX3_shift' p ⟨false, false⟩ dt gf q p.nx p.ghostWidth j k
      show fluxX3 p _ dt gf q _ j k = _
      rw [← this]
      refine fluxX3_congr ?_ ?_ (fun h => by cases h)
      · intro a b c k1 k2 k3 k4 k5 k6
        exact ef a b c (by omega) (by omega)
      · intro a b c k1 k2 k3 k4 k5 k6
        exact ef a b c (by omega) (by omega)
    rw [e]; exact ⟨rfl, rfl, fun _ => rfl, rfl, rfl⟩
  · have key : ∀ B, (B = p.ghostWidth ∨ B = p.ghostWidth + p.nx) →
        fluxX3 p ⟨false, false⟩ dt gf q B j k = mirrorFlux (fluxX3 p ⟨false, false⟩ dt gf q B j k) := by
      intro B hB
      have e := fluxX3_refl hs (hr h1) ⟨false, false⟩ dt (2 * B - 1) gf q B j k
      rw [show 2 * B - 1 - B + 1 = B by omega] at e
      have ef : ∀ a b c, B - 2 ≤ a → a ≤ B + 1 → q a b c = refl3 (2 * B - 1) q a b c := by
        intro a b c k1 k2
        show _ = mirror ((computePrimitives3 _ (fill3 p u _ _ _)).1)
        rw [← computePrimitives3_mirror]
        show (computePrimitives3 _ (fill3 p u _ _ _)).1 = _
        have : fill3 p u a b c = mirror (fill3 p u (2 * B - 1 - a) b c) := by
          unfold fill3 mirror
          dsimp only
          rw [h1, h2]
          rcases hB with rfl | rfl
          · rw [srcCoord_wall_min hn (by omega) (by omega),
              signed_not (flips_wall_min hn (by omega) (by omega)), neg_neg]
          · rw [srcCoord_wall_max hn (by omega) (by omega),
              signed_not (flips_wall_max hn (by omega) (by omega)), neg_neg]
        rw [this]
      rw [← e]
      refine fluxX3_congr ?_ ?_ (fun h => by cases h)
      · intro a b c k1 k2 k3 k4 k5 k6
        exact ef a b c (by omega) (by omega)
      · intro a b c k1 k2 k3 k4 k5 k6
        exact ef a b c (by omega) (by omega)
    obtain ⟨a1, a2, a3, a4⟩ := mirrorFlux_fix (key _ (.inl rfl))
    obtain ⟨b1, b2, b3, b4⟩ := mirrorFlux_fix (key _ (.inr rfl))
    exact ⟨a1.trans b1.symm, a2.trans b2.symm, (fun h => by rw [h1] at h; cases h), a3.trans b3.symm,
      a4.trans b4.symm⟩

theorem sidesY3 {p : Params ℝ} (hv : p.riemannSolverType ≠ .hll ∧ p.riemannSolverType ≠ .hlld)
    (hgw : 2 ≤ p.ghostWidth) (hn : p.ghostWidth ≤ p.ny)
    (hs : GoodSettings p.settings)
    (hc : ClosedAxis p.boundary_type_ymin p.boundary_type_ymax)
    (hr : p.boundary_type_ymin = .dirichlet → p.riemannSolverType = .llf ∨ p.riemannSolverType = .hllc)
    (dt : ℝ) (gf : Grav3 ℝ) (u : Fld3 ℝ) (i k : Int) :
    let q := prim3 p (fill3 p u)
    let a := fluxY3 p ⟨false, false⟩ dt gf q i p.ghostWidth k
    let b := fluxY3 p ⟨false, false⟩ dt gf q i (p.ghostWidth + p.ny) k
    a.d = b.d ∧ a.p = b.p ∧ (p.boundary_type_ymin = .periodic → a.v = b.v) ∧ a.u = b.u ∧ a.w = b.w := by
  intro q a b
  have h := sidesX3 (p := swapXYParams p) hgw hn hs hc hr dt (swapXYG gf) (swapXY u) i k
  dsimp only at h
  have e1 : prim3 (swapXYParams p) (swapXY (fill3 p u)) = swapXY (prim3 p (fill3 p u)) := by
    funext i j k; exact computePrimitives3_swapUV _ _
  rw [fill3_XY, e1] at h
  simp only [fluxX3_XY hv] at h
  exact h

theorem sidesZ3 {p : Params ℝ} (hv : p.riemannSolverType ≠ .hll ∧ p.riemannSolverType ≠ .hlld)
    (hgw : 2 ≤ p.ghostWidth) (hn : p.ghostWidth ≤ p.nz)
    (hs : GoodSettings p.settings)
    (hc : ClosedAxis p.boundary_type_zmin p.boundary_type_zmax)
    (hr : p.boundary_type_zmin = .dirichlet → p.riemannSolverType = .llf ∨ p.riemannSolverType = .hllc)
    (dt : ℝ) (gf : Grav3 ℝ) (u : Fld3 ℝ) (i j : Int) :
    let q := prim3 p (fill3 p u)
    let a := fluxZ3 true p ⟨false, false⟩ dt gf q i j p.ghostWidth
    let b := fluxZ3 true p ⟨false, false⟩ dt gf q i j (p.ghostWidth + p.nz)
    a.d = b.d ∧ a.p = b.p ∧ (p.boundary_type_zmin = .periodic → a.w = b.w) ∧ a.v = b.v ∧ a.u = b.u := by
  intro q a b
  have h := sidesX3 (p := swapXZParams p) hgw hn hs hc hr dt (swapXZG gf) (swapXZ u) j i
  dsimp only at h
  have e1 : prim3 (swapXZParams p) (swapXZ (fill3 p u)) = swapXZ (prim3 p (fill3 p u)) := by
    funext i j k; exact computePrimitives3_swapUW _ _
  rw [fill3_XZ, e1] at h
  simp only [fluxX3_XZ hv (zk := true) (hz := .inl rfl)] at h
  exact h

/-! ## Totals -/

/-- what a step of a closed box keeps: without gravity mass, energy and the momenta along periodic axes;
with gravity mass -/
def Spec.KeptBy2 {α : Type} (p : Params α) (g : GravityParams) (v : Nat) : Prop :=
  v = ID ∨ (g.enabled = false ∧ Kept p v)

/-- the same in 3D -/
def Spec.KeptBy3 {α : Type} (p : Params α) (g : GravityParams) (v : Nat) : Prop :=
  v = ID ∨ (g.enabled = false ∧ Kept3 p v)

theorem kept_lt {α : Type} {p : Params α} {v : Nat} (h : Kept p v) : v < 4 := by
  rcases h with h | h | ⟨h, _⟩ | ⟨h, _⟩ <;> subst h <;> decide

theorem closedAxis_ok {a b : BC} {n gw : Int} (h : ClosedAxis a b) (k : BCok a n gw) : gw ≤ n := by
  rcases k with k | k
  · rcases h with ⟨h, _⟩ | ⟨h, _⟩ <;> rw [h] at k <;> cases k
  · exact k

theorem total_step2 {p : Params ℝ} (hp : Hydro2 p) (hs : GoodSettings p.settings) (hc : ClosedBox2 p)
    (hr : Periodic2 p ∨ p.riemannSolverType = .llf ∨ p.riemannSolverType = .hll ∨
      p.riemannSolverType = .hllc)
    {g : GravityParams} (hg : (g.enabled && g.hancock_predictor_enabled) = false)
    (dt : ℝ) (gf : Grav2 ℝ) (u : Fld2 ℝ) {v : Nat} (hv : KeptBy2 p g v) :
    total2 p (fun i j => (fullStep2 p g dt gf u i j).get v) = total2 p (fun i j => (u i j).get v) := by
  have hv4 : v < 4 := by
    rcases hv with h | ⟨_, h⟩
    · subst h; decide
    · exact kept_lt h
  have hk : Kept p v := by
    rcases hv with h | ⟨_, h⟩
    · exact .inl h
    · exact h
  have hx := closedAxis_ok hc.x hp.faces.1
  have hy := closedAxis_ok hc.y hp.faces.2.2.1
  have hgw := hp.wf.gw_pos
  have hrx : p.boundary_type_xmin = .dirichlet → p.riemannSolverType = .llf ∨ p.riemannSolverType = .hll ∨
      p.riemannSolverType = .hllc := by
    intro h; rcases hr with k | k
    · rw [k.1] at h; cases h
    · exact k
  have hry : p.boundary_type_ymin = .dirichlet → p.riemannSolverType = .llf ∨ p.riemannSolverType = .hll ∨
      p.riemannSolverType = .hllc := by
    intro h; rcases hr with k | k
    · rw [k.2.2.1] at h; cases h
    · exact k
  let q := prim2 p (fill2 p u)
  let fx := fun i j => (fluxX2 p ⟨false, false⟩ dt gf q i j).get v
  let fy := fun i j => (fluxY2 p ⟨false, false⟩ dt gf q i j).get v
  have e : total2 p (fun i j => (fullStep2 p g dt gf u i j).get v) =
      total2 p (fun i j => (u i j).get v + fx i j - fx (i + 1) j + fy i j - fy i (j + 1)) := by
    refine total2_congr p (fun i j hij => ?_)
    unfold fullStep2 step2
    rw [if_pos hij]
    dsimp only
    rw [fluxX2_noKick hg dt gf gf, fluxY2_noKick hg dt gf gf]
    have e0 : (if g.enabled = true then gravity2 p dt (gf i j) (fill2 p u i j)
        (fluxUpdate2 (fluxX2 p ⟨false, false⟩ dt gf (prim2 p (fill2 p u)))
          (fluxY2 p ⟨false, false⟩ dt gf (prim2 p (fill2 p u))) (fill2 p u i j) i j)
        else fluxUpdate2 (fluxX2 p ⟨false, false⟩ dt gf (prim2 p (fill2 p u)))
          (fluxY2 p ⟨false, false⟩ dt gf (prim2 p (fill2 p u))) (fill2 p u i j) i j).get v =
        (fluxUpdate2 (fluxX2 p ⟨false, false⟩ dt gf (prim2 p (fill2 p u)))
          (fluxY2 p ⟨false, false⟩ dt gf (prim2 p (fill2 p u))) (fill2 p u i j) i j).get v := by
      rcases hv with h | ⟨h, _⟩
      · subst h; split_ifs <;> rfl
      · rw [h]; rfl
    rw [e0, fluxUpdate2_get _ _ _ _ _ hv4, fill2_interior p u hij hv4]
  rw [e, total2_fluxUpdate p hp.wf]
  have ex : ∀ j, fx p.ghostWidth j - fx (p.ghostWidth + p.nx) j = 0 := by
    intro j
    obtain ⟨a, b, c, d⟩ := sidesX2 hp.wf hgw hx hs hc.x hrx dt gf u j
    rw [sub_eq_zero]
    rcases hk with h | h | ⟨h, hP⟩ | ⟨h, _⟩ <;> subst h
    · exact a
    · exact b
    · exact c hP
    · exact d
  have ey : ∀ i, fy i p.ghostWidth - fy i (p.ghostWidth + p.ny) = 0 := by
    intro i
    obtain ⟨a, b, c, d⟩ := sidesY2 hp hgw hy hs hc.y hry dt gf u i
    rw [sub_eq_zero]
    rcases hk with h | h | ⟨h, hP⟩ | ⟨h, hP⟩ <;> subst h
    · exact a
    · exact b
    · exact d
    · exact c hP
  simp only [ex, ey, Finset.sum_const_zero, add_zero]

theorem total_step3 {p : Params ℝ} (hp : Hydro3 p) (hs : GoodSettings p.settings) (hc : ClosedBox3 p)
    (hr : Periodic3 p ∨ p.riemannSolverType = .llf ∨ p.riemannSolverType = .hllc)
    {g : GravityParams} (hg : (g.enabled && g.hancock_predictor_enabled) = false) (zk : Bool)
    (dt : ℝ) (gf : Grav3 ℝ) (u : Fld3 ℝ) {v : Nat} (hv : KeptBy3 p g v) :
    total3 p (fun i j k => (fullStep3 zk p g dt gf u i j k).get v) =
      total3 p (fun i j k => (u i j k).get v) := by
  have hv5 : v < 5 := by
    rcases hv with h | ⟨_, h | ⟨h, _⟩⟩
    · subst h; decide
    · have := kept_lt h; omega
    · subst h; decide
  have hk : Kept3 p v := by
    rcases hv with h | ⟨_, h⟩
    · exact .inl (.inl h)
    · exact h
  have hx := closedAxis_ok hc.x hp.faces.1.1
  have hy := closedAxis_ok hc.y hp.faces.1.2.2.1
  have hz := closedAxis_ok hc.z hp.faces.2.1
  have hgw := hp.wf.gw_pos
  have hrx : p.boundary_type_xmin = .dirichlet → p.riemannSolverType = .llf ∨
      p.riemannSolverType = .hllc := by
    intro h; rcases hr with k | k
    · rw [k.1.1] at h; cases h
    · exact k
  have hry : p.boundary_type_ymin = .dirichlet → p.riemannSolverType = .llf ∨
      p.riemannSolverType = .hllc := by
    intro h; rcases hr with k | k
    · rw [k.1.2.2.1] at h; cases h
    · exact k
  have hrz : p.boundary_type_zmin = .dirichlet → p.riemannSolverType = .llf ∨
      p.riemannSolverType = .hllc := by
    intro h; rcases hr with k | k
    · rw [k.2.1] at h; cases h
    · exact k
  let q := prim3 p (fill3 p u)
  let fx := fun i j k => (fluxX3 p ⟨false, false⟩ dt gf q i j k).get v
  let fy := fun i j k => (fluxY3 p ⟨false, false⟩ dt gf q i j k).get v
  let fz := fun i j k => (fluxZ3 true p ⟨false, false⟩ dt gf q i j k).get v
  have e : total3 p (fun i j k => (fullStep3 zk p g dt gf u i j k).get v) =
      total3 p (fun i j k => (u i j k).get v + fx i j k - fx (i + 1) j k + fy i j k - fy i (j + 1) k
        + fz i j k - fz i j (k + 1)) := by
    refine total3_congr p (fun i j k hij => ?_)
    unfold fullStep3 step3
    rw [if_pos hij]
    dsimp only
    rw [fluxX3_noKick hg dt gf gf, fluxY3_noKick hg dt gf gf, fluxZ3_noKick hg zk dt gf gf]
    generalize hF : fluxUpdate3 (R := ℝ) _ _ _ _ i j k = F
    have e0 : (if g.enabled = true then gravity3 dt (gf i j k) (fill3 p u i j k) F else F).get v = F.get v := by
      rcases hv with h | ⟨h, _⟩
      · subst h; split_ifs <;> rfl
      · rw [h]; rfl
    rw [e0, ← hF, fluxUpdate3_get _ _ _ _ _ _ _ hv5, fill3_interior p u hij]
  rw [e, total3_fluxUpdate p hp.wf]
  have ex : ∀ j k, fx p.ghostWidth j k - fx (p.ghostWidth + p.nx) j k = 0 := by
    intro j k
    obtain ⟨a, b, c, d, w⟩ := sidesX3 hgw hx hs hc.x hrx dt gf u j k
    rw [sub_eq_zero]
    rcases hk with (h | h | ⟨h, hP⟩ | ⟨h, _⟩) | ⟨h, _⟩ <;> subst h
    · exact a
    · exact b
    · exact c hP
    · exact d
    · exact w
  have ey : ∀ i k, fy i p.ghostWidth k - fy i (p.ghostWidth + p.ny) k = 0 := by
    intro i k
    obtain ⟨a, b, c, d, w⟩ := sidesY3 hp.valid.riemann hgw hy hs hc.y hry dt gf u i k
    rw [sub_eq_zero]
    rcases hk with (h | h | ⟨h, hP⟩ | ⟨h, hP⟩) | ⟨h, _⟩ <;> subst h
    · exact a
    · exact b
    · exact d
    · exact c hP
    · exact w
  have ez : ∀ i j, fz i j p.ghostWidth - fz i j (p.ghostWidth + p.nz) = 0 := by
    intro i j
    obtain ⟨a, b, c, d, w⟩ := sidesZ3 hp.valid.riemann hgw hz hs hc.z hrz dt gf u i j
    rw [sub_eq_zero]
    rcases hk with (h | h | ⟨h, hP⟩ | ⟨h, hP⟩) | ⟨h, hP⟩ <;> subst h
    · exact a
    · exact b
    · exact w
    · exact d
    · exact c hP
  unfold sides3
  simp only [ex, ey, ez, Finset.sum_const_zero, add_zero]

/-! ## Files of complete runs -/

/-- **C73 (2D).** In a box whose axes are periodic or bounded by reflecting walls, every file written by a
complete hydro run shows the initial totals over the domain of mass and energy and of the momenta along the
periodic axes (with gravity, the predictor being off: of mass), in every version, schedule and for every
contents of uninitialised memory. Walls need the solver llf, hll or hllc. -/
theorem C73_closed_box_2d {p : Params ℝ} (hp : Hydro2 p) (hc : ClosedBox2 p)
    (hi : p.implementationVersion = 0 ∨ p.implementationVersion = 1 ∨ p.implementationVersion = 2)
    (hr : Periodic2 p ∨ p.riemannSolverType = .llf ∨ p.riemannSolverType = .hll ∨
      p.riemannSolverType = .hllc)
    (hgg : GoodGrid p) (he : p.enableOutput = decide (p.nOutput ≠ 0))
    {g : GravityParams} (hg : (g.enabled && g.hancock_predictor_enabled) = false)
    {ident : ℝ} (hid : ident ≤ 0) (jk : Junk ℝ) {m : Mem Arr ℝ} {t : ℝ} {sv : Int}
    {s' : RunState ℝ} (h : runMain p (hydroOps2 p g ident jk) m t sv s') {v : Nat} (hv : KeptBy2 p g v) :
    (∀ o ∈ s'.outputs, total2 p (fun i j => o.data ⟨(), i, j, 0, v⟩) =
      total2 p (fun i j => m ⟨.U, i, j, 0, v⟩)) ∧
    total2 p (fun i j => s'.mem ⟨pingIn s'.iteration, i, j, 0, v⟩) =
      total2 p (fun i j => m ⟨.U, i, j, 0, v⟩) := by
  have hv4 : v < 4 := by
    rcases hv with h | ⟨_, h⟩
    · subst h; decide
    · exact kept_lt h
  obtain ⟨_, _, hf, hx⟩ := C15_run_is_algorithm_2d hp hi hgg he g hid jk h
  obtain ⟨k1, k2⟩ := Sim.result_inv (p := p) (M := hydro2 p g (gravOf m .grav)) (x := fill2 p (hs2 m .U))
    (P := fun x => total2 p (fun i j => (x i j).get v) = total2 p (fun i j => m ⟨.U, i, j, 0, v⟩))
    (fun dt x hx => (total_step2 hp hgg.settings hc hr hg dt _ x hv).trans hx)
    (total2_congr p (fun i j hij => by rw [fill2_interior p _ hij hv4, hs2_get m .U i j hv4]))
    t sv s'.iteration
  refine ⟨fun o ho => ?_, ?_⟩
  · obtain ⟨f, hfm, _, _, hsh⟩ := forall₂_mem hf ho
    rw [← k1 f hfm]
    refine total2_congr p (fun i j hij => ?_)
    rw [← hsh i j (interior_inGrid2 hp.wf hij)]
    match v, hv4 with
    | 0, _ | 1, _ | 2, _ | 3, _ => rfl
  · rw [← k2]
    refine total2_congr p (fun i j hij => ?_)
    rw [← hx i j (interior_inGrid2 hp.wf hij), hs2_get _ _ _ _ hv4]

/-- **C73 (3D).** -/
theorem C73_closed_box_3d {p : Params ℝ} (hp : Hydro3 p) (hc : ClosedBox3 p)
    (hi : p.implementationVersion = 0 ∨ p.implementationVersion = 1 ∨ p.implementationVersion = 2)
    (hr : Periodic3 p ∨ p.riemannSolverType = .llf ∨ p.riemannSolverType = .hllc)
    (hgg : GoodGrid p) (he : p.enableOutput = decide (p.nOutput ≠ 0))
    {g : GravityParams} (hg : (g.enabled && g.hancock_predictor_enabled) = false)
    {ident : ℝ} (hid : ident ≤ 0) (jk : Junk ℝ) {m : Mem Arr ℝ} {t : ℝ} {sv : Int}
    {s' : RunState ℝ} (h : runMain p (hydroOps3 p g ident jk) m t sv s') {v : Nat} (hv : KeptBy3 p g v) :
    (∀ o ∈ s'.outputs, total3 p (fun i j k => o.data ⟨(), i, j, k, v⟩) =
      total3 p (fun i j k => m ⟨.U, i, j, k, v⟩)) ∧
    total3 p (fun i j k => s'.mem ⟨pingIn s'.iteration, i, j, k, v⟩) =
      total3 p (fun i j k => m ⟨.U, i, j, k, v⟩) := by
  have hv5 : v < 5 := by
    rcases hv with h | ⟨_, h | ⟨h, _⟩⟩
    · subst h; decide
    · have := kept_lt h; omega
    · subst h; decide
  obtain ⟨_, _, hf, hx⟩ := C15_run_is_algorithm_3d hp hi hgg he g hid jk h
  obtain ⟨k1, k2⟩ := Sim.result_inv (p := p)
    (M := hydro3 (zKick p.implementationVersion) p g (gravOf3 m .grav)) (x := fill3 p (hs3 m .U))
    (P := fun x => total3 p (fun i j k => (x i j k).get v) = total3 p (fun i j k => m ⟨.U, i, j, k, v⟩))
    (fun dt x hx => (total_step3 hp hgg.settings hc hr hg _ dt _ x hv).trans hx)
    (total3_congr p (fun i j k hij => by rw [fill3_interior p _ hij, hs3_get m .U i j k hv5]))
    t sv s'.iteration
  refine ⟨fun o ho => ?_, ?_⟩
  · obtain ⟨f, hfm, _, _, hsh⟩ := forall₂_mem hf ho
    rw [← k1 f hfm]
    refine total3_congr p (fun i j k hij => ?_)
    rw [← hsh i j k (interior_inGrid3 hp.wf hij)]
    match v, hv5 with
    | 0, _ | 1, _ | 2, _ | 3, _ | 4, _ => rfl
  · rw [← k2]
    refine total3_congr p (fun i j k hij => ?_)
    rw [← hx i j k (interior_inGrid3 hp.wf hij), hs3_get _ _ _ _ _ hv5]

/-! ## With the gravity predictor walls leak -/

theorem slopeDir_flat_r (θ q qm : ℝ) : slopeScalarDir θ q q qm = 0 := by
  rw [slopeScalarDir_real]; simp
theorem slopeDir_flat_l (θ q qp : ℝ) : slopeScalarDir θ q qp q = 0 := by
  rw [slopeScalarDir_real]; simp

/-- slopes in a cell whose left and right neighbours are equal to it, and one of the other two -/
theorem slopes2_wall (p : Params ℝ) {q : Fld2 ℝ} {i j : Int} (hr : q (i + 1) j = q i j)
    (hl : q (i - 1) j = q i j) (h : q i (j + 1) = q i j ∨ q i (j - 1) = q i j) :
    slopes2 p q i j = (HS.zero, HS.zero) := by
  unfold slopes2
  rw [hr, hl]
  unfold slope2
  rcases h with h | h
  · rw [h]; unfold slopeScalar2
    simp only [slopeDir_flat_r]
    split_ifs <;> simp [HS.zero]
  · rw [h]; unfold slopeScalar2
    simp only [slopeDir_flat_l]
    split_ifs <;> simp [HS.zero]

theorem face2_wall (p : Params ℝ) (dt G : ℝ) {gf : Grav2 ℝ} {q : Fld2 ℝ} {i j : Int} {f : Face}
    (hf : f = .ymin ∨ f = .ymax) (hgf : gf i j = (0, G)) (hr : q (i + 1) j = q i j)
    (hl : q (i - 1) j = q i j) (h : q i (j + 1) = q i j ∨ q i (j - 1) = q i j)
    (hu : (q i j).u = 0) (hv : (q i j).v = 0) (hw : (q i j).w = 0) (hd : p.settings.smallr ≤ (q i j).d) :
    face2 p ⟨true, true⟩ dt gf q f i j = ⟨(q i j).d, (q i j).p, 0, 1 / 2 * dt * G, 0⟩ := by
  unfold face2
  rw [slopes2_wall p hr hl h, hgf]
  rcases hf with rfl | rfl <;> unfold kick2 traceAlongDir2 <;> ext <;>
    simp [HS.zero, hu, hv, hw, hd]

theorem leak_step2 {p : Params ℝ} (hp : Hydro2 p) (hs : GoodSettings p.settings)
    (hy : p.boundary_type_ymin = .dirichlet ∧ p.boundary_type_ymax = .dirichlet)
    (dt G : ℝ) (ρ e : Int → ℝ) (hρ : ∀ j, p.settings.smallr ≤ ρ j) (u : Fld2 ℝ) (gf : Grav2 ℝ)
    (hu' : ∀ i j, u i j = ⟨ρ j, e j, 0, 0, 0⟩) (hgf' : ∀ i j, gf i j = (0, G)) :
    total2 p (fun i j => (fullStep2 p ⟨true, true⟩ dt gf u i j).get ID) =
      total2 p (fun i j => (u i j).get ID) +
        dt ^ 2 / (2 * p.dy) * G * p.nx * (ρ p.ghostWidth - ρ (p.ghostWidth + p.ny - 1)) := by
  have hgw := hp.wf.gw_pos
  have hny := closedAxis_ok (.inr hy) hp.faces.2.2.1
  have hnx := hp.wf.nx_pos
  let J := srcCoord .dirichlet .dirichlet p.ny p.ghostWidth
  have hfill : ∀ i j, fill2 p u i j = ⟨ρ (J j), e (J j), 0, 0, 0⟩ := by
    intro i j
    unfold fill2
    rw [hy.1, hy.2]
    simp only [hu', signed, neg_zero, ite_self, RealOps.lit_real]
    simp [J]
  set q := prim2 p (fill2 p u) with hq
  have hq' : ∀ i j, q i j = ⟨ρ (J j), (q 0 j).p, 0, 0, 0⟩ := by
    intro i j
    rw [hq]
    unfold prim2
    rw [hfill, hfill]
    unfold computePrimitives2
    simp [hρ]
  have hqp : ∀ j, ρ (J j) * p.settings.smallp ≤ (q 0 j).p := by
    intro j
    rw [hq]; unfold prim2
    rw [hfill]; unfold computePrimitives2
    simp [hρ]
  -- x fluxes are the same on both sides
  have ex : ∀ j, fluxX2 p ⟨true, true⟩ dt gf q (p.ghostWidth + p.nx) j =
      fluxX2 p ⟨true, true⟩ dt gf q p.ghostWidth j := by
    intro j
    have := fluxX2_shift p ⟨true, true⟩ dt gf q p.nx 0 p.ghostWidth j
    rw [add_zero] at this
    rw [← this]
    refine fluxX2_congr (fun a b _ _ _ _ => ?_) (fun _ a _ _ => ?_)
    · rw [add_zero, hq' (a + p.nx) b, hq' a b]
    · rw [add_zero, hgf', hgf']
  -- mass flux through a wall
  have ey : ∀ i B, J (B - 1) = J B →
      (fluxY2 p ⟨true, true⟩ dt gf q i B).d = dt / p.dy * (1 / 2 * dt * G) * ρ (J B) := by
    intro i B h1
    have qe : ∀ i i' j j', J j = J j' → q i j = q i' j' := by
      intro i i' j j' h
      rw [hq]; unfold prim2
      rw [hfill, hfill, h]
    have h0 : ∀ i j, (q i j).u = 0 ∧ (q i j).v = 0 ∧ (q i j).w = 0 ∧ p.settings.smallr ≤ (q i j).d := by
      intro i j; rw [hq' i j]; exact ⟨rfl, rfl, rfl, hρ _⟩
    have ff : face2 p ⟨true, true⟩ dt gf q .ymax i (B - 1) =
        ⟨ρ (J B), (q 0 B).p, 0, 1 / 2 * dt * G, 0⟩ := by
      rw [face2_wall p dt G (.inr rfl) (hgf' _ _) (qe _ _ _ _ rfl) (qe _ _ _ _ rfl)
        (.inl (qe _ _ _ _ (by rw [sub_add_cancel]; exact h1.symm))) (h0 _ _).1 (h0 _ _).2.1 (h0 _ _).2.2.1
        (h0 _ _).2.2.2, qe i 0 (B - 1) B h1, hq' 0 B]
    have ff' : face2 p ⟨true, true⟩ dt gf q .ymin i B =
        ⟨ρ (J B), (q 0 B).p, 0, 1 / 2 * dt * G, 0⟩ := by
      rw [face2_wall p dt G (.inl rfl) (hgf' _ _) (qe _ _ _ _ rfl) (qe _ _ _ _ rfl)
        (.inr (qe _ _ _ _ h1)) (h0 _ _).1 (h0 _ _).2.1 (h0 _ _).2.2.1
        (h0 _ _).2.2.2, qe i 0 B B rfl, hq' 0 B]
    unfold fluxY2
    rw [ff, ff']
    rw [C20_consistent_2d hs (q := HS.swapUV ⟨ρ (J B), (q 0 B).p, 0, 1 / 2 * dt * G, 0⟩)
      ⟨hρ _, hqp _⟩ rfl hp.valid.riemann]
    unfold eulerFlux HS.swapUV HS.smul HS.trunc
    simp only
    ring
  have e0 : total2 p (fun i j => (fullStep2 p ⟨true, true⟩ dt gf u i j).get ID) = total2 p (fun i j => (u i j).get ID
      + (fluxX2 p ⟨true, true⟩ dt gf q i j).get ID - (fluxX2 p ⟨true, true⟩ dt gf q (i + 1) j).get ID
      + (fluxY2 p ⟨true, true⟩ dt gf q i j).get ID - (fluxY2 p ⟨true, true⟩ dt gf q i (j + 1)).get ID) := by
    refine total2_congr p (fun i j hij => ?_)
    have hd : (0 : Nat) < 4 := by decide
    unfold fullStep2 step2
    rw [if_pos hij]
    show (fluxUpdate2 _ _ _ _ _).get ID = _
    rw [fluxUpdate2_get _ _ _ _ _ hd, fill2_interior p _ hij hd]
  rw [e0, total2_fluxUpdate p hp.wf (fun i j => (u i j).get ID)
    (fun i j => (fluxX2 p ⟨true, true⟩ dt gf q i j).get ID)
    (fun i j => (fluxY2 p ⟨true, true⟩ dt gf q i j).get ID)]
  have j1 : J p.ghostWidth = p.ghostWidth := srcCoord_self (by omega) (by omega)
  have j2 : J (p.ghostWidth - 1) = p.ghostWidth := by
    show srcCoord _ _ _ _ _ = _
    unfold srcCoord; rw [if_pos (by omega)]; dsimp only; omega
  have j3 : J (p.ghostWidth + p.ny - 1) = p.ghostWidth + p.ny - 1 := srcCoord_self (by omega) (by omega)
  have j4 : J (p.ghostWidth + p.ny) = p.ghostWidth + p.ny - 1 := by
    show srcCoord _ _ _ _ _ = _
    unfold srcCoord; rw [if_neg (by omega), if_pos (by omega)]; dsimp only; omega
  have s1 : ∀ i, (fluxY2 p ⟨true, true⟩ dt gf q i p.ghostWidth).get ID -
      (fluxY2 p ⟨true, true⟩ dt gf q i (p.ghostWidth + p.ny)).get ID =
      dt / p.dy * (1 / 2 * dt * G) * (ρ p.ghostWidth - ρ (p.ghostWidth + p.ny - 1)) := by
    intro i
    have a := ey i p.ghostWidth (j2.trans j1.symm)
    have b := ey i (p.ghostWidth + p.ny) (j3.trans j4.symm)
    rw [j1] at a; rw [j4] at b
    show (fluxY2 p _ dt gf q i _).d - (fluxY2 p _ dt gf q i _).d = _
    rw [a, b]; ring
  simp only [ex, sub_self, Finset.sum_const_zero, add_zero, s1, Finset.sum_const, Int.card_Ico,
    nsmul_eq_mul]
  congr 1
  rw [show p.ghostWidth + p.nx - p.ghostWidth = p.nx by ring]
  have : ((p.nx.toNat : ℕ) : ℝ) = (p.nx : ℝ) := by
    have h := Int.toNat_of_nonneg (show 0 ≤ p.nx by omega)
    exact_mod_cast congrArg (Int.cast (R := ℝ)) h
  rw [this]
  ring

/-- **C73 (the gravity predictor leaks mass through walls).** A fluid at rest between two reflecting walls
in y, whose density and energy depend on y only, in uniform gravity along y. If the gravity predictor is
switched on, one step changes the total mass by exactly `dt²/(2 dy) · G · nx · (ρ_bottom - ρ_top)`: the
half-step kick is not mirrored in the ghost cells, so fluid crosses both walls. -/
theorem C73_predictor_leaks_2d {p : Params ℝ} (hp : Hydro2 p) (hs : GoodSettings p.settings)
    (hi : p.implementationVersion = 0 ∨ p.implementationVersion = 1 ∨ p.implementationVersion = 2)
    (hy : p.boundary_type_ymin = .dirichlet ∧ p.boundary_type_ymax = .dirichlet)
    (dt G : ℝ) (jk : Junk ℝ) {inA outA : Arr}
    (hpp : PingPong inA outA) {m m' : Mem Arr ℝ} (hm : godunov2 p ⟨true, true⟩ dt jk inA outA m m')
    (ρ e : Int → ℝ)
    (hρ : ∀ j, p.ghostWidth ≤ j → j < p.ghostWidth + p.ny → p.settings.smallr ≤ ρ j)
    (hrest : ∀ i j, interior2 p i j → m ⟨inA, i, j, 0, ID⟩ = ρ j ∧ m ⟨inA, i, j, 0, IP⟩ = e j ∧
      m ⟨inA, i, j, 0, IU⟩ = 0 ∧ m ⟨inA, i, j, 0, IV⟩ = 0)
    (hgrav : ∀ i j, inGrid2 p i j → m ⟨.grav, i, j, 0, IX⟩ = 0 ∧ m ⟨.grav, i, j, 0, IY⟩ = G) :
    total2 p (fun i j => m' ⟨outA, i, j, 0, ID⟩) =
      total2 p (fun i j => m ⟨inA, i, j, 0, ID⟩) +
        dt ^ 2 / (2 * p.dy) * G * p.nx * (ρ p.ghostWidth - ρ (p.ghostWidth + p.ny - 1)) := by
  have hgw := hp.wf.gw_pos
  have hny := hp.wf.ny_pos
  have hd : (0 : Nat) < 4 := by decide
  have key := leak_step2 hp hs hy dt G (fun j => max p.settings.smallr (ρ j)) e (fun j => le_max_left _ _)
    (fun _ j => ⟨max p.settings.smallr (ρ j), e j, 0, 0, 0⟩) (fun _ _ => (0, G)) (fun _ _ => rfl)
    (fun _ _ => rfl)
  rw [max_eq_right (hρ p.ghostWidth (by omega) (by omega)),
    max_eq_right (hρ (p.ghostWidth + p.ny - 1) (by omega) (by omega))] at key
  have hu : ∀ i j, interior2 p i j → hs2 m inA i j = ⟨max p.settings.smallr (ρ j), e j, 0, 0, 0⟩ := by
    intro i j hij
    obtain ⟨a, b, c, d⟩ := hrest i j hij
    rw [max_eq_right (hρ j hij.2.2.1 hij.2.2.2)]
    unfold hs2
    ext <;> simp [a, b, c, d]
  have e1 : total2 p (fun i j => m' ⟨outA, i, j, 0, ID⟩) =
      total2 p (fun i j => (fullStep2 p ⟨true, true⟩ dt (fun _ _ => (0, G))
        (fun _ j => ⟨max p.settings.smallr (ρ j), e j, 0, 0, 0⟩) i j).get ID) := by
    refine total2_congr p (fun i j hij => ?_)
    rw [← hs2_get m' outA i j (v := ID) hd,
      C04_all_versions_agree hp hi ⟨true, true⟩ dt jk hpp hm i j (interior_inGrid2 hp.wf hij)]
    rw [fullStep2_congr_grav' hp hu (fun _ i j hij => ?_) i j hij]
    obtain ⟨a, b⟩ := hgrav i j hij
    unfold gravOf
    rw [a, b]
  rw [e1, key]
  congr 1
  refine total2_congr p (fun i j hij => ?_)
  obtain ⟨a, _⟩ := hrest i j hij
  rw [a]
  exact max_eq_right (hρ j hij.2.2.1 hij.2.2.2)

/-- Non-vacuity: a box between walls in which a run exists and mass is kept, and a leaking column. -/
example : Hydro2 (sample .dirichlet .dirichlet) ∧ ClosedBox2 (sample .dirichlet .dirichlet) ∧
    GoodGrid (sample .dirichlet .dirichlet) ∧ KeptBy2 (sample .dirichlet .dirichlet) ⟨true, false⟩ ID ∧
    KeptBy2 (sample .dirichlet .periodic) ⟨false, false⟩ IV ∧
    ∃ m', godunov2 (sample .dirichlet .dirichlet) ⟨true, true⟩ (1/100) (fun _ _ _ _ => HS.zero) .U
      .U2 (fun l => if l.arr = .grav then (if l.v = IX then 0 else -1)
        else if l.v = ID then 3 + l.j else if l.v = IP then 5 else 0) m' :=
  ⟨sample_hydro2 _ _, ⟨.inr ⟨rfl, rfl⟩, .inr ⟨rfl, rfl⟩⟩, sample_goodGrid _ _, .inl rfl,
    .inr ⟨rfl, .inr (.inr (.inr ⟨rfl, rfl⟩))⟩,
    (C02_step_deterministic (sample_wf _ _) (sample_hydro2 _ _).faces (Or.inl rfl) _ _ _
      (Or.inl ⟨rfl, rfl⟩) _).exists⟩

end EulerKokkos
