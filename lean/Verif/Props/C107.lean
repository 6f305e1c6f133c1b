import Verif.Lemmas.IeeeRest
import Verif.Lemmas.HydroStep2D
import Verif.Props.C02
import Verif.Props.C106

/-!
# C107: gas at rest stays at rest, to the last bit
-/

set_option linter.constructorNameAsVariable false

namespace EulerKokkos
open Spec Ieee64

theorem prim_still {rt : RiemannType} {s : Settings Double} {d e : Double} (h : CalmGas rt s d e) {u : HS Double} (hu : StillCell d e u) :
    AtRest d (gasPressure s d e) (computePrimitives2 s u).1 := by
  obtain ⟨h1, h2, h3, h4⟩ := hu
  have e1 : RealOps.fmax d s.smallr = d := fmax_left h.state.floor_r
  have zx := zero_div h3 h.state.pos_r
  have zy := zero_div h4 h.state.pos_r
  have zk : IsZero (lit (1/2) * (u.u / d * (u.u / d) + u.v / d * (u.v / d))) :=
    mul_zero fin_half (zero_add (zero_mul zx (IsZero.fin zx)) (zero_mul zy (IsZero.fin zy)))
  unfold computePrimitives2
  dsimp only
  rw [h1, h2, e1, pos_sub h.specific zk]
  exact ⟨rfl, fmax_left h.state.floor_p, zx, zy⟩

theorem fill_still {p : Params Double} (hp : Hydro2 p) {d e : Double} {u : Fld2 Double} (h : Still p d e u) (i j : Int)
    (hij : inGrid2 p i j) : StillCell d e (fill2 p u i j) := by
  obtain ⟨f1, f2, f3, f4⟩ := hp.faces
  obtain ⟨h3, h4, h5, h6⟩ := hij
  have sx := srcCoord_interior hp.wf.nx_pos f1 f2 h3 h4
  have sy := srcCoord_interior hp.wf.ny_pos f3 f4 h5 h6
  obtain ⟨c1, c2, c3, c4⟩ := h _ _ ⟨sx.1, sx.2, sy.1, sy.2⟩
  refine ⟨c1, c2, ?_, ?_⟩
  · show IsZero (signed _ _)
    unfold signed; split
    · exact zero_neg c3
    · exact c3
  · show IsZero (signed _ _)
    unfold signed; split
    · exact zero_neg c4
    · exact c4

theorem face_still {p : Params Double} {g : GravityParams} (hg : g.enabled = false) {d e dt : Double}
    (h : CalmGas p.riemannSolverType p.settings d e) (hd : CalmStep p d e dt) {gf : Grav2 Double} {u : Fld2 Double} {i j : Int}
    (h0 : StillCell d e (u i j)) (h1 : StillCell d e (u (i + 1) j)) (h2 : StillCell d e (u (i - 1) j))
    (h3 : StillCell d e (u i (j + 1))) (h4 : StillCell d e (u i (j - 1))) {f : Face} (hf : f ≠ .zmin ∧ f ≠ .zmax) :
    AtRest d (gasPressure p.settings d e) (face2 p g dt gf (prim2 p u) f i j) := by
  have hs := slopes_rest (s := p.settings) h.slope (pos_fin h.state.pos_r) (pos_fin h.state.pos_p) (prim_still h h0)
    (prim_still h h1) (prim_still h h2) (prim_still h h3) (prim_still h h4)
  unfold face2 kick2
  rw [hg, Bool.false_and, if_neg (by decide)]
  exact trace_rest h.state h.gamma (prim_still h h0) (hs _ (List.mem_cons_self ..))
    (hs _ (List.mem_cons_of_mem _ (List.mem_cons_self ..))) hd.ratio_x hd.ratio_y hf

theorem swap_rest {r p : Double} {q : HS Double} (h : AtRest r p q) : AtRest r p q.swapUV := ⟨h.1, h.2.1, h.2.2.2, h.2.2.1⟩

/-- **C107, one step**: uniform gas at rest is still uniform and at rest after a step of the scheme with HLLC, LLF or HLL, to the last
bit: density and energy keep their bits, every momentum is a zero. -/
theorem C107_rest_step {p : Params Double} (hp : Hydro2 p) {g : GravityParams}
    (hg : g.enabled = false) {d e dt : Double} (h : CalmGas p.riemannSolverType p.settings d e) (hd : CalmStep p d e dt) {gf : Grav2 Double}
    {u : Fld2 Double} (hu : Still p d e u) : Still p d e (fullStep2 p g dt gf u) := by
  intro i j hij
  have hgw := hp.wf.gw_pos
  have hint := hij
  obtain ⟨a1, a2, a3, a4⟩ := hij
  have hc : ∀ a b : Int, i - 2 ≤ a → a ≤ i + 2 → j - 2 ≤ b → b ≤ j + 2 → StillCell d e (fill2 p u a b) :=
    fun a b b1 b2 b3 b4 => fill_still hp hu a b ⟨by omega, by omega, by omega, by omega⟩
  have hF : ∀ a b : Int, i - 1 ≤ a → a ≤ i + 1 → j - 1 ≤ b → b ≤ j + 1 → ∀ f : Face, f ≠ .zmin ∧ f ≠ .zmax →
      AtRest d (gasPressure p.settings d e) (face2 p g dt gf (prim2 p (fill2 p u)) f a b) :=
    fun a b b1 b2 b3 b4 f hf => face_still hg h hd (hc _ _ (by omega) (by omega) (by omega) (by omega))
      (hc _ _ (by omega) (by omega) (by omega) (by omega)) (hc _ _ (by omega) (by omega) (by omega) (by omega))
      (hc _ _ (by omega) (by omega) (by omega) (by omega)) (hc _ _ (by omega) (by omega) (by omega) (by omega)) hf
  have fx : ∀ a : Int, i ≤ a → a ≤ i + 1 → IsZero (fluxX2 p g dt gf (prim2 p (fill2 p u)) a j).d ∧
      IsZero (fluxX2 p g dt gf (prim2 p (fill2 p u)) a j).p ∧
      (fluxX2 p g dt gf (prim2 p (fill2 p u)) a j).u =
        facePressure p.riemannSolverType p.settings d (gasPressure p.settings d e) * (dt / p.dx) ∧
      IsZero (fluxX2 p g dt gf (prim2 p (fill2 p u)) a j).v := by
    intro a b1 b2
    have := flux_rest (f := HS.zero) h.face (hF (a - 1) j (by omega) (by omega) (by omega) (by omega) .xmax (by decide))
      (hF a j (by omega) (by omega) (by omega) (by omega) .xmin (by decide))
    unfold fluxX2
    exact ⟨zero_mul this.1 hd.ratio_x, zero_mul this.2.1 hd.ratio_x, congrArg (· * (dt / p.dx)) this.2.2.1,
      zero_mul this.2.2.2 hd.ratio_x⟩
  have fy : ∀ b : Int, j ≤ b → b ≤ j + 1 → IsZero (fluxY2 p g dt gf (prim2 p (fill2 p u)) i b).d ∧
      IsZero (fluxY2 p g dt gf (prim2 p (fill2 p u)) i b).p ∧
      (fluxY2 p g dt gf (prim2 p (fill2 p u)) i b).v =
        facePressure p.riemannSolverType p.settings d (gasPressure p.settings d e) * (dt / p.dy) ∧
      IsZero (fluxY2 p g dt gf (prim2 p (fill2 p u)) i b).u := by
    intro b b1 b2
    have := flux_rest (f := HS.zero) h.face (swap_rest (hF i (b - 1) (by omega) (by omega) (by omega) (by omega) .ymax (by decide)))
      (swap_rest (hF i b (by omega) (by omega) (by omega) (by omega) .ymin (by decide)))
    unfold fluxY2
    exact ⟨zero_mul this.1 hd.ratio_y, zero_mul this.2.1 hd.ratio_y, congrArg (· * (dt / p.dy)) this.2.2.1,
      zero_mul this.2.2.2 hd.ratio_y⟩
  obtain ⟨x1, x2, x3, x4⟩ := fx i (by omega) (by omega)
  obtain ⟨y1, y2, y3, y4⟩ := fx (i + 1) (by omega) (by omega)
  obtain ⟨z1, z2, z3, z4⟩ := fy j (by omega) (by omega)
  obtain ⟨w1, w2, w3, w4⟩ := fy (j + 1) (by omega) (by omega)
  obtain ⟨c1, c2, c3, c4⟩ := hc i j (by omega) (by omega) (by omega) (by omega)
  unfold fullStep2 step2
  rw [if_pos hint, hg]
  dsimp only
  rw [if_neg (by decide)]
  refine ⟨?_, ?_, ?_, ?_⟩
  · show (fill2 p u i j).d + _ - _ + _ - _ = d
    rw [c1, pos_add h.state.pos_r x1, pos_sub h.state.pos_r y1, pos_add h.state.pos_r z1, pos_sub h.state.pos_r w1]
  · show (fill2 p u i j).p + _ - _ + _ - _ = e
    rw [c2, pos_add h.energy x2, pos_sub h.energy y2, pos_add h.energy z2, pos_sub h.energy w2]
  · show IsZero ((fill2 p u i j).u + _ - _ + _ - _)
    rw [x3, y3]
    exact zero_sub (zero_add (zero_add_sub hd.kick_x c3) z4) w4
  · show IsZero ((fill2 p u i j).v + _ - _ + _ - _)
    rw [z3, w3]
    exact zero_add_sub hd.kick_y (zero_sub (zero_add c4 x4) y4)

/-- **C107, any number of steps** of any sizes -/
theorem C107_rest_steps {p : Params Double} (hp : Hydro2 p) {g : GravityParams}
    (hg : g.enabled = false) {d e : Double} (h : CalmGas p.riemannSolverType p.settings d e) {gf : Grav2 Double} (dts : List Double)
    (hd : ∀ dt ∈ dts, CalmStep p d e dt) {u : Fld2 Double} (hu : Still p d e u) : Still p d e (iterStep2 p g gf dts u) := by
  induction dts generalizing u with
  | nil => exact hu
  | cons dt dts ih =>
    exact ih (fun x hx => hd x (List.mem_cons_of_mem _ hx)) (C107_rest_step hp hg h (hd dt (List.mem_cons_self ..)) hu)

/-- **C107, the program**: the kernels of the 2D solver (versions 0 and 1), run in double precision under any schedule of
threads and any content of uninitialised locals, for any number of steps and with any boundaries, leave uniform gas at rest
as it is, to the last bit. -/
theorem C107_rest_run {p : Params Double} (hp : Hydro2 p) (hv : p.implementationVersion = 0 ∨ p.implementationVersion = 1)
    {g : GravityParams} (hg : g.enabled = false) {d e : Double}
    (h : CalmGas p.riemannSolverType p.settings d e) {jk : Junk Double} (dts : List Double) (hd : ∀ dt ∈ dts, CalmStep p d e dt) (n : Nat)
    {m m' : Mem Arr Double} (hm : hydroRun2 p g jk n dts m m') (hu : Still p d e (hs2 m (pingIn n))) :
    Still p d e (hs2 m' (pingIn (n + dts.length))) := by
  intro i j hij
  have hgw := hp.wf.gw_pos
  have hin : inGrid2 p i j := by
    obtain ⟨a1, a2, a3, a4⟩ := hij
    exact ⟨by omega, by omega, by omega, by omega⟩
  rw [(hydroRun2_result hp Ieee.signLaws (schemeOK2_01 hp hv) dts n hm).1 i j hin]
  exact C107_rest_steps hp hg h dts hd hu i j hij

/-! ## The hypotheses can be met -/

theorem Ieee64.sub_rep {a b q : ℚ} (ha : Rep a) (hb : Rep b) (e : a = q + b) (h : Rep q) : (lit a : Double) - lit b = lit q := by
  rw [lit_rep ha, lit_rep hb, ← round_rep h]
  have h0 : (0 : ℝ) ≤ (q : ℝ) := by exact_mod_cast h.nonneg
  have h1 : (a : ℝ) + -(b : ℝ) = q := by rw [e]; push_cast; ring
  show Spec.Ieee.add _ (.fin (!false) _) = _
  unfold Spec.Ieee.add; dsimp only
  have e2 : Spec.Ieee.real false (⟨(a : ℝ), ha.grid⟩ : binary64.Mag) + Spec.Ieee.real (!false) (⟨(b : ℝ), hb.grid⟩ : binary64.Mag)
      = q := by
    rw [← h1]; simp [Spec.Ieee.real]
  rw [e2]
  split
  · rename_i h2
    rw [h2]; rfl
  · rw [abs_of_nonneg h0]
    congr 1
    simpa using h0

theorem Ieee64.lt_rep {a b : ℚ} (ha : Rep a) (hb : Rep b) (h : a < b) : RealOps.lt (lit a : Double) (lit b) = true := by
  refine Ieee.lt_iff.2 ⟨by rw [lit_rep ha]; rfl, by rw [lit_rep hb]; rfl, ?_⟩
  rw [lit_rep ha, lit_rep hb]
  refine EReal.coe_lt_coe_iff.2 ?_
  rw [Ieee.real_false, Ieee.real_false]
  exact Rat.cast_lt.2 h

/-- a grid of four by four unit cells, periodic in x, reflecting at the bottom, open at the top; adiabatic index 2 -/
noncomputable def stillParams : Params Double := { tieParams with
  mhdEnabled := false
  ghostWidth := 2
  nbvar := 4
  dimType := .two
  imax := 7
  jmax := 7
  kmax := 7
  isize := 8
  jsize := 8
  ksize := 8
  boundary_type_ymin := .dirichlet
  boundary_type_ymax := .neumann
  settings := ⟨lit 2, lit (3/4), lit (1/2), lit 1, lit (1/1024), lit (1/1024), lit (1/1024), lit 0, lit 0⟩
  riemannSolverType := .hllc }

theorem still_hydro : Hydro2 stillParams where
  wf := by constructor <;> decide
  nbvar := rfl
  valid := ⟨.inr (.inl (by
    show RealOps.beq (lit 1 : Double) (lit 1) = true
    rw [Ieee.lit_one]
    show Spec.Ieee.beq _ _ = true
    simp [Spec.Ieee.beq, Spec.Ieee.isNan])), by decide⟩
  faces := ⟨.inr (by decide), .inr (by decide), .inr (by decide), .inl rfl⟩

/-- density 1 and energy 1/2: pressure 1/2 and sound speed 1, all exactly; a time step of 1/4 -/
theorem still_calm : CalmGas .hllc stillParams.settings (lit 1) (lit (1/2)) ∧ CalmStep stillParams (lit 1) (lit (1/2)) (lit (1/4)) := by
  have r2 : Rep 2 := ⟨2, 0, by norm_num, by norm_num, by norm_num, by norm_num⟩
  have r4 : Rep (1/4) := ⟨1, -2, by norm_num, by norm_num, by norm_num, by norm_num⟩
  have r8 : Rep (1/8) := ⟨1, -3, by norm_num, by norm_num, by norm_num, by norm_num⟩
  have rs : Rep (1/1024) := ⟨1, -10, by norm_num, by norm_num, by norm_num, by norm_num⟩
  have rss : Rep (1/1048576) := ⟨1, -20, by norm_num, by norm_num, by norm_num, by norm_num⟩
  have h11 : (lit 1 * lit 1 : Double) = lit 1 := mul_rep Tie.r1 Tie.r1 (by norm_num) Tie.r1
  have h1h : (lit 1 * lit (1/2) : Double) = lit (1/2) := mul_rep Tie.r1 Tie.rh (by norm_num) Tie.rh
  have hh1 : (lit (1/2) * lit 1 : Double) = lit (1/2) := mul_rep Tie.rh Tie.r1 (by norm_num) Tie.rh
  have h2h : (lit 2 * lit (1/2) : Double) = lit 1 := mul_rep r2 Tie.rh (by norm_num) Tie.r1
  have hss : (lit (1/1024) * lit (1/1024) : Double) = lit (1/1048576) := mul_rep rs rs (by norm_num) rss
  have h1s : (lit 1 * lit (1/1024) : Double) = lit (1/1024) := mul_rep Tie.r1 rs (by norm_num) rs
  have hm : (lit 2 - lit 1 : Double) = lit 1 := sub_rep r2 Tie.r1 (by norm_num) Tie.r1
  have d11 : (lit 1 / lit 1 : Double) = lit 1 := div_rep Tie.r1 Tie.r1 (by norm_num) (by norm_num) Tie.r1
  have dh1 : (lit (1/2) / lit 1 : Double) = lit (1/2) := div_rep Tie.rh Tie.r1 (by norm_num) (by norm_num) Tie.rh
  have d12 : (lit 1 / lit 2 : Double) = lit (1/2) := div_rep Tie.r1 r2 (by norm_num) (by norm_num) Tie.rh
  have d4 : (lit (1/4) / lit 1 : Double) = lit (1/4) := div_rep r4 Tie.r1 (by norm_num) (by norm_num) r4
  have hk : (lit (1/2) * lit (1/4) : Double) = lit (1/8) := mul_rep Tie.rh r4 (by norm_num) r8
  have a11 : (lit 1 + lit 1 : Double) = lit 2 := add_rep Tie.r1 Tie.r1 (by norm_num) r2
  have ahh : (lit (1/2) + lit (1/2) : Double) = lit 1 := add_rep Tie.rh Tie.rh (by norm_num) Tie.r1
  have sq : RealOps.sqrt (lit 1 : Double) = lit 1 := by
    rw [lit_rep Tie.r1]
    show Spec.Ieee.sqrt _ = _
    unfold Spec.Ieee.sqrt
    simp only [Rat.cast_one, Real.sqrt_one, one_ne_zero, if_false, Bool.false_eq_true]
    have := round_rep Tie.r1
    rw [lit_rep Tie.r1] at this
    simpa using this
  have p1 : FinitePos (lit 1 : Double) := finitePos_lit Tie.r1 (by norm_num)
  have p2 : FinitePos (lit 2 : Double) := finitePos_lit r2 (by norm_num)
  have ph : FinitePos (lit (1/2) : Double) := finitePos_lit Tie.rh (by norm_num)
  have eP : gasPressure stillParams.settings (lit 1) (lit (1/2)) = lit (1/2) := by
    show ((lit 2 - lit 1) * lit 1 * (lit (1/2) / lit 1) : Double) = _
    rw [hm, h11, dh1, h1h]
  have ec : restSound stillParams.settings (lit 1) (lit (1/2)) = lit 1 := by
    show RealOps.sqrt (RealOps.fmax (lit 2 * lit (1/2) / lit 1) (lit (1/1024) * lit (1/1024)) : Double) = _
    rw [h2h, d11, hss, fmax_left (lt_rep rss Tie.r1 (by norm_num)), sq]
  have ep : restPressure stillParams.settings (lit 1) (lit (1/2)) = lit (1/2) := by
    unfold restPressure
    rw [ec, h11, h1h, ahh, a11, d12]
  have ee : restEnergy stillParams.settings (lit (1/2)) = lit (1/2) := by
    show (lit (1/2) * (lit 1 / (lit 2 - lit 1)) : Double) = _
    rw [hm, d11, hh1]
  have cell : CalmCell stillParams.settings (lit 1) (lit (1/2)) := by
    refine ⟨p1, ph, lt_rep rs Tie.r1 (by norm_num), ?_, ?_, ?_⟩
    · show RealOps.lt (lit 1 * lit (1/1024) : Double) _ = true
      rw [h1s]; exact lt_rep rs Tie.rh (by norm_num)
    · rw [hh1]; exact pos_fin ph
    · rw [ee]; exact ph
  refine ⟨⟨pos_fin p2, pos_fin p1, ph, by rw [dh1]; exact ph, by rw [eP]; exact cell, ?_, ?_⟩, ?_, ?_, ?_, ?_⟩
  · rw [eP]
    refine ⟨cell, ?_, ?_, ?_, ?_, ?_, ?_, ?_, ?_, ?_⟩
    · rw [ec]; exact p1
    · rw [ec, h11]; exact p1
    · rw [ec, h11, h11]; exact pos_fin p1
    · rw [ec, h11, a11]; exact p2
    · rw [ec, h11, h1h, ahh]; exact p1
    · rw [ep]; exact ph
    · rw [ec, h11, d11]; exact pos_fin p1
    · rw [ec, ee, h1h]; exact ph
    · rw [ec, ee, h1h, dh1, ep, ahh]; exact pos_fin p1
  · rw [eP]
    show FinitePos (restPressure _ _ _)
    rw [ep]; exact ph
  · show IsFin (lit (1/4) / lit 1); rw [d4]; exact pos_fin (finitePos_lit r4 (by norm_num))
  · show IsFin (lit (1/4) / lit 1); rw [d4]; exact pos_fin (finitePos_lit r4 (by norm_num))
  · rw [eP]
    show IsFin (restPressure _ _ _ * (lit (1/4) / lit 1)); rw [ep]
    show IsFin (lit (1/2) * (lit (1/4) / lit 1)); rw [d4, hk]; exact pos_fin (finitePos_lit r8 (by norm_num))
  · rw [eP]
    show IsFin (restPressure _ _ _ * (lit (1/4) / lit 1)); rw [ep]
    show IsFin (lit (1/2) * (lit (1/4) / lit 1)); rw [d4, hk]; exact pos_fin (finitePos_lit r8 (by norm_num))

/-- the same gas meets the conditions of the LLF and of the HLL solver -/
theorem still_solvers : CalmGas .llf stillParams.settings (lit 1) (lit (1/2)) ∧
    CalmGas .hll stillParams.settings (lit 1) (lit (1/2)) := by
  have r2 : Rep 2 := ⟨2, 0, by norm_num, by norm_num, by norm_num, by norm_num⟩
  have h11 : (lit 1 * lit 1 : Double) = lit 1 := mul_rep Tie.r1 Tie.r1 (by norm_num) Tie.r1
  have h1h : (lit 1 * lit (1/2) : Double) = lit (1/2) := mul_rep Tie.r1 Tie.rh (by norm_num) Tie.rh
  have hh1 : (lit (1/2) * lit 1 : Double) = lit (1/2) := mul_rep Tie.rh Tie.r1 (by norm_num) Tie.rh
  have h2h : (lit 2 * lit (1/2) : Double) = lit 1 := mul_rep r2 Tie.rh (by norm_num) Tie.r1
  have hm : (lit 2 - lit 1 : Double) = lit 1 := sub_rep r2 Tie.r1 (by norm_num) Tie.r1
  have d11 : (lit 1 / lit 1 : Double) = lit 1 := div_rep Tie.r1 Tie.r1 (by norm_num) (by norm_num) Tie.r1
  have dh1 : (lit (1/2) / lit 1 : Double) = lit (1/2) := div_rep Tie.rh Tie.r1 (by norm_num) (by norm_num) Tie.rh
  have d12 : (lit 1 / lit 2 : Double) = lit (1/2) := div_rep Tie.r1 r2 (by norm_num) (by norm_num) Tie.rh
  have a11 : (lit 1 + lit 1 : Double) = lit 2 := add_rep Tie.r1 Tie.r1 (by norm_num) r2
  have ahh : (lit (1/2) + lit (1/2) : Double) = lit 1 := add_rep Tie.rh Tie.rh (by norm_num) Tie.r1
  have p1 : FinitePos (lit 1 : Double) := finitePos_lit Tie.r1 (by norm_num)
  have p2 : FinitePos (lit 2 : Double) := finitePos_lit r2 (by norm_num)
  have ph : FinitePos (lit (1/2) : Double) := finitePos_lit Tie.rh (by norm_num)
  have sq : RealOps.sqrt (lit 1 : Double) = lit 1 := by
    rw [lit_rep Tie.r1]
    show Spec.Ieee.sqrt _ = _
    unfold Spec.Ieee.sqrt
    simp only [Rat.cast_one, Real.sqrt_one, one_ne_zero, if_false, Bool.false_eq_true]
    have := round_rep Tie.r1
    rw [lit_rep Tie.r1] at this
    simpa using this
  have eP : gasPressure stillParams.settings (lit 1) (lit (1/2)) = lit (1/2) := by
    show ((lit 2 - lit 1) * lit 1 * (lit (1/2) / lit 1) : Double) = _
    rw [hm, h11, dh1, h1h]
  have ec : cellSound stillParams.settings (lit 1) (lit (1/2)) = lit 1 := by
    show RealOps.sqrt (lit 2 * lit (1/2) / lit 1 : Double) = _
    rw [h2h, d11, sq]
  have ee : restEnergy stillParams.settings (lit (1/2)) = lit (1/2) := by
    show (lit (1/2) * (lit 1 / (lit 2 - lit 1)) : Double) = _
    rw [hm, d11, hh1]
  have hn : IsFin (lit 1 * -lit 1 : Double) := by
    have : (lit 1 * -lit 1 : Double) = -(lit 1 * lit 1) := by
      rw [lit_rep Tie.r1]
      show (Spec.Ieee.round true _ : Double) = -(Spec.Ieee.round false _ : Double)
      unfold Spec.Ieee.round
      split <;> rfl
    rw [this, h11]
    exact fin_neg_one
  have hg := still_calm.1
  have cell := hg.state
  have hc := cell
  rw [eP] at hc
  constructor
  · refine ⟨hg.gamma, hg.slope, hg.energy, hg.specific, cell, ?_, ?_⟩
    · rw [eP]
      refine ⟨hc, ?_, ?_, ?_⟩
      · rw [ec]; exact p1
      · rw [ee, ahh]; exact pos_fin p1
      · rw [ahh]; exact p1
    · rw [eP]
      show FinitePos (lit (1/2) * (lit (1/2) + lit (1/2)))
      rw [ahh, hh1]; exact ph
  · refine ⟨hg.gamma, hg.slope, hg.energy, hg.specific, cell, ?_, ?_⟩
    · rw [eP]
      refine ⟨hc, ?_, ?_, ?_, ?_, ?_, ?_⟩
      · rw [ec]; exact p1
      · rw [ee, ahh]; exact pos_fin p1
      · rw [ec, a11]; exact p2
      · rw [ec]; exact hn
      · rw [ec, h1h]; exact ph
      · rw [ec, h1h, ahh]; exact p1
    · rw [eP]
      show FinitePos ((cellSound _ _ _ * lit (1/2) + cellSound _ _ _ * lit (1/2)) / (cellSound _ _ _ + cellSound _ _ _))
      rw [ec, h1h, ahh, a11, d12]; exact ph

/-- and of the iterative solver: the first guess of the pressure is already the answer -/
theorem still_approx : CalmGas .approx stillParams.settings (lit 1) (lit (1/2)) := by
  have r2 : Rep 2 := ⟨2, 0, by norm_num, by norm_num, by norm_num, by norm_num⟩
  have r34 : Rep (3/4) := ⟨3, -2, by norm_num, by norm_num, by norm_num, by norm_num⟩
  have rs : Rep (1/1024) := ⟨1, -10, by norm_num, by norm_num, by norm_num, by norm_num⟩
  have h11 : (lit 1 * lit 1 : Double) = lit 1 := mul_rep Tie.r1 Tie.r1 (by norm_num) Tie.r1
  have h1h : (lit 1 * lit (1/2) : Double) = lit (1/2) := mul_rep Tie.r1 Tie.rh (by norm_num) Tie.rh
  have hh1 : (lit (1/2) * lit 1 : Double) = lit (1/2) := mul_rep Tie.rh Tie.r1 (by norm_num) Tie.rh
  have h2h : (lit 2 * lit (1/2) : Double) = lit 1 := mul_rep r2 Tie.rh (by norm_num) Tie.r1
  have h21 : (lit 2 * lit 1 : Double) = lit 2 := mul_rep r2 Tie.r1 (by norm_num) r2
  have hm : (lit 2 - lit 1 : Double) = lit 1 := sub_rep r2 Tie.r1 (by norm_num) Tie.r1
  have d11 : (lit 1 / lit 1 : Double) = lit 1 := div_rep Tie.r1 Tie.r1 (by norm_num) (by norm_num) Tie.r1
  have d22 : (lit 2 / lit 2 : Double) = lit 1 := div_rep r2 r2 (by norm_num) (by norm_num) Tie.r1
  have dh1 : (lit (1/2) / lit 1 : Double) = lit (1/2) := div_rep Tie.rh Tie.r1 (by norm_num) (by norm_num) Tie.rh
  have d12 : (lit 1 / lit 2 : Double) = lit (1/2) := div_rep Tie.r1 r2 (by norm_num) (by norm_num) Tie.rh
  have a11 : (lit 1 + lit 1 : Double) = lit 2 := add_rep Tie.r1 Tie.r1 (by norm_num) r2
  have ahh : (lit (1/2) + lit (1/2) : Double) = lit 1 := add_rep Tie.rh Tie.rh (by norm_num) Tie.r1
  have p1 : FinitePos (lit 1 : Double) := finitePos_lit Tie.r1 (by norm_num)
  have ph : FinitePos (lit (1/2) : Double) := finitePos_lit Tie.rh (by norm_num)
  have p34 : FinitePos (lit (3/4) : Double) := finitePos_lit r34 (by norm_num)
  have sq : RealOps.sqrt (lit 1 : Double) = lit 1 := by
    rw [lit_rep Tie.r1]
    show Spec.Ieee.sqrt _ = _
    unfold Spec.Ieee.sqrt
    simp only [Rat.cast_one, Real.sqrt_one, one_ne_zero, if_false, Bool.false_eq_true]
    have := round_rep Tie.r1
    rw [lit_rep Tie.r1] at this
    simpa using this
  have eP : gasPressure stillParams.settings (lit 1) (lit (1/2)) = lit (1/2) := by
    show ((lit 2 - lit 1) * lit 1 * (lit (1/2) / lit 1) : Double) = _
    rw [hm, h11, dh1, h1h]
  have em : restMass stillParams.settings (lit 1) (lit (1/2)) = lit 1 := by
    show (lit 2 * lit (1/2) * lit 1 : Double) = _
    rw [h2h, h11]
  have zhh : IsZero (lit (1/2) - lit (1/2) : Double) := by rw [sub_self (pos_fin ph)]; exact zero_lit
  have zb : IsZero (lit (3/4) * (lit (1/2) - lit (1/2)) / lit (1/2) : Double) :=
    zero_div (mul_zero (pos_fin p34) zhh) ph
  have e1 : RealOps.sqrt (lit 1 * (lit 1 + lit (3/4) * (lit (1/2) - lit (1/2)) / lit (1/2)) : Double) = lit 1 := by
    rw [pos_add p1 zb, h11, sq]
  have lm : ∀ {z : Double}, IsZero z → RealOps.lt (-lit (1/2)) z = true := by
    intro z hz
    obtain ⟨m, hm, e⟩ := ph
    obtain ⟨t, n, hn, rfl⟩ := hz
    rw [e]
    refine Ieee.lt_iff.2 ⟨rfl, rfl, ?_⟩
    refine EReal.coe_lt_coe_iff.2 ?_
    have h0 : Spec.Ieee.real t n = 0 := by cases t <;> simp [Spec.Ieee.real, hn]
    rw [h0]
    show -m.1 < 0
    linarith
  have ef : firstStar stillParams.settings (lit 1) (lit (1/2)) = lit (1/2) := by
    unfold firstStar
    rw [em, sq, h1h, ahh, a11, d12]
  have en : ∀ (n : Nat) (conv : Double), approxNewton stillParams.settings (lit 0) (lit (1/2)) (lit 1) (lit 0) (lit (1/2))
      (lit 1) n (lit (1/2)) conv = lit (1/2) := by
    intro n
    induction n with
    | zero => intro conv; rfl
    | succ n ih =>
      intro conv
      have z0 : IsZero (lit 0 : Double) := zero_lit
      have zd : IsZero ((lit 1 * lit 1 / (lit 1 + lit 1)) * ((lit 0 - (lit (1/2) - lit (1/2)) / lit 1) -
          (lit 0 + (lit (1/2) - lit (1/2)) / lit 1)) : Double) := by
        rw [h11, a11, d12]
        exact mul_zero (pos_fin ph) (zero_sub (zero_sub z0 (zero_div zhh p1)) (zero_add z0 (zero_div zhh p1)))
      unfold approxNewton
      split_ifs
      · dsimp only
        rw [show stillParams.settings.gamma6 = lit (3/4) from rfl, e1, h21, h21, h11, a11, h21,
          d22, fmax_left (lm zd), pos_add ph zd]
        exact ih _
      · rfl
  have es : restStar stillParams.settings (lit 1) (lit (1/2)) = lit (1/2) := by
    unfold restStar
    rw [em, ef]
    exact en _ _
  have ew : starWave stillParams.settings (lit 1) (lit (1/2)) = lit 1 := by
    unfold starWave
    rw [em, es]
    exact e1
  have ed : starDensity stillParams.settings (lit 1) (lit (1/2)) = lit 1 := by
    unfold starDensity
    rw [es, ew, h11, pos_add p1 (zero_div (mul_zero (pos_fin p1) zhh) p1), d11]
    exact fmax_left (lt_rep rs Tie.r1 (by norm_num))
  have ec : starSound stillParams.settings (lit 1) (lit (1/2)) = lit 1 := by
    unfold starSound
    rw [es, ed]
    show RealOps.fmax (lit (1/1024)) (RealOps.sqrt (RealOps.fabs (lit 2 * lit (1/2) / lit 1))) = (lit 1 : Double)
    rw [h2h, d11]
    have hf : RealOps.fabs (lit 1 : Double) = lit 1 := by rw [Ieee.lit_one]; rfl
    rw [hf, sq]
    have hl : RealOps.lt (lit (1/1024)) (lit 1 : Double) = true := lt_rep rs Tie.r1 (by norm_num)
    show Spec.Ieee.fmax _ _ = _
    unfold Spec.Ieee.fmax
    have n1 := (Ieee.lt_iff.1 hl).1
    have n2 := (Ieee.lt_iff.1 hl).2.1
    have hl' : Spec.Ieee.lt (lit (1/1024)) (lit 1 : Double) = true := hl
    rw [n1, n2, hl']
    rfl
  have ee : restEnergy stillParams.settings (lit (1/2)) = lit (1/2) := by
    show (lit (1/2) * (lit 1 / (lit 2 - lit 1)) : Double) = _
    rw [hm, d11, hh1]
  have hg := still_calm.1
  have hc := hg.state
  rw [eP] at hc
  refine ⟨hg.gamma, hg.slope, hg.energy, hg.specific, hg.state, ?_, ?_⟩
  · rw [eP]
    refine ⟨hc, ?_, ?_, ?_, ?_, ?_, ?_, ?_, ?_, ?_, ?_, ?_⟩
    · rw [em, sq, h11]; exact pos_fin p1
    · rw [em, sq, h1h, ahh]; exact p1
    · rw [ef]; exact ph
    · rw [es]; exact ph
    · rw [es, ew]; exact IsZero.fin (zero_div zhh p1)
    · rw [ew, d11]; exact p1
    · rw [ec]; exact p1
    · rw [ed]; exact pos_fin p1
    · rw [ed, hh1]; exact pos_fin ph
    · rw [es, ee]; exact ph
    · rw [es, ee, ahh]; exact pos_fin p1
  · rw [eP]
    show FinitePos (restStar _ _ _)
    rw [es]; exact ph

/-- all the hypotheses of `C107_rest_run` at once: a run of any number of steps of 1/4 keeps the gas -/
example (n k : Nat) (jk : Junk Double) (m m' : Mem Arr Double) (g : GravityParams) (hg : g.enabled = false)
    (hm : hydroRun2 stillParams g jk n (List.replicate k (lit (1/4))) m m')
    (hu : Still stillParams (lit 1) (lit (1/2)) (hs2 m (pingIn n))) :
    Still stillParams (lit 1) (lit (1/2)) (hs2 m' (pingIn (n + k))) := by
  have := C107_rest_run still_hydro (.inl rfl) hg still_calm.1 _
    (fun dt h => by rw [List.eq_of_mem_replicate h]; exact still_calm.2) n hm hu
  rwa [List.length_replicate] at this

/-- such a memory exists -/
example : Still stillParams (lit 1) (lit (1/2))
    (hs2 (fun l => if l.v = ID then lit 1 else if l.v = IP then lit (1/2) else lit 0) .U) :=
  fun _ _ _ => ⟨rfl, rfl, zero_lit, zero_lit⟩

end EulerKokkos
