import Verif.Props.C107
import Verif.Lemmas.HydroStep3D

/-!
# C107 in three dimensions
-/

set_option linter.constructorNameAsVariable false

namespace EulerKokkos
open Spec Ieee64

theorem prim_still3 {rt : RiemannType} {s : Settings Double} {d e : Double} (h : CalmGas rt s d e) {u : HS Double} (hu : StillCell3 d e u) :
    AtRest3 d (gasPressure s d e) (computePrimitives3 s u).1 := by
  obtain ⟨⟨h1, h2, h3, h4⟩, h5⟩ := hu
  have e1 : RealOps.fmax d s.smallr = d := fmax_left h.state.floor_r
  have zx := zero_div h3 h.state.pos_r
  have zy := zero_div h4 h.state.pos_r
  have zz := zero_div h5 h.state.pos_r
  have zk : IsZero (lit (1/2) * (u.u / d * (u.u / d) + u.v / d * (u.v / d) + u.w / d * (u.w / d))) :=
    mul_zero fin_half (zero_add (zero_add (zero_mul zx (IsZero.fin zx)) (zero_mul zy (IsZero.fin zy)))
      (zero_mul zz (IsZero.fin zz)))
  unfold computePrimitives3
  dsimp only
  rw [h1, h2, e1, pos_sub h.specific zk]
  exact ⟨⟨rfl, fmax_left h.state.floor_p, zx, zy⟩, zz⟩

theorem zero_signed {x : Double} (h : IsZero x) (b : Prop) [Decidable b] : IsZero (signed b x) := by
  unfold signed; split
  · exact zero_neg h
  · exact h

theorem fill_still3 {p : Params Double} (hp : Hydro3 p) {d e : Double} {u : Fld3 Double} (h : Still3 p d e u) (i j k : Int)
    (hij : inGrid3 p i j k) : StillCell3 d e (fill3 p u i j k) := by
  obtain ⟨⟨f1, f2, f3, f4⟩, f5, f6⟩ := hp.faces
  obtain ⟨⟨h3, h4⟩, ⟨h5, h6⟩, h7, h8⟩ := hij
  have sx := srcCoord_interior hp.wf.nx_pos f1 f2 h3 h4
  have sy := srcCoord_interior hp.wf.ny_pos f3 f4 h5 h6
  have sz := srcCoord_interior hp.wf.nz_pos f5 f6 h7 h8
  obtain ⟨⟨c1, c2, c3, c4⟩, c5⟩ := h _ _ _ ⟨sx, sy, sz⟩
  exact ⟨⟨c1, c2, zero_signed c3 _, zero_signed c4 _⟩, zero_signed c5 _⟩

theorem face_still3 {p : Params Double} {g : GravityParams} (hg : g.enabled = false) {d e dt : Double}
    (h : CalmGas p.riemannSolverType p.settings d e) (hd : CalmStep3 p d e dt) {gf : Grav3 Double} {u : Fld3 Double} {i j k : Int}
    (hu : ∀ a b c : Int, i - 1 ≤ a → a ≤ i + 1 → j - 1 ≤ b → b ≤ j + 1 → k - 1 ≤ c → c ≤ k + 1 →
      StillCell3 d e (u a b c)) (f : Face) :
    AtRest3 d (gasPressure p.settings d e) (trace3 p dt (prim3 p u) f i j k) ∧
      AtRest3 d (gasPressure p.settings d e) (face3 p g dt gf (prim3 p u) f i j k) := by
  have hq := fun a b c h1 h2 h3 h4 h5 h6 => prim_still3 h (hu a b c h1 h2 h3 h4 h5 h6)
  have h0 := hq i j k (by omega) (by omega) (by omega) (by omega) (by omega) (by omega)
  have hs := slopes_rest3 (s := p.settings) h.slope (pos_fin h.state.pos_r) (pos_fin h.state.pos_p) h0
    (hq (i + 1) j k (by omega) (by omega) (by omega) (by omega) (by omega) (by omega))
    (hq (i - 1) j k (by omega) (by omega) (by omega) (by omega) (by omega) (by omega))
    (hq i (j + 1) k (by omega) (by omega) (by omega) (by omega) (by omega) (by omega))
    (hq i (j - 1) k (by omega) (by omega) (by omega) (by omega) (by omega) (by omega))
    (hq i j (k + 1) (by omega) (by omega) (by omega) (by omega) (by omega) (by omega))
    (hq i j (k - 1) (by omega) (by omega) (by omega) (by omega) (by omega) (by omega))
  have ht : AtRest3 d (gasPressure p.settings d e) (trace3 p dt (prim3 p u) f i j k) :=
    trace_rest3 h.state h.gamma h0 (hs _ (List.mem_cons_self ..))
      (hs _ (List.mem_cons_of_mem _ (List.mem_cons_self ..)))
      (hs _ (List.mem_cons_of_mem _ (List.mem_cons_of_mem _ (List.mem_cons_self ..)))) hd.ratio_x hd.ratio_y hd.ratio_z
  refine ⟨ht, ?_⟩
  unfold face3 kick3
  rw [hg, Bool.false_and, if_neg (by decide)]
  exact ht

theorem swap_rest3 {r p : Double} {q : HS Double} (h : AtRest3 r p q) : AtRest3 r p q.swapUV ∧ AtRest3 r p q.swapUW :=
  ⟨⟨⟨h.1.1, h.1.2.1, h.1.2.2.2, h.1.2.2.1⟩, h.2⟩, ⟨⟨h.1.1, h.1.2.1, h.2, h.1.2.2.2⟩, h.1.2.2.1⟩⟩

/-- **C107, one step in three dimensions**, whichever of the two z-fluxes the code uses -/
theorem C107_rest_step_3d {zk : Bool} {p : Params Double} (hp : Hydro3 p)
    {g : GravityParams} (hg : g.enabled = false) {d e dt : Double} (h : CalmGas p.riemannSolverType p.settings d e) (hd : CalmStep3 p d e dt)
    {gf : Grav3 Double} {u : Fld3 Double} (hu : Still3 p d e u) : Still3 p d e (fullStep3 zk p g dt gf u) := by
  intro i j k hij
  have hgw := hp.wf.gw_pos
  have hint := hij
  obtain ⟨⟨a1, a2⟩, ⟨a3, a4⟩, a5, a6⟩ := hij
  have hc : ∀ a b c : Int, i - 2 ≤ a → a ≤ i + 2 → j - 2 ≤ b → b ≤ j + 2 → k - 2 ≤ c → c ≤ k + 2 →
      StillCell3 d e (fill3 p u a b c) :=
    fun a b c b1 b2 b3 b4 b5 b6 => fill_still3 hp hu a b c ⟨⟨by omega, by omega⟩, ⟨by omega, by omega⟩, by omega, by omega⟩
  have hF : ∀ a b c : Int, i - 1 ≤ a → a ≤ i + 1 → j - 1 ≤ b → b ≤ j + 1 → k - 1 ≤ c → c ≤ k + 1 → ∀ f : Face,
      AtRest3 d (gasPressure p.settings d e) (trace3 p dt (prim3 p (fill3 p u)) f a b c) ∧
      AtRest3 d (gasPressure p.settings d e) (face3 p g dt gf (prim3 p (fill3 p u)) f a b c) :=
    fun a b c b1 b2 b3 b4 b5 b6 f => face_still3 hg h hd (fun a' b' c' d1 d2 d3 d4 d5 d6 =>
      hc a' b' c' (by omega) (by omega) (by omega) (by omega) (by omega) (by omega)) f
  have fx : ∀ a : Int, i ≤ a → a ≤ i + 1 → IsZero (fluxX3 p g dt gf (prim3 p (fill3 p u)) a j k).d ∧
      IsZero (fluxX3 p g dt gf (prim3 p (fill3 p u)) a j k).p ∧
      (fluxX3 p g dt gf (prim3 p (fill3 p u)) a j k).u =
        facePressure p.riemannSolverType p.settings d (gasPressure p.settings d e) * (dt / p.dx) ∧
      IsZero (fluxX3 p g dt gf (prim3 p (fill3 p u)) a j k).v ∧
      IsZero (fluxX3 p g dt gf (prim3 p (fill3 p u)) a j k).w := by
    intro a b1 b2
    have := flux_rest3 hp.valid.riemann.1 (f := HS.zero) h.face (hF (a - 1) j k (by omega) (by omega) (by omega) (by omega) (by omega) (by omega) .xmax).2
      (hF a j k (by omega) (by omega) (by omega) (by omega) (by omega) (by omega) .xmin).2
    unfold fluxX3
    exact ⟨zero_mul this.1 hd.ratio_x, zero_mul this.2.1 hd.ratio_x, congrArg (· * (dt / p.dx)) this.2.2.1,
      zero_mul this.2.2.2.1 hd.ratio_x, zero_mul this.2.2.2.2 hd.ratio_x⟩
  have fy : ∀ b : Int, j ≤ b → b ≤ j + 1 → IsZero (fluxY3 p g dt gf (prim3 p (fill3 p u)) i b k).d ∧
      IsZero (fluxY3 p g dt gf (prim3 p (fill3 p u)) i b k).p ∧
      (fluxY3 p g dt gf (prim3 p (fill3 p u)) i b k).v =
        facePressure p.riemannSolverType p.settings d (gasPressure p.settings d e) * (dt / p.dy) ∧
      IsZero (fluxY3 p g dt gf (prim3 p (fill3 p u)) i b k).u ∧
      IsZero (fluxY3 p g dt gf (prim3 p (fill3 p u)) i b k).w := by
    intro b b1 b2
    have := flux_rest3 hp.valid.riemann.1 (f := HS.zero) h.face
      (swap_rest3 (hF i (b - 1) k (by omega) (by omega) (by omega) (by omega) (by omega) (by omega) .ymax).2).1
      (swap_rest3 (hF i b k (by omega) (by omega) (by omega) (by omega) (by omega) (by omega) .ymin).2).1
    unfold fluxY3
    exact ⟨zero_mul this.1 hd.ratio_y, zero_mul this.2.1 hd.ratio_y, congrArg (· * (dt / p.dy)) this.2.2.1,
      zero_mul this.2.2.2.1 hd.ratio_y, zero_mul this.2.2.2.2 hd.ratio_y⟩
  have fz : ∀ c : Int, k ≤ c → c ≤ k + 1 → IsZero (fluxZ3 zk p g dt gf (prim3 p (fill3 p u)) i j c).d ∧
      IsZero (fluxZ3 zk p g dt gf (prim3 p (fill3 p u)) i j c).p ∧
      (fluxZ3 zk p g dt gf (prim3 p (fill3 p u)) i j c).w =
        facePressure p.riemannSolverType p.settings d (gasPressure p.settings d e) * (dt / p.dz) ∧
      IsZero (fluxZ3 zk p g dt gf (prim3 p (fill3 p u)) i j c).v ∧
      IsZero (fluxZ3 zk p g dt gf (prim3 p (fill3 p u)) i j c).u := by
    intro c b1 b2
    have hR : AtRest3 d (gasPressure p.settings d e) (if zk then face3 p g dt gf (prim3 p (fill3 p u)) .zmin i j c
        else trace3 p dt (prim3 p (fill3 p u)) .zmin i j c) := by
      split
      · exact (hF i j c (by omega) (by omega) (by omega) (by omega) (by omega) (by omega) .zmin).2
      · exact (hF i j c (by omega) (by omega) (by omega) (by omega) (by omega) (by omega) .zmin).1
    have := flux_rest3 hp.valid.riemann.1 (f := HS.zero) h.face
      (swap_rest3 (hF i j (c - 1) (by omega) (by omega) (by omega) (by omega) (by omega) (by omega) .zmax).2).2
      (swap_rest3 hR).2
    unfold fluxZ3
    exact ⟨zero_mul this.1 hd.ratio_z, zero_mul this.2.1 hd.ratio_z, congrArg (· * (dt / p.dz)) this.2.2.1,
      zero_mul this.2.2.2.1 hd.ratio_z, zero_mul this.2.2.2.2 hd.ratio_z⟩
  obtain ⟨x1, x2, x3, x4, x5⟩ := fx i (by omega) (by omega)
  obtain ⟨y1, y2, y3, y4, y5⟩ := fx (i + 1) (by omega) (by omega)
  obtain ⟨z1, z2, z3, z4, z5⟩ := fy j (by omega) (by omega)
  obtain ⟨w1, w2, w3, w4, w5⟩ := fy (j + 1) (by omega) (by omega)
  obtain ⟨s1, s2, s3, s4, s5⟩ := fz k (by omega) (by omega)
  obtain ⟨t1, t2, t3, t4, t5⟩ := fz (k + 1) (by omega) (by omega)
  obtain ⟨⟨c1, c2, c3, c4⟩, c5⟩ := hc i j k (by omega) (by omega) (by omega) (by omega) (by omega) (by omega)
  unfold fullStep3 step3
  rw [if_pos hint, hg]
  dsimp only
  rw [if_neg (by decide)]
  refine ⟨⟨?_, ?_, ?_, ?_⟩, ?_⟩
  · show (fill3 p u i j k).d + _ - _ + _ - _ + _ - _ = d
    rw [c1, pos_add h.state.pos_r x1, pos_sub h.state.pos_r y1, pos_add h.state.pos_r z1, pos_sub h.state.pos_r w1,
      pos_add h.state.pos_r s1, pos_sub h.state.pos_r t1]
  · show (fill3 p u i j k).p + _ - _ + _ - _ + _ - _ = e
    rw [c2, pos_add h.energy x2, pos_sub h.energy y2, pos_add h.energy z2, pos_sub h.energy w2, pos_add h.energy s2,
      pos_sub h.energy t2]
  · show IsZero ((fill3 p u i j k).u + _ - _ + _ - _ + _ - _)
    rw [x3, y3]
    exact zero_sub (zero_add (zero_sub (zero_add (zero_add_sub hd.kick_x c3) z4) w4) s5) t5
  · show IsZero ((fill3 p u i j k).v + _ - _ + _ - _ + _ - _)
    rw [z3, w3]
    exact zero_sub (zero_add (zero_add_sub hd.kick_y (zero_sub (zero_add c4 x4) y4)) s4) t4
  · show IsZero ((fill3 p u i j k).w + _ - _ + _ - _ + _ - _)
    rw [s3, t3]
    exact zero_add_sub hd.kick_z (zero_sub (zero_add (zero_sub (zero_add c5 x5) y5) z5) w5)

/-- **C107, any number of steps** in three dimensions -/
theorem C107_rest_steps_3d {zk : Bool} {p : Params Double} (hp : Hydro3 p)
    {g : GravityParams} (hg : g.enabled = false) {d e : Double} (h : CalmGas p.riemannSolverType p.settings d e) {gf : Grav3 Double}
    (dts : List Double) (hd : ∀ dt ∈ dts, CalmStep3 p d e dt) {u : Fld3 Double} (hu : Still3 p d e u) :
    Still3 p d e (iterStep3 zk p g gf dts u) := by
  induction dts generalizing u with
  | nil => exact hu
  | cons dt dts ih =>
    exact ih (fun x hx => hd x (List.mem_cons_of_mem _ hx)) (C107_rest_step_3d hp hg h (hd dt (List.mem_cons_self ..)) hu)

/-- **C107, the 3D program**, versions 0 and 1 -/
theorem C107_rest_run_3d {p : Params Double} (hp : Hydro3 p)
    (hv : p.implementationVersion = 0 ∨ p.implementationVersion = 1) {g : GravityParams}
    (hg : g.enabled = false) {d e : Double} (h : CalmGas p.riemannSolverType p.settings d e) {jk : Junk Double} (dts : List Double)
    (hd : ∀ dt ∈ dts, CalmStep3 p d e dt) (n : Nat) {m m' : Mem Arr Double} (hm : hydroRun3 p g jk n dts m m')
    (hu : Still3 p d e (hs3 m (pingIn n))) : Still3 p d e (hs3 m' (pingIn (n + dts.length))) := by
  intro i j k hij
  have hgw := hp.wf.gw_pos
  have hin : inGrid3 p i j k := by
    obtain ⟨⟨a1, a2⟩, ⟨a3, a4⟩, a5, a6⟩ := hij
    exact ⟨⟨by omega, by omega⟩, ⟨by omega, by omega⟩, by omega, by omega⟩
  rw [(hydroRun3_result hp Ieee.signLaws (schemeOK3_01 hp hv) dts n hm).1 i j k hin]
  exact C107_rest_steps_3d hp hg h dts hd hu i j k hij

/-- the 3D grid of the same gas, periodic along z -/
noncomputable def stillParams3 : Params Double := { stillParams with nbvar := 5, dimType := .three }

theorem still_hydro3 : Hydro3 stillParams3 where
  wf := by constructor <;> decide
  nbvar := rfl
  valid := ⟨still_hydro.valid.slope, by decide⟩
  faces := ⟨still_hydro.faces, .inr (by decide), .inr (by decide)⟩

/-- all the hypotheses of `C107_rest_run_3d` at once -/
example (n c : Nat) (jk : Junk Double) (m m' : Mem Arr Double) (g : GravityParams) (hg : g.enabled = false)
    (hm : hydroRun3 stillParams3 g jk n (List.replicate c (lit (1/4))) m m')
    (hu : Still3 stillParams3 (lit 1) (lit (1/2)) (hs3 m (pingIn n))) :
    Still3 stillParams3 (lit 1) (lit (1/2)) (hs3 m' (pingIn (n + c))) := by
  have hc : CalmStep3 stillParams3 (lit 1) (lit (1/2)) (lit (1/4)) :=
    ⟨⟨still_calm.2.ratio_x, still_calm.2.ratio_y, still_calm.2.kick_x, still_calm.2.kick_y⟩, still_calm.2.ratio_x,
      still_calm.2.kick_x⟩
  have := C107_rest_run_3d still_hydro3 (.inl rfl) hg still_calm.1 _
    (fun dt h => by rw [List.eq_of_mem_replicate h]; exact hc) n hm hu
  rwa [List.length_replicate] at this

end EulerKokkos
