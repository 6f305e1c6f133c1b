import Verif.Lemmas.MhdTranspose
import Verif.Lemmas.MhdFull3D
import Verif.Lemmas.Symmetry3

/-!
# The 3D MHD scheme of implementation versions 0 and 1 treats x, y and z alike
-/

set_option linter.unusedSimpArgs false

namespace EulerKokkos
open Spec RealOps

/-! ## Riemann solvers do not distinguish the two transverse directions -/

/-- exchange of y and z in a state -/
def swapVWM (q : MS ℝ) : MS ℝ := { q with v := q.w, w := q.v, b := q.c, c := q.b }

theorem findMhdFlux_VW (s : Settings ℝ) (q : MS ℝ) :
    findMhdFlux s (swapVWM q) = (swapVWM (findMhdFlux s q).1, swapVWM (findMhdFlux s q).2) := by
  simp only [findMhdFlux, swapVWM]
  refine Prod.ext ?_ ?_ <;> refine MS.ext ?_ ?_ ?_ ?_ ?_ ?_ ?_ ?_ <;> dsimp only <;> ring

theorem findSpeedFast_VW (s : Settings ℝ) (q : MS ℝ) : findSpeedFast s 0 (swapVWM q) = findSpeedFast s 0 q := by
  simp only [findSpeedFast, swapVWM, MS.normalB]
  rw [show q.a * q.a + q.c * q.c + q.b * q.b = q.a * q.a + q.b * q.b + q.c * q.c by ring]

theorem findSpeedInfo1_VW (s : Settings ℝ) (q : MS ℝ) : findSpeedInfo1 s (swapVWM q) = findSpeedInfo1 s q := by
  simp only [findSpeedInfo1, swapVWM]
  rw [show q.a * q.a + q.c * q.c + q.b * q.b = q.a * q.a + q.b * q.b + q.c * q.c by ring]

theorem setA_VW (a : ℝ) (q : MS ℝ) : ({ swapVWM q with a := a } : MS ℝ) = swapVWM { q with a := a } := rfl

theorem swapVWM_a (q : MS ℝ) : (swapVWM q).a = q.a := rfl
theorem swapVWM_u (q : MS ℝ) : (swapVWM q).u = q.u := rfl

theorem riemannMhdHll_VW (s : Settings ℝ) (ql qr : MS ℝ) :
    riemannMhdHll s (swapVWM ql) (swapVWM qr) = swapVWM (riemannMhdHll s ql qr) := by
  unfold riemannMhdHll
  simp only [setA_VW, swapVWM_a, findMhdFlux_VW, findSpeedFast_VW]
  rfl

theorem riemannMhdLlf_VW (s : Settings ℝ) (ql qr : MS ℝ) :
    riemannMhdLlf s (swapVWM ql) (swapVWM qr) = swapVWM (riemannMhdLlf s ql qr) := by
  unfold riemannMhdLlf
  simp only [setA_VW, swapVWM_a, findMhdFlux_VW, findSpeedInfo1_VW]
  rfl

/-- exchange of y and z in the variables of the HLLD solver -/
def swapVWO (o : HlldOut ℝ) : HlldOut ℝ := { o with vo := o.wo, wo := o.vo, bo := o.co, co := o.bo }
/-- the same for its star states -/
def swapVWS (o : HlldStar ℝ) : HlldStar ℝ :=
  { o with vstar := o.wstar, wstar := o.vstar, bstar := o.cstar, cstar := o.bstar }

theorem hlldSide_VW (e a : ℝ) (q : MS ℝ) : hlldSide e a (swapVWM q) = swapVWO (hlldSide e a q) := by
  unfold hlldSide swapVWM swapVWO
  dsimp only
  congr 1 <;> ring

theorem hlldIn_VW (s : Settings ℝ) (a : ℝ) (q : MS ℝ) : hlldIn s a (swapVWM q) = swapVWM (hlldIn s a q) := by
  unfold hlldIn
  dsimp only
  split_ifs <;> rfl

theorem hlldStar_VW (a r u v w b c etot ptot vdotb sk ustar ptotstar : ℝ) :
    hlldStar a r u w v c b etot ptot vdotb sk ustar ptotstar =
      swapVWS (hlldStar a r u v w b c etot ptot vdotb sk ustar ptotstar) := by
  unfold hlldStar swapVWS
  dsimp only
  congr 1
  · ring
  · congr 1
    ring

theorem hlldSS_VW (a sg us pt : ℝ) (L S : HlldStar ℝ) :
    hlldSS a sg us pt (swapVWS L) (swapVWS S) =
      (swapVWO (hlldSS a sg us pt L S).1, swapVWO (hlldSS a sg us pt L S).2) := by
  unfold hlldSS swapVWS swapVWO
  dsimp only
  refine Prod.ext ?_ ?_ <;> dsimp only <;> congr 1 <;> ring

theorem hlldFlux_VW (a : ℝ) (o : HlldOut ℝ) : hlldFlux a (swapVWO o) = swapVWM (hlldFlux a o) := rfl

theorem hlldSample_VW (sl sal us sar sr : ℝ) (l ls lss rss rs r : HlldOut ℝ) :
    hlldSample sl sal us sar sr (swapVWO l) (swapVWO ls) (swapVWO lss) (swapVWO rss) (swapVWO rs) (swapVWO r) =
      swapVWO (hlldSample sl sal us sar sr l ls lss rss rs r) := by
  unfold hlldSample
  split_ifs <;> rfl

theorem hlldStarOut_VW (L : HlldStar ℝ) (us pt : ℝ) :
    hlldStarOut (swapVWS L) us pt = swapVWO (hlldStarOut L us pt) := rfl

theorem hlldTail_VW (a sg sl sr us pt : ℝ) (l r : HlldOut ℝ) :
    hlldTail a sg sl sr us pt (swapVWO l) (swapVWO r) = swapVWM (hlldTail a sg sl sr us pt l r) := by
  unfold hlldTail
  have e : ∀ (o : HlldOut ℝ) (sk : ℝ), hlldStar a (swapVWO o).ro (swapVWO o).uo (swapVWO o).vo (swapVWO o).wo
      (swapVWO o).bo (swapVWO o).co (swapVWO o).etoto (swapVWO o).ptoto (swapVWO o).vdotbo sk us pt =
      swapVWS (hlldStar a o.ro o.uo o.vo o.wo o.bo o.co o.etoto o.ptoto o.vdotbo sk us pt) :=
    fun o sk => hlldStar_VW _ _ _ _ _ _ _ _ _ _ _ _ _
  simp only [e, hlldSS_VW, hlldStarOut_VW]
  rw [← hlldFlux_VW, ← hlldSample_VW]
  rfl

theorem riemannMhd_VW (s : Settings ℝ) (t : RiemannType) (ql qr : MS ℝ) :
    riemannMhd s t (swapVWM ql) (swapVWM qr) MS.zero = swapVWM (riemannMhd s t ql qr MS.zero) := by
  unfold riemannMhd
  cases t with
  | hlld =>
    dsimp only
    unfold riemannMhdHlld hlldBody
    simp only [swapVWM_a, hlldIn_VW, findSpeedFast_VW, hlldSide_VW, swapVWM_u]
    rw [← hlldTail_VW]
    rfl
  | hll => exact riemannMhdHll_VW s ql qr
  | llf => exact riemannMhdLlf_VW s ql qr
  | _ => rfl

/-! ## The two exchanges -/

/-- a 3D MHD field with the x and y axes exchanged -/
def xyM (u : FldM3 ℝ) : FldM3 ℝ := fun i j k => (u j i k).swapXY
/-- a 3D MHD field with the x and z axes exchanged -/
def xzM (u : FldM3 ℝ) : FldM3 ℝ := fun i j k => (u k j i).swapXZ

theorem fillM3_XY (p : Params ℝ) (u : FldM3 ℝ) : fillM3 (swapXYParams p) (xyM u) = xyM (fillM3 p u) := by
  funext i j k
  unfold fillM3 ghost3 xyM MS.swapXY swapXYParams
  simp only [MS.get, normalVar, ID, IP, IU, IV, IW, IA, IB, IC]
  refine MS.ext ?_ ?_ ?_ ?_ ?_ ?_ ?_ ?_ <;> simp [signed]

theorem fillM3_XZ (p : Params ℝ) (u : FldM3 ℝ) : fillM3 (swapXZParams p) (xzM u) = xzM (fillM3 p u) := by
  funext i j k
  unfold fillM3 ghost3 xzM MS.swapXZ swapXZParams
  simp only [MS.get, normalVar, ID, IP, IU, IV, IW, IA, IB, IC]
  refine MS.ext ?_ ?_ ?_ ?_ ?_ ?_ ?_ ?_ <;> simp [signed]

theorem constoprim_XZ (s : Settings ℝ) (u : MS ℝ) (nb : BF ℝ) :
    (constoprimMhd s u.swapXZ ⟨nb.z, nb.y, nb.x⟩).1 = (constoprimMhd s u nb).1.swapXZ := by
  unfold constoprimMhd
  dsimp only [MS.swapXZ]
  split_ifs
  · rfl
  · refine MS.ext ?_ ?_ ?_ ?_ ?_ ?_ ?_ ?_ <;> dsimp only
    simp only [fmax_real, lit_real]
    congr 1
    ring

theorem primM3_XY (p : Params ℝ) (u : FldM3 ℝ) : primM3 (swapXYParams p) (xyM u) = xyM (primM3 p u) := by
  funext i j k
  exact constoprim_tr p.settings (u j i k) ⟨(u (j + 1) i k).a, (u j (i + 1) k).b, (u j i (k + 1)).c⟩

theorem primM3_XZ (p : Params ℝ) (u : FldM3 ℝ) : primM3 (swapXZParams p) (xzM u) = xzM (primM3 p u) := by
  funext i j k
  exact constoprim_XZ p.settings (u k j i) ⟨(u (k + 1) j i).a, (u k (j + 1) i).b, (u k j (i + 1)).c⟩

theorem slopeM7_XY (s : Settings ℝ) (q a b c : MS ℝ) :
    slopeM7 s q.swapXY a.swapXY b.swapXY c.swapXY = (slopeM7 s q a b c).swapXY := by
  unfold slopeM7
  split_ifs
  · rfl
  · rfl

/-- exchange of x and y in four values -/
def Quad.tr (q : Quad ℝ) : Quad ℝ := ⟨q.ll, q.rl, q.lr, q.rr⟩
/-- opposite values -/
def Quad.neg (q : Quad ℝ) : Quad ℝ := ⟨-q.ll, -q.lr, -q.rl, -q.rr⟩
/-- edge states seen with the two axes around the edge exchanged, each state transformed by `f` -/
def Edge4.trBy (f : MS ℝ → MS ℝ) (e : Edge4 ℝ) : Edge4 ℝ := ⟨f e.rt, f e.lt, f e.rb, f e.lb⟩
/-- each state transformed by `f` -/
def Edge4.mapBy (f : MS ℝ → MS ℝ) (e : Edge4 ℝ) : Edge4 ℝ := ⟨f e.rt, f e.rb, f e.lt, f e.lb⟩

/-- inputs of the reconstruction with x and y exchanged -/
def inXY (n : TraceIn3 ℝ) : TraceIn3 ℝ where
  q := n.q.swapXY
  xp := n.yp.swapXY
  xm := n.ym.swapXY
  yp := n.xp.swapXY
  ym := n.xm.swapXY
  zp := n.zp.swapXY
  zm := n.zm.swapXY
  al := n.bl
  ar := n.br
  bl := n.al
  br := n.ar
  cl := n.cl
  cr := n.cr
  dbf := ⟨n.dbf.blx, n.dbf.blz, n.dbf.aly, n.dbf.alz, n.dbf.cly, n.dbf.clx,
    n.dbf.brx, n.dbf.brz, n.dbf.ary, n.dbf.arz, n.dbf.cry, n.dbf.crx⟩
  ex := n.ey.neg
  ey := n.ex.neg
  ez := n.ez.tr.neg

/-- outputs of the reconstruction with x and y exchanged -/
def outXY (t : TraceM3 ℝ) : TraceM3 ℝ where
  qmx := t.qmy.swapXY
  qpx := t.qpy.swapXY
  qmy := t.qmx.swapXY
  qpy := t.qpx.swapXY
  qmz := t.qmz.swapXY
  qpz := t.qpz.swapXY
  ex := t.ey.mapBy MS.swapXY
  ey := t.ex.mapBy MS.swapXY
  ez := t.ez.trBy MS.swapXY

/-- inputs of the reconstruction with x and z exchanged -/
def inXZ (n : TraceIn3 ℝ) : TraceIn3 ℝ where
  q := n.q.swapXZ
  xp := n.zp.swapXZ
  xm := n.zm.swapXZ
  yp := n.yp.swapXZ
  ym := n.ym.swapXZ
  zp := n.xp.swapXZ
  zm := n.xm.swapXZ
  al := n.cl
  ar := n.cr
  bl := n.bl
  br := n.br
  cl := n.al
  cr := n.ar
  dbf := ⟨n.dbf.cly, n.dbf.clx, n.dbf.blz, n.dbf.blx, n.dbf.alz, n.dbf.aly,
    n.dbf.cry, n.dbf.crx, n.dbf.brz, n.dbf.brx, n.dbf.arz, n.dbf.ary⟩
  ex := n.ez.tr.neg
  ey := n.ey.tr.neg
  ez := n.ex.tr.neg

/-- outputs of the reconstruction with x and z exchanged -/
def outXZ (t : TraceM3 ℝ) : TraceM3 ℝ where
  qmx := t.qmz.swapXZ
  qpx := t.qpz.swapXZ
  qmy := t.qmy.swapXZ
  qpy := t.qpy.swapXZ
  qmz := t.qmx.swapXZ
  qpz := t.qpx.swapXZ
  ex := t.ez.trBy MS.swapXZ
  ey := t.ey.trBy MS.swapXZ
  ez := t.ex.trBy MS.swapXZ

/-- a slope whose last component does not matter -/
theorem slopeM7_eq (s : Settings ℝ) (q a b c : MS ℝ) :
    slopeM7 s q a b c = { slopeM7 s q a b b with c := (slopeM7 s q a b c).c } := by
  unfold slopeM7
  split_ifs
  · rfl
  · rfl

theorem slopeM7_XZ (s : Settings ℝ) (q a b : MS ℝ) :
    slopeM7 s q.swapXZ a.swapXZ b.swapXZ b.swapXZ = (slopeM7 s q a b b).swapXZ := by
  unfold slopeM7
  split_ifs
  · rfl
  · rfl

theorem flooredP_XY (s : Settings ℝ) (q : MS ℝ) : (MS.flooredP s q).swapXY = MS.flooredP s q.swapXY := rfl
theorem flooredP_XZ (s : Settings ℝ) (q : MS ℝ) : (MS.flooredP s q).swapXZ = MS.flooredP s q.swapXZ := rfl

theorem sourceM3_XY (s : Settings ℝ) (q dx dy dz : MS ℝ) (A B C x y z : ℝ) :
    sourceM3 s q.swapXY dy.swapXY dx.swapXY dz.swapXY B A C y x z = (sourceM3 s q dx dy dz A B C x y z).swapXY := by
  unfold sourceM3 MS.swapXY
  refine MS.ext ?_ ?_ ?_ ?_ ?_ ?_ ?_ ?_ <;> dsimp only <;> ring

theorem sourceM3_XZ (s : Settings ℝ) (q dx dy dz : MS ℝ) (A B C x y z : ℝ) :
    sourceM3 s q.swapXZ dz.swapXZ dy.swapXZ dx.swapXZ C B A z y x = (sourceM3 s q dx dy dz A B C x y z).swapXZ := by
  unfold sourceM3 MS.swapXZ
  refine MS.ext ?_ ?_ ?_ ?_ ?_ ?_ ?_ ?_ <;> dsimp only <;> ring

/-- the z slope of the z field is not used -/
theorem sourceM3_c (s : Settings ℝ) (q dx dy dz : MS ℝ) (A B C x y z t : ℝ) :
    sourceM3 s q dx dy { dz with c := t } A B C x y z = sourceM3 s q dx dy dz A B C x y z := rfl

theorem half_XY (q : MS ℝ) : q.swapXY.half = q.half.swapXY := rfl
theorem half_XZ (q : MS ℝ) : q.swapXZ.half = q.half.swapXZ := rfl
theorem half_c (q : MS ℝ) (t : ℝ) : ({ q with c := t } : MS ℝ).half = { q.half with c := t * (lit (1/2) : ℝ) } := rfl

theorem traceMhd3_XY (s : Settings ℝ) (n : TraceIn3 ℝ) (x y z : ℝ) :
    traceMhd3 s (inXY n) y x z = outXY (traceMhd3 s n x y z) := by
  unfold traceMhd3 outXY inXY Edge4.trBy Edge4.mapBy
  dsimp only
  rw [slopeM7_eq s n.q n.zp n.zm n.ym, slopeM7_eq s n.q.swapXY n.zp.swapXY n.zm.swapXY n.xm.swapXY]
  simp only [slopeM7_XY]
  generalize slopeM7 s n.q n.xp n.xm n.xm = dx
  generalize slopeM7 s n.q n.yp n.ym n.ym = dy
  generalize slopeM7 s n.q n.zp n.zm n.zm = dz
  generalize (slopeM7 s n.q n.zp n.zm n.ym).c = t1
  generalize (slopeM7 s n.q n.zp n.zm n.xm).c = t2
  simp only [half_XY, half_c, sourceM3_c, sourceM3_XY]
  generalize sourceM3 s n.q _ _ _ _ _ _ _ _ _ = so
  simp only [flooredP_XY]
  simp only [TraceM3.mk.injEq, Edge4.mk.injEq]
  refine ⟨?_, ?_, ?_, ?_, ?_, ?_, ⟨?_, ?_, ?_, ?_⟩, ⟨?_, ?_, ?_, ?_⟩, ⟨?_, ?_, ?_, ?_⟩⟩ <;> congr 1 <;>
    refine MS.ext ?_ ?_ ?_ ?_ ?_ ?_ ?_ ?_ <;> dsimp only [MS.swapXY, MS.half, Quad.tr, Quad.neg] <;> ring

theorem traceMhd3_XZ (s : Settings ℝ) (n : TraceIn3 ℝ) (x y z : ℝ) :
    traceMhd3 s (inXZ n) z y x = outXZ (traceMhd3 s n x y z) := by
  unfold traceMhd3 outXZ inXZ Edge4.trBy
  dsimp only
  rw [slopeM7_eq s n.q n.zp n.zm n.ym, slopeM7_eq s n.q.swapXZ n.xp.swapXZ n.xm.swapXZ n.ym.swapXZ]
  simp only [slopeM7_XZ]
  generalize slopeM7 s n.q n.xp n.xm n.xm = dx
  generalize slopeM7 s n.q n.yp n.ym n.ym = dy
  generalize slopeM7 s n.q n.zp n.zm n.zm = dz
  generalize (slopeM7 s n.q n.zp n.zm n.ym).c = t1
  generalize (slopeM7 s n.q.swapXZ n.xp.swapXZ n.xm.swapXZ n.ym.swapXZ).c = t2
  simp only [half_XZ, half_c, sourceM3_c, sourceM3_XZ]
  generalize sourceM3 s n.q _ _ _ _ _ _ _ _ _ = so
  simp only [flooredP_XZ]
  simp only [TraceM3.mk.injEq, Edge4.mk.injEq]
  refine ⟨?_, ?_, ?_, ?_, ?_, ?_, ⟨?_, ?_, ?_, ?_⟩, ⟨?_, ?_, ?_, ?_⟩, ⟨?_, ?_, ?_, ?_⟩⟩ <;> congr 1 <;>
    refine MS.ext ?_ ?_ ?_ ?_ ?_ ?_ ?_ ?_ <;> dsimp only [MS.swapXZ, MS.half, Quad.tr, Quad.neg] <;> ring

theorem elecM3_XY (q u : FldM3 ℝ) (i j k : Int) :
    elecM3 (xyM q) (xyM u) .x i j k = -elecM3 q u .y j i k ∧
    elecM3 (xyM q) (xyM u) .y i j k = -elecM3 q u .x j i k ∧
    elecM3 (xyM q) (xyM u) .z i j k = -elecM3 q u .z j i k := by
  simp only [elecM3, avg4, avg2, xyM, MS.swapXY, lit_real]
  refine ⟨?_, ?_, ?_⟩ <;> ring

theorem elecM3_XZ (q u : FldM3 ℝ) (i j k : Int) :
    elecM3 (xzM q) (xzM u) .x i j k = -elecM3 q u .z k j i ∧
    elecM3 (xzM q) (xzM u) .y i j k = -elecM3 q u .y k j i ∧
    elecM3 (xzM q) (xzM u) .z i j k = -elecM3 q u .x k j i := by
  simp only [elecM3, avg4, avg2, xzM, MS.swapXZ, lit_real]
  refine ⟨?_, ?_, ?_⟩ <;> ring

theorem traceM3_XY (p : Params ℝ) (dt : ℝ) (q u : FldM3 ℝ) (i j k : Int) :
    traceM3 (swapXYParams p) dt (xyM q) (xyM u) i j k = outXY (traceM3 p dt q u j i k) := by
  have e : traceInM3 (swapXYParams p) (xyM q) (xyM u) i j k = inXY (traceInM3 p q u j i k) := by
    unfold traceInM3
    simp only [elecM3_XY]
    rfl
  unfold traceM3
  rw [e]
  exact traceMhd3_XY _ _ _ _ _

theorem traceM3_XZ (p : Params ℝ) (dt : ℝ) (q u : FldM3 ℝ) (i j k : Int) :
    traceM3 (swapXZParams p) dt (xzM q) (xzM u) i j k = outXZ (traceM3 p dt q u k j i) := by
  have e : traceInM3 (swapXZParams p) (xzM q) (xzM u) i j k = inXZ (traceInM3 p q u k j i) := by
    unfold traceInM3
    simp only [elecM3_XZ]
    rfl
  unfold traceM3
  rw [e]
  exact traceMhd3_XZ _ _ _ _ _

theorem computeEmf_frame (s : Settings ℝ) (d : EmfDir) (e : Edge4 ℝ) :
    computeEmf s d e = computeEmf s .z (e.mapBy d.frame) := rfl

theorem phys_frame {q : MS ℝ} (h : PhysM q) (d : EmfDir) : PhysM (d.frame q) := by
  cases d
  · exact ⟨h.d, h.p⟩
  · exact ⟨h.d, h.p⟩
  · exact ⟨h.d, h.p⟩

/-- the edge field of corner states seen with two axes exchanged, `f` being the exchange -/
theorem computeEmf_exchange {s : Settings ℝ} (hs : GoodSettings s) (d d' : EmfDir) (f : MS ℝ → MS ℝ)
    (hf : ∀ q, d'.frame (f q) = transposeM (d.frame q)) {rt rb lt lb : MS ℝ} (h1 : PhysM rt) (h2 : PhysM rb)
    (h3 : PhysM lt) (h4 : PhysM lb) :
    computeEmf s d' ⟨f rt, f lt, f rb, f lb⟩ = -computeEmf s d ⟨rt, rb, lt, lb⟩ := by
  rw [computeEmf_frame, computeEmf_frame s d]
  simp only [Edge4.mapBy, hf]
  exact computeEmf_tr hs (phys_frame h1 d) (phys_frame h2 d) (phys_frame h3 d) (phys_frame h4 d)

/-- every edge state has positive density and pressure -/
structure EdgesPhys (t : TraceM3 ℝ) : Prop where
  x : PhysM t.ex.rt ∧ PhysM t.ex.rb ∧ PhysM t.ex.lt ∧ PhysM t.ex.lb
  y : PhysM t.ey.rt ∧ PhysM t.ey.rb ∧ PhysM t.ey.lt ∧ PhysM t.ey.lb
  z : PhysM t.ez.rt ∧ PhysM t.ez.rb ∧ PhysM t.ez.lt ∧ PhysM t.ez.lb

theorem traceMhd3_edges {s : Settings ℝ} (hs : GoodSettings s) (n : TraceIn3 ℝ) (x y z : ℝ) :
    EdgesPhys (traceMhd3 s n x y z) where
  x := ⟨flooredP_phys hs _, flooredP_phys hs _, flooredP_phys hs _, flooredP_phys hs _⟩
  y := ⟨flooredP_phys hs _, flooredP_phys hs _, flooredP_phys hs _, flooredP_phys hs _⟩
  z := ⟨flooredP_phys hs _, flooredP_phys hs _, flooredP_phys hs _, flooredP_phys hs _⟩

/-- fluxes and edge fields with x and y exchanged -/
def fluxXY (F : FluxM3 ℝ) : FluxM3 ℝ where
  x i j k := (F.y j i k).swapXY
  y i j k := (F.x j i k).swapXY
  z i j k := (F.z j i k).swapXY
  e d i j k := match d with
    | .x => -F.e .y j i k
    | .y => -F.e .x j i k
    | .z => -F.e .z j i k

/-- fluxes and edge fields with x and z exchanged -/
def fluxXZ (F : FluxM3 ℝ) : FluxM3 ℝ where
  x i j k := (F.z k j i).swapXZ
  y i j k := (F.y k j i).swapXZ
  z i j k := (F.x k j i).swapXZ
  e d i j k := match d with
    | .x => -F.e .z k j i
    | .y => -F.e .y k j i
    | .z => -F.e .x k j i

theorem XZ_XY (q : MS ℝ) : q.swapXY.swapXZ = swapVWM q.swapXZ := rfl
theorem XY_XZ (q : MS ℝ) : q.swapXZ.swapXY = swapVWM q.swapXY := rfl
theorem XZ_VW (q : MS ℝ) : (swapVWM q).swapXZ = q.swapXZ.swapXY := rfl
theorem XY_VW (q : MS ℝ) : (swapVWM q).swapXY = q.swapXY.swapXZ := rfl
theorem XY_XY (q : MS ℝ) : q.swapXY.swapXY = q := rfl
theorem XZ_XZ (q : MS ℝ) : q.swapXZ.swapXZ = q := rfl

theorem fluxOfTraces_XY {p : Params ℝ} (hs : GoodSettings p.settings) {T T' : Int → Int → Int → TraceM3 ℝ}
    (hT : ∀ i j k, T' i j k = outXY (T j i k)) (hP : ∀ i j k, EdgesPhys (T i j k)) :
    fluxOfTraces (swapXYParams p) T' = fluxXY (fluxOfTraces p T) := by
  have es : (swapXYParams p).settings = p.settings := rfl
  have er : (swapXYParams p).riemannSolverType = p.riemannSolverType := rfl
  unfold fluxOfTraces fluxXY
  simp only [hT, outXY, es, er, FluxM3.mk.injEq]
  refine ⟨rfl, ?_, ?_, ?_⟩
  · funext i j k; rfl
  · funext i j k
    rw [XZ_XY, XZ_XY, riemannMhd_VW, XZ_VW]
  · funext d i j k
    cases d with
    | x =>
      exact computeEmf_exchange hs .y .x MS.swapXY (fun _ => rfl) (hP _ _ _).y.1 (hP _ _ _).y.2.2.1
        (hP _ _ _).y.2.1 (hP _ _ _).y.2.2.2
    | y =>
      exact computeEmf_exchange hs .x .y MS.swapXY (fun _ => rfl) (hP _ _ _).x.1 (hP _ _ _).x.2.1
        (hP _ _ _).x.2.2.1 (hP _ _ _).x.2.2.2
    | z =>
      exact computeEmf_exchange hs .z .z MS.swapXY (fun _ => rfl) (hP _ _ _).z.1 (hP _ _ _).z.2.1
        (hP _ _ _).z.2.2.1 (hP _ _ _).z.2.2.2

theorem fluxOfTraces_XZ {p : Params ℝ} (hs : GoodSettings p.settings) {T T' : Int → Int → Int → TraceM3 ℝ}
    (hT : ∀ i j k, T' i j k = outXZ (T k j i)) (hP : ∀ i j k, EdgesPhys (T i j k)) :
    fluxOfTraces (swapXZParams p) T' = fluxXZ (fluxOfTraces p T) := by
  have es : (swapXZParams p).settings = p.settings := rfl
  have er : (swapXZParams p).riemannSolverType = p.riemannSolverType := rfl
  unfold fluxOfTraces fluxXZ
  simp only [hT, outXZ, es, er, FluxM3.mk.injEq]
  refine ⟨rfl, ?_, ?_, ?_⟩
  · funext i j k
    rw [XY_XZ, XY_XZ, riemannMhd_VW, XY_VW]
  · funext i j k; rfl
  · funext d i j k
    cases d with
    | x =>
      exact computeEmf_exchange hs .z .x MS.swapXZ (fun _ => rfl) (hP _ _ _).z.1 (hP _ _ _).z.2.1
        (hP _ _ _).z.2.2.1 (hP _ _ _).z.2.2.2
    | y =>
      exact computeEmf_exchange hs .y .y MS.swapXZ (fun _ => rfl) (hP _ _ _).y.1 (hP _ _ _).y.2.2.1
        (hP _ _ _).y.2.1 (hP _ _ _).y.2.2.2
    | z =>
      exact computeEmf_exchange hs .x .z MS.swapXZ (fun _ => rfl) (hP _ _ _).x.1 (hP _ _ _).x.2.1
        (hP _ _ _).x.2.2.1 (hP _ _ _).x.2.2.2

theorem stepOfM3_XY (p : Params ℝ) (dt : ℝ) (F : FluxM3 ℝ) (u : FldM3 ℝ) :
    stepOfM3 (swapXYParams p) dt (fluxXY F) (xyM u) = xyM (stepOfM3 p dt F u) := by
  funext i j k
  have hint : interior3 (swapXYParams p) i j k ↔ interior3 p j i k :=
    ⟨fun h => ⟨h.2.1, h.1, h.2.2⟩, fun h => ⟨h.2.1, h.1, h.2.2⟩⟩
  simp only [stepOfM3, xyM]
  by_cases h : interior3 p j i k
  · rw [if_pos (hint.2 h), if_pos h]
    simp only [ctUpdate3, fluxUpdateM3, fluxXY, MS.plus5, MS.minus5, MS.swapXY, swapXYParams]
    refine MS.ext ?_ ?_ ?_ ?_ ?_ ?_ ?_ ?_ <;> dsimp only <;> ring
  · rw [if_neg (fun k => h (hint.1 k)), if_neg h]

theorem stepOfM3_XZ (p : Params ℝ) (dt : ℝ) (F : FluxM3 ℝ) (u : FldM3 ℝ) :
    stepOfM3 (swapXZParams p) dt (fluxXZ F) (xzM u) = xzM (stepOfM3 p dt F u) := by
  funext i j k
  have hint : interior3 (swapXZParams p) i j k ↔ interior3 p k j i :=
    ⟨fun h => ⟨h.2.2, h.2.1, h.1⟩, fun h => ⟨h.2.2, h.2.1, h.1⟩⟩
  simp only [stepOfM3, xzM]
  by_cases h : interior3 p k j i
  · rw [if_pos (hint.2 h), if_pos h]
    simp only [ctUpdate3, fluxUpdateM3, fluxXZ, MS.plus5, MS.minus5, MS.swapXZ, swapXZParams]
    refine MS.ext ?_ ?_ ?_ ?_ ?_ ?_ ?_ ?_ <;> dsimp only <;> ring
  · rw [if_neg (fun k => h (hint.1 k)), if_neg h]

theorem fullStepM3_XY {p : Params ℝ} (hs : GoodSettings p.settings) (hv : p.implementationVersion ≠ 2) (dt : ℝ)
    (u : FldM3 ℝ) : fullStepM3 (swapXYParams p) dt (xyM u) = xyM (fullStepM3 p dt u) := by
  have hv' : (swapXYParams p).implementationVersion ≠ 2 := hv
  unfold fullStepM3 stepM3 schemeM3 fluxesM3
  rw [if_neg hv, if_neg hv', fillM3_XY, primM3_XY,
    fluxOfTraces_XY hs (fun i j k => traceM3_XY p dt _ _ i j k) (fun i j k => traceMhd3_edges hs _ _ _ _),
    stepOfM3_XY]

theorem fullStepM3_XZ {p : Params ℝ} (hs : GoodSettings p.settings) (hv : p.implementationVersion ≠ 2) (dt : ℝ)
    (u : FldM3 ℝ) : fullStepM3 (swapXZParams p) dt (xzM u) = xzM (fullStepM3 p dt u) := by
  have hv' : (swapXZParams p).implementationVersion ≠ 2 := hv
  unfold fullStepM3 stepM3 schemeM3 fluxesM3
  rw [if_neg hv, if_neg hv', fillM3_XZ, primM3_XZ,
    fluxOfTraces_XZ hs (fun i j k => traceM3_XZ p dt _ _ i j k) (fun i j k => traceMhd3_edges hs _ _ _ _),
    stepOfM3_XZ]

theorem fastSpeed_XY (γ bn : ℝ) (q : MS ℝ) : fastSpeed γ bn q.swapXY = fastSpeed γ bn q := fastSpeed_transpose γ bn q
theorem fastSpeed_XZ (γ bn : ℝ) (q : MS ℝ) : fastSpeed γ bn q.swapXZ = fastSpeed γ bn q := by
  simp only [fastSpeed, MS.swapXZ]
  rw [show q.c ^ 2 + q.b ^ 2 + q.a ^ 2 = q.a ^ 2 + q.b ^ 2 + q.c ^ 2 by ring]

theorem rateM3_XY (γ dx dy dz : ℝ) (q : MS ℝ) : mhdRate3 γ dy dx dz q.swapXY = mhdRate3 γ dx dy dz q := by
  simp only [mhdRate3, fastSpeed_XY]
  simp only [MS.swapXY]
  ring
theorem rateM3_XZ (γ dx dy dz : ℝ) (q : MS ℝ) : mhdRate3 γ dz dy dx q.swapXZ = mhdRate3 γ dx dy dz q := by
  simp only [mhdRate3, fastSpeed_XZ]
  simp only [MS.swapXZ]
  ring

theorem cflDtM3_XY (p : Params ℝ) (u : FldM3 ℝ) : cflDtM3 (swapXYParams p) (xyM u) = cflDtM3 p u := by
  unfold cflDtM3
  rw [fillM3_XY, primM3_XY]
  congr 2
  ext r
  constructor
  · rintro ⟨i, j, k, hij, rfl⟩
    exact ⟨j, i, k, ⟨hij.2.1, hij.1, hij.2.2⟩, rateM3_XY _ _ _ _ _⟩
  · rintro ⟨i, j, k, hij, rfl⟩
    exact ⟨j, i, k, ⟨hij.2.1, hij.1, hij.2.2⟩, (rateM3_XY _ _ _ _ _).symm⟩

theorem cflDtM3_XZ (p : Params ℝ) (u : FldM3 ℝ) : cflDtM3 (swapXZParams p) (xzM u) = cflDtM3 p u := by
  unfold cflDtM3
  rw [fillM3_XZ, primM3_XZ]
  congr 2
  ext r
  constructor
  · rintro ⟨i, j, k, hij, rfl⟩
    exact ⟨k, j, i, ⟨hij.2.2, hij.2.1, hij.1⟩, rateM3_XZ _ _ _ _ _⟩
  · rintro ⟨i, j, k, hij, rfl⟩
    exact ⟨k, j, i, ⟨hij.2.2, hij.2.1, hij.1⟩, (rateM3_XZ _ _ _ _ _).symm⟩

theorem mhd3_XY {p : Params ℝ} (hp : Mhd3 p) : Mhd3 (swapXYParams p) := by
  obtain ⟨⟨w1, w2, w3, w4, w5, w6, w7, w8, w9, w10, w11, w12, w13⟩, gw, nb, ⟨v1, v2⟩,
    ⟨⟨f1, f2, f3, f4⟩, f5, f6⟩⟩ := hp
  exact ⟨⟨w2, w1, w3, w4, w6, w5, w7, w9, w8, w10, w12, w11, w13⟩, gw, nb, ⟨v1, v2⟩, ⟨⟨f3, f4, f1, f2⟩, f5, f6⟩⟩

theorem mhd3_XZ {p : Params ℝ} (hp : Mhd3 p) : Mhd3 (swapXZParams p) := by
  obtain ⟨⟨w1, w2, w3, w4, w5, w6, w7, w8, w9, w10, w11, w12, w13⟩, gw, nb, ⟨v1, v2⟩,
    ⟨⟨f1, f2, f3, f4⟩, f5, f6⟩⟩ := hp
  exact ⟨⟨w3, w2, w1, w4, w7, w6, w5, w10, w9, w8, w13, w12, w11⟩, gw, nb, ⟨v1, v2⟩, ⟨⟨f5, f6, f3, f4⟩, f1, f2⟩⟩

/-- the CFL step depends on the interior cells only -/
theorem cflDtM3_congr {p : Params ℝ} (hp : Mhd3 p) {x y : FldM3 ℝ}
    (h : ∀ i j k, interior3 p i j k → x i j k = y i j k) : cflDtM3 p x = cflDtM3 p y := by
  unfold cflDtM3
  congr 2
  ext r
  refine exists_congr fun i => exists_congr fun j => exists_congr fun k => and_congr_right fun hij => ?_
  obtain ⟨⟨h1, h2⟩, ⟨h3, h4⟩, h5, h6⟩ := hij
  have hgw := hp.gw
  have e : ∀ a b c, i ≤ a → a ≤ i + 1 → j ≤ b → b ≤ j + 1 → k ≤ c → c ≤ k + 1 →
      fillM3 p x a b c = fillM3 p y a b c :=
    fun a b c k1 k2 k3 k4 k5 k6 => fillM3_congr hp.wf hp.faces h a b c
      ⟨⟨by omega, by omega⟩, ⟨by omega, by omega⟩, by omega, by omega⟩
  rw [primM3_congr e]

/-- the 3D MHD method of versions 0 and 1 commutes with the exchange of x and y -/
theorem related_XYM3 {p : Params ℝ} (hp : Mhd3 p) (hs : GoodSettings p.settings) (hv : p.implementationVersion ≠ 2) :
    Related p (swapXYParams p) (mhd3 p) (mhd3 (swapXYParams p))
      (fun x y => ∀ i j k, interior3 p i j k → y j i k = (x i j k).swapXY) where
  tEnd := rfl
  nOutput := rfl
  nStepmax := rfl
  dt x y h := by
    show cflDtM3 p x = cflDtM3 (swapXYParams p) y
    rw [← cflDtM3_XY]
    exact cflDtM3_congr (mhd3_XY hp) fun i j k hij => (h j i k ⟨hij.2.1, hij.1, hij.2.2⟩).symm
  adv dt x y h i j k hij := by
    show fullStepM3 (swapXYParams p) dt y j i k = (fullStepM3 p dt x i j k).swapXY
    rw [fullStepM3_congr (mhd3_XY hp) (u' := xyM x) (fun i j k hij => h j i k ⟨hij.2.1, hij.1, hij.2.2⟩) j i k
      ⟨hij.2.1, hij.1, hij.2.2⟩, fullStepM3_XY hs hv]
    rfl

/-- the 3D MHD method of versions 0 and 1 commutes with the exchange of x and z -/
theorem related_XZM3 {p : Params ℝ} (hp : Mhd3 p) (hs : GoodSettings p.settings) (hv : p.implementationVersion ≠ 2) :
    Related p (swapXZParams p) (mhd3 p) (mhd3 (swapXZParams p))
      (fun x y => ∀ i j k, interior3 p i j k → y k j i = (x i j k).swapXZ) where
  tEnd := rfl
  nOutput := rfl
  nStepmax := rfl
  dt x y h := by
    show cflDtM3 p x = cflDtM3 (swapXZParams p) y
    rw [← cflDtM3_XZ]
    exact cflDtM3_congr (mhd3_XZ hp) fun i j k hij => (h k j i ⟨hij.2.2, hij.2.1, hij.1⟩).symm
  adv dt x y h i j k hij := by
    show fullStepM3 (swapXZParams p) dt y k j i = (fullStepM3 p dt x i j k).swapXZ
    rw [fullStepM3_congr (mhd3_XZ hp) (u' := xzM x) (fun i j k hij => h k j i ⟨hij.2.2, hij.2.1, hij.1⟩) k j i
      ⟨hij.2.2, hij.2.1, hij.1⟩, fullStepM3_XZ hs hv]
    rfl

end EulerKokkos
