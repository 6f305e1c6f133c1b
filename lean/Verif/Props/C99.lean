import Verif.Props.C72
import Verif.Props.C79
import Verif.Props.C97

/-!
# C99 — the symmetric test problems stay symmetric

Whole executions of the program on parameter files of the test problems that have a symmetry: every file shows it.
-/

set_option linter.constructorNameAsVariable false
set_option linter.unusedSectionVars false
set_option linter.unusedSimpArgs false

namespace EulerKokkos
open Spec

namespace Spec

/-- the picture is its own reflection about the diagonal: density and energy agree in reflected cells, the two momenta are
exchanged -/
def Diagonal2 (p : Params ℝ) (o : Output ℝ) : Prop := ∀ i j, interior2 p i j →
  o.data ⟨(), j, i, 0, ID⟩ = o.data ⟨(), i, j, 0, ID⟩ ∧ o.data ⟨(), j, i, 0, IP⟩ = o.data ⟨(), i, j, 0, IP⟩ ∧
  o.data ⟨(), j, i, 0, IU⟩ = o.data ⟨(), i, j, 0, IV⟩ ∧ o.data ⟨(), j, i, 0, IV⟩ = o.data ⟨(), i, j, 0, IU⟩

/-- left and right are mirror images: the cells at the same distance from the two sides have the same density, energy and
y momentum and opposite x momenta -/
def LeftRight2 (p : Params ℝ) (o : Output ℝ) : Prop := ∀ i i' j, interior2 p i j →
  i - p.ghostWidth = (p.ghostWidth + p.nx - 1) - i' →
  o.data ⟨(), i', j, 0, ID⟩ = o.data ⟨(), i, j, 0, ID⟩ ∧ o.data ⟨(), i', j, 0, IP⟩ = o.data ⟨(), i, j, 0, IP⟩ ∧
  o.data ⟨(), i', j, 0, IU⟩ = - o.data ⟨(), i, j, 0, IU⟩ ∧ o.data ⟨(), i', j, 0, IV⟩ = o.data ⟨(), i, j, 0, IV⟩

/-- below and above are mirror images -/
def UpDown2 (p : Params ℝ) (o : Output ℝ) : Prop := ∀ i j j', interior2 p i j →
  j - p.ghostWidth = (p.ghostWidth + p.ny - 1) - j' →
  o.data ⟨(), i, j', 0, ID⟩ = o.data ⟨(), i, j, 0, ID⟩ ∧ o.data ⟨(), i, j', 0, IP⟩ = o.data ⟨(), i, j, 0, IP⟩ ∧
  o.data ⟨(), i, j', 0, IU⟩ = o.data ⟨(), i, j, 0, IU⟩ ∧ o.data ⟨(), i, j', 0, IV⟩ = - o.data ⟨(), i, j, 0, IV⟩

/-- half a turn about the centre of the box shows the same: equal density and energy, opposite momenta -/
def HalfTurn2 (p : Params ℝ) (o : Output ℝ) : Prop := ∀ i j i' j', interior2 p i j →
  i - p.ghostWidth = (p.ghostWidth + p.nx - 1) - i' → j - p.ghostWidth = (p.ghostWidth + p.ny - 1) - j' →
  o.data ⟨(), i', j', 0, ID⟩ = o.data ⟨(), i, j, 0, ID⟩ ∧ o.data ⟨(), i', j', 0, IP⟩ = o.data ⟨(), i, j, 0, IP⟩ ∧
  o.data ⟨(), i', j', 0, IU⟩ = - o.data ⟨(), i, j, 0, IU⟩ ∧ o.data ⟨(), i', j', 0, IV⟩ = - o.data ⟨(), i, j, 0, IV⟩

/-- a square box with the same boundary conditions in x and y -/
structure Square (p : Params ℝ) : Prop where
  n : p.nx = p.ny
  lo : p.xmin = p.ymin
  hi : p.xmax = p.ymax
  bmin : p.boundary_type_xmin = p.boundary_type_ymin
  bmax : p.boundary_type_xmax = p.boundary_type_ymax

/-- the Riemann solvers that are exact under mirror images -/
def MirrorSolver (p : Params ℝ) : Prop :=
  p.riemannSolverType = .llf ∨ p.riemannSolverType = .hll ∨ p.riemannSolverType = .hllc

end Spec

/-! ### What the program starts from -/

/-- the memory of a fresh 2D hydro run -/
theorem fresh_hydro2 {F : FloatLib ℝ} {M : MathLib ℝ} {e : Env ℝ} {file : Option (List Char)} {s' : RunState ℝ}
    (hs : Sets (Ini.broadcastSerial file) "run" "solver_name" "Hydro_Muscl_2D")
    (hr : cfgBool (Ini.broadcastSerial file) "run" "restart_enabled" false = false)
    (ho : Ordinary2 (hydroParams F (Ini.broadcastSerial file)))
    (h : serialMain F M e file (.finished s')) :
    let c := Ini.broadcastSerial file
    let p := hydroParams F c
    let q := hydroProblem2 F M c e.ju
    Hydro2 p ∧ GoodGrid p ∧ p.enableOutput = decide (p.nOutput ≠ 0) ∧
    (p.implementationVersion = 0 ∨ p.implementationVersion = 1 ∨ p.implementationVersion = 2) ∧
    ∃ m, runMain p (hydroOps2 p (gravityParams c) e.ident e.jk) m (cfgFloat F c "run" "tCurrent" 0) 0 s' ∧
      runLaunches (initHydro2 M p (0, 0, 0) e.rnd q) freshMem m ∧ gravOf m .grav = gravityField2 p q ∧
      ∀ i j s, inGrid2 p i j → hydroCell2 M p (e.rnd i j 0) (centre p.xmin p.dx p.ghostWidth i)
        (centre p.ymin p.dy p.ghostWidth j) q = some s → hs2 m .U i j = { s with w := 0 } := by
  intro c p q
  have hk : findSolver (mainSolverName c) = some .hydro2 := findSolver_sets (by simp [solverRegistry]) hs
  obtain ⟨h1, h2, h3, h4⟩ := C36_runnable_2d F c (hs _) ho.nx ho.ny ho.nz ho.x ho.y ho.z ho.slope ho.riemann
    ho.gamma ho.smallr ho.smallc ho.cfl
  have h1 : Hydro2 p := h1
  obtain ⟨m, s'', e1, ⟨-, hm⟩, hrun⟩ := (serialMain_fresh hk hr _).1 h
  cases e1
  refine ⟨h1, h2, h3, h4, m, hrun, hm, initHydro2_gravity h1.wf (.refl _) hm, ?_⟩
  intro i j s hij hc
  have hm' := (initHydro2_iff _ _ _ _ _ _ _).1 hm
  have hin : (i, j) ∈ range2 p.isize p.jsize := by
    obtain ⟨a, b, c, d⟩ := hij
    have := h1.wf.isize_eq
    have := h1.wf.jsize_eq
    exact mem_range2.2 ⟨⟨by omega, by omega⟩, by omega, by omega⟩
  have hv : ∀ v < 4, m ⟨.U, i, j, 0, v⟩ = s.get v := by
    intro v hv
    rw [hm']
    beta_reduce
    rw [if_pos ⟨Or.inl rfl, hin⟩, run_hydroInit2_U _ _ _ _ _ _ _ _ _ hv, cellX_centre, cellY_centre, hc]
  refine HS.ext (hv ID (by decide)) (hv IP (by decide)) (hv IU (by decide)) (hv IV (by decide)) (by simp [hs2])

theorem interior_inGrid {p : Params ℝ} (w : p.WF) {i j : Int} (h : interior2 p i j) : inGrid2 p i j := by
  obtain ⟨a, b, c, d⟩ := h
  have := w.gw_pos
  have := w.isize_eq
  have := w.jsize_eq
  exact ⟨by omega, by omega, by omega, by omega⟩

theorem square_dx {F : FloatLib ℝ} {c : Ini.Reader} (hq : Square (hydroParams F c)) (hn : 2 ≤ (hydroParams F c).nx) :
    (hydroParams F c).dx = (hydroParams F c).dy := by
  obtain ⟨h1, h2, -⟩ := C36_cell_size F c ⟨1, 1, 1, by decide, by decide, by decide⟩
  have hny : (hydroParams F c).ny ≠ 0 := by rw [← hq.n]; omega
  have a := (h1 (by omega)).1
  have b := (h2 hny).1
  have hx : ((hydroParams F c).nx : ℝ) ≠ 0 := by
    have : (hydroParams F c).nx ≠ 0 := by omega
    exact_mod_cast this
  refine mul_right_cancel₀ hx (a.trans ?_)
  rw [hq.hi, hq.lo, ← b, hq.n]

theorem centre_rev {lo hi h : ℝ} {n gw i : Int} (e : h * n = hi - lo) :
    centre lo h gw (revIdx n gw i) = lo + hi - centre lo h gw i := by
  unfold centre revIdx
  have : hi = h * n + lo := by linarith
  rw [this]
  push_cast
  ring

/-- from symmetric data to symmetric files -/
theorem diagonal_of {F : FloatLib ℝ} {M : MathLib ℝ} {e : Env ℝ} (hid : e.ident ≤ 0) {file : Option (List Char)}
    (hs : Sets (Ini.broadcastSerial file) "run" "solver_name" "Hydro_Muscl_2D")
    (hr : cfgBool (Ini.broadcastSerial file) "run" "restart_enabled" false = false)
    (ho : Ordinary2 (hydroParams F (Ini.broadcastSerial file)))
    (hsq : Square (hydroParams F (Ini.broadcastSerial file)))
    (hG : ∀ r, hydroProblem2 F M (Ini.broadcastSerial file) e.ju = .rayleighTaylor r → r.gx = r.gy)
    (h0 : ∀ x y n n', ∃ s s', hydroCell2 M (hydroParams F (Ini.broadcastSerial file)) n x y
        (hydroProblem2 F M (Ini.broadcastSerial file) e.ju) = some s ∧
      hydroCell2 M (hydroParams F (Ini.broadcastSerial file)) n' y x
        (hydroProblem2 F M (Ini.broadcastSerial file) e.ju) = some s' ∧
      { s' with w := 0 } = HS.swapUV { s with w := 0 })
    {s' : RunState ℝ} (h : serialMain F M e file (.finished s')) :
    ∀ o ∈ s'.outputs, Diagonal2 (hydroParams F (Ini.broadcastSerial file)) o := by
  obtain ⟨h1, h2, h3, h4, m, hrun, -, hg, hf⟩ := fresh_hydro2 hs hr ho h
  have hd := square_dx hsq ho.nx
  have hin : ∀ i j, inGrid2 (hydroParams F (Ini.broadcastSerial file)) i j →
      inGrid2 (hydroParams F (Ini.broadcastSerial file)) j i := by
    rintro i j ⟨a, b, c, d⟩
    have := h1.wf.isize_eq
    have := h1.wf.jsize_eq
    have := hsq.n
    exact ⟨by omega, by omega, by omega, by omega⟩
  have key := C70_diagonal_2d h1 h4 h2 h3 hsq.n hd ⟨hsq.bmin, hsq.bmax⟩ hid e.jk (m := m) (g := gravityParams _)
    (fun i j hij => by
      obtain ⟨s, s'', e1, e2, e3⟩ := h0 (centre (hydroParams F (Ini.broadcastSerial file)).xmin
        (hydroParams F (Ini.broadcastSerial file)).dx (hydroParams F (Ini.broadcastSerial file)).ghostWidth i)
        (centre (hydroParams F (Ini.broadcastSerial file)).ymin
        (hydroParams F (Ini.broadcastSerial file)).dy (hydroParams F (Ini.broadcastSerial file)).ghostWidth j)
        (e.rnd i j 0) (e.rnd j i 0)
      rw [hf i j s (interior_inGrid h1.wf hij) e1, hf j i s'' (hin i j (interior_inGrid h1.wf hij)), e3]
      rw [← e2, hsq.lo, hd])
    (fun _ i j hij => by
      have a := congrFun (congrFun hg j) i
      have b := congrFun (congrFun hg i) j
      have a1 : m ⟨.grav, j, i, 0, IX⟩ =
        (gravityField2 (hydroParams F (Ini.broadcastSerial file))
          (hydroProblem2 F M (Ini.broadcastSerial file) e.ju) j i).1 := congrArg Prod.fst a
      have b1 : m ⟨.grav, i, j, 0, IY⟩ =
        (gravityField2 (hydroParams F (Ini.broadcastSerial file))
          (hydroProblem2 F M (Ini.broadcastSerial file) e.ju) i j).2 := congrArg Prod.snd b
      rw [a1, b1]
      cases hq : hydroProblem2 F M (Ini.broadcastSerial file) e.ju with
      | rayleighTaylor r =>
        unfold gravityField2
        simp only [if_pos hij, if_pos (hin i j hij)]
        exact hG r hq
      | _ => rfl) hrun
  intro o hm i j hij
  have := key o hm i j hij
  unfold shown2 HS.swapUV at this
  injection this with d1 d2 d3 d4
  exact ⟨d1, d2, d3, d4⟩

/-- from mirror-symmetric data to mirror-symmetric files -/
theorem leftRight_of {F : FloatLib ℝ} {M : MathLib ℝ} {e : Env ℝ} (hid : e.ident ≤ 0) {file : Option (List Char)}
    (hs : Sets (Ini.broadcastSerial file) "run" "solver_name" "Hydro_Muscl_2D")
    (hr : cfgBool (Ini.broadcastSerial file) "run" "restart_enabled" false = false)
    (ho : Ordinary2 (hydroParams F (Ini.broadcastSerial file)))
    (hM : MirrorSolver (hydroParams F (Ini.broadcastSerial file)))
    (hb : (hydroParams F (Ini.broadcastSerial file)).boundary_type_xmin =
      (hydroParams F (Ini.broadcastSerial file)).boundary_type_xmax)
    (hG : ∀ r, hydroProblem2 F M (Ini.broadcastSerial file) e.ju = .rayleighTaylor r → r.gx = 0)
    (h0 : ∀ x y n n', ∃ s s', hydroCell2 M (hydroParams F (Ini.broadcastSerial file)) n x y
        (hydroProblem2 F M (Ini.broadcastSerial file) e.ju) = some s ∧
      hydroCell2 M (hydroParams F (Ini.broadcastSerial file)) n'
        ((hydroParams F (Ini.broadcastSerial file)).xmin + (hydroParams F (Ini.broadcastSerial file)).xmax - x) y
        (hydroProblem2 F M (Ini.broadcastSerial file) e.ju) = some s' ∧
      { s' with w := 0 } = mirror { s with w := 0 })
    {s' : RunState ℝ} (h : serialMain F M e file (.finished s')) :
    ∀ o ∈ s'.outputs, LeftRight2 (hydroParams F (Ini.broadcastSerial file)) o := by
  obtain ⟨h1, h2, h3, h4, m, hrun, -, hg, hf⟩ := fresh_hydro2 hs hr ho h
  have hin : ∀ i j, inGrid2 (hydroParams F (Ini.broadcastSerial file)) i j →
      inGrid2 (hydroParams F (Ini.broadcastSerial file)) (revIdx (hydroParams F (Ini.broadcastSerial file)).nx
        (hydroParams F (Ini.broadcastSerial file)).ghostWidth i) j := by
    rintro i j ⟨a, b, c, d⟩
    have := h1.wf.isize_eq
    unfold revIdx
    exact ⟨by omega, by omega, by omega, by omega⟩
  have hnx := ho.nx
  have hdx := ((C36_cell_size F (Ini.broadcastSerial file) ⟨1, 1, 1, by decide, by decide, by decide⟩).1 (by omega)).1
  have key := C72_symmetric_2d h1 h4 h2 h3 hM hb hid e.jk (m := m) (g := gravityParams _)
    (fun i j hij => by
      obtain ⟨s, s'', e1, e2, e3⟩ := h0 (centre (hydroParams F (Ini.broadcastSerial file)).xmin
        (hydroParams F (Ini.broadcastSerial file)).dx (hydroParams F (Ini.broadcastSerial file)).ghostWidth i)
        (centre (hydroParams F (Ini.broadcastSerial file)).ymin
        (hydroParams F (Ini.broadcastSerial file)).dy (hydroParams F (Ini.broadcastSerial file)).ghostWidth j)
        (e.rnd i j 0) (e.rnd (revIdx (hydroParams F (Ini.broadcastSerial file)).nx
        (hydroParams F (Ini.broadcastSerial file)).ghostWidth i) j 0)
      rw [hf i j s (interior_inGrid h1.wf hij) e1, hf _ j s'' (hin i j (interior_inGrid h1.wf hij)), e3]
      rw [← e2, centre_rev hdx])
    (fun _ i j hij => by
      have a := congrFun (congrFun hg (revIdx (hydroParams F (Ini.broadcastSerial file)).nx
        (hydroParams F (Ini.broadcastSerial file)).ghostWidth i)) j
      have b := congrFun (congrFun hg i) j
      have c : gravityField2 (hydroParams F (Ini.broadcastSerial file))
          (hydroProblem2 F M (Ini.broadcastSerial file) e.ju) (revIdx (hydroParams F (Ini.broadcastSerial file)).nx
          (hydroParams F (Ini.broadcastSerial file)).ghostWidth i) j = gravityField2 (hydroParams F (Ini.broadcastSerial file))
          (hydroProblem2 F M (Ini.broadcastSerial file) e.ju) i j ∧
          (gravityField2 (hydroParams F (Ini.broadcastSerial file))
          (hydroProblem2 F M (Ini.broadcastSerial file) e.ju) i j).1 = 0 := by
        cases hq : hydroProblem2 F M (Ini.broadcastSerial file) e.ju with
        | rayleighTaylor r =>
          unfold gravityField2
          simp only [if_pos hij, if_pos (hin i j hij)]
          exact ⟨trivial, hG r hq⟩
        | _ => exact ⟨rfl, rfl⟩
      have a1 := congrArg Prod.fst (a.trans c.1)
      have a2 := congrArg Prod.snd (a.trans c.1)
      have b1 := congrArg Prod.fst b
      have b2 := congrArg Prod.snd b
      rw [c.2] at a1 b1
      unfold gravOf at a1 a2 b1 b2
      simp only at a1 a2 b1 b2
      exact ⟨by rw [a1, b1, neg_zero], by rw [a2, b2]⟩) hrun
  intro o hm i i' j hij hi
  have e' : i' = revIdx (hydroParams F (Ini.broadcastSerial file)).nx
      (hydroParams F (Ini.broadcastSerial file)).ghostWidth i := by unfold revIdx; omega
  have := key o hm i j hij
  rw [← e'] at this
  unfold shown2 mirror at this
  injection this with d1 d2 d3 d4
  exact ⟨d1, d2, d3, d4⟩

theorem reverseX_same {p : Params ℝ} (h : p.boundary_type_xmin = p.boundary_type_xmax) : reverseXParams p = p := by
  unfold reverseXParams
  cases p
  simp only at h
  simp only [h]

theorem reverseY_same {p : Params ℝ} (h : p.boundary_type_ymin = p.boundary_type_ymax) : reverseYParams p = p := by
  unfold reverseYParams
  cases p
  simp only at h
  simp only [h]

/-- from data symmetric under half a turn to such files -/
theorem halfTurn_of {F : FloatLib ℝ} {M : MathLib ℝ} {e : Env ℝ} (hid : e.ident ≤ 0) {file : Option (List Char)}
    (hs : Sets (Ini.broadcastSerial file) "run" "solver_name" "Hydro_Muscl_2D")
    (hr : cfgBool (Ini.broadcastSerial file) "run" "restart_enabled" false = false)
    (ho : Ordinary2 (hydroParams F (Ini.broadcastSerial file))) (hM : MirrorSolver (hydroParams F (Ini.broadcastSerial file)))
    (hbx : (hydroParams F (Ini.broadcastSerial file)).boundary_type_xmin = (hydroParams F (Ini.broadcastSerial file)).boundary_type_xmax) (hby : (hydroParams F (Ini.broadcastSerial file)).boundary_type_ymin = (hydroParams F (Ini.broadcastSerial file)).boundary_type_ymax)
    (hG : ∀ r, hydroProblem2 F M (Ini.broadcastSerial file) e.ju ≠ .rayleighTaylor r)
    (h0 : ∀ x y n n', ∃ s s', hydroCell2 M (hydroParams F (Ini.broadcastSerial file)) n x y
        (hydroProblem2 F M (Ini.broadcastSerial file) e.ju) = some s ∧
      hydroCell2 M (hydroParams F (Ini.broadcastSerial file)) n' ((hydroParams F (Ini.broadcastSerial file)).xmin + (hydroParams F (Ini.broadcastSerial file)).xmax - x) ((hydroParams F (Ini.broadcastSerial file)).ymin + (hydroParams F (Ini.broadcastSerial file)).ymax - y)
        (hydroProblem2 F M (Ini.broadcastSerial file) e.ju) = some s' ∧
      { s' with w := 0 } = flipV (mirror { s with w := 0 }))
    {s' : RunState ℝ} (h : serialMain F M e file (.finished s')) :
    ∀ o ∈ s'.outputs, HalfTurn2 (hydroParams F (Ini.broadcastSerial file)) o := by
  obtain ⟨h1, h2, h3, h4, m, hrun, -, hg, hf⟩ := fresh_hydro2 hs hr ho h
  set p := (hydroParams F (Ini.broadcastSerial file)) with hp
  have hin : ∀ i j, inGrid2 p i j → inGrid2 p (revIdx p.nx p.ghostWidth i) (revIdx p.ny p.ghostWidth j) := by
    rintro i j ⟨a, b, c, d⟩
    have := h1.wf.isize_eq
    have := h1.wf.jsize_eq
    unfold revIdx
    exact ⟨by omega, by omega, by omega, by omega⟩
  have hnx := ho.nx
  have hny := ho.ny
  have hcs := C36_cell_size F (Ini.broadcastSerial file) ⟨1, 1, 1, by decide, by decide, by decide⟩
  have hdx : p.dx * p.nx = p.xmax - p.xmin := (hcs.1 (show p.nx ≠ 0 by omega)).1
  have hdy : p.dy * p.ny = p.ymax - p.ymin := (hcs.2.1 (show p.ny ≠ 0 by omega)).1
  have hg0 : ∀ i j, m ⟨.grav, i, j, 0, IX⟩ = 0 ∧ m ⟨.grav, i, j, 0, IY⟩ = 0 := by
    intro i j
    have a := congrFun (congrFun hg i) j
    have c : gravityField2 p (hydroProblem2 F M (Ini.broadcastSerial file) e.ju) i j = (0, 0) := by
      cases hq : hydroProblem2 F M (Ini.broadcastSerial file) e.ju with
      | rayleighTaylor r => exact absurd hq (hG r)
      | _ => rfl
    rw [c] at a
    exact ⟨congrArg Prod.fst a, congrArg Prod.snd a⟩
  -- the mirror image of the start
  let m' : Mem Arr ℝ := fun l => if l.arr = .U then
    (if l.v = IU then - m { l with i := revIdx p.nx p.ghostWidth l.i } else m { l with i := revIdx p.nx p.ghostWidth l.i })
    else 0
  have hrr : ∀ n g i : Int, revIdx n g (revIdx n g i) = i := fun n g i => by unfold revIdx; omega
  have hm' : ∀ i j, hs2 m' .U (revIdx p.nx p.ghostWidth i) j = mirror (hs2 m .U i j) := by
    intro i j
    unfold hs2 mirror
    simp [m', hrr, ID, IP, IU, IV]
  have hT := total_hydro2 h1.wf h1.faces (gravityParams (Ini.broadcastSerial file)) e.ident e.jk
  obtain ⟨s₀, hs₀⟩ := C14_starts (p := p) hT m' (cfgFloat F (Ini.broadcastSerial file) "run" "tCurrent" 0) 0
  obtain ⟨_, b, _, _, hb⟩ := C14_completes hT ho.nlog hs₀
  have ex : reverseXParams p = p := reverseX_same hbx
  have ey : reverseYParams p = p := reverseY_same hby
  obtain ⟨_, _, r1⟩ := C72_reverse_x_2d h1 h4 h2 h3 hM (gravityParams _) hid hid e.jk e.jk (m := m) (m' := m')
    (fun i j _ => hm' i j)
    (fun _ i j _ => ⟨by rw [(hg0 i j).1]; simp [m'], by rw [(hg0 i j).2]; simp [m']⟩) hrun (by rw [ex]; exact hb)
  obtain ⟨_, _, r2⟩ := C72_reverse_y_2d h1 h4 h2 h3 hM (gravityParams _) hid hid e.jk e.jk (m := m') (m' := m)
    (fun i j hij => by
      obtain ⟨x, rfl⟩ : ∃ x, i = revIdx p.nx p.ghostWidth x := ⟨_, (hrr _ _ i).symm⟩
      rw [hm']
      have hx : interior2 p x j := by
        obtain ⟨a, b, c, d⟩ := hij
        unfold revIdx at a b
        exact ⟨by omega, by omega, c, d⟩
      obtain ⟨s, s'', e1, e2, e3⟩ := h0 (centre p.xmin p.dx p.ghostWidth x) (centre p.ymin p.dy p.ghostWidth j)
        (e.rnd x j 0) (e.rnd (revIdx p.nx p.ghostWidth x) (revIdx p.ny p.ghostWidth j) 0)
      rw [hf x j s (interior_inGrid h1.wf hx) e1, hf _ _ s'' (hin x j (interior_inGrid h1.wf hx)), e3]
      rw [← e2, centre_rev hdx, centre_rev hdy])
    (fun _ i j _ => ⟨by rw [(hg0 _ _).1]; simp [m'], by rw [(hg0 _ _).2]; simp [m']⟩) hb (by rw [ey]; exact hrun)
  intro o hm i j i' j' hij hi hj
  have e1 : i' = revIdx p.nx p.ghostWidth i := by unfold revIdx; omega
  have e2 : j' = revIdx p.ny p.ghostWidth j := by unfold revIdx; omega
  obtain ⟨n, hn⟩ := List.mem_iff_getElem?.1 hm
  obtain ⟨o', hn', -, -, c1⟩ := forall2_get r1 n o hn
  obtain ⟨o'', hn'', -, -, c2⟩ := forall2_get r2 n o' hn'
  rw [hn] at hn''
  cases hn''
  have d1 := c1 i j hij
  have d2 := c2 i' j (by
    obtain ⟨a, b, c, d⟩ := hij
    exact ⟨by omega, by omega, c, d⟩)
  rw [← e1] at d1
  rw [← e2, d1] at d2
  unfold shown2 mirror flipV at d2
  injection d2 with d1 d2 d3 d4
  exact ⟨d1, d2, d3, d4⟩

/-- from data with a mirror image above and below to such files -/
theorem upDown_of {F : FloatLib ℝ} {M : MathLib ℝ} {e : Env ℝ} (hid : e.ident ≤ 0) {file : Option (List Char)}
    (hs : Sets (Ini.broadcastSerial file) "run" "solver_name" "Hydro_Muscl_2D")
    (hr : cfgBool (Ini.broadcastSerial file) "run" "restart_enabled" false = false)
    (ho : Ordinary2 (hydroParams F (Ini.broadcastSerial file))) (hM : MirrorSolver (hydroParams F (Ini.broadcastSerial file)))
    (hby : (hydroParams F (Ini.broadcastSerial file)).boundary_type_ymin = (hydroParams F (Ini.broadcastSerial file)).boundary_type_ymax)
    (hG : ∀ r, hydroProblem2 F M (Ini.broadcastSerial file) e.ju ≠ .rayleighTaylor r)
    (h0 : ∀ x y n n', ∃ s s', hydroCell2 M (hydroParams F (Ini.broadcastSerial file)) n x y
        (hydroProblem2 F M (Ini.broadcastSerial file) e.ju) = some s ∧
      hydroCell2 M (hydroParams F (Ini.broadcastSerial file)) n' x ((hydroParams F (Ini.broadcastSerial file)).ymin + (hydroParams F (Ini.broadcastSerial file)).ymax - y)
        (hydroProblem2 F M (Ini.broadcastSerial file) e.ju) = some s' ∧
      { s' with w := 0 } = flipV { s with w := 0 })
    {s' : RunState ℝ} (h : serialMain F M e file (.finished s')) :
    ∀ o ∈ s'.outputs, UpDown2 (hydroParams F (Ini.broadcastSerial file)) o := by
  obtain ⟨h1, h2, h3, h4, m, hrun, -, hg, hf⟩ := fresh_hydro2 hs hr ho h
  set p := (hydroParams F (Ini.broadcastSerial file)) with hp
  have hin : ∀ i j, inGrid2 p i j → inGrid2 p i (revIdx p.ny p.ghostWidth j) := by
    rintro i j ⟨a, b, c, d⟩
    have := h1.wf.jsize_eq
    unfold revIdx
    exact ⟨by omega, by omega, by omega, by omega⟩
  have hny := ho.ny
  have hdy : p.dy * p.ny = p.ymax - p.ymin :=
    ((C36_cell_size F (Ini.broadcastSerial file) ⟨1, 1, 1, by decide, by decide, by decide⟩).2.1 (show p.ny ≠ 0 by omega)).1
  have hg0 : ∀ i j, m ⟨.grav, i, j, 0, IX⟩ = 0 ∧ m ⟨.grav, i, j, 0, IY⟩ = 0 := by
    intro i j
    have a := congrFun (congrFun hg i) j
    have c : gravityField2 p (hydroProblem2 F M (Ini.broadcastSerial file) e.ju) i j = (0, 0) := by
      cases hq : hydroProblem2 F M (Ini.broadcastSerial file) e.ju with
      | rayleighTaylor r => exact absurd hq (hG r)
      | _ => rfl
    rw [c] at a
    exact ⟨congrArg Prod.fst a, congrArg Prod.snd a⟩
  have ey : reverseYParams p = p := reverseY_same hby
  obtain ⟨_, _, r⟩ := C72_reverse_y_2d h1 h4 h2 h3 hM (gravityParams _) hid hid e.jk e.jk (m := m) (m' := m)
    (fun i j hij => by
      obtain ⟨s, s'', e1, e2, e3⟩ := h0 (centre p.xmin p.dx p.ghostWidth i) (centre p.ymin p.dy p.ghostWidth j)
        (e.rnd i j 0) (e.rnd i (revIdx p.ny p.ghostWidth j) 0)
      rw [hf i j s (interior_inGrid h1.wf hij) e1, hf _ _ s'' (hin i j (interior_inGrid h1.wf hij)), e3]
      rw [← e2, centre_rev hdy])
    (fun _ i j _ => ⟨by rw [(hg0 _ _).1, (hg0 _ _).1], by rw [(hg0 _ _).2, (hg0 _ _).2, neg_zero]⟩) hrun
    (by rw [ey]; exact hrun)
  intro o hm i j j' hij hj
  have e2 : j' = revIdx p.ny p.ghostWidth j := by unfold revIdx; omega
  have d := (forall₂_self r o hm).2.2 i j hij
  rw [← e2] at d
  unfold shown2 flipV at d
  injection d with d1 d2 d3 d4
  exact ⟨d1, d2, d3, d4⟩

/-! ### The test problems -/

/-- **C99 (implosion).** On a square, with the same boundary conditions in x and y: every file of every execution is
symmetric about the diagonal. -/
theorem C99_implode (F : FloatLib ℝ) (M : MathLib ℝ) (e : Env ℝ) (hid : e.ident ≤ 0) (file : Option (List Char)) :
    let c := Ini.broadcastSerial file
    let p := hydroParams F c
    Sets c "run" "solver_name" "Hydro_Muscl_2D" → cfgBool c "run" "restart_enabled" false = false → Ordinary2 p →
    Square p → ∀ q, hydroProblem2 F M c e.ju = .implode q → q.shape ≠ 1 → q.u_in = q.v_in → q.u_out = q.v_out →
    ∀ s', serialMain F M e file (.finished s') → ∀ o ∈ s'.outputs, Diagonal2 p o := by
  intro c p hs hr ho hsq q hq hsh h1 h2 s' h
  refine diagonal_of hid hs hr ho hsq (fun r hr => by rw [hq] at hr; cases hr) (fun x y n n' => ?_) h
  rw [hq]
  refine ⟨_, _, rfl, rfl, ?_⟩
  simp only [implode2, if_neg hsh, add_comm y x]
  split_ifs <;> simp [HS.swapUV, h1, h2]

/-- **C99 (blast wave, diagonal).** A blast centred on the diagonal of a square. -/
theorem C99_blast_diagonal (F : FloatLib ℝ) (M : MathLib ℝ) (e : Env ℝ) (hid : e.ident ≤ 0) (file : Option (List Char)) :
    let c := Ini.broadcastSerial file
    let p := hydroParams F c
    Sets c "run" "solver_name" "Hydro_Muscl_2D" → cfgBool c "run" "restart_enabled" false = false → Ordinary2 p →
    Square p → ∀ q, hydroProblem2 F M c e.ju = .blast q → q.center_x = q.center_y →
    ∀ s', serialMain F M e file (.finished s') → ∀ o ∈ s'.outputs, Diagonal2 p o := by
  intro c p hs hr ho hsq q hq hc s' h
  refine diagonal_of hid hs hr ho hsq (fun r hr => by rw [hq] at hr; cases hr) (fun x y n n' => ?_) h
  rw [hq]
  refine ⟨_, _, rfl, rfl, ?_⟩
  simp only [blast2, hc, add_comm ((y - q.center_y) * (y - q.center_y))]
  split_ifs <;> simp [HS.swapUV]

/-- **C99 (blast wave, left and right).** A blast half way between two sides with the same boundary condition, with a
solver exact under mirror images. -/
theorem C99_blast_left_right (F : FloatLib ℝ) (M : MathLib ℝ) (e : Env ℝ) (hid : e.ident ≤ 0) (file : Option (List Char)) :
    let c := Ini.broadcastSerial file
    let p := hydroParams F c
    Sets c "run" "solver_name" "Hydro_Muscl_2D" → cfgBool c "run" "restart_enabled" false = false → Ordinary2 p →
    MirrorSolver p → p.boundary_type_xmin = p.boundary_type_xmax →
    ∀ q, hydroProblem2 F M c e.ju = .blast q → q.center_x = (p.xmin + p.xmax) / 2 →
    ∀ s', serialMain F M e file (.finished s') → ∀ o ∈ s'.outputs, LeftRight2 p o := by
  intro c p hs hr ho hM hb q hq hc s' h
  refine leftRight_of hid hs hr ho hM hb (fun r hr => by rw [hq] at hr; cases hr) (fun x y n n' => ?_) h
  rw [hq]
  refine ⟨_, _, rfl, rfl, ?_⟩
  have e1 : ∀ x : ℝ, (p.xmin + p.xmax - x - q.center_x) * (p.xmin + p.xmax - x - q.center_x) =
      (x - q.center_x) * (x - q.center_x) := by intro x; rw [hc]; ring
  simp only [blast2]
  rw [e1]
  split_ifs <;> simp [mirror]

/-- **C99 (blast wave, below and above).** -/
theorem C99_blast_up_down (F : FloatLib ℝ) (M : MathLib ℝ) (e : Env ℝ) (hid : e.ident ≤ 0) (file : Option (List Char)) :
    let c := Ini.broadcastSerial file
    let p := hydroParams F c
    Sets c "run" "solver_name" "Hydro_Muscl_2D" → cfgBool c "run" "restart_enabled" false = false → Ordinary2 p →
    MirrorSolver p → p.boundary_type_ymin = p.boundary_type_ymax →
    ∀ q, hydroProblem2 F M c e.ju = .blast q → q.center_y = (p.ymin + p.ymax) / 2 →
    ∀ s', serialMain F M e file (.finished s') → ∀ o ∈ s'.outputs, UpDown2 p o := by
  intro c p hs hr ho hM hb q hq hc s' h
  refine upDown_of hid hs hr ho hM hb (fun r hr => by rw [hq] at hr; cases hr) (fun x y n n' => ?_) h
  rw [hq]
  refine ⟨_, _, rfl, rfl, ?_⟩
  have e1 : ∀ y : ℝ, (p.ymin + p.ymax - y - q.center_y) * (p.ymin + p.ymax - y - q.center_y) =
      (y - q.center_y) * (y - q.center_y) := by intro x; rw [hc]; ring
  simp only [blast2]
  rw [e1]
  split_ifs <;> simp [flipV]

/-- the four-quadrant problems whose states are symmetric about the diagonal -/
theorem quadrant_symmetric {n : Int} (hn : n ∈ [1, 2, 3, 6, 7, 11]) :
    (getRiemannConfig2d n 0 : HS ℝ) = HS.swapUV (getRiemannConfig2d n 0) ∧
    (getRiemannConfig2d n 2 : HS ℝ) = HS.swapUV (getRiemannConfig2d n 2) ∧
    (getRiemannConfig2d n 1 : HS ℝ) = HS.swapUV (getRiemannConfig2d n 3) ∧
    (getRiemannConfig2d n 3 : HS ℝ) = HS.swapUV (getRiemannConfig2d n 1) := by
  simp only [List.mem_cons, List.not_mem_nil, or_false] at hn
  rcases hn with rfl | rfl | rfl | rfl | rfl | rfl <;> refine ⟨rfl, rfl, rfl, rfl⟩

/-- **C99 (four quadrants).** Problems 1, 2, 3, 6, 7 and 11 of the table, with the corner of the quadrants on the
diagonal of a square. -/
theorem C99_quadrants (F : FloatLib ℝ) (M : MathLib ℝ) (e : Env ℝ) (hid : e.ident ≤ 0) (file : Option (List Char)) :
    let c := Ini.broadcastSerial file
    let p := hydroParams F c
    Sets c "run" "solver_name" "Hydro_Muscl_2D" → cfgBool c "run" "restart_enabled" false = false → Ordinary2 p →
    Square p → ∀ n xt yt zt, hydroProblem2 F M c e.ju = .fourQuadrant n xt yt zt → n ∈ [1, 2, 3, 6, 7, 11] → xt = yt →
    ∀ s', serialMain F M e file (.finished s') → ∀ o ∈ s'.outputs, Diagonal2 p o := by
  intro c p hs hr ho hsq n xt yt zt hq hn hxy s' h
  refine diagonal_of hid hs hr ho hsq (fun r hr => by rw [hq] at hr; cases hr) (fun x y n n' => ?_) h
  rw [hq]
  refine ⟨_, _, rfl, rfl, ?_⟩
  have ps : ∀ u : HS ℝ, ∀ g : ℝ, primToCons2 (HS.swapUV u) g = HS.swapUV (primToCons2 u g) := by
    intro u g
    simp only [primToCons2, HS.swapUV, add_comm (u.v * u.v)]
  obtain ⟨a, b, d, f⟩ := quadrant_symmetric hn
  have key : ∀ u : HS ℝ, { HS.swapUV u with w := (0 : ℝ) } = HS.swapUV { u with w := 0 } := fun _ => rfl
  subst hxy
  simp only [quadrant2]
  rw [← key]
  by_cases hx : RealOps.lt x xt = true <;> by_cases hy : RealOps.lt y xt = true <;>
    simp only [hx, hy, if_true, if_false, Bool.false_eq_true]
  · conv_lhs => rw [b, ps]
  · conv_lhs => rw [f, ps]
  · conv_lhs => rw [d, ps]
  · conv_lhs => rw [a, ps]

/-- **C99 (Gresho vortex).** A box centred at the axis of the vortex, opposite sides alike: every file looks the same
after half a turn. -/
theorem C99_gresho (F : FloatLib ℝ) {M : MathLib ℝ} (hX : ExactMath M) (e : Env ℝ) (hid : e.ident ≤ 0) (file : Option (List Char)) :
    let c := Ini.broadcastSerial file
    let p := hydroParams F c
    Sets c "run" "solver_name" "Hydro_Muscl_2D" → cfgBool c "run" "restart_enabled" false = false → Ordinary2 p →
    MirrorSolver p → p.boundary_type_xmin = p.boundary_type_xmax → p.boundary_type_ymin = p.boundary_type_ymax →
    p.xmin + p.xmax = 0 → p.ymin + p.ymax = 0 → ∀ q, hydroProblem2 F M c e.ju = .gresho q → q.rho0 ≠ 0 →
    ∀ s', serialMain F M e file (.finished s') → ∀ o ∈ s'.outputs, HalfTurn2 p o := by
  intro c p hs hr ho hM hbx hby h1 h2 q hq hq0 s' h
  refine halfTurn_of hid hs hr ho hM hbx hby (fun r hr => by rw [hq] at hr; cases hr) (fun x y n n' => ?_) h
  rw [hq, show (hydroParams F (Ini.broadcastSerial file)).xmin + (hydroParams F (Ini.broadcastSerial file)).xmax - x =
    - x by rw [h1]; ring, show (hydroParams F (Ini.broadcastSerial file)).ymin +
      (hydroParams F (Ini.broadcastSerial file)).ymax - y = - y by rw [h2]; ring]
  have f : Faithful2 (HydroProblem.gresho q) := hq0
  refine ⟨_, _, cell2_prescribed hX _ n x y f, cell2_prescribed hX _ n' (-x) (-y) f, ?_⟩
  simp only [prescribed2, greshoState, toCons, flipV, mirror, neg_sq]
  congr 1 <;> ring

/-- **C99 (isentropic vortex).** A vortex in a gas at rest, at the centre of a box with opposite sides alike. -/
theorem C99_vortex (F : FloatLib ℝ) {M : MathLib ℝ} (hX : ExactMath M) (e : Env ℝ) (hid : e.ident ≤ 0) (file : Option (List Char)) :
    let c := Ini.broadcastSerial file
    let p := hydroParams F c
    Sets c "run" "solver_name" "Hydro_Muscl_2D" → cfgBool c "run" "restart_enabled" false = false → Ordinary2 p →
    MirrorSolver p → p.boundary_type_xmin = p.boundary_type_xmax → p.boundary_type_ymin = p.boundary_type_ymax →
    ∀ q, hydroProblem2 F M c e.ju = .isentropicVortex q → q.u_a = 0 → q.v_a = 0 →
    q.vortex_x = (p.xmin + p.xmax) / 2 → q.vortex_y = (p.ymin + p.ymax) / 2 →
    ∀ s', serialMain F M e file (.finished s') → ∀ o ∈ s'.outputs, HalfTurn2 p o := by
  intro c p hs hr ho hM hbx hby q hq hu hv h1 h2 s' h
  refine halfTurn_of hid hs hr ho hM hbx hby (fun r hr => by rw [hq] at hr; cases hr) (fun x y n n' => ?_) h
  rw [hq]
  refine ⟨_, _, rfl, rfl, ?_⟩
  have ex : p.xmin + p.xmax - x - q.vortex_x = -(x - q.vortex_x) := by rw [h1]; ring
  have ey : p.ymin + p.ymax - y - q.vortex_y = -(y - q.vortex_y) := by rw [h2]; ring
  simp only [vortex2]
  rw [ex, ey]
  simp only [hu, hv, flipV, mirror, neg_mul_neg, zero_add]
  congr 1 <;> ring

/-- **C99 (Rayleigh-Taylor).** The field of gravity along y, an interval in x for which the perturbation is symmetric (such
as one starting at 0, or symmetric about 0), opposite sides in x alike: left and right stay mirror images. -/
theorem C99_rayleigh_taylor (F : FloatLib ℝ) {M : MathLib ℝ} (hX : ExactMath M) (e : Env ℝ) (hid : e.ident ≤ 0) (file : Option (List Char)) :
    let c := Ini.broadcastSerial file
    let p := hydroParams F c
    Sets c "run" "solver_name" "Hydro_Muscl_2D" → cfgBool c "run" "restart_enabled" false = false → Ordinary2 p →
    MirrorSolver p → p.boundary_type_xmin = p.boundary_type_xmax →
    p.xmin = 0 ∨ p.xmin + p.xmax = 0 →
    ∀ q, hydroProblem2 F M c e.ju = .rayleighTaylor q → q.gx = 0 →
    ∀ s', serialMain F M e file (.finished s') → ∀ o ∈ s'.outputs, LeftRight2 p o := by
  intro c p hs hr ho hM hb hx q hq hg s' h
  refine leftRight_of hid hs hr ho hM hb (fun r hr => by rw [hq] at hr; cases hr; exact hg) (fun x y n n' => ?_) h
  rw [hq]
  refine ⟨_, _, rfl, rfl, ?_⟩
  have hL : p.xmin < p.xmax := ho.x
  have hcos : Real.cos (2 * Real.pi * (p.xmin + p.xmax - x) / (p.xmax - p.xmin)) =
      Real.cos (2 * Real.pi * x / (p.xmax - p.xmin)) := by
    rcases hx with h0 | h0
    · have hne : p.xmax ≠ 0 := by rw [h0] at hL; exact hL.ne'
      rw [h0, show 2 * Real.pi * (0 + p.xmax - x) / (p.xmax - 0) = 2 * Real.pi - 2 * Real.pi * x / (p.xmax - 0) by
        rw [sub_zero]; field_simp; ring]
      rw [Real.cos_two_pi_sub]
    · rw [h0, show 2 * Real.pi * (0 - x) / (p.xmax - p.xmin) = -(2 * Real.pi * x / (p.xmax - p.xmin)) by ring,
        Real.cos_neg]
  simp only [rayleigh2, hg, zero_mul, mirror, hX.cos, hX.pi, RealOps.lit_real]
  simp only [Rat.cast_ofNat, Rat.cast_one]
  rw [hcos]
  simp
  rfl

/-! ### The hypotheses are met -/

/-- a blast wave in the middle of the unit square with reflecting walls -/
def blastIni : List String :=
  ["[run]", "solver_name=Hydro_Muscl_2D", "tEnd=0.2", "nStepmax=200", "nOutput=4", "",
   "[mesh]", "nx=64", "ny=64", "",
   "[hydro]", "problem=blast", "riemann=hllc", ""]

def blastCfg : Ini.Reader := Ini.broadcastSerial (some (textOf blastIni))

def blastCfg' : Ini.Reader :=
  let st := Ini.parseLines Ini.valueHandler (blastIni.map fun l => l.toList ++ ['\n'])
    (Ini.initState fun _ => none)
  ⟨st.user, st.error⟩

theorem blastCfg_eq : blastCfg = blastCfg' := by
  unfold blastCfg blastCfg' Ini.broadcastSerial Ini.Reader.ofFile Ini.iniParse
  simp only
  rw [fgetsLines_textOf (by decide +kernel)]

theorem blast_values : let c := blastCfg
    let s := fun (a b : String) => ratOf (Ini.cstr (c.getString a.toList b.toList []))
    c.getString "run".toList "solver_name".toList "unknown".toList = "Hydro_Muscl_2D".toList ∧
    (s "mesh" "xmin" = none ∧ s "mesh" "xmax" = none ∧ s "mesh" "ymin" = none ∧ s "mesh" "ymax" = none ∧
      s "mesh" "zmin" = none ∧ s "mesh" "zmax" = none) ∧
    (s "hydro" "slope_type" = none ∧ s "hydro" "gamma0" = none ∧ s "hydro" "cfl" = none ∧ s "hydro" "smallr" = none ∧
      s "hydro" "smallc" = none) ∧
    (cfgInt c "mesh" "nx" 1 = 64 ∧ cfgInt c "mesh" "ny" 1 = 64 ∧ cfgInt c "mesh" "nz" 1 = 1 ∧
      cfgInt c "run" "nlog" 10 = 10) ∧
    riemannOf (cfgString c "hydro" "riemann" "approx") = .hllc ∧
    cfgBool c "run" "restart_enabled" false = false ∧ problemName c = "blast".toList ∧
    (s "blast" "center_x" = none ∧ s "blast" "center_y" = none ∧ s "blast" "radius" = none) ∧
    (cfgInt c "mesh" "boundary_type_xmin" 1 = 1 ∧ cfgInt c "mesh" "boundary_type_xmax" 1 = 1 ∧
    cfgInt c "mesh" "boundary_type_ymin" 1 = 1 ∧ cfgInt c "mesh" "boundary_type_ymax" 1 = 1) := by
  rw [blastCfg_eq]
  decide +kernel

theorem exact_floatD_default {c : Ini.Reader} {s n : String} {d : ℝ}
    (h : ratOf (Ini.cstr (c.getString s.toList n.toList [])) = none) :
    cfgFloatD exactLib exactMath c s n d = d := by
  unfold cfgFloatD Ini.Reader.getFloat exactLib
  simp [h, exactMath]

theorem blast_ordinary : Ordinary2 (hydroParams exactLib blastCfg) := by
  obtain ⟨sn, ⟨f1, f2, f3, f4, f5, f6⟩, ⟨f7, f8, f9, f10, f11⟩, ⟨n1, n2, n3, nl⟩, hr, -⟩ := blast_values
  exact
    { x := by
        show cfgFloat exactLib blastCfg "mesh" "xmin" 0 < cfgFloat exactLib blastCfg "mesh" "xmax" 1
        rw [exact_float_default f1, exact_float_default f2]; norm_num
      y := by
        show cfgFloat exactLib blastCfg "mesh" "ymin" 0 < cfgFloat exactLib blastCfg "mesh" "ymax" 1
        rw [exact_float_default f3, exact_float_default f4]; norm_num
      z := by
        show cfgFloat exactLib blastCfg "mesh" "zmin" 0 < cfgFloat exactLib blastCfg "mesh" "zmax" 1
        rw [exact_float_default f5, exact_float_default f6]; norm_num
      gamma := by
        show 1 < cfgFloat exactLib blastCfg "hydro" "gamma0" (14 / 10)
        rw [exact_float_default f8]; norm_num
      smallr := by
        show 0 < cfgFloat exactLib blastCfg "hydro" "smallr" (1 / 10000000000)
        rw [exact_float_default f10]; norm_num
      smallc := by
        show 0 < cfgFloat exactLib blastCfg "hydro" "smallc" (1 / 10000000000)
        rw [exact_float_default f11]; norm_num
      cfl := by
        show 0 < cfgFloat exactLib blastCfg "hydro" "cfl" (5 / 10)
        rw [exact_float_default f9]; norm_num
      nlog := by
        show cfgInt blastCfg "run" "nlog" 10 ≠ 0
        rw [nl]; decide
      nx := by
        show 2 ≤ cfgInt blastCfg "mesh" "nx" 1
        rw [n1]; decide
      ny := by
        show 2 ≤ cfgInt blastCfg "mesh" "ny" 1
        rw [n2]; decide
      nz := by
        show 1 ≤ cfgInt blastCfg "mesh" "nz" 1
        rw [n3]
      slope := by
        show cfgFloat exactLib blastCfg "hydro" "slope_type" 1 = 0 ∨
          cfgFloat exactLib blastCfg "hydro" "slope_type" 1 = 1 ∨
          cfgFloat exactLib blastCfg "hydro" "slope_type" 1 = 2
        rw [exact_float_default f7]; norm_num
      riemann := by
        show riemannOf (cfgString blastCfg "hydro" "riemann" "approx") ≠ .hlld
        rw [hr]; decide }

/-- every execution of the program on this file writes files that are symmetric about the diagonal and mirror images of
themselves in x and in y, and there are such executions -/
theorem blast_symmetric (e : Env ℝ) (hid : e.ident ≤ 0) :
    let p := hydroParams exactLib blastCfg
    (∃ s', serialMain exactLib exactMath e (some (textOf blastIni)) (.finished s')) ∧
    ∀ s', serialMain exactLib exactMath e (some (textOf blastIni)) (.finished s') →
      ∀ o ∈ s'.outputs, Diagonal2 p o ∧ LeftRight2 p o ∧ UpDown2 p o := by
  intro p
  obtain ⟨sn, ⟨f1, f2, f3, f4, f5, f6⟩, -, ⟨n1, n2, -⟩, hr, rs, pn, ⟨c1, c2, c3⟩, b1, b2, b3, b4⟩ := blast_values
  have hs : Sets blastCfg "run" "solver_name" "Hydro_Muscl_2D" := sets_of sn (by decide)
  have hq : ∀ ju, hydroProblem2 exactLib exactMath blastCfg ju = .blast (blastParams exactLib exactMath blastCfg ju) := by
    intro ju
    unfold hydroProblem2
    rw [pn]
    rfl
  have x0 : p.xmin = 0 := (exact_float_default f1).trans (by norm_num)
  have x1 : p.xmax = 1 := (exact_float_default f2).trans (by norm_num)
  have y0 : p.ymin = 0 := (exact_float_default f3).trans (by norm_num)
  have y1 : p.ymax = 1 := (exact_float_default f4).trans (by norm_num)
  have q1 : p.boundary_type_xmin = .dirichlet := congrArg BC.ofInt b1
  have q2 : p.boundary_type_xmax = .dirichlet := congrArg BC.ofInt b2
  have q3 : p.boundary_type_ymin = .dirichlet := congrArg BC.ofInt b3
  have q4 : p.boundary_type_ymax = .dirichlet := congrArg BC.ofInt b4
  have hsq : Square p := ⟨n1.trans n2.symm, x0.trans y0.symm, x1.trans y1.symm, q1.trans q3.symm, q2.trans q4.symm⟩
  have hM : MirrorSolver p := Or.inr (Or.inr hr)
  have k1 : ∀ ju, (blastParams exactLib exactMath blastCfg ju).center_x = (p.xmin + p.xmax) / 2 := by
    intro ju
    show cfgFloatD exactLib exactMath blastCfg "blast" "center_x" ((p.xmin + p.xmax) / lit 2) = _
    rw [exact_floatD_default c1]
    simp only [RealOps.lit_real]
    norm_num
  have k2 : ∀ ju, (blastParams exactLib exactMath blastCfg ju).center_y = (p.ymin + p.ymax) / 2 := by
    intro ju
    show cfgFloatD exactLib exactMath blastCfg "blast" "center_y" ((p.ymin + p.ymax) / lit 2) = _
    rw [exact_floatD_default c2]
    simp only [RealOps.lit_real]
    norm_num
  constructor
  · have hrad : Faithful2 (hydroProblem2 exactLib exactMath blastCfg (0, 0)) := by
      rw [hq]
      show 0 ≤ cfgFloatD exactLib exactMath blastCfg "blast" "radius" ((p.xmin + p.xmax) / lit 2 / lit 10)
      rw [exact_floatD_default c3, x0, x1]
      simp only [RealOps.lit_real]
      norm_num
    obtain ⟨n, -, h⟩ := C79_hydro_2d exactLib exactMath_exact (file := some (textOf blastIni)) hs rs blast_ordinary hrad
      (by rw [show hydroProblem2 exactLib exactMath (Ini.broadcastSerial (some (textOf blastIni))) (0, 0) = _ from hq _]; trivial)
      (by rw [show hydroProblem2 exactLib exactMath (Ini.broadcastSerial (some (textOf blastIni))) (0, 0) = _ from hq _]; trivial)
    obtain ⟨⟨o, ho⟩, h⟩ := h e hid trivial
    obtain ⟨s', rfl, -⟩ := h _ ho
    exact ⟨s', ho⟩
  · intro s' h o hm
    exact ⟨C99_blast_diagonal exactLib exactMath e hid _ hs rs blast_ordinary hsq _ (hq _)
        (by rw [k1, k2, x0, x1, y0, y1]) s' h o hm,
      C99_blast_left_right exactLib exactMath e hid _ hs rs blast_ordinary hM (q1.trans q2.symm) _ (hq _) (k1 _) s' h o hm,
      C99_blast_up_down exactLib exactMath e hid _ hs rs blast_ordinary hM (q3.trans q4.symm) _ (hq _) (k2 _) s' h o hm⟩

end EulerKokkos
