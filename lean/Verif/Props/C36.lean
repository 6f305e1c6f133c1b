import Verif.Model.Config
import Verif.Props.C33
import Verif.Props.C15
import Verif.Props.C11

/-!
# C36 — the parameters derived from a configuration
-/

set_option linter.unusedSimpArgs false

namespace EulerKokkos
open Spec

variable {R : Type} [RealOps R]

namespace Spec
/-- the solvers: name, number of variables, ghost width, dimension, magnetic -/
def solverTable : List (String × Nat × Int × Dim × Bool) :=
  [("Hydro_Muscl_2D", 4, 2, .two, false), ("Hydro_Muscl_3D", 5, 2, .three, false),
   ("MHD_Muscl_2D", 8, 3, .two, true), ("MHD_Muscl_3D", 8, 3, .three, true)]

/-- the Riemann solvers -/
def riemannTable : List (String × RiemannType) :=
  [("approx", .approx), ("llf", .llf), ("hll", .hll), ("hllc", .hllc), ("hlld", .hlld)]

/-- the integers of a 32-bit `int` -/
def IntRange (k : Int) : Prop := -2 ^ 31 ≤ k ∧ k < 2 ^ 31
end Spec

/-- **C36 (grid sizes)**: for every configuration, the padded sizes are the number of cells plus two
ghost layers, the last index is one less, the first is 0. -/
theorem C36_grid_sizes (F : FloatLib R) (c : Ini.Reader) (T : Topo) :
    ∀ p ∈ [hydroParams F c, hydroParamsMpi T F c],
      p.isize = p.nx + 2 * p.ghostWidth ∧ p.jsize = p.ny + 2 * p.ghostWidth ∧
      p.ksize = p.nz + 2 * p.ghostWidth ∧
      p.imin = 0 ∧ p.jmin = 0 ∧ p.kmin = 0 ∧
      p.imax = p.isize - 1 ∧ p.jmax = p.jsize - 1 ∧ p.kmax = p.ksize - 1 := by
  have key : ∀ q : Params R, q.init.isize = q.init.nx + 2 * q.init.ghostWidth ∧
      q.init.jsize = q.init.ny + 2 * q.init.ghostWidth ∧
      q.init.ksize = q.init.nz + 2 * q.init.ghostWidth ∧
      q.init.imin = 0 ∧ q.init.jmin = 0 ∧ q.init.kmin = 0 ∧
      q.init.imax = q.init.isize - 1 ∧ q.init.jmax = q.init.jsize - 1 ∧
      q.init.kmax = q.init.ksize - 1 := by
    intro q
    simp only [Params.init, true_and]
    omega
  intro p hp
  simp only [List.mem_cons, List.not_mem_nil, or_false] at hp
  rcases hp with rfl | rfl
  · exact key _
  · exact key (rawParams (lit 0) F c)

/-- **C36 (cell size)**: exact arithmetic; cells fill the box.  In the MPI build `nx` counts the cells of
one process, and the `mx` processes along the axis share the box. -/
theorem C36_cell_size (F : FloatLib ℝ) (c : Ini.Reader) (T : Topo) :
    let p := hydroParams F c
    let q := hydroParamsMpi T F c
    (p.nx ≠ 0 → p.dx * p.nx = p.xmax - p.xmin ∧ q.dx * (q.nx * T.mx) = q.xmax - q.xmin) ∧
    (p.ny ≠ 0 → p.dy * p.ny = p.ymax - p.ymin ∧ q.dy * (q.ny * T.my) = q.ymax - q.ymin) ∧
    (p.nz ≠ 0 → p.dz * p.nz = p.zmax - p.zmin ∧ q.dz * (q.nz * T.mz) = q.zmax - q.zmin) := by
  have hx : (T.mx : ℝ) ≠ 0 := Nat.cast_ne_zero.2 (by have := T.hx; omega)
  have hy : (T.my : ℝ) ≠ 0 := Nat.cast_ne_zero.2 (by have := T.hy; omega)
  have hz : (T.mz : ℝ) ≠ 0 := Nat.cast_ne_zero.2 (by have := T.hz; omega)
  have key : ∀ (a b : ℝ) (n : Int) (m : Nat), n ≠ 0 → (m : ℝ) ≠ 0 →
      (a - b) / ((n : ℚ) : ℝ) * (n : ℝ) = a - b ∧
      (a - b) / (((n * (m : Int) : Int) : ℚ) : ℝ) * (n * (m : ℝ)) = a - b := by
    intro a b n m hn hm
    have hn' : (n : ℝ) ≠ 0 := Int.cast_ne_zero.2 hn
    push_cast
    exact ⟨by field_simp, by field_simp⟩
  simp only [hydroParams, hydroParamsMpi, localParams, setupMpi, Params.init, intLit, RealOps.lit_real]
  exact ⟨fun h => key _ _ _ _ h hx, fun h => key _ _ _ _ h hy, fun h => key _ _ _ _ h hz⟩

/-- **C36 (solvers)**: the table of solvers, for every configuration naming one of them. -/
theorem C36_solver_table (F : FloatLib R) (c : Ini.Reader) {name : String} {nbvar : Nat} {gw : Int}
    {dim : Dim} {mhd : Bool} (h : (name, nbvar, gw, dim, mhd) ∈ solverTable)
    (hc : c.getString "run".toList "solver_name".toList "unknown".toList = name.toList) :
    let p := hydroParams F c
    p.nbvar = nbvar ∧ p.ghostWidth = gw ∧ p.dimType = dim ∧ p.mhdEnabled = mhd := by
  simp only [solverTable, List.mem_cons, Prod.mk.injEq, List.not_mem_nil, or_false] at h
  have e : (hydroParams F c).nbvar = (solverShape name.toList).1 ∧
      (hydroParams F c).ghostWidth = (solverShape name.toList).2.1 ∧
      (hydroParams F c).mhdEnabled = (solverShape name.toList).2.2 := by
    rw [← hc]; exact ⟨rfl, rfl, rfl⟩
  have d : (hydroParams F c).dimType = getDim c := rfl
  unfold getDim cfgString at d
  rw [hc] at d
  intro p
  show (hydroParams F c).nbvar = _ ∧ (hydroParams F c).ghostWidth = _ ∧
    (hydroParams F c).dimType = _ ∧ (hydroParams F c).mhdEnabled = _
  rw [e.1, e.2.1, e.2.2, d]
  clear hc e d
  rcases h with ⟨rfl, rfl, rfl, rfl, rfl⟩ | ⟨rfl, rfl, rfl, rfl, rfl⟩ | ⟨rfl, rfl, rfl, rfl, rfl⟩ |
    ⟨rfl, rfl, rfl, rfl, rfl⟩ <;> decide

/-- Any other name, or none, is the 2D hydrodynamic solver. -/
theorem C36_unknown_solver (F : FloatLib R) (c : Ini.Reader)
    (hc : ∀ e ∈ solverTable,
      c.getString "run".toList "solver_name".toList "unknown".toList ≠ e.1.toList) :
    let p := hydroParams F c
    p.nbvar = 4 ∧ p.ghostWidth = 2 ∧ p.dimType = .two ∧ p.mhdEnabled = false := by
  generalize hn : c.getString "run".toList "solver_name".toList "unknown".toList = name at hc
  have e : (hydroParams F c).nbvar = (solverShape name).1 ∧
      (hydroParams F c).ghostWidth = (solverShape name).2.1 ∧
      (hydroParams F c).mhdEnabled = (solverShape name).2.2 := by
    rw [← hn]; exact ⟨rfl, rfl, rfl⟩
  have d : (hydroParams F c).dimType = getDim c := rfl
  unfold getDim cfgString at d
  rw [hn] at d
  intro p
  show (hydroParams F c).nbvar = _ ∧ (hydroParams F c).ghostWidth = _ ∧
    (hydroParams F c).dimType = _ ∧ (hydroParams F c).mhdEnabled = _
  rw [e.1, e.2.1, e.2.2, d]
  simp only [solverTable, List.mem_cons, List.not_mem_nil, or_false, forall_eq_or_imp,
    forall_eq] at hc
  obtain ⟨h1, h2, h3, h4⟩ := hc
  simp only [solverShape, h1, h2, h3, h4, if_false, or_self, and_self]

/-- **C36 (Riemann solvers)**: each name selects its solver; any other name selects `approx`. -/
theorem C36_riemann (F : FloatLib R) (c : Ini.Reader) :
    let s := c.getString "hydro".toList "riemann".toList "approx".toList
    (∀ e ∈ riemannTable, s = e.1.toList → (hydroParams F c).riemannSolverType = e.2) ∧
    ((∀ e ∈ riemannTable, s ≠ e.1.toList) → (hydroParams F c).riemannSolverType = .approx) := by
  intro s
  have e : (hydroParams F c).riemannSolverType = riemannOf s := rfl
  rw [e]
  clear_value s
  simp only [riemannTable, List.mem_cons, List.not_mem_nil, or_false, forall_eq_or_imp, forall_eq]
  refine ⟨⟨?_, ?_, ?_, ?_, ?_⟩, ?_⟩
  · rintro rfl; decide
  · rintro rfl; decide
  · rintro rfl; decide
  · rintro rfl; decide
  · rintro rfl; decide
  · rintro ⟨h1, h2, h3, h4, h5⟩
    simp only [riemannOf, h1, h2, h3, h4, h5, if_false]

/-- **C36 (implementation version)**: 0, 1 or 2 is kept (after the conversion of a `float` to `int`),
anything else becomes 0. -/
theorem C36_version (F : FloatLib R) (c : Ini.Reader) :
    let v := F.trunc (c.getFloat F.strtof "OTHER".toList "implementationVersion".toList (F.single 0))
    let w := (hydroParams F c).implementationVersion
    (w = 0 ∨ w = 1 ∨ w = 2) ∧ (v = 0 ∨ v = 1 ∨ v = 2 → w = v) ∧
    (¬ (v = 0 ∨ v = 1 ∨ v = 2) → w = 0) := by
  intro v w
  have e : w = versionOf v := rfl
  rw [e]
  clear_value v
  unfold versionOf
  split <;> omega

/-- **C36 (output flag)**: outputs are written unless `nOutput` is 0. -/
theorem C36_output_flag (F : FloatLib R) (c : Ini.Reader) :
    (hydroParams F c).enableOutput = decide ((hydroParams F c).nOutput ≠ 0) := by
  have e : (hydroParams F c).enableOutput =
      if (hydroParams F c).nOutput = 0 then false else true := rfl
  rw [e]
  split <;> simp [*]

theorem toInt32_eq {k : Int} (h : IntRange k) : toInt32 k = k := by
  unfold IntRange at h
  unfold toInt32
  omega

/-- **C36 (integers)**: an `int` written in decimal in the configuration is the value of the
parameter. -/
theorem C36_integers (F : FloatLib R) (c : Ini.Reader) {k : Int} (hk : IntRange k) :
    let p := hydroParams F c
    let written := fun (s n : String) => c.getString s.toList n.toList [] = Ini.decimalInt k
    (written "mesh" "nx" → p.nx = k) ∧ (written "mesh" "ny" → p.ny = k) ∧ (written "mesh" "nz" → p.nz = k) ∧
    (written "run" "nstepmax" → p.nStepmax = k) ∧ (written "run" "noutput" → p.nOutput = k) ∧
    (written "run" "nlog" → p.nlog = k) ∧
    (written "mesh" "boundary_type_xmin" → p.boundary_type_xmin = BC.ofInt k) ∧
    (written "mesh" "boundary_type_xmax" → p.boundary_type_xmax = BC.ofInt k) ∧
    (written "mesh" "boundary_type_ymin" → p.boundary_type_ymin = BC.ofInt k) ∧
    (written "mesh" "boundary_type_ymax" → p.boundary_type_ymax = BC.ofInt k) ∧
    (written "mesh" "boundary_type_zmin" → p.boundary_type_zmin = BC.ofInt k) ∧
    (written "mesh" "boundary_type_zmax" → p.boundary_type_zmax = BC.ofInt k) := by
  have key : ∀ (s n : String) d, c.getString s.toList n.toList [] = Ini.decimalInt k →
      cfgInt c s n d = k := by
    intro s n d h
    unfold cfgInt Ini.Reader.getInteger
    have h1 : -2 ^ 31 ≤ k := hk.1
    have h2 : k < 2 ^ 31 := hk.2
    rw [h, Ini.strtol_decimalInt (by unfold Ini.longMin; omega) (by unfold Ini.longMax; omega)]
    exact toInt32_eq hk
  refine ⟨fun h => key _ _ _ h, fun h => key _ _ _ h, fun h => key _ _ _ h, fun h => key _ _ _ h,
    fun h => key _ _ _ h, fun h => key _ _ _ h, ?_, ?_, ?_, ?_, ?_, ?_⟩ <;> intro h
  all_goals exact congrArg BC.ofInt (key _ _ _ h)

/-- **C36 (defaults)**: the parameters of an empty configuration. -/
theorem C36_defaults (F : FloatLib R) {c : Ini.Reader} (hc : ∀ s n d, c.getString s n d = d)
    (hF : F.strtof [] = none) :
    let p := hydroParams F c
    p.nStepmax = 1000 ∧ p.nOutput = 100 ∧ p.nlog = 10 ∧ p.nx = 1 ∧ p.ny = 1 ∧ p.nz = 1 ∧
    p.tEnd = F.single 0 ∧ p.xmin = F.single 0 ∧ p.xmax = F.single 1 ∧
    p.ymin = F.single 0 ∧ p.ymax = F.single 1 ∧ p.zmin = F.single 0 ∧ p.zmax = F.single 1 ∧
    p.boundary_type_xmin = .dirichlet ∧ p.boundary_type_xmax = .dirichlet ∧
    p.boundary_type_ymin = .dirichlet ∧ p.boundary_type_ymax = .dirichlet ∧
    p.boundary_type_zmin = .dirichlet ∧ p.boundary_type_zmax = .dirichlet ∧
    p.settings.gamma0 = F.single 1.4 ∧ p.settings.cfl = F.single 0.5 ∧
    p.settings.slope_type = F.single 1 ∧ p.settings.smallr = F.single 1e-10 ∧
    p.settings.smallc = F.single 1e-10 ∧ p.riemannSolverType = .approx := by
  have hi : ∀ s n d, c.getInteger s n d = d := by
    intro s n d
    unfold Ini.Reader.getInteger
    rw [hc]; rfl
  have hf : ∀ s n d, c.getFloat F.strtof s n d = d := by
    intro s n d
    unfold Ini.Reader.getFloat
    rw [hc]
    show (F.strtof (Ini.cstr [])).getD d = d
    have : Ini.cstr [] = [] := rfl
    rw [this, hF]; rfl
  have ki : ∀ s n d, cfgInt c s n d = toInt32 d := fun s n d => congrArg toInt32 (hi _ _ _)
  have kf : ∀ s n d, cfgFloat F c s n d = F.single d := fun s n d => hf _ _ _
  have kb : ∀ s n, BC.ofInt (cfgInt c s n 1) = .dirichlet := fun s n => by rw [ki]; decide
  refine ⟨ki _ _ _, ki _ _ _, ki _ _ _, ki _ _ _, ki _ _ _, ki _ _ _, kf _ _ _, kf _ _ _, kf _ _ _,
    kf _ _ _, kf _ _ _, kf _ _ _, kf _ _ _, kb _ _, kb _ _, kb _ _, kb _ _, kb _ _, kb _ _,
    (kf _ _ _).trans ?_, (kf _ _ _).trans ?_, kf _ _ _, (kf _ _ _).trans ?_, (kf _ _ _).trans ?_, ?_⟩
  · congr 1; norm_num
  · congr 1; norm_num
  · congr 1; norm_num
  · congr 1; norm_num
  · show riemannOf (c.getString _ _ _) = _
    rw [hc]; decide

/-- **C36 (a run can be based on it)**: a configuration naming the 2D hydro solver, with at least two cells per
axis, a non-empty box, a slope type 0, 1 or 2, and not `hlld`, gives parameters that meet the hypotheses of
the theorems about runs (C15, C22, …): no further condition on the file is needed. -/
theorem C36_runnable_2d (F : FloatLib ℝ) (c : Ini.Reader)
    (hs : c.getString "run".toList "solver_name".toList "unknown".toList = "Hydro_Muscl_2D".toList) :
    let p := hydroParams F c
    2 ≤ p.nx → 2 ≤ p.ny → 1 ≤ p.nz → p.xmin < p.xmax → p.ymin < p.ymax → p.zmin < p.zmax →
    (p.settings.slope_type = 0 ∨ p.settings.slope_type = 1 ∨ p.settings.slope_type = 2) →
    p.riemannSolverType ≠ .hlld →
    1 < p.settings.gamma0 → 0 < p.settings.smallr → 0 < p.settings.smallc → 0 < p.settings.cfl →
    Hydro2 p ∧ GoodGrid p ∧ p.enableOutput = decide (p.nOutput ≠ 0) ∧
    (p.implementationVersion = 0 ∨ p.implementationVersion = 1 ∨ p.implementationVersion = 2) := by
  intro p hx hy hz bx hby bz hsl hr hg h1 h2 h3
  obtain ⟨e1, e2, -, -⟩ := C36_solver_table F c (List.mem_cons_self ..) hs
  have e1 : p.nbvar = 4 := e1
  have e2 : p.ghostWidth = 2 := e2
  have wf : p.WF := Params.init_wf _ (show 1 ≤ p.nx by omega) (show 1 ≤ p.ny by omega) hz
    (show 2 ≤ p.ghostWidth by omega)
  refine ⟨⟨wf, e1, ⟨?_, hr⟩, ?_⟩, ⟨goodSettings_init hg h1 h2, h3, ?_, ?_, ?_⟩, C36_output_flag F c,
    (C36_version F c).1⟩
  · simpa using hsl
  · unfold Faces2Ok BCok
    rw [e2]
    exact ⟨Or.inr hx, Or.inr hx, Or.inr hy, Or.inr hy⟩
  all_goals
    simp only [p, hydroParams, Params.init, intLit, RealOps.lit_real] at hx hy hz bx hby bz ⊢
    refine div_pos (sub_pos.2 ‹_›) ?_
    have : ∀ n : Int, 0 < n → (0 : ℝ) < ((n : ℚ) : ℝ) := fun n h => by exact_mod_cast h
    exact this _ (by omega)

/-- the same in 3D, where `hll` is excluded too -/
theorem C36_runnable_3d (F : FloatLib ℝ) (c : Ini.Reader)
    (hs : c.getString "run".toList "solver_name".toList "unknown".toList = "Hydro_Muscl_3D".toList) :
    let p := hydroParams F c
    2 ≤ p.nx → 2 ≤ p.ny → 2 ≤ p.nz → p.xmin < p.xmax → p.ymin < p.ymax → p.zmin < p.zmax →
    (p.settings.slope_type = 0 ∨ p.settings.slope_type = 1 ∨ p.settings.slope_type = 2) →
    p.riemannSolverType ≠ .hll ∧ p.riemannSolverType ≠ .hlld →
    1 < p.settings.gamma0 → 0 < p.settings.smallr → 0 < p.settings.smallc → 0 < p.settings.cfl →
    Hydro3 p ∧ GoodGrid p ∧ p.enableOutput = decide (p.nOutput ≠ 0) ∧
    (p.implementationVersion = 0 ∨ p.implementationVersion = 1 ∨ p.implementationVersion = 2) := by
  intro p hx hy hz bx hby bz hsl hr hg h1 h2 h3
  obtain ⟨e1, e2, -, -⟩ := C36_solver_table F c (List.mem_cons_of_mem _ (List.mem_cons_self ..)) hs
  have e1 : p.nbvar = 5 := e1
  have e2 : p.ghostWidth = 2 := e2
  have wf : p.WF := Params.init_wf _ (show 1 ≤ p.nx by omega) (show 1 ≤ p.ny by omega)
    (show 1 ≤ p.nz by omega) (show 2 ≤ p.ghostWidth by omega)
  refine ⟨⟨wf, e1, ⟨?_, hr⟩, ?_⟩, ⟨goodSettings_init hg h1 h2, h3, ?_, ?_, ?_⟩, C36_output_flag F c,
    (C36_version F c).1⟩
  · simpa using hsl
  · unfold Faces3Ok Faces2Ok BCok
    rw [e2]
    exact ⟨⟨Or.inr hx, Or.inr hx, Or.inr hy, Or.inr hy⟩, Or.inr hz, Or.inr hz⟩
  all_goals
    simp only [p, hydroParams, Params.init, intLit, RealOps.lit_real] at hx hy hz bx hby bz ⊢
    refine div_pos (sub_pos.2 ‹_›) ?_
    have : ∀ n : Int, 0 < n → (0 : ℝ) < ((n : ℚ) : ℝ) := fun n h => by exact_mod_cast h
    exact this _ (by omega)

/-! ## A shipped configuration -/

/-- the lines of `/repo/settings/test_implode_2D.ini` -/
def implodeIni : List String :=
  ["[run]",
   "solver_name=Hydro_Muscl_2D",
   "tEnd=0.025",
   "nStepmax=100",
   "nOutput=10",
   "",
   "[mesh]",
   "nx=1024",
   "ny=512",
   "",
   "xmin=0.0",
   "xmax=2.0",
   "",
   "ymin=0.0",
   "ymax=1.0",
   "",
   "boundary_type_xmin=1",
   "boundary_type_xmax=1",
   "boundary_type_ymin=1",
   "boundary_type_ymax=1",
   "",
   "[hydro]",
   "gamma0=1.666",
   "cfl=0.8",
   "niter_riemann=10",
   "iorder=2",
   "slope_type=2",
   "problem=implode",
   "riemann=hllc",
   "#riemann=approx",
   "",
   "[output]",
   "outputDir=./",
   "outputPrefix=test_implode_2D",
   "outputVtkAscii=false",
   "vtk_enabled=yes",
   "hdf5_enabled=no",
   "",
   "[other]",
   "implementationVersion=0"]

/-- the text of a file with the given lines -/
def textOf (ls : List String) : List Char := ls.flatMap fun l => l.toList ++ ['\n']

theorem fgetsLines_textOf {ls : List String} (h : ∀ l ∈ ls, '\n' ∉ l.toList ∧ l.toList.length ≤ 198) :
    Ini.fgetsLines (textOf ls) = ls.map fun l => l.toList ++ ['\n'] := by
  induction ls with
  | nil => exact Ini.fgetsLines_nil
  | cons l ls ih =>
    have : textOf (l :: ls) = l.toList ++ '\n' :: textOf ls := by simp [textOf]
    rw [this, Ini.fgetsLines_line (h l (by simp)).1 _ (h l (by simp)).2,
      ih fun l hl => h l (by simp [hl])]
    rfl

/-- an exact `strtof` for unsigned decimals -/
def ratOf (s : List Char) : Option ℚ :=
  let a := Ini.digits 10 0 0 s
  let s' := s.drop a.2
  if a.2 = 0 then none
  else match s' with
    | '.' :: f =>
      let b := Ini.digits 10 0 0 f
      some (a.1 + b.1 / 10 ^ b.2)
    | _ => some a.1

/-- exact reals as numbers of the configuration -/
noncomputable def exactLib : FloatLib ℝ where
  strtof s := (ratOf s).map fun q => (q : ℝ)
  single q := q
  trunc x := ⌊x⌋

theorem exact_float {c : Ini.Reader} {s n : String} {d q : ℚ}
    (h : ratOf (Ini.cstr (c.getString s.toList n.toList [])) = some q) :
    cfgFloat exactLib c s n d = q := by
  unfold cfgFloat Ini.Reader.getFloat exactLib
  simp [h]

theorem exact_float_default {c : Ini.Reader} {s n : String} {d : ℚ}
    (h : ratOf (Ini.cstr (c.getString s.toList n.toList [])) = none) :
    cfgFloat exactLib c s n d = d := by
  unfold cfgFloat Ini.Reader.getFloat exactLib
  simp [h]

theorem runnable_of {c : Ini.Reader} {x0 x1 y0 y1 z0 z1 sl g cfl r a : ℚ} {nx ny nz : Int}
    {rt : RiemannType}
    (sn : c.getString "run".toList "solver_name".toList "unknown".toList = "Hydro_Muscl_2D".toList)
    (f1 : cfgFloat exactLib c "mesh" "xmin" 0 = (x0 : ℝ))
    (f2 : cfgFloat exactLib c "mesh" "xmax" 1 = (x1 : ℝ))
    (f3 : cfgFloat exactLib c "mesh" "ymin" 0 = (y0 : ℝ))
    (f4 : cfgFloat exactLib c "mesh" "ymax" 1 = (y1 : ℝ))
    (f5 : cfgFloat exactLib c "mesh" "zmin" 0 = (z0 : ℝ))
    (f6 : cfgFloat exactLib c "mesh" "zmax" 1 = (z1 : ℝ))
    (f7 : cfgFloat exactLib c "hydro" "slope_type" 1 = (sl : ℝ))
    (f8 : cfgFloat exactLib c "hydro" "gamma0" (14 / 10) = (g : ℝ))
    (f9 : cfgFloat exactLib c "hydro" "cfl" (5 / 10) = (cfl : ℝ))
    (f10 : cfgFloat exactLib c "hydro" "smallr" (1 / 10000000000) = (r : ℝ))
    (f11 : cfgFloat exactLib c "hydro" "smallc" (1 / 10000000000) = (a : ℝ))
    (n1 : cfgInt c "mesh" "nx" 1 = nx) (n2 : cfgInt c "mesh" "ny" 1 = ny)
    (n3 : cfgInt c "mesh" "nz" 1 = nz)
    (hr : riemannOf (cfgString c "hydro" "riemann" "approx") = rt)
    (h : 2 ≤ nx ∧ 2 ≤ ny ∧ 1 ≤ nz ∧ x0 < x1 ∧ y0 < y1 ∧ z0 < z1 ∧ (sl = 0 ∨ sl = 1 ∨ sl = 2) ∧
      rt ≠ .hlld ∧ 1 < g ∧ 0 < r ∧ 0 < a ∧ 0 < cfl) :
    Hydro2 (hydroParams exactLib c) ∧ GoodGrid (hydroParams exactLib c) := by
  obtain ⟨a1, a2, a3, a4, a5, a6, a7, a8, a9, a10, a11, a12⟩ := h
  subst n1 n2 n3 hr
  obtain ⟨h1, h2, -⟩ := C36_runnable_2d exactLib c sn a1 a2 a3
    (show cfgFloat exactLib c "mesh" "xmin" 0 < cfgFloat exactLib c "mesh" "xmax" 1 by
      rw [f1, f2]; exact_mod_cast a4)
    (show cfgFloat exactLib c "mesh" "ymin" 0 < cfgFloat exactLib c "mesh" "ymax" 1 by
      rw [f3, f4]; exact_mod_cast a5)
    (show cfgFloat exactLib c "mesh" "zmin" 0 < cfgFloat exactLib c "mesh" "zmax" 1 by
      rw [f5, f6]; exact_mod_cast a6)
    (show cfgFloat exactLib c "hydro" "slope_type" 1 = 0 ∨ cfgFloat exactLib c "hydro" "slope_type" 1 = 1 ∨
      cfgFloat exactLib c "hydro" "slope_type" 1 = 2 by rw [f7]; exact_mod_cast a7)
    a8
    (show 1 < cfgFloat exactLib c "hydro" "gamma0" (14 / 10) by rw [f8]; exact_mod_cast a9)
    (show 0 < cfgFloat exactLib c "hydro" "smallr" (1 / 10000000000) by rw [f10]; exact_mod_cast a10)
    (show 0 < cfgFloat exactLib c "hydro" "smallc" (1 / 10000000000) by rw [f11]; exact_mod_cast a11)
    (show 0 < cfgFloat exactLib c "hydro" "cfl" (5 / 10) by rw [f9]; exact_mod_cast a12)
  exact ⟨h1, h2⟩

/-- the configuration read by the serial build -/
def implodeCfg : Ini.Reader := Ini.broadcastSerial (some (textOf implodeIni))

/-- the same, with the lines already separated -/
def implodeCfg' : Ini.Reader :=
  let st := Ini.parseLines Ini.valueHandler (implodeIni.map fun l => l.toList ++ ['\n'])
    (Ini.initState fun _ => none)
  ⟨st.user, st.error⟩

theorem implodeCfg_eq : implodeCfg = implodeCfg' := by
  unfold implodeCfg implodeCfg' Ini.broadcastSerial Ini.Reader.ofFile Ini.iniParse
  simp only
  rw [fgetsLines_textOf (by decide +kernel)]

theorem implode_values : let c := implodeCfg'
    let s := fun (a b : String) => ratOf (Ini.cstr (c.getString a.toList b.toList []))
    c.error = 0 ∧
    c.getString "run".toList "solver_name".toList "unknown".toList = "Hydro_Muscl_2D".toList ∧
    s "mesh" "xmin" = some 0 ∧ s "mesh" "xmax" = some 2 ∧
    s "mesh" "ymin" = some 0 ∧ s "mesh" "ymax" = some 1 ∧
    s "mesh" "zmin" = none ∧ s "mesh" "zmax" = none ∧
    s "hydro" "slope_type" = some 2 ∧ s "hydro" "gamma0" = some (1666 / 1000) ∧
    s "hydro" "cfl" = some (8 / 10) ∧ s "hydro" "smallr" = none ∧ s "hydro" "smallc" = none ∧
    cfgInt c "mesh" "nx" 1 = 1024 ∧ cfgInt c "mesh" "ny" 1 = 512 ∧ cfgInt c "mesh" "nz" 1 = 1 ∧
    riemannOf (cfgString c "hydro" "riemann" "approx") = .hllc := by
  decide +kernel

/-- The shipped `test_implode_2D.ini` parses without error to a 1024 × 512 grid, and meets the hypotheses
of `C36_runnable_2d`, hence of the theorems about runs. -/
theorem implode_runnable : implodeCfg.error = 0 ∧
    Hydro2 (hydroParams exactLib implodeCfg) ∧ GoodGrid (hydroParams exactLib implodeCfg) ∧
    (hydroParams exactLib implodeCfg).nx = 1024 ∧ (hydroParams exactLib implodeCfg).ny = 512 := by
  rw [implodeCfg_eq]
  have h := implode_values
  generalize implodeCfg' = c at h
  obtain ⟨h0, sn, f1, f2, f3, f4, f5, f6, f7, f8, f9, f10, f11, n1, n2, n3, hr⟩ := h
  obtain ⟨h1, h2⟩ := runnable_of sn (exact_float f1) (exact_float f2) (exact_float f3) (exact_float f4)
    (exact_float_default f5) (exact_float_default f6) (exact_float f7) (exact_float f8) (exact_float f9)
    (exact_float_default f10) (exact_float_default f11) n1 n2 n3 hr
    ⟨by decide, by decide, by decide, by norm_num, by norm_num, by norm_num, Or.inr (Or.inr rfl),
      by decide, by norm_num, by norm_num, by norm_num, by norm_num⟩
  exact ⟨h0, h1, h2, n1, n2⟩

end EulerKokkos
