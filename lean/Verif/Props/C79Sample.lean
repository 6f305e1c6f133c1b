import Verif.Props.C88Sample

/-!
# C79 — the shipped Orszag-Tang files
-/

set_option linter.constructorNameAsVariable false
set_option linter.unusedSectionVars false
set_option linter.unusedSimpArgs false

namespace EulerKokkos
open Spec

/-- an exact `strtof` for unsigned decimals with an exponent -/
def ratExp (s : List Char) : Option ℚ :=
  let a := Ini.digits 10 0 0 s
  if a.2 = 0 then none
  else
    let (m, r) : ℚ × List Char := match s.drop a.2 with
      | '.' :: f =>
        let b := Ini.digits 10 0 0 f
        (a.1 + b.1 / 10 ^ b.2, f.drop b.2)
      | r => (a.1, r)
    match r with
    | 'e' :: '-' :: x => some (m / 10 ^ (Ini.digits 10 0 0 x).1)
    | 'e' :: x => some (m * 10 ^ (Ini.digits 10 0 0 x).1)
    | _ => some m

/-- exact reals as numbers of the configuration -/
noncomputable def expLib : FloatLib ℝ where
  strtof s := (ratExp s).map fun q => (q : ℝ)
  single q := q
  trunc x := ⌊x⌋

theorem exp_float {c : Ini.Reader} {s n : String} {d q : ℚ}
    (h : ratExp (Ini.cstr (c.getString s.toList n.toList [])) = some q) : cfgFloat expLib c s n d = q := by
  unfold cfgFloat Ini.Reader.getFloat expLib
  simp [h]

theorem exp_float_default {c : Ini.Reader} {s n : String} {d : ℚ}
    (h : ratExp (Ini.cstr (c.getString s.toList n.toList [])) = none) : cfgFloat expLib c s n d = d := by
  unfold cfgFloat Ini.Reader.getFloat expLib
  simp [h]

/-- `/repo/settings/test_mhd_orszag_tang_2D.ini` -/
def orszag2Ini : List String :=
  ["[run]",
   "solver_name=MHD_Muscl_2D",
   "tEnd=1.0",
   "nStepmax=100",
   "nOutput=-1",
   "",
   "[mesh]",
   "nx=256",
   "ny=256",
   "boundary_type_xmin=3",
   "boundary_type_xmax=3",
   "boundary_type_ymin=3",
   "boundary_type_ymax=3",
   "",
   "[hydro]",
   "gamma0=1.666",
   "cfl=0.8",
   "niter_riemann=10",
   "iorder=2",
   "slope_type=2",
   "problem=orszag_tang",
   "riemann=hlld",
   "smallr=1e-7",
   "smallc=1e-7",
   "",
   "[output]",
   "outputPrefix=orszag_tang_2d",
   "outputVtkAscii=false",
   "",
   "[other]",
   "implementationVersion=0"]

/-- `/repo/settings/test_mhd_orszag_tang_3D.ini` -/
def orszag3Ini : List String :=
  ["[run]",
   "solver_name=MHD_Muscl_3D",
   "tend=10.0",
   "nstepmax=500",
   "noutput=50",
   "",
   "[mesh]",
   "nx=64",
   "ny=64",
   "nz=16",
   "xmax=1.0",
   "ymax=1.0",
   "zmax=0.25",
   "boundary_type_xmin=3",
   "boundary_type_xmax=3",
   "boundary_type_ymin=3",
   "boundary_type_ymax=3",
   "boundary_type_zmin=3",
   "boundary_type_zmax=3",
   "",
   "[hydro]",
   "gamma0=1.666",
   "cfl=0.8",
   "niter_riemann=10",
   "iorder=2",
   "slope_type=2",
   "problem=orszag_tang",
   "riemann=hlld",
   "smallr=1e-8",
   "smallc=1e-8",
   "",
   "[OrszagTang]",
   "vortex_dir=2",
   "",
   "[output]",
   "outputPrefix=orszag_tang_3d",
   "outputVtkAscii=false",
   "hdf5_enabled=yes",
   "",
   "[other]",
   "implementationVersion=0"]

theorem orszag2_values : let c := cfgOf orszag2Ini
    let s := fun (a b : String) => ratExp (Ini.cstr (c.getString a.toList b.toList []))
    c.getString "run".toList "solver_name".toList [] = "MHD_Muscl_2D".toList ∧
    s "mesh" "xmin" = none ∧ s "mesh" "xmax" = none ∧ s "mesh" "ymin" = none ∧ s "mesh" "ymax" = none ∧
    s "mesh" "zmin" = none ∧ s "mesh" "zmax" = none ∧ s "hydro" "slope_type" = some 2 ∧
    s "hydro" "gamma0" = some (1666 / 1000) ∧ s "hydro" "cfl" = some (8 / 10) ∧ s "hydro" "smallr" = some (1 / 10000000) ∧
    s "hydro" "smallc" = some (1 / 10000000) ∧
    cfgInt c "mesh" "nx" 1 = 256 ∧ cfgInt c "mesh" "ny" 1 = 256 ∧ cfgInt c "mesh" "nz" 1 = 1 ∧
    riemannOf (cfgString c "hydro" "riemann" "approx") = .hlld ∧ cfgInt c "run" "nlog" 10 = 10 ∧
    cfgBool c "run" "restart_enabled" false = false ∧ problemName c = "orszag_tang".toList := by
  rw [cfgOf_eq (by decide +kernel)]
  decide +kernel

theorem orszag2_ordinary : Sets (cfgOf orszag2Ini) "run" "solver_name" "MHD_Muscl_2D" ∧
    OrdinaryM2 (hydroParams expLib (cfgOf orszag2Ini)) := by
  obtain ⟨sn, f1, f2, f3, f4, f5, f6, f7, f8, f9, f10, f11, n1, n2, n3, hr, nl, -⟩ := orszag2_values
  refine ⟨sets_of sn (by decide), ?_⟩
  exact
    { x := by
        show cfgFloat expLib (cfgOf orszag2Ini) "mesh" "xmin" 0 < cfgFloat expLib (cfgOf orszag2Ini) "mesh" "xmax" 1
        rw [exp_float_default f1, exp_float_default f2]; norm_num
      y := by
        show cfgFloat expLib (cfgOf orszag2Ini) "mesh" "ymin" 0 < cfgFloat expLib (cfgOf orszag2Ini) "mesh" "ymax" 1
        rw [exp_float_default f3, exp_float_default f4]; norm_num
      z := by
        show cfgFloat expLib (cfgOf orszag2Ini) "mesh" "zmin" 0 < cfgFloat expLib (cfgOf orszag2Ini) "mesh" "zmax" 1
        rw [exp_float_default f5, exp_float_default f6]; norm_num
      gamma := by
        show 1 < cfgFloat expLib (cfgOf orszag2Ini) "hydro" "gamma0" (14 / 10)
        rw [exp_float f8]; norm_num
      smallr := by
        show 0 < cfgFloat expLib (cfgOf orszag2Ini) "hydro" "smallr" (1 / 10000000000)
        rw [exp_float f10]; norm_num
      smallc := by
        show 0 < cfgFloat expLib (cfgOf orszag2Ini) "hydro" "smallc" (1 / 10000000000)
        rw [exp_float f11]; norm_num
      cfl := by
        show 0 < cfgFloat expLib (cfgOf orszag2Ini) "hydro" "cfl" (5 / 10)
        rw [exp_float f9]; norm_num
      nlog := by
        show cfgInt (cfgOf orszag2Ini) "run" "nlog" 10 ≠ 0
        rw [nl]; decide
      nx := by
        show 3 ≤ cfgInt (cfgOf orszag2Ini) "mesh" "nx" 1
        rw [n1]; decide
      ny := by
        show 3 ≤ cfgInt (cfgOf orszag2Ini) "mesh" "ny" 1
        rw [n2]; decide
      nz := by
        show 1 ≤ cfgInt (cfgOf orszag2Ini) "mesh" "nz" 1
        rw [n3]
      slope := by
        show cfgFloat expLib (cfgOf orszag2Ini) "hydro" "slope_type" 1 = 1 ∨
          cfgFloat expLib (cfgOf orszag2Ini) "hydro" "slope_type" 1 = 2
        rw [exp_float f7]; norm_num
      riemann := by
        show riemannOf (cfgString (cfgOf orszag2Ini) "hydro" "riemann" "approx") = .hll ∨
          riemannOf (cfgString (cfgOf orszag2Ini) "hydro" "riemann" "approx") = .llf ∨
          riemannOf (cfgString (cfgOf orszag2Ini) "hydro" "riemann" "approx") = .hlld
        rw [hr]; decide }

/-- The shipped `test_mhd_orszag_tang_2D.ini` meets the hypotheses of `C79_mhd_2d`: run on it, the program computes
the iterations of the sequential algorithm from the Orszag-Tang vortex. -/
theorem orszag2_program :
    let p := hydroParams expLib (cfgOf orszag2Ini)
    Runs (fun e => e.ju = (0, 0)) expLib exactMath (some (textOf orszag2Ini)) p (mhd2 p)
      (initialFieldM2 p (.orszagTang (orszagTangParams expLib (cfgOf orszag2Ini))))
      (cfgFloat expLib (cfgOf orszag2Ini) "run" "tCurrent" 0) (ShowsM2 p) := by
  intro p
  obtain ⟨hs, ho⟩ := orszag2_ordinary
  have hv := orszag2_values
  have hq : mhdProblem expLib exactMath (cfgOf orszag2Ini) (0, 0) = .orszagTang (orszagTangParams expLib (cfgOf orszag2Ini)) := by
    unfold mhdProblem
    rw [hv.2.2.2.2.2.2.2.2.2.2.2.2.2.2.2.2.2.2]
    rfl
  have key := C79_mhd_2d expLib exactMath_exact (file := some (textOf orszag2Ini)) (0, 0) hs
    hv.2.2.2.2.2.2.2.2.2.2.2.2.2.2.2.2.2.1 ho
  rw [show mhdProblem expLib exactMath (Ini.broadcastSerial (some (textOf orszag2Ini))) (0, 0) = _ from hq] at key
  exact key trivial

theorem orszag3_values : let c := cfgOf orszag3Ini
    let s := fun (a b : String) => ratExp (Ini.cstr (c.getString a.toList b.toList []))
    c.getString "run".toList "solver_name".toList [] = "MHD_Muscl_3D".toList ∧
    s "mesh" "xmin" = none ∧ s "mesh" "xmax" = some 1 ∧ s "mesh" "ymin" = none ∧ s "mesh" "ymax" = some 1 ∧
    s "mesh" "zmin" = none ∧ s "mesh" "zmax" = some (1 / 4) ∧ s "hydro" "slope_type" = some 2 ∧
    s "hydro" "gamma0" = some (1666 / 1000) ∧ s "hydro" "cfl" = some (8 / 10) ∧ s "hydro" "smallr" = some (1 / 100000000) ∧
    s "hydro" "smallc" = some (1 / 100000000) ∧
    cfgInt c "mesh" "nx" 1 = 64 ∧ cfgInt c "mesh" "ny" 1 = 64 ∧ cfgInt c "mesh" "nz" 1 = 16 ∧
    riemannOf (cfgString c "hydro" "riemann" "approx") = .hlld ∧ cfgInt c "run" "nlog" 10 = 10 ∧
    cfgBool c "run" "restart_enabled" false = false ∧ problemName c = "orszag_tang".toList ∧
    cfgInt c "OrszagTang" "vortex_dir" 2 = 2 := by
  rw [cfgOf_eq (by decide +kernel)]
  decide +kernel

theorem orszag3_ordinary : Sets (cfgOf orszag3Ini) "run" "solver_name" "MHD_Muscl_3D" ∧
    OrdinaryM3 (hydroParams expLib (cfgOf orszag3Ini)) := by
  obtain ⟨sn, f1, f2, f3, f4, f5, f6, f7, f8, f9, f10, f11, n1, n2, n3, hr, nl, -⟩ := orszag3_values
  refine ⟨sets_of sn (by decide), ?_⟩
  exact
    { x := by
        show cfgFloat expLib (cfgOf orszag3Ini) "mesh" "xmin" 0 < cfgFloat expLib (cfgOf orszag3Ini) "mesh" "xmax" 1
        rw [exp_float_default f1, exp_float f2]; norm_num
      y := by
        show cfgFloat expLib (cfgOf orszag3Ini) "mesh" "ymin" 0 < cfgFloat expLib (cfgOf orszag3Ini) "mesh" "ymax" 1
        rw [exp_float_default f3, exp_float f4]; norm_num
      z := by
        show cfgFloat expLib (cfgOf orszag3Ini) "mesh" "zmin" 0 < cfgFloat expLib (cfgOf orszag3Ini) "mesh" "zmax" 1
        rw [exp_float_default f5, exp_float f6]; norm_num
      gamma := by
        show 1 < cfgFloat expLib (cfgOf orszag3Ini) "hydro" "gamma0" (14 / 10)
        rw [exp_float f8]; norm_num
      smallr := by
        show 0 < cfgFloat expLib (cfgOf orszag3Ini) "hydro" "smallr" (1 / 10000000000)
        rw [exp_float f10]; norm_num
      smallc := by
        show 0 < cfgFloat expLib (cfgOf orszag3Ini) "hydro" "smallc" (1 / 10000000000)
        rw [exp_float f11]; norm_num
      cfl := by
        show 0 < cfgFloat expLib (cfgOf orszag3Ini) "hydro" "cfl" (5 / 10)
        rw [exp_float f9]; norm_num
      nlog := by
        show cfgInt (cfgOf orszag3Ini) "run" "nlog" 10 ≠ 0
        rw [nl]; decide
      nx := by
        show 3 ≤ cfgInt (cfgOf orszag3Ini) "mesh" "nx" 1
        rw [n1]; decide
      ny := by
        show 3 ≤ cfgInt (cfgOf orszag3Ini) "mesh" "ny" 1
        rw [n2]; decide
      nz := by
        show 3 ≤ cfgInt (cfgOf orszag3Ini) "mesh" "nz" 1
        rw [n3]; decide
      slope := by
        show cfgFloat expLib (cfgOf orszag3Ini) "hydro" "slope_type" 1 = 1 ∨
          cfgFloat expLib (cfgOf orszag3Ini) "hydro" "slope_type" 1 = 2
        rw [exp_float f7]; norm_num
      riemann := by
        show riemannOf (cfgString (cfgOf orszag3Ini) "hydro" "riemann" "approx") = .hll ∨
          riemannOf (cfgString (cfgOf orszag3Ini) "hydro" "riemann" "approx") = .llf ∨
          riemannOf (cfgString (cfgOf orszag3Ini) "hydro" "riemann" "approx") = .hlld
        rw [hr]; decide }

/-- The shipped `test_mhd_orszag_tang_3D.ini` meets the hypotheses of `C79_mhd_3d`: run on it, the program computes
the iterations of the sequential algorithm from the Orszag-Tang vortex. -/
theorem orszag3_program :
    let p := hydroParams expLib (cfgOf orszag3Ini)
    Runs (fun e => e.ju = (0, 0)) expLib exactMath (some (textOf orszag3Ini)) p (mhd3 p)
      (initialFieldM3 p (.orszagTang (orszagTangParams expLib (cfgOf orszag3Ini))))
      (cfgFloat expLib (cfgOf orszag3Ini) "run" "tCurrent" 0) (ShowsM3 p) := by
  intro p
  obtain ⟨hs, ho⟩ := orszag3_ordinary
  have hv := orszag3_values
  have hq : mhdProblem expLib exactMath (cfgOf orszag3Ini) (0, 0) = .orszagTang (orszagTangParams expLib (cfgOf orszag3Ini)) := by
    unfold mhdProblem
    rw [hv.2.2.2.2.2.2.2.2.2.2.2.2.2.2.2.2.2.2.1]
    rfl
  have key := C79_mhd_3d expLib exactMath_exact (file := some (textOf orszag3Ini)) (0, 0) hs
    hv.2.2.2.2.2.2.2.2.2.2.2.2.2.2.2.2.2.1 ho
  rw [show mhdProblem expLib exactMath (Ini.broadcastSerial (some (textOf orszag3Ini))) (0, 0) = _ from hq] at key
  exact key (Or.inr (Or.inr hv.2.2.2.2.2.2.2.2.2.2.2.2.2.2.2.2.2.2.2))

end EulerKokkos
