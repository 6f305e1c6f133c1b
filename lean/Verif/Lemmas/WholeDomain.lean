import Verif.Spec.ProgramMpi

/-!
# What two configurations that differ only in the numbers of cells have in common
-/

set_option linter.constructorNameAsVariable false
set_option linter.unusedSimpArgs false

namespace EulerKokkos
open Spec

variable {R : Type} [RealOps R] {T : Topo} {c c' : Ini.Reader}

instance (s n : List Char) : Decidable (OtherKey s n) := by unfold OtherKey; infer_instance

theorem whole_string (h : WholeDomain T c c') {s n : String} (hk : OtherKey s.toList n.toList) (d : String) :
    cfgString c' s n d = cfgString c s n d := h.same _ _ _ hk

theorem whole_float (h : WholeDomain T c c') {s n : String} (hk : OtherKey s.toList n.toList) (F : FloatLib R)
    (d : ℚ) : cfgFloat F c' s n d = cfgFloat F c s n d := by
  unfold cfgFloat Ini.Reader.getFloat; rw [h.same _ _ _ hk]

theorem whole_int (h : WholeDomain T c c') {s n : String} (hk : OtherKey s.toList n.toList) (d : Int) :
    cfgInt c' s n d = cfgInt c s n d := by
  unfold cfgInt Ini.Reader.getInteger; rw [h.same _ _ _ hk]

theorem whole_bool (h : WholeDomain T c c') {s n : String} (hk : OtherKey s.toList n.toList) (d : Bool) :
    cfgBool c' s n d = cfgBool c s n d := by
  unfold cfgBool Ini.Reader.getBool; rw [h.same _ _ _ hk]

theorem whole_floatD (h : WholeDomain T c c') {s n : String} (hk : OtherKey s.toList n.toList) (F : FloatLib R)
    (M : MathLib R) (d : R) : cfgFloatD F M c' s n d = cfgFloatD F M c s n d := by
  unfold cfgFloatD Ini.Reader.getFloat; rw [h.same _ _ _ hk]

theorem whole_implode (h : WholeDomain T c c') (F : FloatLib R) : implodeParams F c' = implodeParams F c := by
  simp (disch := decide) only [implodeParams, whole_float h, whole_int h]

theorem whole_blast (h : WholeDomain T c c') (F : FloatLib R) (M : MathLib R) (j : R × R) :
    blastParams F M c' j = blastParams F M c j := by
  simp (disch := decide) only [blastParams, whole_float h, whole_int h, whole_bool h, whole_string h, whole_floatD h]

theorem whole_kh (h : WholeDomain T c c') (F : FloatLib R) :
    khParams F c' = khParams F c := by
  simp (disch := decide) only [khParams, whole_float h, whole_int h, whole_bool h, whole_string h, whole_floatD h]

theorem whole_gresho (h : WholeDomain T c c') (F : FloatLib R) :
    greshoParams F c' = greshoParams F c := by
  simp (disch := decide) only [greshoParams, whole_float h, whole_int h, whole_bool h, whole_string h, whole_floatD h]

theorem whole_vortex (h : WholeDomain T c c') (F : FloatLib R) (M : MathLib R) :
    vortexParams F M c' = vortexParams F M c := by
  simp (disch := decide) only [vortexParams, whole_float h, whole_int h, whole_bool h, whole_string h, whole_floatD h]

theorem whole_rt (h : WholeDomain T c c') (F : FloatLib R) :
    rtParams F c' = rtParams F c := by
  simp (disch := decide) only [rtParams, whole_float h, whole_int h, whole_bool h, whole_string h, whole_floatD h]

theorem whole_brioWu (h : WholeDomain T c c') (F : FloatLib R) (M : MathLib R) :
    brioWuParams F M c' = brioWuParams F M c := by
  simp (disch := decide) only [brioWuParams, whole_float h, whole_int h, whole_bool h, whole_string h, whole_floatD h]

theorem whole_orszagTang (h : WholeDomain T c c') (F : FloatLib R) :
    orszagTangParams F c' = orszagTangParams F c := by
  simp (disch := decide) only [orszagTangParams, whole_float h, whole_int h, whole_bool h, whole_string h, whole_floatD h]

theorem whole_rotor (h : WholeDomain T c c') (F : FloatLib R) (M : MathLib R) :
    rotorParams F M c' = rotorParams F M c := by
  simp (disch := decide) only [rotorParams, whole_float h, whole_int h, whole_bool h, whole_string h, whole_floatD h]

theorem whole_fieldLoop (h : WholeDomain T c c') (F : FloatLib R) :
    fieldLoopParams F c' = fieldLoopParams F c := by
  simp (disch := decide) only [fieldLoopParams, whole_float h, whole_int h, whole_bool h, whole_string h, whole_floatD h]

theorem whole_problemName (h : WholeDomain T c c') : problemName c' = problemName c := by
  simp (disch := decide) only [problemName, whole_string h]

theorem whole_fourQuadrant (h : WholeDomain T c c') (F : FloatLib R) :
    fourQuadrantOf F c' = fourQuadrantOf F c := by
  simp (disch := decide) only [fourQuadrantOf, whole_float h, whole_int h]

theorem whole_problem2 (h : WholeDomain T c c') (F : FloatLib R) (M : MathLib R) (j : R × R) :
    hydroProblem2 F M c' j = hydroProblem2 F M c j := by
  simp only [hydroProblem2, whole_problemName h, whole_implode h, whole_blast h, whole_kh h, whole_gresho h,
    whole_fourQuadrant h, whole_vortex h, whole_rt h]

theorem whole_problem3 (h : WholeDomain T c c') (F : FloatLib R) (M : MathLib R) (j : R × R) :
    hydroProblem3 F M c' j = hydroProblem3 F M c j := by
  simp only [hydroProblem3, whole_problemName h, whole_implode h, whole_blast h, whole_kh h, whole_gresho h,
    whole_fourQuadrant h, whole_vortex h, whole_rt h]

theorem whole_problemM (h : WholeDomain T c c') (F : FloatLib R) (M : MathLib R) (j : R × R) :
    mhdProblem F M c' j = mhdProblem F M c j := by
  simp only [mhdProblem, whole_problemName h, whole_implode h, whole_blast h, whole_kh h, whole_brioWu h,
    whole_orszagTang h, whole_rotor h, whole_fieldLoop h]

theorem whole_gravity (h : WholeDomain T c c') : gravityParams c' = gravityParams c := by
  simp (disch := decide) only [gravityParams, whole_bool h]

theorem whole_solver (h : WholeDomain T c c') : mainSolverName c' = mainSolverName c := by
  simp (disch := decide) only [mainSolverName, whole_string h]

theorem whole_raw (h : WholeDomain T c c') (z : R) (F : FloatLib R) : rawParams z F c' =
    { rawParams z F c with
      nx := (rawParams z F c).nx * T.mx, ny := (rawParams z F c).ny * T.my, nz := (rawParams z F c).nz * T.mz } := by
  unfold rawParams getDim
  simp (disch := decide) only [h.nx, h.ny, h.nz, whole_float h, whole_int h, whole_string h]

/-- the parameters of the serial run are those of the whole domain -/
theorem whole_params (h : WholeDomain T c c') (F : FloatLib R) :
    hydroParams F c' = globalParams T (rawParams (lit 0) F c) := by
  unfold hydroParams globalParams
  rw [whole_raw h]

end EulerKokkos
