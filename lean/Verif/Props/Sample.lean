import Verif.Lemmas.GhostFill
import Verif.Lemmas.MhdStep2D

/-!
# A concrete parameter set, used to show that hypotheses of the theorems are met
-/

namespace EulerKokkos

/-- Raw parameters of a 2D hydro run on a 4 × 3 grid (before `init()`), ghost width `gw`. -/
noncomputable def rawSample (bcx bcy : BC) (gw : Int) (nbvar : Nat) : Params ℝ :=
  { nStepmax := 10, tEnd := 1, nOutput := 5, enableOutput := true, mhdEnabled := false, nlog := 10
    nx := 4, ny := 3, nz := 5, ghostWidth := gw, nbvar := nbvar, dimType := .two
    imin := 0, imax := 0, jmin := 0, jmax := 0, kmin := 0, kmax := 0, isize := 0, jsize := 0
    ksize := 0, xmin := 0, xmax := 1, ymin := 0, ymax := 1, zmin := 0, zmax := 1
    dx := 0, dy := 0, dz := 0
    boundary_type_xmin := bcx, boundary_type_xmax := bcx
    boundary_type_ymin := bcy, boundary_type_ymax := bcy
    boundary_type_zmin := bcy, boundary_type_zmax := bcy
    settings := { gamma0 := 7/5, gamma6 := 0, cfl := 1/2, slope_type := 1, smallr := 1/1000,
                  smallc := 1/1000, smallp := 0, smallpp := 0, cIso := 0 }
    riemannSolverType := .hllc, implementationVersion := 0 }

/-- The initialised sample: 4 × 3 (× 5) cells, hydro, ghost width 2. -/
noncomputable def sample (bcx bcy : BC) : Params ℝ := (rawSample bcx bcy 2 4).init

/-- the same with MHD ghost width and variables -/
noncomputable def sampleMHD (bcx bcy : BC) : Params ℝ := (rawSample bcx bcy 3 8).init

theorem sample_wf (a b : BC) : (sample a b).WF :=
  Params.init_wf _ (by simp [rawSample]) (by simp [rawSample]) (by simp [rawSample])
    (by simp [rawSample])

theorem sampleMHD_wf (a b : BC) : (sampleMHD a b).WF :=
  Params.init_wf _ (by simp [rawSample]) (by simp [rawSample]) (by simp [rawSample])
    (by simp [rawSample])

theorem sample_faces3 (a b : BC) : Faces3Ok (sample a b) := by
  unfold Faces3Ok Faces2Ok Spec.BCok sample rawSample Params.init; simp

theorem sampleMHD_faces3 (a b : BC) : Faces3Ok (sampleMHD a b) := by
  unfold Faces3Ok Faces2Ok Spec.BCok sampleMHD rawSample Params.init; simp

/-- an MHD run on the same grid: HLLD solver, implementation version `v` -/
noncomputable def sampleM (a b : BC) (v : Int) : Params ℝ :=
  { sampleMHD a b with mhdEnabled := true, riemannSolverType := .hlld, implementationVersion := v }

theorem sampleM_wf (a b : BC) (v : Int) : (sampleM a b v).WF := by
  have h := sampleMHD_wf a b
  exact ⟨h.nx_pos, h.ny_pos, h.nz_pos, h.gw_pos, h.imin_eq, h.jmin_eq, h.kmin_eq, h.imax_eq,
    h.jmax_eq, h.kmax_eq, h.isize_eq, h.jsize_eq, h.ksize_eq⟩

theorem sampleM_mhd2 (a b : BC) (v : Int) : Mhd2 (sampleM a b v) where
  wf := sampleM_wf a b v
  gw := by simp [sampleM, sampleMHD, rawSample, Params.init]
  nbvar := rfl
  valid := ⟨by left; simp [sampleM, sampleMHD, rawSample, Params.init], by simp [sampleM]⟩
  faces := (sampleMHD_faces3 a b).1

end EulerKokkos
