{
 "claims": [
  {
   "property": "C01",
   "status": "proved",
   "theorems": [
    "EulerKokkos.C01_coord_index_coord_2d",
    "EulerKokkos.C01_index_range_2d",
    "EulerKokkos.C01_index_coord_index_2d",
    "EulerKokkos.C01_coord_index_coord_3d",
    "EulerKokkos.C01_index_range_3d",
    "EulerKokkos.C01_index_coord_index_3d"
   ],
   "note": "flat index <-> coordinates, 2D and 3D, all sizes"
  },
  {
   "property": "C02",
   "status": "proved",
   "theorems": [
    "EulerKokkos.C02_step_deterministic",
    "EulerKokkos.C02_each_kernel_deterministic"
   ],
   "note": "any arithmetic, any interleaving of single memory operations; whole step and each kernel"
  },
  {
   "property": "C03",
   "status": "proved",
   "theorems": [
    "EulerKokkos.C03_atomic_step_deterministic"
   ],
   "note": "exact additions (the schedule dependence in IEEE is rounding only); covers the kernels of version 2"
  },
  {
   "property": "C04",
   "status": "proved",
   "theorems": [
    "EulerKokkos.C04_versions_0_1_agree",
    "EulerKokkos.C04_all_versions_agree",
    "EulerKokkos.C04_runs_agree"
   ],
   "note": "versions 0 and 1 bit for bit for any arithmetic with exact multiplication by +-1; version 2 in exact arithmetic; runs of any length"
  },
  {
   "property": "C05",
   "status": "proved",
   "theorems": [
    "EulerKokkos.C05_balance_2d",
    "EulerKokkos.C05_conservation_step_2d",
    "EulerKokkos.C05_conservation_run_2d"
   ],
   "note": "exact arithmetic; balance for any boundary, conservation for periodic boxes, any number of steps, all versions"
  },
  {
   "property": "C06",
   "status": "proved",
   "theorems": [
    "EulerKokkos.C06_no_out_of_bounds_2d"
   ],
   "note": "every access of every kernel on every path, any grid with at least one cell"
  },
  {
   "property": "C07",
   "status": "proved",
   "theorems": [
    "EulerKokkos.C07_ghost_fill_2d",
    "EulerKokkos.C07_periodic_x_2d",
    "EulerKokkos.C07_reflecting_xmin_2d",
    "EulerKokkos.C07_absorbing_ymax_2d",
    "EulerKokkos.C07_idempotent_2d"
   ],
   "note": ""
  },
  {
   "property": "C08",
   "status": "proved",
   "theorems": [
    "EulerKokkos.C08_ghost_fill_3d"
   ],
   "note": ""
  },
  {
   "property": "C09",
   "status": "proved",
   "theorems": [
    "EulerKokkos.C09_each_ghost_written_once_2d",
    "EulerKokkos.C09_each_ghost_written_once_3d",
    "EulerKokkos.C09_bound_fits_int",
    "EulerKokkos.C09_bound_overflows_thin_grid"
   ],
   "note": "includes the overflow of the 3D bound for thin grids (C09_bound_overflows_thin_grid), a defect of the code"
  },
  {
   "property": "C10",
   "status": "proved",
   "theorems": [
    "EulerKokkos.C10_halo_2d",
    "EulerKokkos.C10_halo_3d"
   ],
   "note": "Every complete execution (any schedule, any buffering) of the modelled make_boundaries_mpi on any process grid with blocks at least ghostWidth wide and the four named boundary conditions; an out-of-enum boundary value is covered only with one process along the axis (the code then wraps inside the local block, DESIGN.md findings)."
  },
  {
   "property": "C11",
   "status": "proved",
   "theorems": [
    "EulerKokkos.C11_step_2d",
    "EulerKokkos.C11_step_3d",
    "EulerKokkos.C11_step_2d_atomic",
    "EulerKokkos.C11_step_3d_atomic",
    "EulerKokkos.C11_run_2d",
    "EulerKokkos.C11_run_3d"
   ],
   "note": "One step bit for bit for versions 0/1 (any arithmetic with exact multiplication by +-1), all versions over the reals; whole runs of main over the reals, any interleaving, buffered or rendezvous. Each rank evaluates the loop condition on its own state. Blocks at least ghostWidth wide and the four named boundary conditions. Parallel file writers are modelled as one recorded output per rank."
  },
  {
   "property": "C12",
   "status": "proved",
   "theorems": [
    "EulerKokkos.C12_exchange_2d",
    "EulerKokkos.C12_exchange_3d"
   ],
   "note": "Asynchronous machine with per-(source,destination,tag) FIFO channels; progress is proved for the rendezvous (unbuffered) mode."
  },
  {
   "property": "C13",
   "status": "proved",
   "theorems": [
    "EulerKokkos.C13_one_turn",
    "EulerKokkos.C13_time_bounded",
    "EulerKokkos.C13_final_time",
    "EulerKokkos.C13_hydro"
   ],
   "note": "exact arithmetic; any solver with non-negative dt, hydro solvers unconditionally"
  },
  {
   "property": "C14",
   "status": "proved",
   "theorems": [
    "EulerKokkos.C14_at_most_nstepmax",
    "EulerKokkos.C14_no_infinite_run",
    "EulerKokkos.C14_completes",
    "EulerKokkos.C14_starts",
    "EulerKokkos.C14_stop_reason",
    "EulerKokkos.C14_hydro_completes"
   ],
   "note": "any arithmetic and solver; completion for the hydro solvers (nlog != 0, otherwise % 0 is undefined)"
  },
  {
   "property": "C15",
   "status": "proved",
   "theorems": [
    "EulerKokkos.C15_run_is_algorithm_2d",
    "EulerKokkos.C15_run_is_algorithm_3d",
    "EulerKokkos.C15_reproducible_2d",
    "EulerKokkos.C15_turn_deterministic"
   ],
   "note": "exact arithmetic; refinement of the whole program to a sequential algorithm, 2D and 3D; serial build"
  },
  {
   "property": "C16",
   "status": "proved",
   "theorems": [
    "EulerKokkos.C16_gapless",
    "EulerKokkos.C16_first_last",
    "EulerKokkos.C16_no_output",
    "EulerKokkos.C16_every_step"
   ],
   "note": "any arithmetic and solver"
  },
  {
   "property": "C17",
   "status": "proved",
   "theorems": [
    "EulerKokkos.C17_cadence",
    "EulerKokkos.C17_due",
    "EulerKokkos.C17_count"
   ],
   "note": "exact arithmetic, any solver"
  },
  {
   "property": "C18",
   "status": "proved",
   "theorems": [
    "EulerKokkos.C18_primitives_positive_2d",
    "EulerKokkos.C18_primitives_positive_3d",
    "EulerKokkos.C18_inverse_3d",
    "EulerKokkos.C18_inverse_2d",
    "EulerKokkos.C18_above_floors_iff"
   ],
   "note": "exact arithmetic, all states"
  },
  {
   "property": "C19",
   "status": "proved",
   "theorems": [
    "EulerKokkos.C19_slopes_tvd_2d",
    "EulerKokkos.C19_slopes_tvd_3d",
    "EulerKokkos.C19_slope_symmetry"
   ],
   "note": "exact arithmetic"
  },
  {
   "property": "C20",
   "status": "proved",
   "theorems": [
    "EulerKokkos.C20_consistent_2d",
    "EulerKokkos.C20_consistent_3d"
   ],
   "note": "exact arithmetic; llf, hll (2D), hllc, approx"
  },
  {
   "property": "C21",
   "status": "proved",
   "theorems": [
    "EulerKokkos.C21_mirror_2d",
    "EulerKokkos.C21_mirror_3d",
    "EulerKokkos.C21_wall_flux_2d",
    "EulerKokkos.C21_wall_flux_3d"
   ],
   "note": "exact arithmetic; llf, hll (2D), hllc"
  },
  {
   "property": "C22",
   "status": "proved",
   "theorems": [
    "EulerKokkos.C22_uniform_flow_2d",
    "EulerKokkos.C22_uniform_flow_3d"
   ],
   "note": "exact arithmetic; runs of any length, all versions, 2D and 3D"
  },
  {
   "property": "C23",
   "status": "proved",
   "theorems": [
    "EulerKokkos.C23_xy_symmetry"
   ],
   "note": "exact arithmetic; whole step, all versions"
  },
  {
   "property": "C24",
   "status": "proved",
   "theorems": [
    "EulerKokkos.C24_cfl_2d",
    "EulerKokkos.C24_cfl_3d",
    "EulerKokkos.C24_rate_physical",
    "EulerKokkos.C24_schedule_independent",
    "EulerKokkos.C24_decomposition_2d",
    "EulerKokkos.C24_decomposition_3d"
   ],
   "note": "exact arithmetic; every reduction order; independence of the decomposition"
  },
  {
   "property": "C25",
   "status": "proved",
   "theorems": [
    "EulerKokkos.C25_gravity_cfl_2d",
    "EulerKokkos.C25_gravity_cfl_3d"
   ],
   "note": "exact arithmetic; every reduction order"
  },
  {
   "property": "C26",
   "status": "proved",
   "theorems": [
    "EulerKokkos.C26_gravity_source_2d",
    "EulerKokkos.C26_gravity_below_floor_2d",
    "EulerKokkos.C26_gravity_source_3d"
   ],
   "note": "exact arithmetic; kernel level, every schedule"
  },
  {
   "property": "C27",
   "status": "proved",
   "theorems": [
    "EulerKokkos.C27_inner_cells_2d",
    "EulerKokkos.C27_periodic_step_2d",
    "EulerKokkos.C27_periodic_run_2d",
    "EulerKokkos.C27_solenoidal_for_ever_2d",
    "EulerKokkos.C27_every_cell_atomic_2d",
    "EulerKokkos.C27_open_side_defect_2d"
   ],
   "note": "Whole MHD step and runs, all versions. Finding: at absorbing upper sides div B of the last column changes (C27_open_side_defect_2d)."
  },
  {
   "property": "C28",
   "status": "proved",
   "theorems": [
    "EulerKokkos.C28_inner_cells_3d",
    "EulerKokkos.C28_periodic_step_3d",
    "EulerKokkos.C28_periodic_run_3d",
    "EulerKokkos.C28_solenoidal_for_ever_3d",
    "EulerKokkos.C28_open_side_3d"
   ],
   "note": "Whole MHD step and runs, all versions. Finding: at absorbing upper sides the ghost fill replaces the normal field (C28_open_side_3d)."
  },
  {
   "property": "C29",
   "status": "proved",
   "theorems": [
    "EulerKokkos.C29_step_deterministic_3d",
    "EulerKokkos.C29_atomic_step_deterministic_3d",
    "EulerKokkos.C29_versions_0_2_3d",
    "EulerKokkos.C29_versions_0_1_3d",
    "EulerKokkos.C29_runs_agree_3d",
    "EulerKokkos.C29_version1_gravity_differs_3d"
   ],
   "note": "finding: version 1 + gravity predictor differs from versions 0/2 in 3D (C29_version1_gravity_differs_3d)"
  },
  {
   "property": "C30",
   "status": "proved",
   "theorems": [
    "EulerKokkos.C30_balance_3d",
    "EulerKokkos.C30_conservation_step_3d",
    "EulerKokkos.C30_conservation_run_3d"
   ],
   "note": "exact arithmetic; balance for any boundary, conservation for periodic boxes, runs of any length"
  },
  {
   "property": "C31",
   "status": "proved",
   "theorems": [
    "EulerKokkos.C31_no_out_of_bounds_3d"
   ],
   "note": "every access of every kernel on every path, any grid with at least one cell"
  },
  {
   "property": "C32",
   "status": "proved",
   "theorems": [
    "EulerKokkos.C32_defined_iff_2d",
    "EulerKokkos.C32_defined_iff_3d"
   ],
   "note": "finding: riemann=hlld leaves the flux uninitialised, also riemann=hll in 3D"
  },
  {
   "property": "C33",
   "status": "proved",
   "theorems": [
    "EulerKokkos.Ini.C33_last_wins",
    "EulerKokkos.Ini.C33_found",
    "EulerKokkos.Ini.C33_default",
    "EulerKokkos.Ini.C33_case_insensitive",
    "EulerKokkos.Ini.C33_set_string",
    "EulerKokkos.Ini.C33_set_bool",
    "EulerKokkos.Ini.C33_set_integer",
    "EulerKokkos.Ini.C33_distinct_keys",
    "EulerKokkos.Ini.C33_dotted_sections_collide",
    "EulerKokkos.Ini.C33_integer_notation",
    "EulerKokkos.Ini.C33_integer_default"
   ],
   "note": "Readers of both builds; setFloat (prints 6 digits) is not modelled. Finding: section names containing a dot can collide (C33_dotted_sections_collide)."
  },
  {
   "property": "C34",
   "status": "proved",
   "theorems": [
    "EulerKokkos.Ini.C34_parse_buffer",
    "EulerKokkos.Ini.C34_parse_file",
    "EulerKokkos.Ini.C34_every_line",
    "EulerKokkos.Ini.C34_every_file",
    "EulerKokkos.Ini.C34_roundtrip",
    "EulerKokkos.Ini.C34_malformed",
    "EulerKokkos.Ini.C34_indented_line_replaces"
   ],
   "note": "Every file without NUL bytes is covered (C34_every_file). Finding: an indented line below an entry replaces its value (C34_indented_line_replaces); headings are cut to 49 characters."
  },
  {
   "property": "C35",
   "status": "proved",
   "theorems": [
    "EulerKokkos.Ini.C35_same_parse",
    "EulerKokkos.Ini.C35_same_configuration",
    "EulerKokkos.Ini.C35_missing_file",
    "EulerKokkos.Ini.C35_long_line_differs"
   ],
   "note": "Finding: the bound on the line length is sharp (C35_long_line_differs)."
  },
  {
   "property": "C36",
   "status": "proved",
   "theorems": [
    "EulerKokkos.C36_grid_sizes",
    "EulerKokkos.C36_cell_size",
    "EulerKokkos.C36_solver_table",
    "EulerKokkos.C36_unknown_solver",
    "EulerKokkos.C36_riemann",
    "EulerKokkos.C36_version",
    "EulerKokkos.C36_output_flag",
    "EulerKokkos.C36_integers",
    "EulerKokkos.C36_defaults",
    "EulerKokkos.C36_runnable_2d",
    "EulerKokkos.C36_runnable_3d"
   ],
   "note": "strtof, float rounding and float-to-int conversion are parameters; int arithmetic of the sizes is unbounded (overflow for grids near 2^31 is not modelled)."
  },
  {
   "property": "C37",
   "status": "proved",
   "theorems": [
    "EulerKokkos.C37_rank_position_bijection",
    "EulerKokkos.C37_neighbour_position",
    "EulerKokkos.C37_neighbours_mutual",
    "EulerKokkos.C37_physical_boundary"
   ],
   "note": "MPI_Cart_rank/coords are modelled as row-major with periodic wrap, as the MPI standard prescribes."
  },
  {
   "property": "C38",
   "status": "proved",
   "theorems": [
    "EulerKokkos.C38_lossless_2d",
    "EulerKokkos.C38_lossless_3d",
    "EulerKokkos.C38_layer_bijection"
   ],
   "note": "Both Kokkos layouts, 2D and 3D, every schedule of the pack and unpack kernels."
  },
  {
   "property": "C39",
   "status": "proved",
   "theorems": [
    "EulerKokkos.C39_mhd_step_deterministic_2d",
    "EulerKokkos.C39_mhd_atomic_step_deterministic_2d",
    "EulerKokkos.C39_mhd_each_kernel_deterministic_2d",
    "EulerKokkos.C39_mhd_run_deterministic_2d"
   ],
   "note": "version 0 any arithmetic; versions 1/2 exact additions"
  },
  {
   "property": "C40",
   "status": "proved",
   "theorems": [
    "EulerKokkos.C40_mhd_all_versions_agree_2d",
    "EulerKokkos.C40_mhd_version_0_scheme_2d",
    "EulerKokkos.C40_mhd_runs_agree_2d"
   ],
   "note": "slope_type 1 or 2 and riemann hll, llf or hlld: for other settings the code uses uninitialised values"
  },
  {
   "property": "C41",
   "status": "proved",
   "theorems": [
    "EulerKokkos.C41_mhd_no_out_of_bounds_2d"
   ],
   "note": "every access of every kernel on every path, any grid with at least one cell"
  },
  {
   "property": "C42",
   "status": "proved",
   "theorems": [
    "EulerKokkos.C42_mhd_balance_2d",
    "EulerKokkos.C42_mhd_conservation_step_2d",
    "EulerKokkos.C42_mhd_conservation_run_2d"
   ],
   "note": "exact arithmetic"
  },
  {
   "property": "C43",
   "status": "proved",
   "theorems": [
    "EulerKokkos.C43_mhd_uniform_step_2d",
    "EulerKokkos.C43_mhd_uniform_run_2d",
    "EulerKokkos.C43_mhd_uniform_defined_2d"
   ],
   "note": "exact arithmetic; definedness (C43_mhd_uniform_defined_2d) for every implementation version. Finding: HLLD computes 0/0 in a uniform medium whose field is normal and dominates the pressure (C52_hlld_degenerate_undefined)."
  },
  {
   "property": "C44",
   "status": "proved",
   "theorems": [
    "EulerKokkos.C44_mhd_step_deterministic_3d",
    "EulerKokkos.C44_mhd_atomic_step_deterministic_3d",
    "EulerKokkos.C44_mhd_each_kernel_deterministic_3d",
    "EulerKokkos.C44_mhd_run_deterministic_3d"
   ],
   "note": "version 0 any arithmetic; versions 1/2 exact additions"
  },
  {
   "property": "C45",
   "status": "proved",
   "theorems": [
    "EulerKokkos.C45_mhd_step_is_scheme_3d",
    "EulerKokkos.C45_mhd_version_0_scheme_3d",
    "EulerKokkos.C45_mhd_runs_agree_3d",
    "EulerKokkos.C45_mhd_version_2_runs_agree_3d",
    "EulerKokkos.C45_version_2_z_slope_vanishes",
    "EulerKokkos.C45_versions_0_1_z_slope_linear"
   ],
   "note": "Versions 0 and 1 agree; version 2 is specified separately because it differs (C45_version_2_z_slope_vanishes). slope_type 1 or 2 and riemann hll, llf or hlld."
  },
  {
   "property": "C46",
   "status": "proved",
   "theorems": [
    "EulerKokkos.C46_mhd_no_out_of_bounds_3d"
   ],
   "note": "every access of every kernel on every path, any grid with at least one cell"
  },
  {
   "property": "C47",
   "status": "proved",
   "theorems": [
    "EulerKokkos.C47_mhd_balance_3d",
    "EulerKokkos.C47_mhd_conservation_step_3d",
    "EulerKokkos.C47_mhd_conservation_run_3d"
   ],
   "note": "exact arithmetic"
  },
  {
   "property": "C48",
   "status": "proved",
   "theorems": [
    "EulerKokkos.C48_mhd_uniform_step_3d",
    "EulerKokkos.C48_mhd_uniform_run_3d",
    "EulerKokkos.C48_mhd_uniform_defined_3d"
   ],
   "note": "exact arithmetic; definedness (C48_mhd_uniform_defined_3d) for every implementation version. Finding: HLLD computes 0/0 in a uniform medium whose field is normal and dominates the pressure (C52_hlld_degenerate_undefined)."
  },
  {
   "property": "C49",
   "status": "proved",
   "theorems": [
    "EulerKokkos.C49_textbook_2d",
    "EulerKokkos.C49_textbook_3d",
    "EulerKokkos.C49_supersonic_2d",
    "EulerKokkos.C49_supersonic_3d",
    "EulerKokkos.C49_contact_2d",
    "EulerKokkos.C49_contact_3d"
   ],
   "note": "exact arithmetic; physical states (at or above the floors); 3D has no HLL branch (C32)"
  },
  {
   "property": "C50",
   "status": "proved",
   "theorems": [
    "EulerKokkos.Spec.C50_predictor_2d",
    "EulerKokkos.Spec.C50_predictor_3d",
    "EulerKokkos.Spec.C50_hypotheses_met",
    "EulerKokkos.Spec.C50_anisotropic_differs"
   ],
   "note": "exact arithmetic; square/cubic cells. Finding: for other cells the transverse terms use the wrong mesh size (C50_anisotropic_differs)."
  },
  {
   "property": "C51",
   "status": "proved",
   "theorems": [
    "EulerKokkos.C51_riemann_defined",
    "EulerKokkos.C51_step_defined_2d",
    "EulerKokkos.C51_step_defined_3d",
    "EulerKokkos.C51_gravity_zero_density",
    "EulerKokkos.C51_dt_defined_2d",
    "EulerKokkos.C51_dt_defined_3d",
    "EulerKokkos.C51_run_defined_2d",
    "EulerKokkos.C51_run_defined_3d"
   ],
   "note": "checked exact arithmetic (rounding and overflow are outside). Every implementation version. Finding: the 3D gravity source divides by the unfloored new density (C51_gravity_zero_density)."
  },
  {
   "property": "C53",
   "status": "proved",
   "theorems": [
    "EulerKokkos.C53_mhd_cfl_2d",
    "EulerKokkos.C53_mhd_cfl_3d",
    "EulerKokkos.C53_mhd_wave_bound_2d",
    "EulerKokkos.C53_mhd_wave_bound_3d",
    "EulerKokkos.C53_fast_speed_is_fastest_wave",
    "EulerKokkos.C53_speed_functions_agree"
   ],
   "note": "exact arithmetic"
  },
  {
   "property": "C54",
   "status": "proved",
   "theorems": [
    "EulerKokkos.C54_mhd_run_is_algorithm_2d",
    "EulerKokkos.C54_mhd_run_is_algorithm_3d",
    "EulerKokkos.C54_mhd_reproducible_2d",
    "EulerKokkos.C54_mhd_reproducible_3d",
    "EulerKokkos.C54_mhd_time",
    "EulerKokkos.C54_mhd_completes",
    "EulerKokkos.C54_mhd_files_2d",
    "EulerKokkos.C54_mhd_files_3d",
    "EulerKokkos.C54_mhd_runnable"
   ],
   "note": "exact arithmetic; slope_type 1 or 2, riemann hll, llf or hlld (the others leave the flux uninitialised)"
  },
  {
   "property": "C52",
   "status": "proved",
   "theorems": [
    "EulerKokkos.C52_mhd_riemann_defined",
    "EulerKokkos.C52_hlld_degenerate_undefined",
    "EulerKokkos.C52_mhd_step_defined_2d",
    "EulerKokkos.C52_mhd_step_defined_3d",
    "EulerKokkos.C52_mhd_dt_defined_2d",
    "EulerKokkos.C52_mhd_dt_defined_3d",
    "EulerKokkos.C52_mhd_run_defined_2d",
    "EulerKokkos.C52_mhd_run_defined_3d"
   ],
   "note": "checked exact arithmetic (rounding and overflow are outside), every implementation version. Finding: C52_hlld_degenerate_undefined."
  },
  {
   "property": "C55",
   "status": "proved",
   "theorems": [
    "EulerKokkos.C55_llf_textbook",
    "EulerKokkos.C55_hll_textbook",
    "EulerKokkos.C55_hlld_textbook",
    "EulerKokkos.C55_mhd_flux_consistent",
    "EulerKokkos.C55_mhd_upwind",
    "EulerKokkos.C55_mhd_mirror",
    "EulerKokkos.C55_hlld_mirror_fails",
    "EulerKokkos.C55_hlld_guard_misfires",
    "EulerKokkos.C55_emf_textbook",
    "EulerKokkos.C55_emf_consistent",
    "EulerKokkos.C55_emf_upwind",
    "EulerKokkos.C55_emf_transpose"
   ],
   "note": "exact arithmetic, adiabatic (cIso = 0, the only value a run can have). HLLD at regular faces where the guard of the code is silent; findings C55_hlld_guard_misfires, C55_hlld_mirror_fails."
  },
  {
   "property": "C56",
   "status": "proved",
   "theorems": [
    "EulerKokkos.C56_initial_block_2d",
    "EulerKokkos.C56_initial_block_3d",
    "EulerKokkos.C56_run_2d",
    "EulerKokkos.C56_run_3d",
    "EulerKokkos.C56_random_perturbation_differs"
   ],
   "note": "initial state in any arithmetic, runs in exact arithmetic; hydro"
  },
  {
   "property": "C57",
   "status": "proved",
   "theorems": [
    "EulerKokkos.C57_init_unique_hydro_2d",
    "EulerKokkos.C57_init_unique_hydro_3d",
    "EulerKokkos.C57_init_unique_mhd_2d",
    "EulerKokkos.C57_init_unique_mhd_3d",
    "EulerKokkos.C57_init_in_bounds_hydro_2d",
    "EulerKokkos.C57_init_in_bounds_hydro_3d",
    "EulerKokkos.C57_rayleigh_taylor_needs_gravity",
    "EulerKokkos.C57_init_in_bounds_mhd_2d",
    "EulerKokkos.C57_init_in_bounds_mhd_3d"
   ],
   "note": "any arithmetic; the random draws are an arbitrary function of the iteration"
  },
  {
   "property": "C59",
   "status": "proved",
   "theorems": [
    "EulerKokkos.C59_initial_divergence_free_2d",
    "EulerKokkos.C59_initial_divergence_free_3d",
    "EulerKokkos.C59_files_divergence_free_2d",
    "EulerKokkos.C59_files_divergence_free_3d"
   ],
   "note": "exact arithmetic, serial run, slope_type/riemann as in C54"
  },
  {
   "property": "C58",
   "status": "proved",
   "theorems": [
    "EulerKokkos.C58_initial_state_2d",
    "EulerKokkos.C58_initial_state_3d",
    "EulerKokkos.C58_isentropic_vortex_exact",
    "EulerKokkos.C58_gresho_exact",
    "EulerKokkos.C58_implode_velocity_divided",
    "EulerKokkos.C58_rayleigh_taylor_pressure_deficit",
    "EulerKokkos.C58_gresho_3d_wrong",
    "EulerKokkos.C58_configuration_18_ignored",
    "EulerKokkos.C58_kelvin_helmholtz_unset",
    "EulerKokkos.C58_shear_layer_density"
   ],
   "note": "exact arithmetic; the deviations are theorems of their own"
  },
  {
   "property": "C60",
   "status": "proved",
   "theorems": [
    "EulerKokkos.C60_step_2d",
    "EulerKokkos.C60_step_2d_atomic",
    "EulerKokkos.C60_run_2d",
    "EulerKokkos.C60_step_3d",
    "EulerKokkos.C60_step_3d_atomic",
    "EulerKokkos.C60_run_3d"
   ],
   "note": "bit for bit in any arithmetic for one step of version 0; exact arithmetic for the other versions and for whole runs (the global max and the time step are then compared as reals)"
  },
  {
   "property": "C61",
   "status": "proved",
   "theorems": [
    "EulerKokkos.C61_initial_block_2d",
    "EulerKokkos.C61_initial_block_3d",
    "EulerKokkos.C61_run_2d",
    "EulerKokkos.C61_run_3d",
    "EulerKokkos.C61_field_loop_differs",
    "EulerKokkos.C61_brio_wu_z"
   ],
   "note": "initial state in any arithmetic, runs in exact arithmetic; all processes read the same problem parameters (for the blast: the same uninitialised bz). Field loop and 3D Brio-Wu along z deviate: C61_field_loop_differs, C61_brio_wu_z"
  },
  {
   "property": "C62",
   "status": "proved",
   "theorems": [
    "EulerKokkos.C62_distributed_files_2d",
    "EulerKokkos.C62_distributed_files_3d"
   ],
   "note": "exact arithmetic; the problems of C61"
  },
  {
   "property": "C63",
   "status": "proved",
   "theorems": [
    "EulerKokkos.Spec.C63_predictor_2d",
    "EulerKokkos.Spec.C63_predictor_3d",
    "EulerKokkos.Spec.C63_hypotheses_met",
    "EulerKokkos.Spec.C63_hypotheses_met_2d"
   ],
   "note": "exact arithmetic; 2D (all versions, by C45) and 3D versions 0 and 1; 3D version 2 reconstructs differently, see C45"
  },
  {
   "property": "C64",
   "status": "proved",
   "theorems": [
    "EulerKokkos.C64_initial_state_2d",
    "EulerKokkos.C64_initial_state_3d",
    "EulerKokkos.C64_orszag_tang_2d",
    "EulerKokkos.C64_orszag_tang_3d",
    "EulerKokkos.C64_field_loop_3d",
    "EulerKokkos.C64_field_loop_2d",
    "EulerKokkos.C64_field_loop_2d_deficit",
    "EulerKokkos.C64_implode_velocity_as_momentum",
    "EulerKokkos.C64_rotor_velocity_as_momentum",
    "EulerKokkos.C64_rotor_2d_disk",
    "EulerKokkos.C64_random_kh_unmagnetised",
    "EulerKokkos.C64_blast_field_keys"
   ],
   "note": "exact arithmetic and exact library functions; the departures of the code from the prescribed states are separate theorems"
  },
  {
   "property": "C65",
   "status": "proved",
   "theorems": [
    "EulerKokkos.C65_file_2d",
    "EulerKokkos.C65_file_3d",
    "EulerKokkos.C65_extent",
    "EulerKokkos.C65_centre",
    "EulerKokkos.C65_names",
    "EulerKokkos.C65_names_mpi",
    "EulerKokkos.C65_every_output_on_disk",
    "EulerKokkos.C65_pvti_2d",
    "EulerKokkos.C65_pvti_3d",
    "EulerKokkos.C65_pvti_serial_2d",
    "EulerKokkos.C65_pvti_serial_3d",
    "EulerKokkos.C65_run_2d",
    "EulerKokkos.C65_run_3d",
    "EulerKokkos.C65_no_collision",
    "EulerKokkos.C65_large_grid_3d",
    "EulerKokkos.C65_header_mismatch_2d"
   ],
   "note": "XML syntax abstracted (attributes and raw bytes modelled); the distributed statement takes the block files of C11/C56/C60; large-grid failure and header mismatch are separate theorems"
  },
  {
   "property": "C66",
   "status": "proved",
   "theorems": [
    "EulerKokkos.C66_config_fields",
    "EulerKokkos.C66_file_2d",
    "EulerKokkos.C66_file_3d",
    "EulerKokkos.C66_file_ghosts_2d",
    "EulerKokkos.C66_file_ghosts_3d",
    "EulerKokkos.C66_load_2d",
    "EulerKokkos.C66_load_3d",
    "EulerKokkos.C66_load_ghosts_2d",
    "EulerKokkos.C66_load_ghosts_3d",
    "EulerKokkos.C66_roundtrip_2d",
    "EulerKokkos.C66_roundtrip_3d",
    "EulerKokkos.C66_file_mpi_2d",
    "EulerKokkos.C66_file_mpi_3d",
    "EulerKokkos.C66_load_mpi_2d",
    "EulerKokkos.C66_load_mpi_3d",
    "EulerKokkos.C66_repartition_2d",
    "EulerKokkos.C66_repartition_3d",
    "EulerKokkos.C66_file_mpi_ghosts_2d",
    "EulerKokkos.C66_file_mpi_ghosts_3d",
    "EulerKokkos.C66_ghosts_overlap_2d",
    "EulerKokkos.C66_file_stacked_2d",
    "EulerKokkos.C66_allghosts_roundtrip_2d",
    "EulerKokkos.C66_possible"
   ],
   "note": "the HDF5 library is modelled from its manual (hyperslab selection, row-major transfer); whole-array options proved in 2D and 3D, stacked and allghost files in 2D"
  },
  {
   "property": "C67",
   "status": "proved",
   "theorems": [
    "EulerKokkos.C67_restart_hydro_2d",
    "EulerKokkos.C67_restart_hydro_3d",
    "EulerKokkos.C67_restart_mhd_2d",
    "EulerKokkos.C67_restart_mhd_3d",
    "EulerKokkos.C67_two_pieces_hydro_2d",
    "EulerKokkos.C67_two_pieces_hydro_3d",
    "EulerKokkos.C67_two_pieces_mhd_2d",
    "EulerKokkos.C67_two_pieces_mhd_3d",
    "EulerKokkos.C67_gravity_lost_2d",
    "EulerKokkos.C67_gravity_lost_3d",
    "EulerKokkos.C67_restart_dist_hydro_2d",
    "EulerKokkos.C67_restart_dist_hydro_3d",
    "EulerKokkos.C67_restart_dist_mhd_2d",
    "EulerKokkos.C67_restart_dist_mhd_3d"
   ],
   "note": "exact arithmetic (the time step is an exact maximum); file contents as in C66; with gravity the theorem asks for the same gravity field, and the loss of the field in the code is a separate theorem"
  },
  {
   "property": "C68",
   "status": "proved",
   "theorems": [
    "EulerKokkos.C68_cells_2d",
    "EulerKokkos.C68_cells_3d",
    "EulerKokkos.C68_noghosts_2d",
    "EulerKokkos.C68_noghosts_3d",
    "EulerKokkos.C68_divB_2d",
    "EulerKokkos.C68_divB_3d",
    "EulerKokkos.C68_totals_2d",
    "EulerKokkos.C68_totals_3d",
    "EulerKokkos.C68_thermal_2d",
    "EulerKokkos.C68_negative_thermal_2d",
    "EulerKokkos.C68_noghosts_garbage_2d",
    "EulerKokkos.C68_seam_2d",
    "EulerKokkos.C68_stale_ghosts_2d"
   ],
   "note": "cells for every number type; divergence, totals and thermal energy in exact arithmetic; the seam, stale ghost (version 0) and uninitialised memory statements in 2D"
  },
  {
   "property": "C69",
   "status": "proved",
   "theorems": [
    "EulerKokkos.C69_contact_face",
    "EulerKokkos.C69_rest_2d",
    "EulerKokkos.C69_rest_3d",
    "EulerKokkos.C69_shear_2d",
    "EulerKokkos.C69_dissipative_solvers"
   ],
   "note": "exact arithmetic; shear layers in 2D along y (the x case follows with C23)"
  },
  {
   "property": "C70",
   "status": "proved",
   "theorems": [
    "EulerKokkos.C70_axes_2d",
    "EulerKokkos.C70_axes_xy_3d",
    "EulerKokkos.C70_axes_xz_3d",
    "EulerKokkos.C70_diagonal_2d"
   ],
   "note": "exact arithmetic (sums are reordered); contents of interior cells of the files"
  },
  {
   "property": "C71",
   "status": "proved",
   "theorems": [
    "EulerKokkos.C71_primitives_3d",
    "EulerKokkos.C71_primitives_2d",
    "EulerKokkos.C71_round_trip_3d",
    "EulerKokkos.C71_round_trip_2d"
   ],
   "note": "exact arithmetic; adiabatic (cIso is 0 in every run)"
  },
  {
   "property": "C72",
   "status": "proved",
   "theorems": [
    "EulerKokkos.C72_reverse_x_2d",
    "EulerKokkos.C72_reverse_y_2d",
    "EulerKokkos.C72_reverse_x_3d",
    "EulerKokkos.C72_reverse_y_3d",
    "EulerKokkos.C72_reverse_z_3d",
    "EulerKokkos.C72_symmetric_2d",
    "EulerKokkos.C72_symmetric_3d"
   ],
   "note": "exact arithmetic; riemann=approx is not covered (its Newton iteration is not symmetric in the sides); contents of interior cells of the files"
  },
  {
   "property": "C73",
   "status": "proved",
   "theorems": [
    "EulerKokkos.C73_closed_box_2d",
    "EulerKokkos.C73_closed_box_3d",
    "EulerKokkos.C73_predictor_leaks_2d"
   ],
   "note": "exact arithmetic; walls with riemann=approx are not covered"
  },
  {
   "property": "C74",
   "status": "proved",
   "theorems": [
    "EulerKokkos.C74_positive_2d",
    "EulerKokkos.C74_positive_3d"
   ],
   "note": "exact arithmetic; one step at a time: the new content is positive but may be below the floors; the Courant limits are sufficient, not claimed to be sharp; riemann=approx is not covered"
  },
  {
   "property": "C78",
   "status": "proved",
   "theorems": [
    "EulerKokkos.C78_list",
    "EulerKokkos.C78_run_2d",
    "EulerKokkos.C78_run_3d",
    "EulerKokkos.C78_extents",
    "EulerKokkos.C78_extents_mpi",
    "EulerKokkos.C78_run_mpi_2d",
    "EulerKokkos.C78_run_mpi_3d",
    "EulerKokkos.C78_mesh",
    "EulerKokkos.C78_single_step",
    "EulerKokkos.C78_directory"
   ],
   "note": "the XML text is modelled as the tree of grids and attributes; the race of the processes writing the same text is not modelled"
  },
  {
   "property": "C79",
   "status": "proved",
   "theorems": [
    "EulerKokkos.C79_aborts",
    "EulerKokkos.C79_no_file",
    "EulerKokkos.C79_consistent",
    "EulerKokkos.C79_hydro_2d",
    "EulerKokkos.C79_hydro_3d",
    "EulerKokkos.C79_mhd_2d",
    "EulerKokkos.C79_mhd_3d",
    "EulerKokkos.C79_reproducible_2d",
    "EulerKokkos.C79_reproducible_3d",
    "EulerKokkos.C79_unknown_problem"
   ],
   "note": "exact arithmetic for the end-to-end theorems; files that do not restart; the two MHD blast members the code leaves uninitialised are a parameter"
  },
  {
   "property": "C80",
   "status": "proved",
   "theorems": [
    "EulerKokkos.C80_hydro_2d",
    "EulerKokkos.C80_hydro_3d",
    "EulerKokkos.C80_mhd_2d",
    "EulerKokkos.C80_mhd_3d",
    "EulerKokkos.C80_starts"
   ],
   "note": "exact arithmetic; no restart; number of processes = mx*my*mz; in 2D mz=1; MHD blast: the members the code leaves uninitialised must agree"
  },
  {
   "property": "C77",
   "status": "proved",
   "theorems": [
    "EulerKokkos.C77_moved_2d",
    "EulerKokkos.C77_moved_3d",
    "EulerKokkos.C77_moved_mhd_2d",
    "EulerKokkos.C77_moved_mhd_3d",
    "EulerKokkos.C77_independent_of_z",
    "EulerKokkos.C77_independent_of_z_mhd"
   ],
   "note": "exact arithmetic; gravity uniform (the only kind the code sets up)"
  },
  {
   "property": "C76",
   "status": "proved",
   "theorems": [
    "EulerKokkos.C76_planar_run",
    "EulerKokkos.C76_planar_complete"
   ],
   "note": "exact arithmetic; no gravity (with gravity the 2D and 3D source terms differ in the density floor)"
  },
  {
   "property": "C75",
   "status": "proved",
   "theorems": [
    "EulerKokkos.C75_parameters",
    "EulerKokkos.C75_units_2d",
    "EulerKokkos.C75_units_3d"
   ],
   "note": "exact arithmetic; hydro"
  },
  {
   "property": "C81",
   "status": "proved",
   "theorems": [
    "EulerKokkos.C81_roundtrip_3d",
    "EulerKokkos.C81_roundtrip_2d",
    "EulerKokkos.C81_eigen_3d",
    "EulerKokkos.C81_eigen_2d",
    "EulerKokkos.C81_advection"
   ],
   "note": "exact arithmetic; the header is not used by the solvers and names an undeclared constant IT, read as IY"
  },
  {
   "property": "C82",
   "status": "proved",
   "theorems": [
    "EulerKokkos.C82_pressure_3d",
    "EulerKokkos.C82_primitive_3d",
    "EulerKokkos.C82_pressure_2d",
    "EulerKokkos.C82_primitive_2d",
    "EulerKokkos.C82_flux_3d",
    "EulerKokkos.C82_flux_2d",
    "EulerKokkos.C82_sound_speed_squared",
    "EulerKokkos.C82_floors_disagree",
    "EulerKokkos.C82_viscous_3d",
    "EulerKokkos.C82_viscous_2d",
    "EulerKokkos.C82_dissipation_3d",
    "EulerKokkos.C82_dissipation_2d",
    "EulerKokkos.C82_rigid_motion",
    "EulerKokkos.C82_planar_viscous_differ"
   ],
   "note": "exact arithmetic; the header is not used by the solvers"
  },
  {
   "property": "C83",
   "status": "proved",
   "theorems": [
    "EulerKokkos.C83_step_2d",
    "EulerKokkos.C83_complete_2d",
    "EulerKokkos.C83_step_3d",
    "EulerKokkos.C83_complete_3d"
   ],
   "note": "exact arithmetic; square cells (see C50)"
  },
  {
   "property": "C84",
   "status": "proved",
   "theorems": [
    "EulerKokkos.C84_axes_2d",
    "EulerKokkos.C84_axes_xy_3d",
    "EulerKokkos.C84_axes_xz_3d",
    "EulerKokkos.C84_diagonal_2d"
   ],
   "note": "exact arithmetic; 3D: implementation versions 0 and 1"
  },
  {
   "property": "C85",
   "status": "proved",
   "theorems": [
    "EulerKokkos.C85_in_bounds",
    "EulerKokkos.C85_ghost_fill",
    "EulerKokkos.C85_border_follows_the_shock",
    "EulerKokkos.C85_wedge_states",
    "EulerKokkos.C85_default_states_are_a_shock",
    "EulerKokkos.C85_inflow_primitives",
    "EulerKokkos.C85_jet_states"
   ],
   "note": "ghost fill: any arithmetic with exact multiplication by +-1; geometry and states: exact arithmetic; four variables (2D hydro); the launch is modelled on make_boundary, the repository contains none"
  },
  {
   "property": "C86",
   "status": "proved",
   "theorems": [
    "EulerKokkos.C86_dt_reads_in_bounds_2d",
    "EulerKokkos.C86_dt_gravity_reads_in_bounds_2d",
    "EulerKokkos.C86_dt_reads_in_bounds_3d",
    "EulerKokkos.C86_dt_gravity_reads_in_bounds_3d",
    "EulerKokkos.C86_mhd_dt_reads_in_bounds_2d",
    "EulerKokkos.C86_mhd_dt_reads_in_bounds_3d",
    "EulerKokkos.C86_pack_in_bounds_2d",
    "EulerKokkos.C86_unpack_in_bounds_2d",
    "EulerKokkos.C86_pack_in_bounds_3d",
    "EulerKokkos.C86_unpack_in_bounds_3d",
    "EulerKokkos.C86_message_fits_2d",
    "EulerKokkos.C86_message_fits_3d",
    "EulerKokkos.C86_wedge_in_bounds"
   ],
   "note": "any arithmetic; buffer extents as allocated by the constructor of SolverBase; MPI itself and Kokkos padding are outside the model"
  },
  {
   "property": "C87",
   "status": "proved",
   "theorems": [
    "EulerKokkos.C87_domain_of_dependence_2d",
    "EulerKokkos.C87_domain_of_dependence_3d",
    "EulerKokkos.C87_mhd_domain_of_dependence_2d_v0",
    "EulerKokkos.C87_mhd_domain_of_dependence_2d",
    "EulerKokkos.C87_mhd_domain_of_dependence_3d",
    "EulerKokkos.C87_perturbation_stays_local_2d",
    "EulerKokkos.C87_mhd_perturbation_stays_local_3d"
   ],
   "note": "given time steps (compute_dt is global and couples all cells); any arithmetic for hydro versions 0 and 1 and MHD version 0, exact additions for the atomic versions; the gravity fields of the two runs are equal"
  },
  {
   "property": "C88",
   "status": "proved",
   "theorems": [
    "EulerKokkos.C88_options",
    "EulerKokkos.C88_gravity_option",
    "EulerKokkos.C88_restart_hydro_2d",
    "EulerKokkos.C88_restart_hydro_3d",
    "EulerKokkos.C88_restart_mhd_2d",
    "EulerKokkos.C88_restart_mhd_3d",
    "EulerKokkos.C88_reset_hydro_2d",
    "EulerKokkos.C88_reset_hydro_3d",
    "EulerKokkos.C88_reset_mhd_2d",
    "EulerKokkos.C88_reset_mhd_3d"
   ],
   "note": "exact arithmetic, serial build; first run must have reached tend (as in C67); with gravity a restart loses the field (C67_gravity_lost_2d)"
  },
  {
   "property": "C89",
   "status": "proved",
   "theorems": [
    "EulerKokkos.C89_units_2d",
    "EulerKokkos.C89_units_3d",
    "EulerKokkos.C89_pressure_floor_3d"
   ],
   "note": "exact arithmetic; complete runs; 3D versions 0 and 1 only for changes of units that keep densities (the claim is false otherwise, C89_pressure_floor_3d)"
  },
  {
   "property": "C90",
   "status": "proved",
   "theorems": [
    "EulerKokkos.C90_jump_conditions",
    "EulerKokkos.C90_contact_exact",
    "EulerKokkos.C90_tangential_exact",
    "EulerKokkos.C90_rotational_exact",
    "EulerKokkos.C90_rest_2d",
    "EulerKokkos.C90_rest_3d"
   ],
   "note": "exact arithmetic; states that are not switch-like"
  },
  {
   "property": "C91",
   "status": "proved",
   "theorems": [
    "EulerKokkos.C91_solvers",
    "EulerKokkos.C91_reversed_2d",
    "EulerKokkos.C91_reversed_3d"
   ],
   "note": "exact arithmetic; complete runs of the serial solvers"
  },
  {
   "property": "C92",
   "status": "proved",
   "theorems": [
    "EulerKokkos.C92_planar_run",
    "EulerKokkos.C92_planar_complete"
   ],
   "note": "exact arithmetic; in versions 0 and 1 of the 3D solver the pressure floor differs from that of the 2D solver, so the claim carries the condition that no floor acts"
  },
  {
   "property": "C93",
   "status": "proved",
   "theorems": [
    "EulerKokkos.C93_sizes",
    "EulerKokkos.C93_ghosts_2d",
    "EulerKokkos.C93_ghosts_3d",
    "EulerKokkos.C93_borders_2d",
    "EulerKokkos.C93_borders_3d",
    "EulerKokkos.C93_file_buffers",
    "EulerKokkos.C93_safe_3d",
    "EulerKokkos.C93_thin_grid_overflows"
   ],
   "note": "signed 32-bit overflow is an undefined result (none); the index arithmetic listed in Model/Int32.lean"
  },
  {
   "property": "C94",
   "status": "proved",
   "theorems": [
    "EulerKokkos.C94_hydro_2d",
    "EulerKokkos.C94_hydro_3d",
    "EulerKokkos.C94_mhd_2d",
    "EulerKokkos.C94_mhd_3d",
    "EulerKokkos.C94_continues_serial_hydro_2d",
    "EulerKokkos.C94_continues_serial_hydro_3d",
    "EulerKokkos.C94_continues_serial_mhd_2d",
    "EulerKokkos.C94_continues_serial_mhd_3d",
    "EulerKokkos.C94_continues_mpi_hydro_2d",
    "EulerKokkos.C94_continues_mpi_hydro_3d",
    "EulerKokkos.C94_continues_mpi_mhd_2d",
    "EulerKokkos.C94_continues_mpi_mhd_3d",
    "EulerKokkos.C94_restarts"
   ],
   "note": "exact arithmetic; HDF5 files of the interior cells in one piece"
  },
  {
   "property": "C95",
   "status": "proved",
   "theorems": [
    "EulerKokkos.C95_hydro_2d",
    "EulerKokkos.C95_hydro_3d",
    "EulerKokkos.C95_mhd_2d",
    "EulerKokkos.C95_mhd_3d",
    "EulerKokkos.C95_cell_count",
    "EulerKokkos.C95_large_grids_overflow",
    "EulerKokkos.C95_files_2d",
    "EulerKokkos.C95_files_3d"
   ],
   "note": "Uhost, the mirror of U on the host, is not counted by the program and not by the specification; the size_t part of the sums is exact"
  },
  {
   "property": "C96",
   "status": "proved",
   "theorems": [
    "EulerKokkos.C96_books_hydro",
    "EulerKokkos.C96_books_mhd",
    "EulerKokkos.C96_closed_box_2d",
    "EulerKokkos.C96_closed_box_3d",
    "EulerKokkos.C96_mhd_2d",
    "EulerKokkos.C96_mhd_3d"
   ],
   "note": "exact arithmetic"
  },
  {
   "property": "C97",
   "status": "proved",
   "theorems": [
    "EulerKokkos.C97_hydro_2d",
    "EulerKokkos.C97_hydro_3d",
    "EulerKokkos.C97_mhd_2d",
    "EulerKokkos.C97_mhd_3d",
    "EulerKokkos.C97_solenoidal_2d",
    "EulerKokkos.C97_solenoidal_3d"
   ],
   "note": "exact arithmetic; without gravity; boundary conditions named in the file"
  },
  {
   "property": "C98",
   "status": "proved",
   "theorems": [
    "EulerKokkos.C98_times",
    "EulerKokkos.C98_every_run",
    "EulerKokkos.C98_phases",
    "EulerKokkos.C98_shares_hydro",
    "EulerKokkos.C98_shares_mhd",
    "EulerKokkos.C98_io",
    "EulerKokkos.C98_io_share_unbounded",
    "EulerKokkos.C98_perf_2d",
    "EulerKokkos.C98_perf_3d"
   ],
   "note": "readings of the clock and their sums are exact; the calls of one process; the calls on timers are modelled beside the run, not interleaved with its kernels"
  },
  {
   "property": "C99",
   "status": "proved",
   "theorems": [
    "EulerKokkos.C99_implode",
    "EulerKokkos.C99_blast_diagonal",
    "EulerKokkos.C99_blast_left_right",
    "EulerKokkos.C99_blast_up_down",
    "EulerKokkos.C99_quadrants",
    "EulerKokkos.C99_gresho",
    "EulerKokkos.C99_vortex",
    "EulerKokkos.C99_rayleigh_taylor",
    "EulerKokkos.C99_implode_3d",
    "EulerKokkos.C99_blast_3d",
    "EulerKokkos.C99_blast_mirrors_3d",
    "EulerKokkos.C99_mhd_implode",
    "EulerKokkos.C99_mhd_blast"
   ],
   "note": "exact arithmetic; the 2D and 3D serial hydro programs and the 2D MHD program (implosion and blast wave about the diagonal); fresh runs"
  },
  {
   "property": "C100",
   "status": "proved",
   "theorems": [
    "EulerKokkos.C100_hydro_2d",
    "EulerKokkos.C100_hydro_3d",
    "EulerKokkos.C100_mhd_2d",
    "EulerKokkos.C100_mhd_3d",
    "EulerKokkos.C100_implode",
    "EulerKokkos.C100_blast_diagonal",
    "EulerKokkos.C100_blast_left_right",
    "EulerKokkos.C100_blast_up_down",
    "EulerKokkos.C100_quadrants",
    "EulerKokkos.C100_gresho",
    "EulerKokkos.C100_vortex",
    "EulerKokkos.C100_rayleigh_taylor",
    "EulerKokkos.C100_implode_3d",
    "EulerKokkos.C100_blast_3d",
    "EulerKokkos.C100_blast_mirrors_3d",
    "EulerKokkos.C100_mhd_implode",
    "EulerKokkos.C100_mhd_blast"
   ],
   "note": "exact arithmetic; fresh runs; problems without random numbers; named boundary conditions"
  },
  {
   "property": "C101",
   "status": "proved",
   "theorems": [
    "EulerKokkos.C101_progress",
    "EulerKokkos.C101_nlog_zero",
    "EulerKokkos.C101_program"
   ],
   "note": "the serial program; law-free arithmetic; the numbers printed, not their formatting"
  },
  {
   "property": "C102",
   "status": "proved",
   "theorems": [
    "EulerKokkos.C102_time_step",
    "EulerKokkos.C102_reproducible",
    "EulerKokkos.C102_one_outcome",
    "EulerKokkos.C102_run_from_state"
   ],
   "note": "any arithmetic with the exact facts MaxLaws (listed in Spec/FloatMax.lean; proved for the reals and for a rounding fixed point arithmetic with a NaN, and in C105 for every binary IEEE 754 format); fresh runs; hydro versions 0 and 1, MHD version 0; restarts from the state after loading"
  },
  {
   "property": "C103",
   "status": "proved",
   "theorems": [
    "EulerKokkos.C103_one_outcome_from",
    "EulerKokkos.C103_reproducible",
    "EulerKokkos.C103_same_states"
   ],
   "note": "as C102; same process grid, build and memory layout in both executions; MPI_Allreduce combines in rank order"
  },
  {
   "property": "C104",
   "status": "proved",
   "theorems": [
    "EulerKokkos.C104_time_step_hydro_2d",
    "EulerKokkos.C104_time_step_hydro_3d",
    "EulerKokkos.C104_time_step_mhd_2d",
    "EulerKokkos.C104_time_step_mhd_3d",
    "EulerKokkos.C104_run_hydro_2d",
    "EulerKokkos.C104_run_hydro_3d",
    "EulerKokkos.C104_run_mhd_2d",
    "EulerKokkos.C104_run_mhd_3d",
    "EulerKokkos.C104_program",
    "EulerKokkos.C104_exact_moves_hydro_2d",
    "EulerKokkos.C104_exact_moves_hydro_3d",
    "EulerKokkos.C104_exact_moves_mhd_2d",
    "EulerKokkos.C104_exact_moves_mhd_3d"
   ],
   "note": "any arithmetic with MaxLaws, DivLaws and SignLaws (proved for the reals and for a rounding fixed point arithmetic with a NaN, and in C105 for every binary IEEE 754 format); SerialMoves (every block has a cell of positive rate at every step of the serial run) is a hypothesis, proved in exact arithmetic; fresh runs without random numbers; hydro versions 0 and 1, MHD version 0"
  },
  {
   "property": "C105",
   "status": "proved",
   "theorems": [
    "EulerKokkos.C105_serial",
    "EulerKokkos.C105_mpi",
    "EulerKokkos.C105_mpi_is_serial",
    "EulerKokkos.C105_alive_moves_2d",
    "EulerKokkos.C105_alive_moves_3d",
    "EulerKokkos.C105_dead_block",
    "EulerKokkos.C105_mpi_hydro",
    "EulerKokkos.C105_gravity_rate_2d",
    "EulerKokkos.C105_gravity_rate_3d"
   ],
   "note": "IEEE 754 rounding to nearest even (and any monotone odd rounding onto a grid), signed zeros, infinities, overflow, underflow, NaN; one NaN value, fmax and fmin on zeros of opposite sign take a fixed one, no contraction to fused multiply-add, pow/sin/cos/... arbitrary deterministic functions; rates of hydro cells with and without gravity here, of MHD cells in C106; otherwise as C102 to C104"
  },
  {
   "property": "C106",
   "status": "proved",
   "theorems": [
    "EulerKokkos.C106_guarded",
    "EulerKokkos.C106_nan_iff",
    "EulerKokkos.C106_alive_2d",
    "EulerKokkos.C106_alive_3d",
    "EulerKokkos.C106_witness",
    "EulerKokkos.C106_dead_domain_2d",
    "EulerKokkos.C106_dead_domain_3d",
    "EulerKokkos.C106_hlld_right",
    "EulerKokkos.C106_hll_nan",
    "EulerKokkos.C106_uniform_gas"
   ],
   "note": "double precision, rounding to nearest even, no contraction to fused multiply-add; the sound state without a speed is one concrete state (there are many); the consequences are stated for any states without a speed; C106_alive gives the cells that have one"
  },
  {
   "property": "C107",
   "status": "proved",
   "theorems": [
    "EulerKokkos.C107_rest_step",
    "EulerKokkos.C107_rest_steps",
    "EulerKokkos.C107_rest_run",
    "EulerKokkos.C107_flat_blast_2d",
    "EulerKokkos.C107_flat_blast_3d",
    "EulerKokkos.C107_flat_blast_mpi_2d",
    "EulerKokkos.C107_flat_blast_mpi_3d",
    "EulerKokkos.C107_dt",
    "EulerKokkos.C107_main",
    "EulerKokkos.C107_mpi_2d",
    "EulerKokkos.C107_mpi_3d",
    "EulerKokkos.C107_dt_3d",
    "EulerKokkos.C107_main_3d",
    "EulerKokkos.C107_rest_step_3d",
    "EulerKokkos.C107_rest_steps_3d",
    "EulerKokkos.C107_rest_run_3d"
   ],
   "note": "double precision, rounding to nearest even, no contraction to fused multiply-add; 2D and 3D, the iterative Riemann solver, HLLC, LLF and (2D) HLL, no gravity, versions 0 and 1; gas above the floors and short of overflow and underflow (CalmGas, CalmStep); the sign of a zero momentum may change; MPI: blocks at least as wide as the ghost layer, finite positive Courant number"
  }
 ]
}