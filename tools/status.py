STATUS={
 'C01':('proved','flat index <-> coordinates, 2D and 3D, all sizes'),
 'C02':('proved','any arithmetic, any interleaving of single memory operations; whole step and each kernel'),
 'C03':('proved','exact additions (the schedule dependence in IEEE is rounding only); covers the kernels of version 2'),
 'C04':('proved','versions 0 and 1 bit for bit for any arithmetic with exact multiplication by +-1; version 2 in exact arithmetic; runs of any length'),
 'C05':('proved','exact arithmetic; balance for any boundary, conservation for periodic boxes, any number of steps, all versions'),
 'C06':('proved','every access of every kernel on every path, any grid with at least one cell'),
 'C07':('proved',''),
 'C08':('proved',''),
 'C09':('proved','includes the overflow of the 3D bound for thin grids (C09_bound_overflows_thin_grid), a defect of the code'),
 'C29':('proved','finding: version 1 + gravity predictor differs from versions 0/2 in 3D (C29_version1_gravity_differs_3d)'),
 'C30':('proved','exact arithmetic; balance for any boundary, conservation for periodic boxes, runs of any length'),
 'C31':('proved','every access of every kernel on every path, any grid with at least one cell'),
 'C18':('proved','exact arithmetic, all states'),
 'C19':('proved','exact arithmetic'),
 'C20':('proved','exact arithmetic; llf, hll (2D), hllc, approx'),
 'C21':('proved','exact arithmetic; llf, hll (2D), hllc'),
 'C22':('proved','exact arithmetic; runs of any length, all versions, 2D and 3D'),
 'C24':('proved','exact arithmetic; every reduction order; independence of the decomposition'),
 'C25':('proved','exact arithmetic; every reduction order'),
 'C26':('proved','exact arithmetic; kernel level, every schedule'),
 'C23':('proved','exact arithmetic; whole step, all versions'),
 'C32':('proved','finding: riemann=hlld leaves the flux uninitialised, also riemann=hll in 3D'),
 'C13':('proved','exact arithmetic; any solver with non-negative dt, hydro solvers unconditionally'),
 'C14':('proved','any arithmetic and solver; completion for the hydro solvers (nlog != 0, otherwise % 0 is undefined)'),
 'C15':('proved','exact arithmetic; refinement of the whole program to a sequential algorithm, 2D and 3D; serial build'),
 'C16':('proved','any arithmetic and solver'),
 'C17':('proved','exact arithmetic, any solver'),

 'C10': ('proved', 'Every complete execution (any schedule, any buffering) of the modelled make_boundaries_mpi on any process grid with blocks at least ghostWidth wide and the four named boundary conditions; an out-of-enum boundary value is covered only with one process along the axis (the code then wraps inside the local block, DESIGN.md findings).'),
 'C12': ('proved', 'Asynchronous machine with per-(source,destination,tag) FIFO channels; progress is proved for the rendezvous (unbuffered) mode.'),
 'C37': ('proved', 'MPI_Cart_rank/coords are modelled as row-major with periodic wrap, as the MPI standard prescribes.'),
 'C38': ('proved', 'Both Kokkos layouts, 2D and 3D, every schedule of the pack and unpack kernels.'),
 'C11': ('proved', 'One step bit for bit for versions 0/1 (any arithmetic with exact multiplication by +-1), all versions over the reals; whole runs of main over the reals, any interleaving, buffered or rendezvous. Each rank evaluates the loop condition on its own state. Blocks at least ghostWidth wide and the four named boundary conditions. Parallel file writers are modelled as one recorded output per rank.'),
 'C33': ('proved', 'Readers of both builds; setFloat (prints 6 digits) is not modelled. Finding: section names containing a dot can collide (C33_dotted_sections_collide).'),
 'C34': ('proved', 'Every file without NUL bytes is covered (C34_every_file). Finding: an indented line below an entry replaces its value (C34_indented_line_replaces); headings are cut to 49 characters.'),
 'C35': ('proved', 'Finding: the bound on the line length is sharp (C35_long_line_differs).'),
 'C36': ('proved', 'strtof, float rounding and float-to-int conversion are parameters; int arithmetic of the sizes is unbounded (overflow for grids near 2^31 is not modelled).'),
 'C27': ('proved', 'Whole MHD step and runs, all versions. Finding: at absorbing upper sides div B of the last column changes (C27_open_side_defect_2d).'),
 'C39': ('proved', 'version 0 any arithmetic; versions 1/2 exact additions'),
 'C40': ('proved', 'slope_type 1 or 2 and riemann hll, llf or hlld: for other settings the code uses uninitialised values'),
 'C41': ('proved', 'every access of every kernel on every path, any grid with at least one cell'),
 'C42': ('proved', 'exact arithmetic'),
 'C43': ('proved', 'exact arithmetic; definedness (C43_mhd_uniform_defined_2d) for every implementation version. Finding: HLLD computes 0/0 in a uniform medium whose field is normal and dominates the pressure (C52_hlld_degenerate_undefined).'),
 'C28': ('proved', 'Whole MHD step and runs, all versions. Finding: at absorbing upper sides the ghost fill replaces the normal field (C28_open_side_3d).'),
 'C44': ('proved', 'version 0 any arithmetic; versions 1/2 exact additions'),
 'C45': ('proved', 'Versions 0 and 1 agree; version 2 is specified separately because it differs (C45_version_2_z_slope_vanishes). slope_type 1 or 2 and riemann hll, llf or hlld.'),
 'C46': ('proved', 'every access of every kernel on every path, any grid with at least one cell'),
 'C47': ('proved', 'exact arithmetic'),
 'C48': ('proved', 'exact arithmetic; definedness (C48_mhd_uniform_defined_3d) for every implementation version. Finding: HLLD computes 0/0 in a uniform medium whose field is normal and dominates the pressure (C52_hlld_degenerate_undefined).'),
 'C49': ('proved', 'exact arithmetic; physical states (at or above the floors); 3D has no HLL branch (C32)'),
 'C50': ('proved', 'exact arithmetic; square/cubic cells. Finding: for other cells the transverse terms use the wrong mesh size (C50_anisotropic_differs).'),
 'C51': ('proved', 'checked exact arithmetic (rounding and overflow are outside). Every implementation version. Finding: the 3D gravity source divides by the unfloored new density (C51_gravity_zero_density).'),
 'C53': ('proved', 'exact arithmetic'),
 'C54': ('proved', 'exact arithmetic; slope_type 1 or 2, riemann hll, llf or hlld (the others leave the flux uninitialised)'),
 'C52': ('proved', 'checked exact arithmetic (rounding and overflow are outside), every implementation version. Finding: C52_hlld_degenerate_undefined.'),
 'C55': ('proved', 'exact arithmetic, adiabatic (cIso = 0, the only value a run can have). HLLD at regular faces where the guard of the code is silent; findings C55_hlld_guard_misfires, C55_hlld_mirror_fails.'),
 'C56': ('proved', 'initial state in any arithmetic, runs in exact arithmetic; hydro'),
 'C57': ('proved', 'any arithmetic; the random draws are an arbitrary function of the iteration'),
 'C59': ('proved', 'exact arithmetic, serial run, slope_type/riemann as in C54'),
 'C58': ('proved', 'exact arithmetic; the deviations are theorems of their own'),
 'C60': ('proved', 'bit for bit in any arithmetic for one step of version 0; exact arithmetic for the other versions and for whole runs (the global max and the time step are then compared as reals)'),
 'C61': ('proved', 'initial state in any arithmetic, runs in exact arithmetic; all processes read the same problem parameters (for the blast: the same uninitialised bz). Field loop and 3D Brio-Wu along z deviate: C61_field_loop_differs, C61_brio_wu_z'),
 'C62': ('proved', 'exact arithmetic; the problems of C61'),
 'C63': ('proved', 'exact arithmetic; 2D (all versions, by C45) and 3D versions 0 and 1; 3D version 2 reconstructs differently, see C45'),
 'C64': ('proved', 'exact arithmetic and exact library functions; the departures of the code from the prescribed states are separate theorems'),
 'C65': ('proved', 'XML syntax abstracted (attributes and raw bytes modelled); the distributed statement takes the block files of C11/C56/C60; large-grid failure and header mismatch are separate theorems'),
 'C66': ('proved', 'the HDF5 library is modelled from its manual (hyperslab selection, row-major transfer); whole-array options proved in 2D and 3D, stacked and allghost files in 2D'),
 'C67': ('proved', 'exact arithmetic (the time step is an exact maximum); file contents as in C66; with gravity the theorem asks for the same gravity field, and the loss of the field in the code is a separate theorem'),
 'C68': ('proved', 'cells for every number type; divergence, totals and thermal energy in exact arithmetic; the seam, stale ghost (version 0) and uninitialised memory statements in 2D'),
 'C69': ('proved', 'exact arithmetic; shear layers in 2D along y (the x case follows with C23)'),
 'C70': ('proved', 'exact arithmetic (sums are reordered); contents of interior cells of the files'),
 'C71': ('proved', 'exact arithmetic; adiabatic (cIso is 0 in every run)'),
 'C72': ('proved', 'exact arithmetic; riemann=approx is not covered (its Newton iteration is not symmetric in the sides); contents of interior cells of the files'),
 'C73': ('proved', 'exact arithmetic; walls with riemann=approx are not covered'),
 'C74': ('proved', 'exact arithmetic; one step at a time: the new content is positive but may be below the floors; the Courant limits are sufficient, not claimed to be sharp; riemann=approx is not covered'),
 'C78': ('proved', 'the XML text is modelled as the tree of grids and attributes; the race of the processes writing the same text is not modelled'),
 'C79': ('proved', 'exact arithmetic for the end-to-end theorems; files that do not restart; the two MHD blast members the code leaves uninitialised are a parameter'),
 'C80': ('proved', 'exact arithmetic; no restart; number of processes = mx*my*mz; in 2D mz=1; MHD blast: the members the code leaves uninitialised must agree'),
 'C77': ('proved', 'exact arithmetic; gravity uniform (the only kind the code sets up)'),
 'C76': ('proved', 'exact arithmetic; no gravity (with gravity the 2D and 3D source terms differ in the density floor)'),
 'C75': ('proved', 'exact arithmetic; hydro'),
 'C81': ('proved', 'exact arithmetic; the header is not used by the solvers and names an undeclared constant IT, read as IY'),
 'C82': ('proved', 'exact arithmetic; the header is not used by the solvers'),
 'C83': ('proved', 'exact arithmetic; square cells (see C50)'),
 'C84': ('proved', 'exact arithmetic; 3D: implementation versions 0 and 1'),
 'C85': ('proved', 'ghost fill: any arithmetic with exact multiplication by +-1; geometry and states: exact arithmetic; four variables (2D hydro); the launch is modelled on make_boundary, the repository contains none'),
 'C86': ('proved', 'any arithmetic; buffer extents as allocated by the constructor of SolverBase; MPI itself and Kokkos padding are outside the model'),
 'C87': ('proved', 'given time steps (compute_dt is global and couples all cells); any arithmetic for hydro versions 0 and 1 and MHD version 0, exact additions for the atomic versions; the gravity fields of the two runs are equal'),
 'C88': ('proved', 'exact arithmetic, serial build; first run must have reached tend (as in C67); with gravity a restart loses the field (C67_gravity_lost_2d)'),
 'C89': ('proved', 'exact arithmetic; complete runs; 3D versions 0 and 1 only for changes of units that keep densities (the claim is false otherwise, C89_pressure_floor_3d)'),
 'C90': ('proved', 'exact arithmetic; states that are not switch-like'),
 'C91': ('proved', 'exact arithmetic; complete runs of the serial solvers'),
 'C92': ('proved', 'exact arithmetic; in versions 0 and 1 of the 3D solver the pressure floor differs from that of the 2D solver, so the claim carries the condition that no floor acts'),
 'C93': ('proved', 'signed 32-bit overflow is an undefined result (none); the index arithmetic listed in Model/Int32.lean'),
 'C94': ('proved', 'exact arithmetic; HDF5 files of the interior cells in one piece'),
 'C95': ('proved', 'Uhost, the mirror of U on the host, is not counted by the program and not by the specification; the size_t part of the sums is exact'),
 'C96': ('proved', 'exact arithmetic'),
 'C97': ('proved', 'exact arithmetic; without gravity; boundary conditions named in the file'),
 'C98': ('proved', 'readings of the clock and their sums are exact; the calls of one process; the calls on timers are modelled beside the run, not interleaved with its kernels'),
 'C99': ('proved', 'exact arithmetic; the 2D and 3D serial hydro programs and the 2D MHD program (implosion and blast wave about the diagonal); fresh runs'),
 'C100': ('proved', 'exact arithmetic; fresh runs; problems without random numbers; named boundary conditions'),
 'C101': ('proved', 'the serial program; law-free arithmetic; the numbers printed, not their formatting'),
 'C102': ('proved', 'any arithmetic with the exact facts MaxLaws (listed in Spec/FloatMax.lean; proved for the reals and for a rounding fixed point arithmetic with a NaN, and in C105 for every binary IEEE 754 format); fresh runs; hydro versions 0 and 1, MHD version 0; restarts from the state after loading'),
 'C103': ('proved', 'as C102; same process grid, build and memory layout in both executions; MPI_Allreduce combines in rank order'),
 'C104': ('proved', 'any arithmetic with MaxLaws, DivLaws and SignLaws (proved for the reals and for a rounding fixed point arithmetic with a NaN, and in C105 for every binary IEEE 754 format); SerialMoves (every block has a cell of positive rate at every step of the serial run) is a hypothesis, proved in exact arithmetic; fresh runs without random numbers; hydro versions 0 and 1, MHD version 0'),
 'C105': ('proved', 'IEEE 754 rounding to nearest even (and any monotone odd rounding onto a grid), signed zeros, infinities, overflow, underflow, NaN; one NaN value, fmax and fmin on zeros of opposite sign take a fixed one, no contraction to fused multiply-add, pow/sin/cos/... arbitrary deterministic functions; rates of hydro cells with and without gravity here, of MHD cells in C106; otherwise as C102 to C104'),
 'C106': ('proved', 'double precision, rounding to nearest even, no contraction to fused multiply-add; the sound state without a speed is one concrete state (there are many); the consequences are stated for any states without a speed; C106_alive gives the cells that have one'),
 'C107': ('proved', 'double precision, rounding to nearest even, no contraction to fused multiply-add; 2D and 3D, the iterative Riemann solver, HLLC, LLF and (2D) HLL, no gravity, versions 0 and 1; gas above the floors and short of overflow and underflow (CalmGas, CalmStep); the sign of a zero momentum may change; MPI: blocks at least as wide as the ghost layer, finite positive Courant number'),
}
