
M2x='src/muscl/MHDRunFunctors2D.h'; SMx='src/muscl/SolverMHDMuscl.cpp'
p('C39','2D MHD step is schedule independent',
  'For every interleaving of the iterations of every kernel of a 2D MHD time step the final arrays are the same and every run completes: version 0 for any arithmetic (floating point included), versions 1 and 2 (atomic accumulation) with exact additions; any number of steps.',
  'all schedules, memories, dt, grids, run lengths', 'schedules cannot be enumerated', [SMx+': SolverMHDMuscl<2>::godunov_unsplit_impl', M2x])
p('C40','The three MHD implementation versions compute the same time step (2D)',
  'Versions 0, 1 and 2 of the 2D MHD solver compute the same interior state for every input, whatever the schedule and the contents of uninitialised locals, for runs of any length (exact arithmetic); version 0 computes the scheme in any arithmetic with exact multiplication by +-1.',
  'all states, dt sequences, parameters, schedules, grids', 'all states', [SMx+': SolverMHDMuscl<2>::godunov_unsplit_impl', M2x])
p('C41','No out-of-bounds array access in the MHD time step (2D)',
  'Every array element read, written or atomically updated by any iteration of any kernel of a 2D MHD step (all versions) is inside a view allocated by that version.',
  'all grid sizes, kernels, iterations, paths', 'undefined behaviour', [M2x, 'src/muscl/SolverMHDMuscl.h'])
p('C42','MHD time step is conservative (2D)',
  'Over a 2D MHD step the totals of density, energy, momentum and Bz over the interior cells change exactly by the fluxes through the four sides and the totals of the face-centred Bx and By by the differences of the EMF between opposite sides; on a periodic domain all eight totals are unchanged, for any number of steps.',
  'all states, dt sequences, grids, schedules, versions', 'all states', [M2x+': UpdateFunctor2D_MHD, UpdateEmfFunctor2D, ComputeFluxesAndUpdateFunctor2D_MHD'])
p('C43','A uniform MHD state stays uniform (2D)',
  'A uniform state (any values) with periodic or absorbing sides is left unchanged by any number of 2D MHD steps, for every version, schedule and dt; with LLF and HLL no undefined operation occurs, and with HLLD none occurs unless along an axis the magnetic field has no transverse component and B^2 >= gamma p, where the flux is undefined although nothing varies.',
  'all uniform states, dt sequences, grids, schedules, versions', 'all states', [SMx, M2x])

M3x='src/muscl/MHDRunFunctors3D.h'
p('C44','3D MHD step is schedule independent',
  'For every interleaving of the iterations of every kernel of a 3D MHD time step the final arrays are the same and every run completes: version 0 for any arithmetic, versions 1 and 2 (atomic accumulation) with exact additions; any number of steps.',
  'all schedules, memories, dt, grids, run lengths', 'schedules cannot be enumerated', [SMx+': SolverMHDMuscl<3>::godunov_unsplit_impl', M3x])
p('C45','3D MHD implementation versions 0 and 1 compute the same time step; version 2 is determined by the input',
  'Versions 0 and 1 of the 3D MHD solver compute the same interior state, the one prescribed by the constrained-transport MUSCL-Hancock scheme, for every input, whatever the schedule and the contents of uninitialised locals, for runs of any length (exact arithmetic); version 2 always gives the same result too, but of a different scheme: its transverse slope along z vanishes.',
  'all states, dt sequences, parameters, schedules, grids', 'all states', [SMx+': SolverMHDMuscl<3>::godunov_unsplit_impl', M3x])
p('C46','No out-of-bounds array access in the MHD time step (3D)',
  'Every array element read, written or atomically updated by any iteration of any kernel of a 3D MHD step (all versions) is inside a view allocated by that version.',
  'all grid sizes, kernels, iterations, paths', 'undefined behaviour', [M3x, 'src/muscl/SolverMHDMuscl.h'])
p('C47','MHD time step is conservative (3D)',
  'Over a 3D MHD step the totals of density, energy and momentum over the interior cells change exactly by the fluxes through the six sides and the totals of the three face-centred field components by the differences of the EMFs between opposite sides; on a periodic domain all eight totals are unchanged, for any number of steps.',
  'all states, dt sequences, grids, schedules, versions', 'all states', [M3x+': UpdateFunctor3D_MHD, UpdateEmfFunctor3D, ComputeFluxesAndUpdateFunctor3D_MHD'])
p('C48','A uniform MHD state stays uniform (3D)',
  'A uniform state (any values) with periodic or absorbing sides is left unchanged by any number of 3D MHD steps, for every version, schedule and dt; with LLF and HLL no undefined operation occurs, and with HLLD none occurs unless along an axis the magnetic field has no transverse component and B^2 >= gamma p, where the flux is undefined although nothing varies.',
  'all uniform states, dt sequences, grids, schedules, versions', 'all states', [SMx, M3x])
p('C49','The hydro Riemann solvers compute the textbook fluxes',
  'For physical states the LLF, HLL and HLLC options return exactly the Rusanov, HLL and HLLC flux formulas of Toro; when all waves run to one side the returned flux is the Euler flux of the upwind state; an isolated contact or shear discontinuity (equal pressures and normal velocities) is resolved exactly by the approximate and HLLC solvers.',
  'all physical left and right states, gamma > 1, floors', 'all real states', ['src/shared/RiemannSolvers.h: riemann_llf, riemann_hll, riemann_hllc, riemann_approx'])
p('C50','The hydro predictor is the Taylor expansion of the Euler equations',
  'If the cell state and its limited differences are those of a field satisfying the Euler equations at the cell centre, the state predicted for a face is the first-order Taylor expansion of that field at the face centre half a time step later, with the density floored at smallr (square cells; the expansion is wrong for non-square cells).',
  'all states, gradients, dt, mesh sizes, gamma > 1', 'all real states and gradients', ['src/muscl/HydroBaseFunctor2D.h: trace_unsplit_2d_along_dir', 'src/muscl/HydroBaseFunctor3D.h: trace_unsplit_3d_along_dir'])
p('C51','A hydro run never divides by zero or takes the square root of a negative number',
  'Whatever numbers the initial state contains (vacuum, negative pressure, any velocities), every number written by a hydro run (2D with or without gravity, 3D without gravity; every implementation version; every Riemann option of the dimension) - cells, output files, times, time steps - is defined: no division by zero or square root of a negative number ever contributes to it. In 3D with gravity this holds as long as no new density is zero.',
  'all initial states, parameters with gamma > 1 and positive floors and mesh sizes, schedules, run lengths', 'all real states', ['src/shared/RiemannSolvers.h', 'src/muscl/HydroBaseFunctor2D.h', 'src/muscl/HydroBaseFunctor3D.h', 'src/muscl/HydroRunFunctors2D.h', 'src/muscl/HydroRunFunctors3D.h'])

p('C53','The MHD time step is the CFL step of the fast magnetosonic waves',
  'After the preparation of an iteration the local MHD time step returned is exactly cfl divided by the largest, over the interior cells, of the sums over the axes of (|velocity| + fast magnetosonic speed)/spacing of the cell state; it is positive, and with it no fast wave of an interior cell crosses more than the fraction cfl of a cell along any axis, for every reduction order.',
  'all states, parameters with gamma > 1, positive floors and spacings, reduction trees, schedules, versions', 'all states and reduction orders', [SMx+': SolverMHDMuscl::compute_dt_local', 'src/muscl/MHDRunFunctors2D.h: ComputeDtFunctor2D_MHD', M3x+': ComputeDtFunctor3D_MHD', 'src/shared/mhd_utils.h: find_speed_info'])
p('C54','A complete MHD run is the prescribed sequential algorithm',
  'Every complete run of the program with the MHD solver, whatever the schedule, version, ghost contents and uninitialised locals, performs the iterations of the sequential algorithm "fill, CFL step clipped at tEnd, advance, save at the prescribed times" and writes exactly its files: same number, times, numbers and interior data; two runs from the same interior data write the same files; the time grows strictly and never passes tEnd; every run completes. On a periodic domain every file shows the initial totals of all eight variables and the initial discrete divergence of B in every cell.',
  'all initial states, parameters, schedules, run lengths', 'runs of any length', ['src/main.cpp: main', SMx+': SolverMHDMuscl::next_iteration_impl', 'src/shared/SolverBase.cpp: SolverBase::next_iteration, compute_dt, finished, should_save_solution'])

p('C52','An MHD run never divides by zero or takes the square root of a negative number, except HLLD at degenerate faces',
  'Whatever numbers the initial state contains (vacuum, negative pressure, any velocities and fields), every interior number, output file, time and time step of an MHD run (2D and 3D, every implementation version) with the LLF or HLL solver is defined; with HLLD a step is defined if no face is degenerate (rho (S-u)(S-S_M) different from B_n^2 on both sides). HLLD is undefined for a uniform state with a dominant normal field: the guard in the code does not detect it.',
  'all initial states, parameters with gamma > 1 and positive floors and mesh sizes, schedules, run lengths', 'all real states', ['src/shared/RiemannSolvers_MHD.h: riemann_llf, riemann_hll, riemann_hlld, mag_riemann2d_hlld, compute_emf', 'src/muscl/MHDBaseFunctor2D.h', 'src/muscl/MHDBaseFunctor3D.h', SMx])

p('C55','The MHD Riemann solvers compute the textbook fluxes',
  'For states with positive density and pressure the LLF, HLL and HLLD options return the Rusanov, HLL and Miyoshi-Kusano HLLD fluxes of ideal MHD with the averaged normal field, and the edge solver returns the two-dimensional HLLD electric field; between equal states they return the physical flux and u x B; when all waves run to one side the upwind value is returned; reflecting both states reflects the flux (LLF, HLL always; HLLD when the Alfven waves are inside the outer waves), and exchanging the two axes at an edge changes the sign of the field. HLLD deviates from the textbook where its misplaced degeneracy test fires, and its reflection symmetry fails where an Alfven wave overtakes an outer wave.',
  'all states with positive density and pressure, gamma > 1', 'all real states', ['src/shared/RiemannSolvers_MHD.h: riemann_llf, riemann_hll, riemann_hlld, riemann_mhd, mag_riemann2d_hlld, compute_emf', 'src/shared/mhd_utils.h: find_mhd_flux, find_speed_fast'])

p('C56','A distributed hydro run started from a configuration file starts with, and computes, the serial solution',
  'For every hydrodynamic problem that does not use the random perturbation, and for any process grid, the state each process builds at start is its block of the state the serial program builds for the whole grid, ghost cells included (in whatever arithmetic); consequently the output files of the distributed run, started from the same configuration file, are the blocks of the serial ones. With the random perturbation the two differ, because the draws depend on the schedule and the decomposition.',
  'all problems and parameters, process grids, schedules, arithmetics (for the initial state)', 'all process grids and problems', ['src/muscl/HydroInitFunctors2D.h', 'src/muscl/HydroInitFunctors3D.h', SMx+': SolverHydroMuscl::init', 'src/shared/HydroParams.cpp: setup_mpi', 'src/main.cpp'])

p('C57','Setting up a problem gives one result and stays inside the arrays',
  'For every hydro and MHD initial condition, every grid and every schedule of the threads, the start-up kernels leave exactly one result and touch only allocated cells; the Rayleigh-Taylor problem with gravity disabled stores out of bounds in every iteration.',
  'all problems, parameters, grids, schedules, arithmetics; Brio-Wu with a direction in the documented range', 'all schedules and grid sizes', ['src/muscl/HydroInitFunctors2D.h', 'src/muscl/HydroInitFunctors3D.h', 'src/muscl/MHDInitFunctors2D.h', 'src/muscl/MHDInitFunctors3D.h', SMx])

p('C59','The provided MHD problems start, and stay, divergence free',
  'On a periodic domain every MHD initial condition whose parameters describe a divergence-free field (same field inside and outside a blast or an implosion, field loop inside the box) has discrete divergence of B exactly zero in every cell after the first boundary fill, and so has every output file of the run.',
  'all problems, parameters, grids, schedules, run lengths, cells', 'all grids, parameters and run lengths', ['src/muscl/MHDInitFunctors2D.h', 'src/muscl/MHDInitFunctors3D.h', SMx, 'src/main.cpp'])

p('C58','The provided hydro problems start from the states they prescribe, and the two vortices are exact solutions',
  'Every cell of the initial state holds the conservative variables of the primitive state the problem prescribes at the centre of the cell (blast, four quadrants, both Kelvin-Helmholtz variants, Gresho and isentropic vortices in 2D, implosion without velocities, Rayleigh-Taylor without perturbation), and the conversion used by the solver recovers it. The isentropic vortex is the state at time 0 of a smooth solution of the Euler equations, and the Gresho vortex with unit density is a steady solution. Deviations: the implosion stores velocities as momenta, Rayleigh-Taylor omits the kinetic energy, the 3D Gresho vortex sets the third momentum to the second, quadrant configuration 18 falls through to the default, Kelvin-Helmholtz without a perturbation stores nothing.',
  'all parameters, grids, cells, schedules', 'all points, parameters and grids', ['src/muscl/HydroInitFunctors2D.h', 'src/muscl/HydroInitFunctors3D.h', 'src/shared/problems/initRiemannConfig2d.cpp', 'src/shared/problems/initRiemannConfig2d.h'])

p('C60','A distributed MHD run is the serial MHD run',
  'For every process grid, memory layout, message schedule and buffering, an MPI run of the 2D and 3D MHD solvers started from the blocks of a global state terminates without deadlock, leaves no message behind, performs as many iterations as the serial run on the global grid, and every rank holds and writes exactly its block of the state and of the files of the serial run.',
  'all process grids, block sizes, layouts, message and thread schedules, states, named boundary conditions, run lengths', 'all process grids and all interleavings', [SMx, 'src/muscl/SolverMHDMuscl.h', 'src/shared/SolverBase.cpp', 'src/shared/mpiBorderUtils.h', 'src/main.cpp'])

p('C61','The distributed MHD initial state is the serial one, and so is the run from it',
  'For every process grid, the MHD initial states computed by the processes for their blocks (blast, implosion, Brio-Wu, Orszag-Tang, Kelvin-Helmholtz without random perturbation, rotor) are the blocks of the initial state the serial build computes, and the complete runs that start there agree in time, iterations and files. Deviations: the 2D field loop has a different z momentum in every cell as soon as the grid is divided; the 3D Brio-Wu tube along z is displaced by (ny-nz) cells per process.',
  'all process grids, block sizes, parameters, problems, schedules, cells', 'all process grids, sizes and parameters', ['src/muscl/MHDInitFunctors2D.h', 'src/muscl/MHDInitFunctors3D.h', SMx, 'src/main.cpp'])

p('C62','Distributed MHD runs keep div B zero across process boundaries and conserve the totals',
  'On a periodic domain, the files written by the processes of a distributed MHD run, put together, are files of the whole grid in which the discrete divergence of B is exactly zero in every cell, including the cells with faces owned by two processes, and all files of a run have the same totals of mass, energy, momenta and magnetic field.',
  'all process grids, block sizes, problems of C61, layouts, message and thread schedules, run lengths, cells', 'all process grids and interleavings', ['src/muscl/MHDInitFunctors2D.h', 'src/muscl/MHDInitFunctors3D.h', SMx, 'src/shared/mpiBorderUtils.h', 'src/main.cpp'])

p('C63','MHD reconstruction is the Taylor expansion of the ideal MHD equations',
  'If the cell-centred primitive variables and the face-centred magnetic field are samples of a field that is affine in space and satisfies the ideal MHD equations (conservation form, divergence-free field), every face state and every edge state computed by the MHD reconstruction with slope_type 1 or 2 is the first-order expansion of that field at the face or edge centre, half a time step later, with density and pressure raised to the floors. The time derivative is taken at the cell centre, except for the field component normal to a face, where it is taken at the centre of that face. Cells may have any aspect ratio.',
  'all affine solutions, states, gradients, mesh sizes, time steps', 'all states and gradients', [M2x, M3x, 'src/muscl/MHDBaseFunctor2D.h', 'src/muscl/MHDBaseFunctor3D.h'])

p('C64','MHD runs start from the state the test problem prescribes',
  'Before the first step every cell (ghost cells included) holds the conservative variables - with the energy including the magnetic energy - of the state the chosen MHD problem prescribes at the centre of the cell: blast, Brio-Wu tube along any axis, Kelvin-Helmholtz, rotor, Orszag-Tang vortex around any axis (uniform density and pressure in spite of the staggered field), field loop (discrete curl of the potential, pressure 1 with the averaged face field). The cases in which the code departs from that are characterised exactly: implosion and 3D rotor store velocities as momenta, the 2D rotor tapers inside the disk, the 2D field loop omits the third component from the energy, the random 3D Kelvin-Helmholtz problem has no field, the blast reads bz where by is meant.',
  'all grid sizes, parameters of the problems, random numbers, schedules, cells', 'all grids and problem parameters', ['src/muscl/MHDInitFunctors2D.h', 'src/muscl/MHDInitFunctors3D.h', SMx, 'src/shared/problems/BlastParams.h'])
p('C65','VTK files give back the computed state, serial and distributed',
  'Reading the .vti files as the VTK format prescribes (x fastest, appended blocks with a 64-bit byte count at the announced offset, announced byte order and number type) returns for every variable and every cell of the domain exactly the value the solver holds in the corresponding interior cell (the six printed digits in ascii mode); ghost cells are not visible; cell centres computed from Origin and Spacing are the points the initial condition was evaluated at. No saved state is overwritten: different output numbers and ranks have different names. Reading the pieces of a distributed run through the .pvti header gives for every global cell what the serial file would give. Exceptions: in 3D a variable whose number times nx*ny*nz reaches 2^31 cannot be read at all (int overflow in the offset), and the 2D header announces a z range the pieces do not have.',
  'all grid sizes (below the int limit), process grids, states, byte orders, number formats, cells, variables, output histories and orders of writing', 'all grids and decompositions', ['src/utils/io/IO_VTK.cpp','src/utils/io/IO_ReadWrite.cpp','src/shared/SolverBase.cpp'])

p('C66','HDF5 files hold the computed field and reloading them restores it',
  'A saved .h5 file has, for every conserved variable of the solver, a dataset under its name with the extent of the global grid, slowest dimension first, whose entries are the values of the interior cells, and carries the output number and the time; this holds for one process and for any process grid, whatever the memory layout, the contents of the scratch buffers and the timing of the collective writes. Loading the file at the same resolution puts exactly these values back in the interior cells of every process, also on a different process grid (each process gets its block) and with a different memory layout. With the ghost options: the serial file holds the whole array, and loading restores it; with allghostIncluded every process gets its own ghost cells back. Exception: with ghostIncluded and several processes the pieces overlap and an interior cell may hold the stale ghost value of a neighbour.',
  'all grid sizes, process grids before and after, states, memory layouts, options, orders of the collective writes', 'all grids, decompositions and write orders', ['src/utils/io/IO_HDF5.h','src/utils/io/IO_ReadWrite.cpp'])

p('C67','A restarted run continues the run it was started from',
  'If a run that ended at tEnd is restarted from any of the HDF5 files it wrote, with the same parameters, the restarted run ends at the same time with the same interior state, and (if the file is not the last one and no file is due at once) writes the same files: same numbers, times and contents, from the one it starts from on. If the file is the last one, or a file is written in every iteration, the file it starts from is written twice and the later numbers are one larger. A run of a iterations followed by a restarted run of at most b iterations ends with the time and state of the run allowed a + b iterations. All this holds for hydro and MHD, in 2D and 3D, every implementation version, every memory layout and schedule; for distributed runs also on a different process grid. Exception: init_restart does not set the gravity field, so that a restarted run with gravity makes steps of the scheme without gravity.',
  'all states, runs, files of the run, restart points, process grids before and after, schedules, layouts, contents of uninitialised memory', 'all histories and restart points', ['src/muscl/SolverHydroMuscl.h: init_restart','src/muscl/SolverMHDMuscl.h: init_restart','src/utils/io/IO_ReadWrite.cpp: load_data_impl','src/shared/SolverBase.cpp','src/main.cpp'])

p('C68','Restarting at twice the resolution refines the saved state and keeps div B',
  'With restart_upscale a file with ghost cells written on the half-size grid is loaded so that every fine cell gets the value of its parent, and the face-centred field components the average of the two coarse faces on fine faces inside a coarse cell. Totals of mass, momenta and energy are kept, and the discrete divergence of B in every fine cell is that of its parent; on a periodic domain, as the first step sees it, except at the seams, where it is off by the difference between the first face and the ghost face stored in the file over the cell size; that ghost face is the value before the last step. The mean thermal energy of the children is lower than that of the parent by 1/32 of the squared jumps of the normal field, and may become negative. A file without ghost cells gives the same interior cells except that the normal field on the fine faces inside the last coarse cells depends on memory that was never written.',
  'all grid sizes, states, layouts, contents of uninitialised memory, cells', 'all grids and states', ['src/utils/io/IO_HDF5.h: Load_HDF5::copy_buffer, load','src/muscl/SolverMHDMuscl.h: init_restart'])

p('C69','Contact discontinuities at rest and shear layers are preserved exactly by approx and hllc',
  'With riemann=approx or riemann=hllc and no gravity, a fluid at rest under uniform pressure with any distribution of density (2D and 3D) stays exactly as it is for any number of steps: no mass, momentum or energy moves and no density jump is smeared. In 2D so does a shear layer (density and tangential velocity vary across the layer only). Two states at rest at the same pressure exchange only pressure through a face. The llf and hll solvers do not have the property: across a density jump their mass flux is never zero.',
  'all density fields at or above the floors, pressures, boundary conditions, slope types, grids, time steps, implementation versions, schedules, run lengths', 'all density fields and run lengths', ['src/shared/RiemannSolvers.h: riemann_approx, riemann_hllc','src/muscl/HydroRunFunctors2D.h','src/muscl/HydroRunFunctors3D.h'])

p('C70','Complete hydro runs do not depend on the names of the axes',
  'Exchange two axes in the parameters (sizes, spacings, boundary conditions), in the initial state and in the gravity field of a hydro run: the complete run, time steps included, makes the same number of iterations, ends at the same time and writes the same files up to the exchange, whatever the schedules and the contents of uninitialised memory. In 3D the exchange x-z with gravity needs implementation version 0 or 2 (version 1 treats z faces differently). A 2D state symmetric about the diagonal of a square domain (the implosion problem) stays so in every file.',
  'all grids, parameters, boundary conditions, solvers, initial states, gravity fields, schedules, run lengths', 'all states, sizes and run lengths', [SMx,'src/muscl/HydroRunFunctors2D.h','src/muscl/HydroRunFunctors3D.h','src/shared/BoundariesFunctors.h','src/main.cpp'])

p('C71','MHD steps work with the primitive variables of the stored conserved variables',
  'When an MHD step begins, the primitive variables of every cell except the last ghost layer are those of its contents: density at least the floor, velocity = momentum/density, field = mean of the two faces, pressure = (gamma-1) times (total minus kinetic minus magnetic energy), at least the floor; density and pressure are positive for any contents. Contents made from a state above the floors give back that state exactly in 3D, and in 2D if the third field component vanishes; otherwise the 2D step works with half of that component and a pressure too large by 3/8 (gamma-1) Bz^2.',
  'all cell contents, face fields, parameters, schedules, cells', 'all real states', [M2x,M3x,'src/muscl/MHDBaseFunctor2D.h','src/muscl/MHDBaseFunctor3D.h'])

p('C72','Complete hydro runs do not depend on the direction of an axis',
  'Reverse the direction of an axis in a hydro run: mirror the initial state (with the velocity component along the axis reversed), the gravity field, and exchange the boundary conditions of the two sides. The complete run, time steps included, makes the same number of iterations, ends at the same time and writes the same files up to the reversal, whatever the schedules and the contents of uninitialised memory, for the solvers llf, hll (2D) and hllc. In 3D reversing z with gravity needs implementation version 0 or 2. A state that equals its mirror image stays so in every file.',
  'all grids, parameters, boundary conditions, initial states, gravity fields, schedules, run lengths', 'all states, sizes and run lengths', [SMx,'src/muscl/HydroRunFunctors2D.h','src/muscl/HydroRunFunctors3D.h','src/shared/BoundariesFunctors.h','src/shared/RiemannSolvers.h','src/main.cpp'])

p('C73','Closed boxes keep mass and energy in every file of a hydro run',
  'If along every axis the two sides of the box are both periodic or both reflecting walls, every file of a complete hydro run (and its final state) has the initial totals of mass and energy and of the momenta along the periodic axes; with gravity, of mass. Walls need riemann=llf, hll or hllc. With gravity the claim needs hancock_predictor_enabled=false: with the predictor, one step of a fluid at rest between walls in y changes the total mass by exactly dt^2/(2 dy) g nx (rho_bottom - rho_top), because the half-step kick is not mirrored in the ghost cells.',
  'all grids, parameters, initial states, gravity fields, implementation versions, schedules, run lengths', 'all states and run lengths', [SMx,'src/muscl/HydroRunFunctors2D.h','src/muscl/HydroRunFunctors3D.h','src/shared/BoundariesFunctors.h','src/shared/RiemannSolvers.h'])

p('C74','The first-order scheme keeps density and thermal energy positive',
  'With slope_type=0 and without gravity, a hydro time step not longer than the one compute_dt returns for the same state leaves, in every interior cell whose content is above the floors, positive density and positive thermal energy, whatever the other cells contain (they may be below the floors or negative). It holds for llf with cfl at most 1/2 (the default) in 2D and 1/3 in 3D, and for hll (2D) and hllc with cfl at most 1/6 in 2D and 1/8 in 3D.',
  'all states of all cells, grids, boundary conditions, adiabatic indices above 1, time steps up to the CFL limit, implementation versions, schedules', 'all real states', [SMx,'src/muscl/HydroRunFunctors2D.h','src/muscl/HydroRunFunctors3D.h','src/shared/RiemannSolvers.h: riemann_llf, riemann_hll, riemann_hllc','src/muscl/SolverHydroMuscl.h: compute_dt_local'])

p('C78','The XDMF index of a run leads to every HDF5 output',
  'At the end of a run with HDF5 output the index file lists one grid for each output number from 0 to the last, in this order and named after the files, also when the run continued an earlier one. The grid of every state saved by the run has the variables of the solver in order, and each reference, followed in the output directory, leads to a dataset of exactly the announced extent that holds this variable in all interior cells of the domain; for distributed runs, of the whole domain. The announced extents are right for every combination of the ghost cell options and of reassembleInFile. Not right: the time of a grid is its number and not the physical time, the mesh has one layer of cells fewer than the values, spacing 1 and origin 0, a request for a single step lists two, and the references are relative to the working directory rather than to the output directory.',
  'all grids, process grids, parameters, initial states, run lengths, output options, directory names', 'all sizes, options and histories', ['src/utils/io/IO_HDF5.cpp: writeXdmfForHdf5Wrapper','src/utils/io/IO_HDF5.h: Save_HDF5, Save_HDF5_mpi','src/main.cpp'])

p('C79','The serial program, from the text of the parameter file to its last output, is the sequential algorithm',
  'The program aborts before computing or writing anything exactly when the parameter file does not set solver_name to one of the four solvers (in particular when the file is missing or empty); whenever a solver runs, the parameters read independently have its dimension, number of variables and ghost width. For every file with ordinary values and a problem whose initial state is the prescribed one without random numbers, the program completes, and every execution makes the iterations of the sequential algorithm started from the prescribed state at the cell centres, with the uniform gravity of the file, ends at its time and writes its files; hence two executions on one file give the same files whatever the schedules and the contents of uninitialised memory. An unknown problem name is not an error: it means the implosion (hydro) or the Orszag-Tang vortex (MHD).',
  'all texts of parameter files, environments (uninitialised memory, random numbers, identity of the reduction, build, files on disk), schedules', 'all files and executions', ['src/main.cpp','src/shared/SolverFactory.cpp','src/shared/SolverFactory.h: create','src/shared/SolverBase.cpp','src/shared/GravityParams.h',SMx,'src/muscl/SolverMHDMuscl.h: init'])

p('C80','The MPI program on a process grid does what the serial program does on the whole domain, from the parameter file on',
  'Take two parameter files that agree on everything except that the first, for the MPI build, gives the numbers of cells of a block and the process grid, and the second, for the serial build, the numbers of cells of the whole domain. If the values are ordinary and the initial condition does not use random numbers, then every execution of the processes of the MPI build on the first file, whatever their interleaving, the buffering of messages, the schedules and the contents of uninitialised memory, never gets stuck, ends, leaves no message, and has made the same iterations at the same times and written the blocks of the same files as the serial program on the second file.',
  'all pairs of texts of parameter files, process grids, environments, interleavings of processes, schedules', 'all files, process counts and executions', ['src/main.cpp','src/shared/HydroParams.cpp: setup_mpi','src/utils/config/ConfigMap.cpp: broadcast_parameters','src/utils/mpi/MpiCommCart.cpp','src/shared/SolverBase.cpp'])

p('C77','A periodic domain has no origin',
  'Move the initial state by any number of cells along any axis that is periodic at both ends (the other axes may have any boundary conditions), with uniform gravity if any. The complete run from the moved state makes the same iterations with the same time steps, ends at the same time and writes files with the same numbers and times whose contents are those of the original run, moved by the same number of cells. Hence no seam appears at the periodic boundary, and a state that repeats itself, in particular one that does not depend on z, keeps doing so in every file. Hydro and MHD, 2D and 3D, every implementation version, schedule and content of uninitialised memory.',
  'all grids, parameters, displacements, initial states, run lengths, implementation versions, schedules', 'all grids, displacements and numbers of steps',
  [SMx, M2x, M3x,'src/muscl/SolverMHDMuscl.h','src/shared/BoundariesFunctors.h'])

p('C76','The 3D hydro solver on a state that does not depend on z is the 2D solver',
  'Take a 3D run without gravity whose initial state has no z velocity and is, in every slice z = constant, the state of a 2D run with the same cells, spacings and boundary conditions along x and y and the same physics and options. With the same time steps, every slice of the 3D state is after any number of steps the state of the 2D run, and there is no z velocity, whatever the number of cells, spacing and boundary conditions along z. A complete 3D run is the sequential algorithm of the 2D scheme run with the time step of the 3D solver: same iterations, same end time, same files.',
  'all grids, boundary conditions, parameters, states, numbers of steps, time steps, implementation versions of both solvers, schedules', 'all states and numbers of steps',
  [SMx, M2x, M3x,'src/muscl/HydroBaseFunctor2D.h','src/muscl/HydroBaseFunctor3D.h','src/shared/RiemannSolvers.h'])

p('C75','Results do not depend on the units',
  'Change the units of density, velocity and length in the parameter file and in the initial state (and gravity) of a hydro run. The run makes the same iterations, at times scaled like length over velocity, and every file and the final state show the same solution in the new units; the derived parameters (spacings, pressure floors) follow. Any Riemann solver, slope type, boundary conditions and implementation version. The program ends a run and decides on output with absolute tolerances on the time: if the time unit changes, the claim needs that the run ends exactly at tEnd or at nStepmax, that numbers giving times grow, and that output is at every step or off.',
  'all changes of units, grids, parameters, states, gravity fields, run lengths, implementation versions, schedules', 'all real states, units and run lengths',
  [SMx, M2x, M3x,'src/shared/RiemannSolvers.h','src/shared/HydroParams.cpp: init','src/shared/SolverBase.cpp'])

p('C81','The characteristic variables of the Euler system are the characteristic variables',
  'The conversion to characteristic variables along a direction and the conversion back are inverse to each other for every state, vector and nonzero sound speed. For every smooth curve of states with positive density and pressure, the characteristic variables of the derivative of the Euler flux are those of the derivative of the conserved variables, each multiplied by the speed of its wave (v-c, v, v, v+c; in 3D v three times). Hence for a smooth solution varying along one direction they obey decoupled advection equations.',
  'all states, directions, adiabatic indices above 1, perturbations', 'all real states and perturbations', ['src/shared/EulerEquations.h: cons_to_charac, charac_to_cons'])

p('C82','Fluxes, equation of state and viscous terms of the Euler equations library are the physical ones',
  'For positive density and pressure above the floor, compute_pressure and convert_to_primitive recover the pressure and primitive variables a conservative state was made from, and the flux functions fed with this pressure are the fluxes of the Euler equations. The viscous fluxes are the components of the symmetric trace-free Newtonian stress (of the given dimension), the energy flux being its work plus the given diffusive flux; it dissipates, and vanishes for rigid motions. Not right: compute_speed_of_sound returns the square of the sound speed; in 2D the two pressure functions disagree for densities below 1e-8; planar flows feel a different normal stress in the 2D and 3D versions.',
  'all states, velocity gradients, viscosities, directions', 'all real states', ['src/shared/EulerEquations.h'])

p('C83','Without magnetic field the MHD solver is the hydro solver',
  'Run the same gas with a hydro solver and, magnetic field zero, with an MHD solver, on square (cubic) cells, same boundary conditions and options. With HLLC for hydro and HLLD for MHD, 2D (any implementation versions) or 3D (MHD version 2): the two complete runs make the same iterations with the same time steps, and write files with the same numbers and times showing the same density, energy and momenta, and a magnetic field that is exactly zero. With LLF or HLL, or in 3D MHD versions 0 and 1, a step gives the same state provided no reconstructed state is below the density and pressure floors, which the solvers apply differently.',
  'all grids with square cells, parameters, states without field, run lengths, implementation versions, schedules', 'all real states and run lengths; two programs with different schedules',
  [M2x, M3x,'src/shared/RiemannSolvers.h: riemann_hllc, riemann_llf, riemann_hll, riemann_approx','src/shared/RiemannSolvers_MHD.h: riemann_hlld, riemann_llf, riemann_hll, compute_emf','src/muscl/SolverHydroMuscl.h','src/muscl/SolverMHDMuscl.h'])

p('C84','Complete MHD runs do not depend on the names of the axes',
  'Exchange two axes in an MHD run: numbers of cells, spacings, boundary conditions and initial contents, velocities and magnetic field components changing places together with the faces the components live on. The two complete runs make the same number of iterations with the same time steps, end at the same time and write files with the same numbers and times whose contents are the same up to the exchange. 2D: every implementation version. 3D: exchanges of x and y and of x and z, hence every exchange, for versions 0 and 1 (version 2 is excluded: it treats edges along the three axes differently). Hence a state symmetric about the diagonal on a square grid stays symmetric in every file.',
  'all grids, parameters, boundary conditions, initial states, run lengths, schedules', 'all real states and run lengths; pairs of runs',
  [M2x, M3x,'src/muscl/SolverMHDMuscl.h','src/shared/RiemannSolvers_MHD.h','src/shared/BoundariesFunctors.h'])

p('C85','The border of the double Mach reflection follows the shock, and the inflow states are the configured ones',
  'Filling the ghost cells with the wedge functors touches only ghost cells of the grid and gives one result whatever the schedule: inflow state on the left, zero gradient on the right, on the lower side inflow left of front_x and the mirror image elsewhere, on the upper side inflow exactly in the cells behind the oblique front which, starting at front_x with angle front_angle, moves along its normal with the configured speed during the time t, and zero gradient ahead of it. The stored states are the conserved variables of the configured primitive states; the default states and speed satisfy the Rankine-Hugoniot relations for every front angle (Mach 10). Not right: in 2D the inflow energy counts a z velocity the border cannot store; a file without gamma0 gives the jet 5/3 and the solver 1.4.',
  'all grids, states, configurations, times, front angles, schedules', 'all cells, real states, angles, times and schedules',
  ['src/shared/BoundariesFunctorsWedge.h: MakeBoundariesFunctor2D_wedge','src/shared/problems/WedgeParams.h','src/shared/problems/JetParams.h'])

p('C86','The time-step reductions, the halo exchange and the double Mach border never leave their arrays',
  'Beyond the kernels of a step (C06, C31, C41, C46) and of the initialisation (C57): every iteration of the reductions of compute_dt (hydro, hydro with gravity, MHD, 2D and 3D) reads only allocated elements and writes nothing, the gravity view being read only when it is allocated; every iteration of the functors that fill and empty the border buffers, on every face, reads and writes only elements of the state view and of the buffers with the extents they are allocated with; the message sent from a buffer has exactly the size of the buffer of the opposite face it is received into, every position of it being one element of either; every iteration of the double Mach border functor, including indices that decode to no ghost cell, touches only allocated elements.',
  'all grids with at least one cell, even thinner than the ghost layer, layouts, faces, loop indices, accumulators', 'all sizes, indices and paths',
  ['src/muscl/HydroRunFunctors2D.h: ComputeDtFunctor2D, ComputeDtGravityFunctor2D','src/muscl/HydroRunFunctors3D.h: ComputeDtFunctor3D, ComputeDtGravityFunctor3D','src/muscl/MHDRunFunctors2D.h: ComputeDtFunctor2D_MHD','src/muscl/MHDRunFunctors3D.h: ComputeDtFunctor3D_MHD','src/shared/mpiBorderUtils.h','src/shared/SolverBase.cpp: SolverBase::SolverBase, copy_boundaries, transfer_boundaries_2d','src/shared/BoundariesFunctorsWedge.h'])

p('C87','Information travels a bounded number of cells per step (domain of dependence)',
  'Take two runs with the same parameters and the same time steps, on any schedules and with any contents of uninitialised locals. If their initial states agree in every interior cell within 2N cells of a given cell along each axis (2N below and 3N above for MHD), then after N steps they agree in that cell. Distances are counted round periodic axes; reflecting and absorbing faces do not lengthen the reach. Hence a change of one cell cannot be felt farther than 2N (MHD: 3N below, 2N above) cells after N steps.',
  'all grids, boundary conditions, parameters, states, time steps, numbers of steps, schedules, implementation versions', 'all states and numbers of steps; two runs',
  [M2x, M3x,'src/muscl/SolverHydroMuscl.h','src/muscl/SolverMHDMuscl.h','src/shared/BoundariesFunctors.h'])

p('C88','The program restarted from one of its HDF5 files continues the run',
  'Run the program on a parameter file that enables HDF5 output, without gravity; then run it on the same file with restart_enabled and restart_filename naming one of the HDF5 files it wrote. The second process completes, and whatever its schedules, uninitialised locals and memory layout it continues the first run: it ends at the same time with the same solution and writes the same files from that one on (numbers, times, contents of interior cells). With restart_reset_totaltime it starts from the same solution at time zero and keeps the numbering. Options are on for 1, yes, true, on, off for 0, no, false, off, and otherwise at their default; gravity is off by default.',
  'all parameter texts with ordinary values, files of the first run, schedules, environments of both processes, 2D and 3D hydro and MHD', 'pairs of complete process executions, any parameter text, any saved file',
  ['src/main.cpp','src/muscl/SolverHydroMuscl.h: init_restart','src/muscl/SolverMHDMuscl.h: init_restart','src/utils/io/IO_ReadWrite.cpp: load_data','src/utils/io/IO_HDF5.h: Save_HDF5, Load_HDF5','src/utils/config/ConfigMap.cpp: getBool','src/shared/GravityParams.h'])

p('C89','MHD results do not depend on the units',
  'Change the units of density, velocity and length in the parameter file and in the initial state of an MHD run, the magnetic field changing like velocity times the square root of density. The run makes the same iterations, at times scaled like length over velocity, and every file and the final state show the same solution in the new units. Any Riemann solver, slope type, boundary conditions and implementation version in 2D and version 2 in 3D. 3D versions 0 and 1: any change of the units of length and velocity; they put an absolute pressure floor under reconstructed states, which is shown not to follow a change of the unit of density. As for hydro runs, if the time unit changes the run must end exactly at tEnd or at nStepmax, the new unit must not be larger, and output must not depend on the time.',
  'all changes of units, grids, parameters, states, run lengths, implementation versions, schedules', 'all real states, units and run lengths',
  [M2x, M3x,'src/shared/RiemannSolvers_MHD.h','src/muscl/MHDBaseFunctor3D.h: trace_unsplit_mhd_3d_simpler','src/muscl/SolverMHDMuscl.h','src/shared/SolverBase.cpp'])

p('C90','HLLD resolves contact, tangential and rotational discontinuities exactly; magnetised contacts at rest are steady',
  'When the two states of a Riemann problem are joined by one contact, tangential or rotational (Alfven) discontinuity of ideal MHD, of any strength and moving at any speed, the HLLD flux is the flux of the exact solution. Consequently in a complete run of the 2D or 3D MHD solver with HLLD, a fluid at rest with uniform pressure and uniform magnetic field keeps exactly its initial content in every cell, whatever the density distribution, the time steps, the boundary conditions (no field through walls), the slope type and the implementation version. Excluded: states whose field is along the normal and whose Alfven speed is at least the sound speed (the solver divides zero by zero there).',
  'all pairs of states joined by such a discontinuity; all density distributions, grids, time steps, run lengths, schedules, implementation versions', 'all real states and run lengths',
  ['src/shared/RiemannSolvers_MHD.h: riemann_hlld, compute_emf, mag_riemann2d_hlld', M2x, M3x,'src/muscl/SolverMHDMuscl.h'])

p('C91','Reversing the magnetic field reverses it for ever and changes nothing else',
  'Start an MHD run from a state and another, with the same parameters, from the state with the opposite magnetic field in every cell. Both runs make the same iterations at the same times and write the same files; density, energy and momentum are the same in every file and in the final state, and the magnetic field is the opposite one. The same holds for one call of each Riemann solver (HLLD, which branches on the sign of the normal field, HLL, LLF) and for the electric field of the edge solver. Any boundary conditions, slope type, implementation version, 2D and 3D.',
  'all states, parameters, grids, Riemann solvers, boundary conditions, implementation versions, run lengths, schedules', 'pairs of runs over all real states and any number of steps',
  ['src/shared/RiemannSolvers_MHD.h', M2x, M3x, 'src/muscl/SolverMHDMuscl.h', 'src/shared/BoundariesFunctors.h'])

p('C92','On planar states the 3D MHD solver computes what the 2D MHD solver computes',
  'Start a 3D MHD run from a state that is the same in every slice z = const and has no momentum and no magnetic field along z, and a 2D MHD run from that slice, with the same grid, boundary conditions and physics in x and y. With the same time steps the 3D state stays the same in every slice, without momentum and field along z, and equals the 2D state in every interior cell, whatever the z axis of the 3D grid (cells, spacing, boundary conditions), the implementation versions and the schedules; for versions 0 and 1 of the 3D solver as long as the pressure floors do not act. A complete 3D run of version 2 is the sequential algorithm of the 2D scheme with the time step of the 3D solver.',
  'all planar states, grids, boundary conditions, lists of time steps, run lengths, schedules', 'pairs of runs over all real states and any number of steps',
  [M2x, M3x, 'src/shared/RiemannSolvers_MHD.h: riemann_hlld, compute_emf, mag_riemann2d_hlld', 'src/muscl/SolverMHDMuscl.h', 'src/muscl/SolverMHDMuscl.cpp'])

p('C93','Index arithmetic in 32-bit int: exactly which grids are safe',
  'The sizes, the ghost fill of a face, the packing and unpacking of the borders exchanged between processes and the positions in the buffers of the files are computed in C++ int. Each of these computations is free of overflow exactly when one explicit product of the sizes fits in 32 bits (for the 3D ghost fill: the ghost width times the square of the largest dimension, ghosts included), and then it computes the mathematical value used in every other claim. So a cubic 3D grid of up to 26000 cells a side has no overflow in its ghost fills, whereas a grid of 1 x 1 x 40000 cells has one although it holds only about a million cells, ghosts included.',
  'all grid sizes, ghost widths, faces, loop indices, memory layouts, 2D and 3D', 'every size up to 2^31; grids at the limit do not fit in a test machine',
  ['src/shared/HydroParams.cpp: init','src/shared/SolverBase.cpp: make_boundaries','src/shared/BoundariesFunctors.h','src/shared/mpiBorderUtils.h','src/shared/kokkos_shared.h','src/utils/io/IO_HDF5.h'])

p('C94','The MPI program restarted from an HDF5 file continues the run, on any process grid',
  'Start the MPI program on a parameter file that asks for a restart from an HDF5 file of a state of the whole domain. Whatever the interleaving of the processes, the schedules, the buffering of messages and the memory layout, it neither deadlocks nor runs for ever, and its processes write the blocks of the files that the serial program writes when it is restarted from a file of the same state. Without gravity, if the file was written by a serial run or by an MPI run on another process grid, the restarted run continues that run: same files from that one on, same times, same final solution.',
  'all process grids, parameter texts with ordinary values, files of the first run, executions of both programs, 2D and 3D hydro and MHD', 'pairs of complete distributed executions, any process grid and any saved file',
  ['src/main.cpp','src/muscl/SolverHydroMuscl.h: init_restart','src/muscl/SolverMHDMuscl.h: init_restart','src/utils/io/IO_ReadWrite.cpp: load_data','src/utils/io/IO_HDF5.h: Load_HDF5_mpi, Save_HDF5_mpi','src/shared/SolverBase.cpp: make_boundaries'])

p('C95','The memory a solver reports is the memory of its arrays',
  'When it starts, a solver prints the memory it requested, and later its speed from the number of cells. For every grid, implementation version and element size, the printed memory is the number of elements of all arrays of the solver times the element size, the arrays being those a step may touch; only a gravity field is counted with one byte per number. The sum is computed in C++ int: it is free of overflow exactly when one solution array (cells, ghosts included, times variables) has at most 2^31-1 numbers, and then the cell count and the offsets and sizes of the output files are free of overflow, too. Every 3D grid of 800 cells a side or more overflows there, long before the loops of C93 do.',
  'all grids, ghost widths, implementation versions, element sizes, with and without gravity, 2D and 3D hydro and MHD', 'every grid size up to 2^31; grids at the limit do not fit in a test machine',
  ['src/muscl/SolverHydroMuscl.h: SolverHydroMuscl','src/muscl/SolverMHDMuscl.h: SolverMHDMuscl','src/utils/io/IO_HDF5.h: copy_buffer, write_timing','src/shared/solver_utils.h: print_solver_monitoring_info'])

p('C96','What the files of every execution of the program satisfy',
  'Run the serial program on any parameter text: any problem, fresh or restarted, any grid. The files it writes are numbered consecutively, their times and iteration counts never decrease, the first is the state the program started from and the last the state it ended with, and it ends at the requested final time or after the requested number of steps. For a hydro run in a closed box (periodic faces, or walls with a solver exact at walls) any two files contain the same mass and energy and the same momentum along periodic axes, with static gravity the same mass. For a periodic MHD run any two files contain the same totals of all eight variables and the same discrete divergence of B in every cell, which is zero if the first file is solenoidal.',
  'all parameter texts, problems, random draws, restart files, schedules, 2D and 3D hydro and MHD', 'all pairs of files of all executions of the whole program',
  ['src/main.cpp','src/shared/SolverBase.cpp','src/muscl/SolverHydroMuscl.h','src/muscl/SolverMHDMuscl.h','src/shared/HydroParams.cpp'])

p('C97','What the files of every execution of the MPI program satisfy',
  'Start the MPI program on any parameter text, fresh or restarted, with any problem (random perturbations included), on any process grid. Whatever the interleaving of the processes, the schedules, the buffering of messages and the memory layout, it ends after a bounded number of steps, never deadlocks and leaves no message; all processes agree on the iterations, the final time and the numbers and times of their files, which are consecutive and do not decrease. In a closed box without gravity the mass and the energy, and the momentum along periodic axes, summed over the files of all processes, are the same for any two file numbers. In a periodic MHD box the sums of all eight variables are the same, and the files put side by side have the same discrete divergence of B in every cell of the domain, zero for a fresh run of a problem with solenoidal data.',
  'all process grids, parameter texts with ordinary values, problems, random draws, restart files, interleavings, schedules, layouts, 2D and 3D hydro and MHD', 'all distributed executions of the whole program and all pairs of their files',
  ['src/main.cpp','src/shared/SolverBase.cpp','src/muscl/SolverHydroMuscl.h','src/muscl/SolverMHDMuscl.h','src/shared/HydroParams.cpp: setup_mpi','src/utils/mpi/MpiCommCart.h','src/shared/mpiBorderUtils.h'])

p('C98','The times and the speed the program reports',
  'At the end a run prints the time of each of its phases and its speed. For every run and every clock: each printed time is the sum over the phases it names of reading at the end minus reading at the beginning, whatever the clock showed when the timers were made; scheme, boundaries and time step are timed once per iteration, output once per file, the loop once. For a clock that never runs backwards no printed time is negative; in a hydro run boundaries, time step and scheme together take no more than the total and the parts of the scheme no more than the scheme; in an MHD run the time of the time step is part of that of the scheme. The sum including output can exceed the total only by the time of the first and last file, written outside the total: so the printed percentage of output is not bounded by 100. The printed speed times the total is the number of iterations times the number of cells of all processes, ghost cells included.',
  'all runs, clocks, solvers, implementation versions, output settings', 'every run length, every pattern of outputs and every clock',
  ['src/shared/solver_utils.h: print_solver_monitoring_info','src/utils/monitoring/SimpleTimer.cpp','src/utils/monitoring/OpenMPTimer.cpp','src/main.cpp','src/muscl/SolverHydroMuscl.h','src/muscl/SolverHydroMuscl.cpp','src/muscl/SolverMHDMuscl.h','src/muscl/SolverMHDMuscl.cpp'])

p('C99','Symmetric test problems stay symmetric to the end of the run',
  'Start the program on a parameter text that sets up a problem with a symmetry, and let it run to its end in any way. Every file it writes has that symmetry. In the 2D hydro program: on a square grid with the same boundary conditions along x and y the implosion (the default diagonal, equal velocities), the blast wave centred on the diagonal and the four-quadrant configurations 1, 2, 3, 6, 7 and 11 are unchanged when x and y are exchanged; with equal conditions on opposite sides a blast wave in the middle of x (of y) is its own mirror image in x (in y), the Gresho vortex and the isentropic vortex at rest in the middle of the domain are unchanged by half a turn, and the Rayleigh-Taylor instability, gravity included, is its own mirror image in x. The mirror statements are for the llf, hll and hllc solvers. In the 2D MHD program the implosion and the blast wave with equal x and y components of velocity and magnetic field are unchanged when x and y are exchanged together with the components, for all MHD solvers. In the 3D hydro program without gravity the implosion with equal velocity components and the blast wave centred on the diagonal, in a cube with the same boundary conditions along the axes, are unchanged when any two axes are exchanged together with the momenta along them, and a blast wave in the middle of a box with equal conditions on opposite sides is its own mirror image along each axis (llf, hllc).',
  'all parameter texts with ordinary values that meet the symmetry conditions, all schedules, all memory contents, all output files', 'every length of run and every size of grid, for every execution of the whole program',
  ['src/main.cpp','src/muscl/HydroInitFunctors2D.h','src/shared/problems/initRiemannConfig2d.cpp','src/shared/problems/ImplodeParams.h','src/shared/problems/BlastParams.h','src/muscl/SolverHydroMuscl.cpp','src/muscl/HydroRunFunctors2D.h','src/shared/BoundariesFunctors.h'])

p('C100','What holds of the serial program holds of the MPI program',
  'Take any statement about the number of iterations, the final time and the sequence of files of a run (numbers, times and the values in the cells of the domain). If it holds of every execution of the serial program on the whole domain, it holds of every execution of the MPI program on any process grid: every interleaving ends without deadlock, the files of the processes can be put side by side, and what one then sees satisfies the statement. In particular the symmetric problems of C99 stay symmetric across the borders of the processes.',
  'all statements about what the files show, all process grids, parameter texts with ordinary values and problems without random numbers, interleavings, message bufferings, schedules, layouts; 2D and 3D hydro and MHD', 'all statements, all process grids and all distributed executions',
  ['src/main.cpp','src/shared/SolverBase.cpp','src/muscl/SolverHydroMuscl.h','src/muscl/SolverMHDMuscl.h','src/shared/HydroParams.cpp: setup_mpi','src/shared/mpiBorderUtils.h','src/utils/mpi/MpiCommCart.h'])

p('C101','The progress lines of a run',
  'Every nlog iterations the program prints the number of the iteration, a time step and a time. In every run, fresh or restarted, with any solver and any arithmetic, the lines printed are exactly those of the iterations 0, nlog, 2 nlog, ... that were made, in order; the time on a line is the time that iteration starts from (the first line: the starting time), the time step on it is the length of the step that led to that time, not of the one about to be made; the lines, the times of the files and the final time belong to one sequence of times in which each time is the one before plus the length of the step. With nlog = 0 no iteration can be made.',
  'all parameter texts, solvers, problems, restart files, schedules and arithmetics', 'every length of run and every value of nlog',
  ['src/muscl/SolverHydroMuscl.h: next_iteration_impl','src/muscl/SolverMHDMuscl.h: next_iteration_impl','src/shared/SolverBase.cpp: next_iteration, save_solution','src/main.cpp'])

p('C102','The same parameter file gives the same files, bit for bit, on any number of threads',
  'Floating point addition is not associative, so a parallel program need not repeat itself. This one does, for the implementation versions without atomic additions (hydro 0 and 1, MHD 0): two executions of the serial program on the same parameter text end in the same state, with the same output files, bit for bit, the same log lines and the same final time, whatever the number of threads, the order in which the cells are processed, the order in which the partial maxima of the time step are combined, and the contents of uninitialised local variables; and there is exactly one such outcome. This holds for any arithmetic in which a few exact facts of IEEE 754 hold (fmax returns one of its arguments and ignores a NaN, < is a strict total order on the numbers other than -0, and the sign bit of the speeds is clear): no associativity and no rounding model is assumed. The executions must share the random numbers only if the Kelvin-Helmholtz problem with a random perturbation is run, and the values found in unassigned memory only for the MHD blast, whose bz is never assigned.',
  'all arithmetics with the exact facts, all parameter texts with a known slope limiter and Riemann solver and a grid not smaller than the ghost layers, all schedules, all partitions of the reduction, all memory contents; 2D and 3D hydro and MHD', 'every schedule, every combination order of a reduction and every length of run, in floating point',
  ['src/main.cpp','src/shared/SolverBase.cpp: compute_dt','src/muscl/SolverHydroMuscl.h: compute_dt_local','src/muscl/SolverMHDMuscl.h: compute_dt_local','src/muscl/HydroRunFunctors2D.h: ComputeDtFunctor2D, ComputeDtGravityFunctor2D','src/muscl/HydroRunFunctors3D.h','src/muscl/MHDRunFunctors2D.h','src/muscl/MHDRunFunctors3D.h','src/shared/mhd_utils.h: find_speed_info'])

p('C103','The MPI run repeats itself bit for bit, whatever the interleaving of the processes',
  'The processes of the MPI build exchange ghost layers by messages, combine the time step by a collective, and each evaluates the condition of the main loop on its own copy of the time. Started twice on the same parameter text, with the implementation versions without atomic additions, they end in the same states: every process has written the same files, bit for bit, the same log lines and has the same final time, whatever the order in which messages arrive, whether sends are buffered, the schedules of the threads of each process and the contents of uninitialised variables. Every execution ends after a bounded number of steps without deadlock and leaves no message, and at the end all processes agree on the time, the number of iterations and the numbers and times of their files. This holds in any arithmetic with the few exact facts about the maximum that IEEE 754 guarantees, even when NaNs appear.',
  'all arithmetics with the exact facts, all process grids, all parameter texts with a known slope limiter and Riemann solver and blocks not smaller than the ghost layers, all interleavings, message bufferings, schedules and memory contents; 2D and 3D hydro and MHD', 'every interleaving of any number of processes, every schedule of their threads and every length of run, in floating point',
  ['src/main.cpp','src/shared/SolverBase.cpp: compute_dt, make_boundaries_mpi, finished','src/muscl/SolverHydroMuscl.h','src/muscl/SolverMHDMuscl.h','src/utils/mpi/MpiCommCart.h','src/shared/mpiBorderUtils.h','src/shared/HydroParams.cpp: setup_mpi'])

p('C104','The MPI run is the serial run, bit for bit, in floating point',
  'C80 says in exact arithmetic that the files of the processes put side by side are the files of the serial run. In floating point more can go wrong: the processes divide the Courant number by their own largest rate and take the smallest quotient, the serial build divides once; the ghost values pass through messages; each process compares its own copy of the time. Still, for the implementation versions without atomic additions, on every process grid, every interleaving of the MPI program ends without deadlock with every process holding exactly its block of the serial result: the same final time, number of iterations, time steps and log lines, and files whose cells are, bit for bit, those of the serial files. Assumed of the arithmetic are only exact facts IEEE 754 has (the maximum and minimum of two numbers, correctly rounded c/a decreases in a, sign change facts), never associativity; assumed of the run is that in every block, at every step, some cell has a positive rate (in exact arithmetic this is proved, with no assumption on the run).',
  'all arithmetics with the exact facts, all process grids, all parameter texts with a known slope limiter and Riemann solver, all interleavings, message bufferings, schedules, reduction orders and memory contents; problems without random numbers; 2D and 3D hydro and MHD', 'every process grid, every interleaving and every length of run, in floating point',
  ['src/main.cpp','src/shared/SolverBase.cpp: compute_dt, make_boundaries_mpi','src/muscl/HydroRunFunctors2D.h: ComputeDtFunctor2D','src/muscl/HydroRunFunctors3D.h: ComputeDtFunctor3D','src/muscl/MHDRunFunctors2D.h','src/muscl/MHDRunFunctors3D.h','src/shared/mpiBorderUtils.h','src/shared/HydroParams.cpp: setup_mpi'])

p('C105','In IEEE 754 double precision the program has one outcome, and the MPI run is the serial run',
  'With every +, -, *, / and square root rounded to nearest even as IEEE 754 prescribes, with signed zeros, infinities, overflow, gradual underflow and NaN: any two serial executions of a parameter file end alike, bit for bit; any two executions of the MPI program on a process grid end alike; and if in every block, at every time step, some cell has an inverse time step that is not NaN, the MPI run on every process grid is the serial run bit for bit. A hydro cell has such a rate unless its density is +inf or a momentum component is NaN, whatever its energy. Under gravity the rate of such a cell is a NaN exactly when the ratio |g|*(cfl*h/v^2) overflows. If a block has only NaN rates, its process contributes the time step cfl/(-DBL_MAX), which is not positive, so the condition cannot be dropped.',
  'all binary formats (precision and exponent range; double and single are instances), all parameter texts, process grids, interleavings, schedules, reduction trees and memory contents; versions without atomic additions; problems without random numbers for the comparison with the serial run', 'every rounding error of every run, every schedule and every process grid',
  ['src/shared/real_type.h','src/shared/SolverBase.cpp: compute_dt','src/muscl/HydroRunFunctors2D.h: ComputeDtFunctor2D','src/muscl/HydroRunFunctors3D.h: ComputeDtFunctor3D','src/shared/HydroParams.cpp: setup_mpi','src/main.cpp'])

p('C106','In double precision the fast magnetosonic speed of a sound state can be a NaN',
  'The two functions the MHD solvers call for the fast magnetosonic speed take the root of d2*d2 - c2*Bn*Bn/rho without a guard. In double precision, short of overflow, the speed of a state with positive density and pressure is a NaN exactly when the computed d2*d2 is below the computed c2*Bn*Bn/rho; this happens for gas at rest with adiabatic index 5/3 and a uniform field along x. Then the cell does not take part in the time step; if all cells are like that the time step is cfl/(-DBL_MAX), negative; between two such cells every component of the HLL flux is a NaN and HLLD returns the flux of the right state whatever the left state is. The third function of the same file, which no solver calls, guards the root and never gives a NaN for a state with finite positive density, non-negative pressure and a field without NaN.',
  'all double precision states (positive finite density, pressure not negative, field not NaN), all three directions, all reduction schedules, all grids', 'every state and every rounding error; the exact formula is never negative, so that tests with exact data pass',
  ['src/shared/mhd_utils.h: find_speed_fast, find_speed_info, fast_mhd_speed','src/shared/RiemannSolvers_MHD.h: riemann_hll, riemann_hlld','src/muscl/SolverMHDMuscl.h: compute_dt_local','src/muscl/MHDRunFunctors2D.h: ComputeDtFunctor2D_MHD','src/muscl/MHDRunFunctors3D.h: ComputeDtFunctor3D_MHD'])

p('C107','In double precision uniform gas at rest stays at rest, bit for bit',
  'Start the 2D or 3D hydro solver with any of its Riemann solvers (the iterative one, HLLC, LLF or, in 2D only, HLL) and without gravity from a domain where every cell has the same density and the same energy and no momentum. In double precision, whatever the boundary conditions (periodic, reflecting or open in each direction), whatever the sizes of the time steps, and under any schedule, after any number of steps every cell still holds exactly the same bits of density and energy, and momenta that are zeros (of either sign): rounding errors start no motion. The time step the program computes for it is the same in every schedule, and every output file of a whole run of main, with the time steps it computes itself and the last one shortened to end at tEnd, holds exactly the initial gas. In particular the shipped blast problem with the same density and pressure inside and outside leaves no trace of its disc. The same holds on every process of the MPI build, on any process grid and in every interleaving. This holds although the pressure the solver computes between two cells may differ from the pressure of the cells in its last bits. Required: density and pressure above the floors, and no overflow or underflow in the handful of numbers computed from them.',
  'all densities, energies and settings within these limits, all grids, boundary conditions, time steps, schedules, contents of uninitialised locals and numbers of steps; versions 0 and 1', 'every operand and every rounding; a test sees one state, and exact arithmetic does not see rounding at all',
  ['src/shared/RiemannSolvers.h: riemann_hllc, riemann_llf, riemann_hll, riemann_approx','src/muscl/HydroBaseFunctor2D.h: computePrimitives, slope_unsplit_hydro_2d, trace_unsplit_2d_along_dir','src/muscl/HydroBaseFunctor3D.h','src/muscl/HydroRunFunctors2D.h','src/muscl/HydroRunFunctors3D.h','src/muscl/SolverHydroMuscl.h: godunov_unsplit_impl, compute_dt_local','src/shared/SolverBase.cpp: compute_dt','src/main.cpp','src/muscl/HydroInitFunctors2D.h: InitBlastFunctor2D','src/muscl/HydroInitFunctors3D.h: InitBlastFunctor3D'])
