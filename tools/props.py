#!/usr/bin/env python3
# Source of /verif/properties.jsonl.  Run: python3 tools/props.py
import json, os
P = []
def p(id, title, statement, quantifier, why, anchors):
    P.append(dict(id=id, title=title, statement=statement, quantifier=quantifier, why_tests_cant=why, anchors=anchors))

B='src/shared/BoundariesFunctors.h'; SB='src/shared/SolverBase.cpp'; H2='src/muscl/HydroRunFunctors2D.h'; H3='src/muscl/HydroRunFunctors3D.h'
HB2='src/muscl/HydroBaseFunctor2D.h'; HB3='src/muscl/HydroBaseFunctor3D.h'; RS='src/shared/RiemannSolvers.h'; RM='src/shared/RiemannSolvers_MHD.h'
M2='src/muscl/MHDRunFunctors2D.h'; M3='src/muscl/MHDRunFunctors3D.h'; SH='src/muscl/SolverHydroMuscl.cpp'; SM='src/muscl/SolverMHDMuscl.cpp'
MB='src/shared/mpiBorderUtils.h'; HP='src/shared/HydroParams.cpp'; INI='src/utils/config/inih/ini.cpp'; KS='src/shared/kokkos_shared.h'

p('C01','Flat loop indices and cell coordinates are in bijection',
  'Converting a cell coordinate to a flat index and back (and a flat index to a coordinate and back) is the identity, in 2D and 3D, for both the CUDA (left) and host (right) layouts, and the index of an in-range coordinate lies in [0, number of cells).',
  'all extents and all in-range indices/coordinates, both layouts', 'unbounded set of extents and coordinates',
  [KS+': index2coord, coord2index'])
p('C02','Parallel hydro kernels are schedule independent (2D)',
  'Each parallel loop of one 2D hydro time step (ghost fill, primitive conversion, slopes, flux computation, update, gravity) yields the same arrays for every interleaving of its iterations.',
  'all interleavings of all iterations, all array contents, all grid sizes, all arithmetic (including IEEE)', 'number of interleavings is astronomically large and data dependent',
  [H2+': ConvertToPrimitivesFunctor2D, ComputeAndStoreFluxesFunctor2D, UpdateFunctor2D, UpdateDirFunctor2D, ComputeSlopesFunctor2D, ComputeTraceAndFluxes_Functor2D, GravitySourceTermFunctor2D'])
p('C03','Atomic flux accumulation is schedule independent up to rounding (2D)',
  'The single-pass 2D implementation (version 2), which scatters fluxes with atomic additions, ends in the same array for every interleaving of its atomic operations when additions are exact.',
  'all interleavings at the granularity of single atomic operations, all grid sizes and contents', 'interleavings cannot be enumerated',
  [H2+': ComputeAllFluxesAndUpdateFunctor2D'])
p('C04','The three hydro implementation versions compute the same time step (2D)',
  'For the same state, dt and parameters, implementation versions 0, 1 and 2 of the 2D hydro scheme produce the same new state (bit for bit between 0 and 1 flux values; exact arithmetic for the sum order of version 2).',
  'all states, dt, parameters, grid sizes, gravity settings', 'needs equality on every input state',
  [SH+': SolverHydroMuscl<2>::godunov_unsplit_impl', H2])
p('C05','Hydro time step is conservative (2D)',
  'With periodic boundaries on all faces and no gravity, the sums over interior cells of mass, energy and both momenta are unchanged by a 2D hydro time step, for every Riemann solver; in general the change equals the net flux through the domain boundary.',
  'all states, dt, Riemann solvers, grid sizes, any number of steps', 'holds for all states and arbitrarily many steps',
  [H2+': UpdateFunctor2D', SH])
p('C06','No out-of-bounds array access in the hydro time step (2D)',
  'Every array element read or written by any iteration of the kernels of a 2D hydro time step lies inside the allocated extents, for every grid with nx, ny >= 1.',
  'all grid sizes, all iterations, all data-dependent paths', 'bounds must hold for every size and path; UB may go unnoticed in tests',
  [H2, SH])
p('C07','Serial ghost fill implements the requested boundary conditions (2D)',
  'After filling 2D boundaries, interior cells are unchanged and each ghost cell equals: periodic - the interior cell one period away; reflecting - mirror interior cell with the normal momentum (and for MHD normal magnetic field) negated; absorbing - nearest interior cell; corners compose the x rule then the y rule.',
  'all grid sizes >= ghost width, all 3x3x3x3 boundary type combinations, hydro and MHD, all contents and interleavings', 'infinite family of grids and contents',
  [B+': MakeBoundariesFunctor2D, MakeBoundariesFunctor2D_MHD', SB+': make_boundary, make_boundaries_serial'])
p('C08','Serial ghost fill implements the requested boundary conditions (3D)',
  'Same as C07 in 3D with six faces.', 'all 3D grid sizes >= ghost width, boundary type combinations, contents', 'infinite family',
  [B+': MakeBoundariesFunctor3D, MakeBoundariesFunctor3D_MHD', SB])
p('C09','Loop bound of boundary kernels covers every ghost cell',
  'The flat iteration count used by make_boundary reaches every ghost cell of every face, even on very anisotropic grids.',
  'all grid sizes', 'covers arbitrary aspect ratios', [SB+': make_boundary nbIter', B])
p('C10','MPI halo exchange reproduces the serial ghost fill',
  'For any process grid and any local sizes >= ghost width, after the MPI boundary exchange every rank holds exactly the restriction (including all ghost cells and corners) of what the serial code would hold on the global grid.',
  'all process grids, local sizes, contents, boundary types (2D and 3D)', 'number of ranks and grid shapes is unbounded',
  [SB+': make_boundaries_mpi, copy_boundaries, transfer_boundaries_2d, copy_boundaries_back', MB, HP+': setup_mpi'])
p('C11','A distributed hydro step equals the serial step',
  'One hydro time step executed on any process grid produces on every rank exactly the restriction of the serial step on the global grid (same dt).',
  'all process grids, sizes, states', 'unbounded ranks/sizes', [SB, SH, MB])
p('C12','Halo messages are matched to the right face and the exchange cannot deadlock',
  'In every schedule of the ranks, each Sendrecv of the halo exchange completes and every received buffer is the one sent by the correct neighbour for that face, including when the two neighbours coincide (2 ranks) or are the rank itself (1 rank), although both transfers of one direction use one tag.',
  'all ring sizes >= 1, all schedules', 'schedules are unbounded; failures are timing dependent',
  [SB+': transfer_boundaries_2d, transfer_boundaries_3d', 'src/utils/mpi/MpiComm.h: MPI_Sendrecv'])
p('C13','Time never passes tEnd and the last step lands on tEnd',
  'If 0 <= t <= tEnd initially and every computed CFL dt is non-negative, then after any number of iterations t <= tEnd, and the run stops as soon as t = tEnd.',
  'all dt sequences, all step counts', 'all histories', [SB+': compute_dt, finished, next_iteration'])
p('C14','The run terminates within nstepmax iterations',
  'The main loop performs at most max(nstepmax,0) iterations whatever the dt sequence; and stops earlier only if t >= tEnd - 1e-14.',
  'all dt sequences and nstepmax', 'liveness over all histories', [SB+': finished', 'src/main.cpp'])
p('C15','A run is the plain algorithm: ping-pong buffers always expose the latest solution',
  'Every complete run of the hydro program (2D/3D) makes exactly the iterations of the sequential algorithm (write a file if due, dt = min(CFL dt of the current solution, tEnd - t), advance the solution by dt) and writes exactly its files: same numbers and times, and each file shows the solution at its time, never a mixture of two time steps or a stale buffer. Runs with different schedules or implementation versions write the same files.',
  'all numbers of iterations, placements of outputs, schedules, versions, initial states', 'every history', ['src/muscl/SolverHydroMuscl.h: godunov_unsplit, compute_dt_local, save_solution_impl', 'src/main.cpp'])
p('C16','Output numbering is gapless',
  'Outputs of one run carry consecutive numbers starting from 0 (or from the restart number), the first at the initial time and the last at the final time.',
  'all runs', 'every history', ['src/main.cpp', SB+': save_solution, should_save_solution'])
p('C17','Output cadence follows tEnd/noutput',
  'With noutput = N > 0, t starting at 0 and time steps not longer than D <= tEnd/N, the output number k (other than the first and the last) is written at a time t with k*tEnd/N < t <= k*tEnd/N + D, or within 1e-12 of tEnd; an output that is due is written in the very next iteration, at most one per iteration; N or N+1 files are written in total (when no step falls within 1e-12 of tEnd); with noutput = 0 nothing is written and with noutput < 0 every iteration writes one.',
  'all dt sequences', 'all histories', [SB+': should_save_solution', 'src/muscl/SolverHydroMuscl.h: next_iteration_impl'])
p('C18','Primitive conversion is positive and inverts the conservative map',
  'Conversion to primitive variables always returns density >= smallr, pressure >= density*smallp > 0 and positive sound speed; on physical states above the floors it is the exact inverse of the primitive-to-conservative map.',
  'all real states', 'all states', [HB2+': computePrimitives, eos', HB3])
p('C19','Slope limiter is TVD',
  'The limited slope is zero at extrema, has the sign of both one-sided differences, is bounded by slope_type times each of them and by the central difference, so face values (q +- slope/2) stay between neighbouring values for slope_type in {1,2}; it is odd under reflection and commutes with x/y exchange.',
  'all real neighbour values', 'all reals', [HB2+': slope_unsplit_hydro_2d_scalar', HB3+': slope_unsplit_hydro_3d_scalar'])
p('C20','Riemann fluxes are consistent',
  'When left and right states are equal and physical (above floors) each hydro Riemann solver (llf, hll, hllc, approx) returns the exact Euler flux of that state.',
  'all physical states', 'all reals', [RS])
p('C21','Riemann fluxes respect mirror symmetry',
  'Exchanging left/right states and negating normal velocities negates mass, energy and transverse fluxes and keeps the normal momentum flux (llf, hll, hllc).',
  'all pairs of states (outside explicit degenerate sets)', 'all reals', [RS])
p('C22','A uniform flow is an exact steady state',
  'If all cells hold the same physical state, periodic or absorbing boundaries, no gravity, a hydro step leaves it unchanged for every implementation version and Riemann solver.',
  'all uniform states, dt, grids', 'all states', [SH, H2, H3])
p('C23','The 2D hydro scheme treats x and y alike',
  'Transposing the grid, exchanging x and y momentum and swapping nx/ny, dx/dy and boundary types commutes with a 2D hydro time step.',
  'all states and grids', 'all states', [H2, HB2, SH])
p('C24','CFL time step is valid',
  'The computed dt satisfies dt*(|u|+c)/dx + dt*(|v|+c)/dy <= cfl in every interior cell (2D, similarly 3D), is attained in some cell, and does not depend on the reduction order or on how the grid is split among processes.',
  'all states, grids, process grids', 'all states/reduction orders', [H2+': ComputeDtFunctor2D', H3+': ComputeDtFunctor3D', SB+': compute_dt'])
p('C25','Gravity CFL bound holds',
  'With gravity enabled, the computed dt satisfies g dt^2/(2 dx) + u dt/dx <= cfl with u = sum(|v_i|+c), g = sum|g_i|, dx = min spacing, in every interior cell.',
  'all states and gravity fields', 'all reals', [H2+': ComputeDtGravityFunctor2D'])
p('C26','Gravity source term keeps internal energy and mass',
  'The gravity update changes momentum by dt*g*(rho_old+rho_new)/2 and total energy exactly by the change of kinetic energy, so density and internal energy are unchanged.',
  'all states, fields, dt', 'all reals', [H2+': GravitySourceTermFunctor2D', H3])
p('C27','Constrained transport preserves div B (2D)',
  'A 2D MHD time step (any implementation version, solver, schedule, dt) leaves the discrete divergence of the face-centred magnetic field unchanged in every cell whose right and upper neighbours are interior cells, whatever the boundary conditions; on a periodic domain in every cell, so a field without divergence stays so for ever. (At an absorbing upper side the ghost fill overwrites the face field, and the divergence of the last row or column changes by a mixed difference of the EMF: finding.)',
  'all states, dt sequences, grids, schedules, versions, any number of steps', 'all histories', [M2+': UpdateEmfFunctor2D, ComputeEmfAndUpdateFunctor2D, ReconstructEdgeComputeEmfAndUpdateFunctor2D'])
p('C28','Constrained transport preserves div B (3D)',
  'Same as C27 in 3D with three EMF components.', 'all EMF fields, dt, grids', 'all histories', [M3+': UpdateEmfFunctor3D, ComputeEmfAndUpdateFunctor3D'])
p('C29','The three hydro implementation versions compute the same time step (3D)',
  'In 3D the step is independent of the execution schedule, versions 0 and 2 compute the same state for every input, and version 1 computes it too unless the gravity Hancock predictor is on (in that case the code of version 1 forgets the kick on the upper state of z-faces and its result differs: finding). Runs of any length agree.', 'all states, dt, parameters, schedules, grids, run lengths', 'all states', [SH+': SolverHydroMuscl<3>::godunov_unsplit_impl', H3])
p('C30','Hydro time step is conservative (3D)', 'Without gravity, the change over a 3D hydro step of the total mass, energy and momentum over the interior cells is exactly the flux through the six sides of the domain, and it is zero on a periodic domain, for every implementation version, Riemann solver, schedule and number of steps (exact arithmetic).', 'all states, dt sequences, grids, schedules', 'all states', [H3+': UpdateFunctor3D'])
p('C31','No out-of-bounds array access in the hydro time step (3D)','Every array element read, written or atomically updated by any iteration of any kernel of a 3D hydro step (all versions, with or without gravity) is inside the allocated view.','all grid sizes, kernels, iterations, paths','UB',[H3])
p('C32','Exactly which Riemann solver settings define the hydro flux',
  'The hydro flux routine assigns the flux for every input, whatever the uninitialised memory held before, exactly for the solver types approx, hll, hllc, llf in 2D and approx, hllc, llf in 3D; for the accepted names hlld (2D and 3D) and hll (3D) the flux is left uninitialised (finding).',
  'all solver types, states and previous memory contents, 2D and 3D', 'uninitialised memory may look right in tests', [RS+': riemann_hydro', HP])
p('C33','Configuration lookup is case-insensitive last-write-wins with defaults',
  'A key is found whatever the letter case of section and name, the last assignment in the file wins, a missing key returns the default, and setX followed by getX returns the value.',
  'all files and keys', 'all inputs', ['src/utils/config/inih/INIReader.cpp','src/utils/config/ConfigMap.cpp'])
p('C34','INI parser recovers what a well-formed file says',
  'Parsing the text written from a list of sections with name=value entries (arbitrary spacing around = and trailing " ;comment") reports exactly those (section, name, value) triples in order and no error; malformed lines report the first bad line number and do not affect the other entries.',
  'all files', 'unbounded inputs', [INI+': ini_parse, ini_parse_buffer'])
p('C35','Serial and MPI builds read the same configuration',
  'The file-based parser (serial build) and buffer-based parser (MPI build) yield the same configuration for every file whose lines are shorter than 199 characters.',
  'all files', 'unbounded inputs', [INI+': ini_parse, ini_parse_buffer','src/utils/config/ConfigMap.cpp: broadcast_parameters'])
p('C36','Derived grid parameters are consistent',
  'For each valid solver name the parameters satisfy isize = nx + 2*ghostWidth (same for y, z), dx*nx(*mx) = xmax - xmin, ghost width 2 for hydro and 3 for MHD, number of variables 4/5/8/8; invalid implementation versions and Riemann names fall back to defaults.',
  'all configurations', 'all configs', [HP])
p('C37','MPI Cartesian neighbours are mutual',
  'On any process grid, the left neighbour of my right neighbour is me (each direction), coordinates <-> rank is a bijection, and a rank applies a physical boundary condition on a face iff it touches that face of the global domain.',
  'all process grids', 'unbounded', [HP+': setup_mpi','src/utils/mpi/MpiCommCart.h'])
p('C38','Halo pack/unpack is lossless',
  'Packing a border and unpacking it on the neighbour transfers every cell of the gw-wide layer exactly once for both memory layouts.',
  'all sizes', 'unbounded', [MB])
os.makedirs('/verif',exist_ok=True)
exec(open(os.path.join(os.path.dirname(__file__),'props_more.py')).read()) if os.path.exists(os.path.join(os.path.dirname(__file__),'props_more.py')) else None
with open('/verif/properties.jsonl','w') as f:
    for x in P: f.write(json.dumps(x)+'\n')
print(len(P))
