C01: `Model/Index`; div/mod algebra over Int for both layouts
C02: `Core/Prog`, `Core/Kernel`: all interleavings of single memory operations; generic owner-computes theorem `forRange_owner`, then footprints of each 2D kernel
C03: generic theorem on atomic additions (multiset of contributions is schedule independent, sum in a commutative monoid), footprints of the version-2 kernels
C04: the three launch sequences (`Model/HydroStep`) reduced to one pure per-cell formula (`Spec/Scheme2D`)
C05: telescoping sums of face fluxes (`Lemmas/Telescope`), periodic ghost law, induction over steps
C06: `Prog.Safe`: every read and write of every path inside the allocated extents; omega
C07: boundary functors (`Model/Boundaries`) per face, then composition of faces against `Spec/Boundary`
C08: same in 3D
C09: loop bound max(...)*gw, 32-bit evaluation for the overflow finding
C10: `Model/Mpi`, `Model/MpiRun`: SPMD programs over FIFO channels (`Core/Spmd`), executed in every schedule; halo against the serial fill of the global grid
C11: block-restriction invariant (`Spec/Decomposition`), simulation between distributed and serial runs
C12: channel invariant over all schedules; progress by a well-founded measure in rendezvous mode
C13: `Model/Driver` state machine; induction over iterations
C14: variant nstepmax - iteration
C15: refinement of the whole program (memory, ping-pong views, files) to `Spec/Simulation`
C16: induction over iterations of the driver
C17: induction over iterations of the driver
C18: field arithmetic on `Model/Hydro2D` conversions
C19: case analysis of the limiter over ordered fields
C20: case analysis of every branch of every solver
C21: exchange of arguments and sign of velocity in every branch
C22: fixed point of the per-cell formula, induction over steps
C23: transposition of the grid commutes with every stage
C24: max-reduction as an arbitrary binary tree (`Core/Reduce`), order independence
C25: same with the gravity term
C26: ring on the kernel update, every schedule
C27: edge EMF used with opposite signs by the two faces; ring; every version and any number of steps
C28: same in 3D
C29: as C04 in 3D
C30: as C05 in 3D
C31: as C06 in 3D
C32: option-valued flux of the dispatch
C33: `Model/Config`, `Model/Ini`; association lists with lower-casing
C34: `Model/Ini`: inih over byte lists; induction over lines
C35: both readers (`ini_parse_file`, `ini_parse_buffer`)
C36: `Model/Params`
C37: row-major periodic ranks
C38: border buffers, both layouts, every schedule
C39: `Model/Mhd2D`; det_seqs over launches
C40: `Spec/MhdScheme2D` as common normal form
C41: as C06
C42: telescoping
C43: fixed point of the per-cell formula
C44: as C39 in 3D
C45: `Spec/MhdScheme3D`, with a separate normal form for version 2
C46: as C06
C47: telescoping
C48: fixed point
C49: `Spec/RiemannProblem`, textbook HLL, LLF, HLLC written independently
C50: `Spec/EulerPDE`: derivatives of affine solutions of the Euler equations
C51: the same generic code run in the checked arithmetic `Chk` (`Core/Checked`): a division by zero or a root of a negative number is the value `bad`
C52: as C51 for MHD
C53: `Spec/MhdSimulation`
C54: refinement of the whole MHD program to `Spec/MhdSimulation`
C55: `Spec/MhdRiemann`, `Spec/MhdFluxes`, `Spec/MhdEmf` written independently
C56: `Model/InitParams`, `Model/Init` + C11
C57: footprints of the init kernels
C58: `Spec/Problems`; vortices checked against `Spec/EulerPDE`
C59: discrete curl, shear fields; C54
C60: as C11 for MHD (`Model/MpiMhd`, `Lemmas/DistMhd`)
C61: as C56 for MHD
C62: C59 + C60
C63: `Spec/MhdPDE`: affine solutions of the ideal MHD equations
C64: `Spec/MhdProblems`
C65: `Model/Vtk`, reader `Spec/Vtk`; list lemmas on nested loops, C16, C11
C66: `Model/Hdf5`, `Spec/Hdf5` (datasets); hyperslab transfers as enumerations of boxes, C11 blocks
C67: `Model/Hdf5` (`initRestart`), `Spec/Restart`; refinement to the sequential algorithm (C15/C53/C11/C60), simulation argument on equal interiors
C68: `Model/Hdf5` (`upscaleBuffer`), `Spec/Upscale`; C66 transfers, parity of fine cells, algebra
C69: Riemann solvers on states of equal pressure and zero normal velocity (Newton loop fixed point), TVD bound keeps face states above the floors, induction over steps
C70: `Spec/Symmetry`, `Lemmas/{Symmetry3,RunSymmetry}`; equivariance of fill, slopes, trace, Riemann solver and update, then a simulation of the two runs
C71: `Spec/MhdPrimitives`; result of the conversion kernel, algebra of the total energy
C72: `Lemmas/{Mirror,Mirror3}`; equivariance of slopes, trace, Riemann solver, update and boundary fill under reversal, then the simulation lemma of C70
C73: near a wall the filled field is its own mirror image, so the wall flux is its own mirror image and moves only normal momentum; telescoping sums; invariant of the run; the leak by consistency of the solvers
C74: `Lemmas/Positivity`; positive states form a convex cone, each textbook flux splits into the exact flux of a side, a multiple of its content and an element of the cone; CFL bound summed over the faces
C78: induction over the outputs (files are never overwritten because numbers are distinct and zero padding is injective) composed with C16 and C66
C79: `Model/Program` composes the INI reader, the parameters, the factory, init and the driver; the theorems compose C34/C36 (parameters), C58/C64 (initial state), C14 (completion) and C15/C53 (refinement)
C80: a configuration that differs only in the numbers of cells gives the parameters, problem and gravity of the whole domain (key by key); composed with C56/C61
C77: filling ghost cells and moving commute near interior cells (arithmetic modulo the number of cells), every kernel only uses relative positions (shift lemmas), so the methods are related (`RunSym2/3`, `Related`); composed with C15/C53
C76: slopes along z vanish, the two z fluxes of a cell are equal, the Riemann solvers agree on states without z velocity; induction over the steps, and the methods are related (`Related`) for complete runs
C75: every quantity of the scheme scales with a fixed product of powers of the units (lemma per local variable of the solvers, reconstruction, time step); runs with scaled times (`Scaled`); composed with C15
C81: field identities for the round trips; derivatives of conserved variables and fluxes along a curve (`HasDerivHS`), sound speed from its defining equation
C82: field identities; the dissipation is a sum of squares times the viscosity
C83: no-field states embedded in MHD states commute with every function of the MHD scheme (solvers, reconstruction, predictor, boundary fill, CFL rate); electromotive forces vanish; runs related by `Related`; composed with C15 and C54
C84: every function of the MHD schemes commutes with the exchange (Riemann solvers do not distinguish the transverse directions; the edge solver changes sign, C55); runs related by `Related`; composed with C54
C85: `Model/Wedge`; owner-computes per ghost cell, composition of the four faces; trigonometry of the front; polynomial identities
C86: footprint of every path of each body (`Prog.Foot`), index decoding by C01; `viewElem`/`viewOffset` are inverse on the storage of a buffer
C87: the step of a cell depends on a box of the filled field (`step2_congr` …); the source of every ghost cell in the box is within reach (`reach_srcCoord`); induction on the steps with transitivity of `Reach`
C88: `serialMain` with restart options is `initRestart` + `runMain`; C66 round trip and C67 give the continuation; parameter files that differ in the restart keys give the same parameters; a concrete pair of texts in `restart_sample`
C89: every function of the MHD scheme (conversion, slopes, source terms, traces, the three Riemann solvers, the 2D HLLD electromotive force, update, ghost cells, CFL step) commutes with the change of units; induction on the turns of the run (`Scaled`) and the refinement C54
C90: the star states of HLLD keep the outer states (uniform normal velocity and total pressure), then the rotational fan is solved algebraically; fluxes uniform and electromotive forces zero on a fluid at rest, induction on the steps through the refinements of the kernels
C91: every function of the MHD scheme commutes with the sign change of the field (HLLD: with zero normal field the states that depend on the sign are never sampled); induction on the turns of the run (`Related`) and the refinement C54
C92: slopes, half-step states, face and edge states and electric field of the stacked state computed from those of the 2D scheme; the emf along x and y vanishes because the two states above and below an edge coincide; induction on the list of steps and on the turns of the run (`Related`)
C93: every int operation is modelled with an explicit range check (`i32`); monotonicity of the products bounds all intermediate values by the last one, nonlinear arithmetic for the converse and the samples
C94: every process reads the block of the whole domain (C66), so the run-level theorems C11 and C60 apply; composed with C88, and with C80 for files written by an MPI run
C95: the set of allocated locations is a disjoint union of boxes whose cardinality is computed (Finset.card_biUnion); overflow as in C93
C96: the program reduces to runMain (C79, C88); bookkeeping by induction on the trace of the run; totals and divergence from C05, C21, C25 and their periodic versions
C97: the states of the processes are glued to a state of the whole domain (the blocks tile it), whose run exists (C14) and which the processes reproduce (C11, C60); C73, C54, C59 and C96 for that run; the totals over the domain are the sums of the totals over the blocks
C98: the calls on each timer alternate (induction on the turns), so the accumulated time telescopes; shares by summing over each turn and induction on the loop
C99: the loaded field is symmetric (problem by problem, from the formulas and the positions of the cell centres), and a run started from a symmetric field stays symmetric (C70, C72; MHD: C84)
C100: a serial run exists (every launch of the start has an outcome, C14), the processes reproduce it (C80), and two pictures of the same blocks agree in every cell because the blocks tile the domain; the symmetric problems by C99
C101: induction on the turns of the loop; the sequences of times and steps are extended at each turn
C102: the maximum reduction is unique by induction over the tree of partial results (a result is one of the values and not below any), the kernels are deterministic (C02, C29, C39, C44, C57), then induction on the turns of the loop; the kernels are equal functions for any uninitialised values when the slope type and the Riemann solver are known
C103: all phases of a process have one result on every memory (halo exchange included), so the executions of the SPMD machine follow one history (Core/Flow); the processes agree on time, iteration and output counter at the head of the loop by induction; C102 for the reduction of each process
C104: each process's maximum is that of its block (C102's uniqueness), the smallest quotient is the quotient of the largest rate by monotonicity, the kernels of a block are law-free equal to those of the whole grid on its cells (C46/C61 blocks), then induction on the turns with the serial run as a shadow
C105: a model of IEEE 754 arithmetic (rational grid, rounding to nearest even, special values) with proofs of the exact facts MaxLaws, DivLaws and SignLaws from monotonicity and oddness of rounding; C102, C103, C104 instantiated; the rate of a cell is followed operation by operation through NaN and infinities
C106: operations followed through NaN, infinities and signs in the IEEE 754 model (gradual underflow: a computed difference of different numbers is not zero); the concrete state by exact rational arithmetic with three inexact products rounded to nearest
C107: zeros of either sign followed through primitives, slopes, traces, the Riemann solver and the update in the IEEE 754 model; induction over steps; the kernels through the refinement of C02 and C03; for whole runs an invariant of the driver loop, the reduction by induction over its schedule, the shortened last step by monotonicity of rounding; for MPI runs the blocks of the serial run (C104), whose cells all have a positive rate
