# Formal model of pkestene/euler_kokkos in Lean 4

## 1. Approach

* **Arithmetic.** Model functions are generic over a type `R` with the operations the C++ uses
  (`+ - * /`, negation, `fmax fmin fabs sqrt`, comparisons returning `Bool`, literals); the class
  `RealOps` states *no laws*.  Theorems come in three kinds, and each says which it is:
  - *law-free*: for every `R`, hence also for IEEE-754 `double` with NaN and rounding (schedule independence,
    bounds, equality of implementations value by value, halo exchange, initial states, driver); a few need
    `SignLaws R` (`x * 1.0 = x`, `x * -1.0 = -x`), which IEEE satisfies;
  - *exact*: at `R = ℝ` (conservation, TVD, consistency, div B, CFL, PDE expansions).  Rounding is outside
    these theorems;
  - *checked*: at `R = Chk`, exact arithmetic in which `x / 0` and `sqrt` of a negative number give an absorbing
    value `bad` (C51, C52).  This covers definedness, not rounding or overflow.  The laws of addition the atomic
    implementation versions need (`ExactAdd`: commutative, associative, subtraction adds the negative) hold at
    both `ℝ` and `Chk`; IEEE addition does not satisfy them;
  - *IEEE 754*: at `R = Ieee Φ` (`Spec/Ieee`, C105): finite values of a binary format of any precision and
    exponent range (`binary64`, `binary32` are instances), signed zeros, infinities, one NaN, `+ - * / sqrt` rounded to
    nearest even, overflow and gradual underflow, C's `fmax`/`fmin`/`fabs` and comparisons.  No contraction to fused
    multiply-add (`-ffp-contract=off`), no payloads of NaN, and `fmax(+0,-0)` is one fixed zero.
* **Memory and kernels.** A Kokkos view is a handle; memory maps `(handle, i, j, k, var)` to `R` with
  `i j k : ℤ` (no wrap-around).  A functor's `operator()` is a program in a small free monad `Prog` with `read`,
  `write`, `atomicAdd`.  `parallel_for` runs one `Prog` per index; its semantics is the set of **all
  interleavings** of single memory operations.  Out-of-extent accesses are visible in the program
  (`Prog.Safe`), not hidden by totality.  Local variables the C++ leaves uninitialised are arguments (`Junk`,
  `JunkM`) over which theorems quantify.
* **Launch sequences.** A solver step is a sequence of launches on one execution space, which Kokkos runs in
  order (`runLaunches`).  `parallel_reduce` is an arbitrary binary reduction tree.
* **MPI.** Every rank runs a program with sends, receives and reductions over FIFO channels per
  (source, destination, tag), in every schedule, buffered or not (`Core/Spmd`).
* **Driver.** `main`/`SolverBase::run` as a state machine with ping-pong buffers, iteration, time, output list.
* **Configuration.** inih and `ConfigMap` over byte lists; `strtof`, float rounding, libm are parameters
  (`FloatLib`, `MathLib`) that theorems quantify over, or assume exact (`ExactMath`) where they say so.
* **Layout of the sources.** `Core` (semantics), `Model` (the code, citing `/repo` file and lines), `Spec`
  (independent specifications: textbook formulas, PDEs, boundary laws, sequential algorithms), `Lemmas`,
  `Props` (the theorems `Cnn_...`, each file ending with concrete instances that meet the hypotheses).

## 2. Trusted base

* Lean 4.33.0's kernel.  No axioms of our own, no `native_decide`, no `bv_decide`.  The axioms of every theorem
  of MANIFEST.json, as printed by `#print axioms` (`tools/axioms.py`):

  633 of 633 theorems
  * `Classical.choice, Quot.sound, propext`: 622 theorems
  * `Quot.sound, propext`: 10 theorems (C33_integer_default, C34_parse_buffer, C34_parse_file, C34_roundtrip, C34_indented_line_replaces, C35_same_parse, C35_same_configuration, C35_missing_file, C35_long_line_differs, C93_sizes)
  * `none`: 1 theorems (C09_bound_overflows_thin_grid)

* The statements in `Spec` and `Props`.
* The faithfulness of the hand-written model to the C++ text.  Every definition cites file and lines; there is no
  machine link between the C++ and the model.  The seeded-bug log (`seeded/LOG.jsonl`) shows that the theorems
  notice edits of the model.
* Assumptions on the outside world, explicit in the model: Kokkos runs launches of one execution space in
  order and executes single memory operations atomically; views are zero-initialised at allocation; MPI delivers
  messages in order per (source, destination, tag) and `MPI_Cart_*` number ranks row-major with periodic wrap.

## 3. What is modelled

| part of /repo | model |
|---|---|
| `src/shared/utils.h`, `kokkos_shared.h` index maps | `Model/Index` |
| `src/shared/HydroParams.*`, `SolverBase` parameters | `Model/Params`, `Model/Config` |
| `src/utils/config/**` (inih, INIReader, ConfigMap) | `Model/Ini`, `Model/Config` |
| `src/shared/BoundariesFunctors.h` (2D and 3D faces) | `Model/Boundaries` |
| `src/shared/RiemannSolvers.h` | `Model/Riemann` |
| `src/shared/RiemannSolvers_MHD.h`, `mhd_utils.h` | `Model/RiemannMhd`, `Model/MhdState`, `Model/MhdUtils` |
| `src/muscl/HydroBaseFunctor{2,3}D.h`, `HydroRunFunctors{2,3}D.h` | `Model/Hydro2D`, `Model/Hydro3D`, `Model/ComputeDt` |
| `src/muscl/MHDBaseFunctor{2,3}D.h`, `MHDRunFunctors{2,3}D.h` | `Model/Mhd2D`, `Model/Mhd3D` |
| `src/muscl/SolverHydroMuscl.{h,cpp}`, `SolverMHDMuscl.{h,cpp}` (init, step, time step, boundaries) | `Model/HydroStep`, `HydroStep3`, `Driver`, `DriverMhd`, `Init`, `InitMhd` |
| `src/muscl/*InitFunctors*.h`, `src/shared/problems/*.{h,cpp}` | `Model/Init`, `InitMhd`, `InitParams`, `RiemannConfigs` |
| `src/shared/SolverBase.cpp` (run loop, dt, output cadence, MPI halo exchange), `mpiBorderUtils.h`, `src/utils/mpi` topology, `main.cpp` | `Model/Driver`, `Model/Mpi`, `MpiRun`, `MpiMhd` |
| `src/utils/io/IO_VTK.cpp` | `Model/Vtk` |
| `src/utils/io/IO_HDF5.h`, `IO_ReadWrite.cpp` (load), `init_restart` | `Model/Hdf5` |
| `src/utils/io/IO_HDF5.cpp` (XDMF index) | `Model/Xdmf` |
| `src/main.cpp` from the parameter file on, `src/shared/SolverFactory.*`, `src/shared/SolverBase.cpp` (constructor), `src/shared/GravityParams.h` | `Model/Program`, `Model/ProgramMpi` |
| `src/shared/EulerEquations.h` (not used by the solvers; `IT` read as `IY`) | `Model/EulerEquations` |

## 4. What is not modelled

* Rounding and overflow of floating point in the *exact* and *checked* theorems (C105 and the law-free theorems cover it); the double precision literals of a single precision build; 32-bit overflow of `int` except where a theorem states it (C09, C36, C93, C95).
* PnetCDF files (`IO_PNETCDF.h` names the undeclared constant `IT`, so that build does not compile).  The VTK writers and the XDMF index are modelled up to XML syntax; the HDF5 writer and reader are modelled
  on top of the semantics the HDF5 manual gives to hyperslab selections and transfers (C66): trusted, not proved.
* A launch of the wedge border functor (the repository has none; C85 models it on `make_boundary`), the clocks behind the timers (C98 takes them as a parameter), command-line handling, GPU memory spaces, the random number generator (arbitrary
  values per cell).
* `Omega0 > 0` and `cIso > 0` paths that no configuration reaches are modelled but
  only covered where a theorem quantifies over them.
* `setFloat` of ConfigMap (prints six digits).

## 5. Properties

<!-- table -->
| id | property | modelled code and proof | status |
|---|---|---|---|
| C01 | Flat loop indices and cell coordinates are in bijection | `Model/Index`; div/mod algebra over Int for both layouts | proved, 6 theorems. flat index <-> coordinates, 2D and 3D, all sizes |
| C02 | Parallel hydro kernels are schedule independent (2D) | `Core/Prog`, `Core/Kernel`: all interleavings of single memory operations; generic owner-computes theorem `forRange_owner`, then footprints of each 2D kernel | proved, 2 theorems. any arithmetic, any interleaving of single memory operations; whole step and each kernel |
| C03 | Atomic flux accumulation is schedule independent up to rounding (2D) | generic theorem on atomic additions (multiset of contributions is schedule independent, sum in a commutative monoid), footprints of the version-2 kernels | proved, 1 theorems. exact additions (the schedule dependence in IEEE is rounding only); covers the kernels of version 2 |
| C04 | The three hydro implementation versions compute the same time step (2D) | the three launch sequences (`Model/HydroStep`) reduced to one pure per-cell formula (`Spec/Scheme2D`) | proved, 3 theorems. versions 0 and 1 bit for bit for any arithmetic with exact multiplication by +-1; version 2 in exact arithmetic; runs of any length |
| C05 | Hydro time step is conservative (2D) | telescoping sums of face fluxes (`Lemmas/Telescope`), periodic ghost law, induction over steps | proved, 3 theorems. exact arithmetic; balance for any boundary, conservation for periodic boxes, any number of steps, all versions |
| C06 | No out-of-bounds array access in the hydro time step (2D) | `Prog.Safe`: every read and write of every path inside the allocated extents; omega | proved, 1 theorems. every access of every kernel on every path, any grid with at least one cell |
| C07 | Serial ghost fill implements the requested boundary conditions (2D) | boundary functors (`Model/Boundaries`) per face, then composition of faces against `Spec/Boundary` | proved, 5 theorems.  |
| C08 | Serial ghost fill implements the requested boundary conditions (3D) | same in 3D | proved, 1 theorems.  |
| C09 | Loop bound of boundary kernels covers every ghost cell | loop bound max(...)*gw, 32-bit evaluation for the overflow finding | proved, 4 theorems. includes the overflow of the 3D bound for thin grids (C09_bound_overflows_thin_grid), a defect of the code |
| C10 | MPI halo exchange reproduces the serial ghost fill | `Model/Mpi`, `Model/MpiRun`: SPMD programs over FIFO channels (`Core/Spmd`), executed in every schedule; halo against the serial fill of the global grid | proved, 2 theorems. Every complete execution (any schedule, any buffering) of the modelled make_boundaries_mpi on any process grid with blocks at least ghostWidth wide and the four named boundary conditions; an out-of-enum boundary value is covered only with one process along the axis (the code then wraps inside the local block, DESIGN.md findings). |
| C100 | What holds of the serial program holds of the MPI program | a serial run exists (every launch of the start has an outcome, C14), the processes reproduce it (C80), and two pictures of the same blocks agree in every cell because the blocks tile the domain; the symmetric problems by C99 | proved, 17 theorems. exact arithmetic; fresh runs; problems without random numbers; named boundary conditions |
| C101 | The progress lines of a run | induction on the turns of the loop; the sequences of times and steps are extended at each turn | proved, 3 theorems. the serial program; law-free arithmetic; the numbers printed, not their formatting |
| C102 | The same parameter file gives the same files, bit for bit, on any number of threads | the maximum reduction is unique by induction over the tree of partial results (a result is one of the values and not below any), the kernels are deterministic (C02, C29, C39, C44, C57), then induction on the turns of the loop; the kernels are equal functions for any uninitialised values when the slope type and the Riemann solver are known | proved, 4 theorems. any arithmetic with the exact facts MaxLaws (listed in Spec/FloatMax.lean; proved for the reals and for a rounding fixed point arithmetic with a NaN, and in C105 for every binary IEEE 754 format); fresh runs; hydro versions 0 and 1, MHD version 0; restarts from the state after loading |
| C103 | The MPI run repeats itself bit for bit, whatever the interleaving of the processes | all phases of a process have one result on every memory (halo exchange included), so the executions of the SPMD machine follow one history (Core/Flow); the processes agree on time, iteration and output counter at the head of the loop by induction; C102 for the reduction of each process | proved, 3 theorems. as C102; same process grid, build and memory layout in both executions; MPI_Allreduce combines in rank order |
| C104 | The MPI run is the serial run, bit for bit, in floating point | each process's maximum is that of its block (C102's uniqueness), the smallest quotient is the quotient of the largest rate by monotonicity, the kernels of a block are law-free equal to those of the whole grid on its cells (C46/C61 blocks), then induction on the turns with the serial run as a shadow | proved, 13 theorems. any arithmetic with MaxLaws, DivLaws and SignLaws (proved for the reals and for a rounding fixed point arithmetic with a NaN, and in C105 for every binary IEEE 754 format); SerialMoves (every block has a cell of positive rate at every step of the serial run) is a hypothesis, proved in exact arithmetic; fresh runs without random numbers; hydro versions 0 and 1, MHD version 0 |
| C105 | In IEEE 754 double precision the program has one outcome, and the MPI run is the serial run | a model of IEEE 754 arithmetic (rational grid, rounding to nearest even, special values) with proofs of the exact facts MaxLaws, DivLaws and SignLaws from monotonicity and oddness of rounding; C102, C103, C104 instantiated; the rate of a cell is followed operation by operation through NaN and infinities | proved, 9 theorems. IEEE 754 rounding to nearest even (and any monotone odd rounding onto a grid), signed zeros, infinities, overflow, underflow, NaN; one NaN value, fmax and fmin on zeros of opposite sign take a fixed one, no contraction to fused multiply-add, pow/sin/cos/... arbitrary deterministic functions; rates of hydro cells with and without gravity here, of MHD cells in C106; otherwise as C102 to C104 |
| C106 | In double precision the fast magnetosonic speed of a sound state can be a NaN | operations followed through NaN, infinities and signs in the IEEE 754 model (gradual underflow: a computed difference of different numbers is not zero); the concrete state by exact rational arithmetic with three inexact products rounded to nearest | proved, 10 theorems. double precision, rounding to nearest even, no contraction to fused multiply-add; the sound state without a speed is one concrete state (there are many); the consequences are stated for any states without a speed; C106_alive gives the cells that have one |
| C107 | In double precision uniform gas at rest stays at rest, bit for bit | zeros of either sign followed through primitives, slopes, traces, the Riemann solver and the update in the IEEE 754 model; induction over steps; the kernels through the refinement of C02 and C03; for whole runs an invariant of the driver loop, the reduction by induction over its schedule, the shortened last step by monotonicity of rounding; for MPI runs the blocks of the serial run (C104), whose cells all have a positive rate | proved, 16 theorems. double precision, rounding to nearest even, no contraction to fused multiply-add; 2D and 3D, the iterative Riemann solver, HLLC, LLF and (2D) HLL, no gravity, versions 0 and 1; gas above the floors and short of overflow and underflow (CalmGas, CalmStep); the sign of a zero momentum may change; MPI: blocks at least as wide as the ghost layer, finite positive Courant number |
| C11 | A distributed hydro step equals the serial step | block-restriction invariant (`Spec/Decomposition`), simulation between distributed and serial runs | proved, 6 theorems. One step bit for bit for versions 0/1 (any arithmetic with exact multiplication by +-1), all versions over the reals; whole runs of main over the reals, any interleaving, buffered or rendezvous. Each rank evaluates the loop condition on its own state. Blocks at least ghostWidth wide and the four named boundary conditions. Parallel file writers are modelled as one recorded output per rank. |
| C12 | Halo messages are matched to the right face and the exchange cannot deadlock | channel invariant over all schedules; progress by a well-founded measure in rendezvous mode | proved, 2 theorems. Asynchronous machine with per-(source,destination,tag) FIFO channels; progress is proved for the rendezvous (unbuffered) mode. |
| C13 | Time never passes tEnd and the last step lands on tEnd | `Model/Driver` state machine; induction over iterations | proved, 4 theorems. exact arithmetic; any solver with non-negative dt, hydro solvers unconditionally |
| C14 | The run terminates within nstepmax iterations | variant nstepmax - iteration | proved, 6 theorems. any arithmetic and solver; completion for the hydro solvers (nlog != 0, otherwise % 0 is undefined) |
| C15 | A run is the plain algorithm: ping-pong buffers always expose the latest solution | refinement of the whole program (memory, ping-pong views, files) to `Spec/Simulation` | proved, 4 theorems. exact arithmetic; refinement of the whole program to a sequential algorithm, 2D and 3D; serial build |
| C16 | Output numbering is gapless | induction over iterations of the driver | proved, 4 theorems. any arithmetic and solver |
| C17 | Output cadence follows tEnd/noutput | induction over iterations of the driver | proved, 3 theorems. exact arithmetic, any solver |
| C18 | Primitive conversion is positive and inverts the conservative map | field arithmetic on `Model/Hydro2D` conversions | proved, 5 theorems. exact arithmetic, all states |
| C19 | Slope limiter is TVD | case analysis of the limiter over ordered fields | proved, 3 theorems. exact arithmetic |
| C20 | Riemann fluxes are consistent | case analysis of every branch of every solver | proved, 2 theorems. exact arithmetic; llf, hll (2D), hllc, approx |
| C21 | Riemann fluxes respect mirror symmetry | exchange of arguments and sign of velocity in every branch | proved, 4 theorems. exact arithmetic; llf, hll (2D), hllc |
| C22 | A uniform flow is an exact steady state | fixed point of the per-cell formula, induction over steps | proved, 2 theorems. exact arithmetic; runs of any length, all versions, 2D and 3D |
| C23 | The 2D hydro scheme treats x and y alike | transposition of the grid commutes with every stage | proved, 1 theorems. exact arithmetic; whole step, all versions |
| C24 | CFL time step is valid | max-reduction as an arbitrary binary tree (`Core/Reduce`), order independence | proved, 6 theorems. exact arithmetic; every reduction order; independence of the decomposition |
| C25 | Gravity CFL bound holds | same with the gravity term | proved, 2 theorems. exact arithmetic; every reduction order |
| C26 | Gravity source term keeps internal energy and mass | ring on the kernel update, every schedule | proved, 3 theorems. exact arithmetic; kernel level, every schedule |
| C27 | Constrained transport preserves div B (2D) | edge EMF used with opposite signs by the two faces; ring; every version and any number of steps | proved, 6 theorems. Whole MHD step and runs, all versions. Finding: at absorbing upper sides div B of the last column changes (C27_open_side_defect_2d). |
| C28 | Constrained transport preserves div B (3D) | same in 3D | proved, 5 theorems. Whole MHD step and runs, all versions. Finding: at absorbing upper sides the ghost fill replaces the normal field (C28_open_side_3d). |
| C29 | The three hydro implementation versions compute the same time step (3D) | as C04 in 3D | proved, 6 theorems. finding: version 1 + gravity predictor differs from versions 0/2 in 3D (C29_version1_gravity_differs_3d) |
| C30 | Hydro time step is conservative (3D) | as C05 in 3D | proved, 3 theorems. exact arithmetic; balance for any boundary, conservation for periodic boxes, runs of any length |
| C31 | No out-of-bounds array access in the hydro time step (3D) | as C06 in 3D | proved, 1 theorems. every access of every kernel on every path, any grid with at least one cell |
| C32 | Exactly which Riemann solver settings define the hydro flux | option-valued flux of the dispatch | proved, 2 theorems. finding: riemann=hlld leaves the flux uninitialised, also riemann=hll in 3D |
| C33 | Configuration lookup is case-insensitive last-write-wins with defaults | `Model/Config`, `Model/Ini`; association lists with lower-casing | proved, 11 theorems. Readers of both builds; setFloat (prints 6 digits) is not modelled. Finding: section names containing a dot can collide (C33_dotted_sections_collide). |
| C34 | INI parser recovers what a well-formed file says | `Model/Ini`: inih over byte lists; induction over lines | proved, 7 theorems. Every file without NUL bytes is covered (C34_every_file). Finding: an indented line below an entry replaces its value (C34_indented_line_replaces); headings are cut to 49 characters. |
| C35 | Serial and MPI builds read the same configuration | both readers (`ini_parse_file`, `ini_parse_buffer`) | proved, 4 theorems. Finding: the bound on the line length is sharp (C35_long_line_differs). |
| C36 | Derived grid parameters are consistent | `Model/Params` | proved, 11 theorems. strtof, float rounding and float-to-int conversion are parameters; int arithmetic of the sizes is unbounded (overflow for grids near 2^31 is not modelled). |
| C37 | MPI Cartesian neighbours are mutual | row-major periodic ranks | proved, 4 theorems. MPI_Cart_rank/coords are modelled as row-major with periodic wrap, as the MPI standard prescribes. |
| C38 | Halo pack/unpack is lossless | border buffers, both layouts, every schedule | proved, 3 theorems. Both Kokkos layouts, 2D and 3D, every schedule of the pack and unpack kernels. |
| C39 | 2D MHD step is schedule independent | `Model/Mhd2D`; det_seqs over launches | proved, 4 theorems. version 0 any arithmetic; versions 1/2 exact additions |
| C40 | The three MHD implementation versions compute the same time step (2D) | `Spec/MhdScheme2D` as common normal form | proved, 3 theorems. slope_type 1 or 2 and riemann hll, llf or hlld: for other settings the code uses uninitialised values |
| C41 | No out-of-bounds array access in the MHD time step (2D) | as C06 | proved, 1 theorems. every access of every kernel on every path, any grid with at least one cell |
| C42 | MHD time step is conservative (2D) | telescoping | proved, 3 theorems. exact arithmetic |
| C43 | A uniform MHD state stays uniform (2D) | fixed point of the per-cell formula | proved, 3 theorems. exact arithmetic; definedness (C43_mhd_uniform_defined_2d) for every implementation version. Finding: HLLD computes 0/0 in a uniform medium whose field is normal and dominates the pressure (C52_hlld_degenerate_undefined). |
| C44 | 3D MHD step is schedule independent | as C39 in 3D | proved, 4 theorems. version 0 any arithmetic; versions 1/2 exact additions |
| C45 | 3D MHD implementation versions 0 and 1 compute the same time step; version 2 is determined by the input | `Spec/MhdScheme3D`, with a separate normal form for version 2 | proved, 6 theorems. Versions 0 and 1 agree; version 2 is specified separately because it differs (C45_version_2_z_slope_vanishes). slope_type 1 or 2 and riemann hll, llf or hlld. |
| C46 | No out-of-bounds array access in the MHD time step (3D) | as C06 | proved, 1 theorems. every access of every kernel on every path, any grid with at least one cell |
| C47 | MHD time step is conservative (3D) | telescoping | proved, 3 theorems. exact arithmetic |
| C48 | A uniform MHD state stays uniform (3D) | fixed point | proved, 3 theorems. exact arithmetic; definedness (C48_mhd_uniform_defined_3d) for every implementation version. Finding: HLLD computes 0/0 in a uniform medium whose field is normal and dominates the pressure (C52_hlld_degenerate_undefined). |
| C49 | The hydro Riemann solvers compute the textbook fluxes | `Spec/RiemannProblem`, textbook HLL, LLF, HLLC written independently | proved, 6 theorems. exact arithmetic; physical states (at or above the floors); 3D has no HLL branch (C32) |
| C50 | The hydro predictor is the Taylor expansion of the Euler equations | `Spec/EulerPDE`: derivatives of affine solutions of the Euler equations | proved, 4 theorems. exact arithmetic; square/cubic cells. Finding: for other cells the transverse terms use the wrong mesh size (C50_anisotropic_differs). |
| C51 | A hydro run never divides by zero or takes the square root of a negative number | the same generic code run in the checked arithmetic `Chk` (`Core/Checked`): a division by zero or a root of a negative number is the value `bad` | proved, 8 theorems. checked exact arithmetic (rounding and overflow are outside). Every implementation version. Finding: the 3D gravity source divides by the unfloored new density (C51_gravity_zero_density). |
| C52 | An MHD run never divides by zero or takes the square root of a negative number, except HLLD at degenerate faces | as C51 for MHD | proved, 8 theorems. checked exact arithmetic (rounding and overflow are outside), every implementation version. Finding: C52_hlld_degenerate_undefined. |
| C53 | The MHD time step is the CFL step of the fast magnetosonic waves | `Spec/MhdSimulation` | proved, 6 theorems. exact arithmetic |
| C54 | A complete MHD run is the prescribed sequential algorithm | refinement of the whole MHD program to `Spec/MhdSimulation` | proved, 9 theorems. exact arithmetic; slope_type 1 or 2, riemann hll, llf or hlld (the others leave the flux uninitialised) |
| C55 | The MHD Riemann solvers compute the textbook fluxes | `Spec/MhdRiemann`, `Spec/MhdFluxes`, `Spec/MhdEmf` written independently | proved, 12 theorems. exact arithmetic, adiabatic (cIso = 0, the only value a run can have). HLLD at regular faces where the guard of the code is silent; findings C55_hlld_guard_misfires, C55_hlld_mirror_fails. |
| C56 | A distributed hydro run started from a configuration file starts with, and computes, the serial solution | `Model/InitParams`, `Model/Init` + C11 | proved, 5 theorems. initial state in any arithmetic, runs in exact arithmetic; hydro |
| C57 | Setting up a problem gives one result and stays inside the arrays | footprints of the init kernels | proved, 9 theorems. any arithmetic; the random draws are an arbitrary function of the iteration |
| C58 | The provided hydro problems start from the states they prescribe, and the two vortices are exact solutions | `Spec/Problems`; vortices checked against `Spec/EulerPDE` | proved, 10 theorems. exact arithmetic; the deviations are theorems of their own |
| C59 | The provided MHD problems start, and stay, divergence free | discrete curl, shear fields; C54 | proved, 4 theorems. exact arithmetic, serial run, slope_type/riemann as in C54 |
| C60 | A distributed MHD run is the serial MHD run | as C11 for MHD (`Model/MpiMhd`, `Lemmas/DistMhd`) | proved, 6 theorems. bit for bit in any arithmetic for one step of version 0; exact arithmetic for the other versions and for whole runs (the global max and the time step are then compared as reals) |
| C61 | The distributed MHD initial state is the serial one, and so is the run from it | as C56 for MHD | proved, 6 theorems. initial state in any arithmetic, runs in exact arithmetic; all processes read the same problem parameters (for the blast: the same uninitialised bz). Field loop and 3D Brio-Wu along z deviate: C61_field_loop_differs, C61_brio_wu_z |
| C62 | Distributed MHD runs keep div B zero across process boundaries and conserve the totals | C59 + C60 | proved, 2 theorems. exact arithmetic; the problems of C61 |
| C63 | MHD reconstruction is the Taylor expansion of the ideal MHD equations | `Spec/MhdPDE`: affine solutions of the ideal MHD equations | proved, 4 theorems. exact arithmetic; 2D (all versions, by C45) and 3D versions 0 and 1; 3D version 2 reconstructs differently, see C45 |
| C64 | MHD runs start from the state the test problem prescribes | `Spec/MhdProblems` | proved, 12 theorems. exact arithmetic and exact library functions; the departures of the code from the prescribed states are separate theorems |
| C65 | VTK files give back the computed state, serial and distributed | `Model/Vtk`, reader `Spec/Vtk`; list lemmas on nested loops, C16, C11 | proved, 16 theorems. XML syntax abstracted (attributes and raw bytes modelled); the distributed statement takes the block files of C11/C56/C60; large-grid failure and header mismatch are separate theorems |
| C66 | HDF5 files hold the computed field and reloading them restores it | `Model/Hdf5`, `Spec/Hdf5` (datasets); hyperslab transfers as enumerations of boxes, C11 blocks | proved, 23 theorems. the HDF5 library is modelled from its manual (hyperslab selection, row-major transfer); whole-array options proved in 2D and 3D, stacked and allghost files in 2D |
| C67 | A restarted run continues the run it was started from | `Model/Hdf5` (`initRestart`), `Spec/Restart`; refinement to the sequential algorithm (C15/C53/C11/C60), simulation argument on equal interiors | proved, 14 theorems. exact arithmetic (the time step is an exact maximum); file contents as in C66; with gravity the theorem asks for the same gravity field, and the loss of the field in the code is a separate theorem |
| C68 | Restarting at twice the resolution refines the saved state and keeps div B | `Model/Hdf5` (`upscaleBuffer`), `Spec/Upscale`; C66 transfers, parity of fine cells, algebra | proved, 13 theorems. cells for every number type; divergence, totals and thermal energy in exact arithmetic; the seam, stale ghost (version 0) and uninitialised memory statements in 2D |
| C69 | Contact discontinuities at rest and shear layers are preserved exactly by approx and hllc | Riemann solvers on states of equal pressure and zero normal velocity (Newton loop fixed point), TVD bound keeps face states above the floors, induction over steps | proved, 5 theorems. exact arithmetic; shear layers in 2D along y (the x case follows with C23) |
| C70 | Complete hydro runs do not depend on the names of the axes | `Spec/Symmetry`, `Lemmas/{Symmetry3,RunSymmetry}`; equivariance of fill, slopes, trace, Riemann solver and update, then a simulation of the two runs | proved, 4 theorems. exact arithmetic (sums are reordered); contents of interior cells of the files |
| C71 | MHD steps work with the primitive variables of the stored conserved variables | `Spec/MhdPrimitives`; result of the conversion kernel, algebra of the total energy | proved, 4 theorems. exact arithmetic; adiabatic (cIso is 0 in every run) |
| C72 | Complete hydro runs do not depend on the direction of an axis | `Lemmas/{Mirror,Mirror3}`; equivariance of slopes, trace, Riemann solver, update and boundary fill under reversal, then the simulation lemma of C70 | proved, 7 theorems. exact arithmetic; riemann=approx is not covered (its Newton iteration is not symmetric in the sides); contents of interior cells of the files |
| C73 | Closed boxes keep mass and energy in every file of a hydro run | near a wall the filled field is its own mirror image, so the wall flux is its own mirror image and moves only normal momentum; telescoping sums; invariant of the run; the leak by consistency of the solvers | proved, 3 theorems. exact arithmetic; walls with riemann=approx are not covered |
| C74 | The first-order scheme keeps density and thermal energy positive | `Lemmas/Positivity`; positive states form a convex cone, each textbook flux splits into the exact flux of a side, a multiple of its content and an element of the cone; CFL bound summed over the faces | proved, 2 theorems. exact arithmetic; one step at a time: the new content is positive but may be below the floors; the Courant limits are sufficient, not claimed to be sharp; riemann=approx is not covered |
| C75 | Results do not depend on the units | every quantity of the scheme scales with a fixed product of powers of the units (lemma per local variable of the solvers, reconstruction, time step); runs with scaled times (`Scaled`); composed with C15 | proved, 3 theorems. exact arithmetic; hydro |
| C76 | The 3D hydro solver on a state that does not depend on z is the 2D solver | slopes along z vanish, the two z fluxes of a cell are equal, the Riemann solvers agree on states without z velocity; induction over the steps, and the methods are related (`Related`) for complete runs | proved, 2 theorems. exact arithmetic; no gravity (with gravity the 2D and 3D source terms differ in the density floor) |
| C77 | A periodic domain has no origin | filling ghost cells and moving commute near interior cells (arithmetic modulo the number of cells), every kernel only uses relative positions (shift lemmas), so the methods are related (`RunSym2/3`, `Related`); composed with C15/C53 | proved, 6 theorems. exact arithmetic; gravity uniform (the only kind the code sets up) |
| C78 | The XDMF index of a run leads to every HDF5 output | induction over the outputs (files are never overwritten because numbers are distinct and zero padding is injective) composed with C16 and C66 | proved, 10 theorems. the XML text is modelled as the tree of grids and attributes; the race of the processes writing the same text is not modelled |
| C79 | The serial program, from the text of the parameter file to its last output, is the sequential algorithm | `Model/Program` composes the INI reader, the parameters, the factory, init and the driver; the theorems compose C34/C36 (parameters), C58/C64 (initial state), C14 (completion) and C15/C53 (refinement) | proved, 10 theorems. exact arithmetic for the end-to-end theorems; files that do not restart; the two MHD blast members the code leaves uninitialised are a parameter |
| C80 | The MPI program on a process grid does what the serial program does on the whole domain, from the parameter file on | a configuration that differs only in the numbers of cells gives the parameters, problem and gravity of the whole domain (key by key); composed with C56/C61 | proved, 5 theorems. exact arithmetic; no restart; number of processes = mx*my*mz; in 2D mz=1; MHD blast: the members the code leaves uninitialised must agree |
| C81 | The characteristic variables of the Euler system are the characteristic variables | field identities for the round trips; derivatives of conserved variables and fluxes along a curve (`HasDerivHS`), sound speed from its defining equation | proved, 5 theorems. exact arithmetic; the header is not used by the solvers and names an undeclared constant IT, read as IY |
| C82 | Fluxes, equation of state and viscous terms of the Euler equations library are the physical ones | field identities; the dissipation is a sum of squares times the viscosity | proved, 14 theorems. exact arithmetic; the header is not used by the solvers |
| C83 | Without magnetic field the MHD solver is the hydro solver | no-field states embedded in MHD states commute with every function of the MHD scheme (solvers, reconstruction, predictor, boundary fill, CFL rate); electromotive forces vanish; runs related by `Related`; composed with C15 and C54 | proved, 4 theorems. exact arithmetic; square cells (see C50) |
| C84 | Complete MHD runs do not depend on the names of the axes | every function of the MHD schemes commutes with the exchange (Riemann solvers do not distinguish the transverse directions; the edge solver changes sign, C55); runs related by `Related`; composed with C54 | proved, 4 theorems. exact arithmetic; 3D: implementation versions 0 and 1 |
| C85 | The border of the double Mach reflection follows the shock, and the inflow states are the configured ones | `Model/Wedge`; owner-computes per ghost cell, composition of the four faces; trigonometry of the front; polynomial identities | proved, 7 theorems. ghost fill: any arithmetic with exact multiplication by +-1; geometry and states: exact arithmetic; four variables (2D hydro); the launch is modelled on make_boundary, the repository contains none |
| C86 | The time-step reductions, the halo exchange and the double Mach border never leave their arrays | footprint of every path of each body (`Prog.Foot`), index decoding by C01; `viewElem`/`viewOffset` are inverse on the storage of a buffer | proved, 13 theorems. any arithmetic; buffer extents as allocated by the constructor of SolverBase; MPI itself and Kokkos padding are outside the model |
| C87 | Information travels a bounded number of cells per step (domain of dependence) | the step of a cell depends on a box of the filled field (`step2_congr` …); the source of every ghost cell in the box is within reach (`reach_srcCoord`); induction on the steps with transitivity of `Reach` | proved, 7 theorems. given time steps (compute_dt is global and couples all cells); any arithmetic for hydro versions 0 and 1 and MHD version 0, exact additions for the atomic versions; the gravity fields of the two runs are equal |
| C88 | The program restarted from one of its HDF5 files continues the run | `serialMain` with restart options is `initRestart` + `runMain`; C66 round trip and C67 give the continuation; parameter files that differ in the restart keys give the same parameters; a concrete pair of texts in `restart_sample` | proved, 10 theorems. exact arithmetic, serial build; first run must have reached tend (as in C67); with gravity a restart loses the field (C67_gravity_lost_2d) |
| C89 | MHD results do not depend on the units | every function of the MHD scheme (conversion, slopes, source terms, traces, the three Riemann solvers, the 2D HLLD electromotive force, update, ghost cells, CFL step) commutes with the change of units; induction on the turns of the run (`Scaled`) and the refinement C54 | proved, 3 theorems. exact arithmetic; complete runs; 3D versions 0 and 1 only for changes of units that keep densities (the claim is false otherwise, C89_pressure_floor_3d) |
| C90 | HLLD resolves contact, tangential and rotational discontinuities exactly; magnetised contacts at rest are steady | the star states of HLLD keep the outer states (uniform normal velocity and total pressure), then the rotational fan is solved algebraically; fluxes uniform and electromotive forces zero on a fluid at rest, induction on the steps through the refinements of the kernels | proved, 6 theorems. exact arithmetic; states that are not switch-like |
| C91 | Reversing the magnetic field reverses it for ever and changes nothing else | every function of the MHD scheme commutes with the sign change of the field (HLLD: with zero normal field the states that depend on the sign are never sampled); induction on the turns of the run (`Related`) and the refinement C54 | proved, 3 theorems. exact arithmetic; complete runs of the serial solvers |
| C92 | On planar states the 3D MHD solver computes what the 2D MHD solver computes | slopes, half-step states, face and edge states and electric field of the stacked state computed from those of the 2D scheme; the emf along x and y vanishes because the two states above and below an edge coincide; induction on the list of steps and on the turns of the run (`Related`) | proved, 2 theorems. exact arithmetic; in versions 0 and 1 of the 3D solver the pressure floor differs from that of the 2D solver, so the claim carries the condition that no floor acts |
| C93 | Index arithmetic in 32-bit int: exactly which grids are safe | every int operation is modelled with an explicit range check (`i32`); monotonicity of the products bounds all intermediate values by the last one, nonlinear arithmetic for the converse and the samples | proved, 8 theorems. signed 32-bit overflow is an undefined result (none); the index arithmetic listed in Model/Int32.lean |
| C94 | The MPI program restarted from an HDF5 file continues the run, on any process grid | every process reads the block of the whole domain (C66), so the run-level theorems C11 and C60 apply; composed with C88, and with C80 for files written by an MPI run | proved, 13 theorems. exact arithmetic; HDF5 files of the interior cells in one piece |
| C95 | The memory a solver reports is the memory of its arrays | the set of allocated locations is a disjoint union of boxes whose cardinality is computed (Finset.card_biUnion); overflow as in C93 | proved, 8 theorems. Uhost, the mirror of U on the host, is not counted by the program and not by the specification; the size_t part of the sums is exact |
| C96 | What the files of every execution of the program satisfy | the program reduces to runMain (C79, C88); bookkeeping by induction on the trace of the run; totals and divergence from C05, C21, C25 and their periodic versions | proved, 6 theorems. exact arithmetic |
| C97 | What the files of every execution of the MPI program satisfy | the states of the processes are glued to a state of the whole domain (the blocks tile it), whose run exists (C14) and which the processes reproduce (C11, C60); C73, C54, C59 and C96 for that run; the totals over the domain are the sums of the totals over the blocks | proved, 6 theorems. exact arithmetic; without gravity; boundary conditions named in the file |
| C98 | The times and the speed the program reports | the calls on each timer alternate (induction on the turns), so the accumulated time telescopes; shares by summing over each turn and induction on the loop | proved, 9 theorems. readings of the clock and their sums are exact; the calls of one process; the calls on timers are modelled beside the run, not interleaved with its kernels |
| C99 | Symmetric test problems stay symmetric to the end of the run | the loaded field is symmetric (problem by problem, from the formulas and the positions of the cell centres), and a run started from a symmetric field stays symmetric (C70, C72; MHD: C84) | proved, 13 theorems. exact arithmetic; the 2D and 3D serial hydro programs and the 2D MHD program (implosion and blast wave about the diagonal); fresh runs |
<!-- end table -->

## 6. Defects and surprises the proofs exposed

Each is a theorem unless marked (by reading).

* **Hydro.** `riemann=hlld` leaves the flux uninitialised, and so does `riemann=hll` in 3D (C32).  The
  predictor uses the face-normal `dt/dx` for transverse terms (`C50_anisotropic_differs`).  The 3D gravity source does not floor
  the new density (`C51_gravity_zero_density`).  Version 1 in 3D misses the z kick of the gravity predictor
  (`C29_version1_gravity_differs_3d`).
* **Boundaries.** The 3D loop bound overflows 32-bit `int` for thin grids (`C09_bound_overflows_thin_grid`).
  With fewer cells than ghost cells, the periodic and reflecting fills race (by reading).
* **MHD solvers.** HLLD's degenerate-state guard compares with the wrong quantity: 0/0 at faces with a dominant
  normal field (`C52_hlld_degenerate_undefined`, `C55_hlld_guard_misfires`), and the result is not mirror symmetric
  (`C55_hlld_mirror_fails`).  `riemann=approx` (the default) or `hllc` and `slope_type=0` leave values
  uninitialised.  3D version 2 loses the z slopes (`C45_version_2_z_slope_vanishes`), uses another
  pressure floor, adds a slope twice at some edges.  2D primitives halve the third field component.
* **div B.** Absorbing upper sides change div B of the last row after the ghost fill (`C27_open_side_defect_2d`,
  `C28_open_side_3d`).
* **Initial states.** Velocities stored as momenta (implosion, 3D MHD rotor), un-normalised coordinate in the
  Kelvin-Helmholtz ramp, Gresho vortex balanced only for density 1 (C58); C64 for MHD.  Rayleigh-Taylor with gravity
  disabled writes through an unallocated view (C57).  The random Kelvin-Helmholtz state depends on the schedule
  (C56).  The 2D field loop and the 3D Brio-Wu tube along z depend on the decomposition (C61).  Blast reads `bz`
  into `by` and leaves `bz` uninitialised (C64).
* **Driver.** `nlog=0` is a division by zero; `nProcs != mx*my*mz` is only reported; the 2D topology ignores `mz`
  (by reading).
* **Configuration.** An indented line replaces the value of the entry above (`C34_indented_line_replaces`); names with dots can
  collide (`C33_dotted_sections_collide`); lines of 199 bytes or more are split only in the serial build
  (`C35_long_line_differs`).  `cIso` and `Omega0` are never read.  `implementationVersion` is read as
  float and truncated; `restart_enabled` is read both as int and as bool (by reading).
* **Files.** VTK offsets are computed in `int` and overflow on large grids, the momentum of a 1024^3 run cannot
  be read (`C65_large_grid_3d`).  With `ghostIncluded` the pieces of a distributed HDF5 file overlap, the shared
  cells hold whichever ghost or interior value was written last (C66).  A restarted run loses the gravity field
  of Rayleigh-Taylor (C67).  The upscaled restart leaves the outer ghost cells as they were and can lower thermal
  energy below zero (C68).  The XDMF index gives the output number as time, mesh and values have incompatible
  extents, a single step lists two, the references ignore the output directory (C78).
* **Conservation.** The Hancock gravity predictor is not mirrored at walls: a fluid at rest between walls loses
  or gains mass in one step (`C73_predictor_leaks_2d`).
* **2D MHD primitives.** The step works with half of the third field component and with a pressure too large by
  3/8 (gamma-1) Bz^2 (`C71_*`).
* **Hydro and MHD floors differ.** Without field the MHD solver is the hydro solver (C83) only up to the floors: the
  MHD LLF and HLL solvers and the 3D MHD versions 0 and 1 (absolute floor `smallp`) treat reconstructed pressures
  below the floors differently from their hydro namesakes; HLLD agrees with HLLC without condition.
* **`EulerEquations.h`.** `compute_speed_of_sound` returns the square (`C82_sound_speed_squared`); two pressure floors
  disagree (`C82_floors_disagree`); planar flows feel different stresses in 2D and 3D (`C82_planar_viscous_differ`);
  the header does not compile as it stands, `IT` is undeclared (by reading).
* `find_speed_fast` and `find_speed_info` do not guard the root of `d2*d2 - c2*Bn*Bn/rho` (unlike `fast_mhd_speed`, which
  nobody calls): in double precision it is negative for some sound states, and the speed is a NaN.  HLL fluxes are then NaN,
  HLLD falls through all its comparisons to the flux of the right state, and the cell drops out of the time step (C106).
* A block whose rates are all NaN makes its process propose the time step `cfl/-DBL_MAX` (C105).

## 7. Seeded bugs

`seeded/LOG.jsonl` records each edit of the model tried in a scratch copy with `tools/seed.py`: the
definition, the edit, the claim it breaks, the theorems that failed, and what was tightened after a survivor.
