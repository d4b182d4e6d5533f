# Formal model of PEREGRINE in Lean 4 — design

(The first version of this file was committed before the proofs; this is the version that goes with the finished model.)

## Approach

The Lean project in `lean/` holds, per area of the code, modules `Verif/<Area>/...`:

* models — shallow, mostly executable models of the Python and Kokkos code, function by function, each definition citing file and
  lines in /repo and naming its simplifications;
* specifications — small and independent of the model's helpers (in `Spec.lean` files, or under a heading "specification");
* theorems `Cxx_...`, each with an `example` that a concrete, non-trivial case meets its hypotheses;
* theorems `Cxx_..._violated` — proofs that the code as written breaks the property, for a concrete input or a whole class;
* theorems `Cxx_..._partial` — the proved part of a property that fails or is open in the rest.

Conventions

* Floating point numbers are real numbers or elements of an arbitrary linearly ordered field: exact arithmetic. Rounding, overflow,
  NaN (except C51) are not modelled.
* Arrays are functions of integer indices with explicit extents; an update is a pointwise function update.
* Python exceptions, C++ aborts and endless loops are `none` or an error value.
* Lean's `x/0 = 0`; theorems that divide carry the guard under which the code divides by a nonzero number.
* MPI is modelled by matched (source, destination, tag) messages with rendezvous sends (no buffering). Kokkos kernels are modelled as
  pointwise maps (each work item writes its own cell or face); that work items do not race is proved from the accesses extracted from
  the text of the kernels (C100), and that they stay inside their arrays in C113.
* Text files are lists of lines and tokens; number parsing is a parameter where it does not matter.

## How the areas fit together

`Topo` (orientations) → `Halo` (exchange on one connection, repeated rounds, unification of grids) → `Whole` (all blocks: the right
hand side, time stepping, independence of the decomposition C91, global conservation C93). `Whole` is parametrised by abstract kernels with a
stated reach; `Whole/Real*` instantiates it with the modelled flux kernels of `Flux` and `Diff`. `Mesh`, `Grid` supply geometry; `Thermo`,
`Trans`, `Chem`, `Subgrid`, `Sensor` are pointwise models of the compute kernels; `BC` the boundary conditions; `Time`, `Dual`, `Run` the
integrators, the dual-time solver and the main loop; `Config`, `Setup`, `IO`, `Interp`, `Trace`, `Util`, `Gen` the Python layers around them.

## Per property: what is modelled and how it is proved

| id | property | modules under `lean/Verif` | method | status |
|---|---|---|---|---|
| C01 | Face orientations are mutually inverse | Topo | finite tables; all 48 legal orientations and 6 faces by kernel decision against an independent reading of the digits (Topo/Spec) | proved |
| C02 | Cell-centred halo exchange delivers the physically adjacent cell | Halo | slices, extraction, transposition/flips and placement as index maps; case analysis on faces and orientations, `omega`, any block sizes | proved |
| C03 | Node-coordinate halo exchange delivers the neighbour's next node planes | Halo | same model for nodes | proved |
| C04 | Single-layer exchange of gradients and switches delivers the first adjacent cell | Halo | same model, one layer | proved |
| C05 | Halo exchange never changes interior data | Halo | placement writes only halo indices | proved |
| C06 | Messages reach exactly the intended face | Halo | tag arithmetic block*6+face injective; sender and receiver compute the same tag | proved |
| C07 | communicate() cannot deadlock | Comm | transition system of ranks with Irecv, blocking rendezvous Send, Wait, Barrier; invariant + progress + termination measure for any schedule | proved |
| C08 | Send and receive buffers agree in shape across a connection | Halo | shape equations of slices | proved |
| C09 | Flux application is conservative | FV | telescoping sums over cells of a block | proved |
| C10 | Blended flux application is conservative and uses weights that sum to one | FV | same, with blended fluxes | proved |
| C11 | Grid cells are geometrically closed | Mesh | face area vectors of a hexahedral cell, polynomial identities | proved |
| C12 | Uniform flow stays uniform on any grid | Flux/Freestream | every flux kernel on uniform states + closure C11 | partial |
| C13 | Cell volume is exact for parallelepiped cells and positive for right-handed ones | Mesh | volume formula; polynomial identities, sign | proved |
| C14 | Grid metrics invert the coordinate Jacobian | Mesh | matrix inverse identities by `field_simp`/`ring` | proved |
| C15 | Generated halo coordinates continue the grid exactly when it is affine | Grid/HaloGen | extrapolation loops on affine nodes | proved |
| C16 | Simulation time and iteration counters advance consistently | Time | integrators as state transformers with counters and time; induction on steps | partial |
| C17 | Explicit Runge-Kutta integrators attain their order on linear problems | Time | stability polynomial of each integrator | partial |
| C18 | SSP integrators preserve every convex bound that forward Euler preserves | Time | convex combinations | proved |
| C19 | Steady states are fixed points of every explicit integrator | Time | RHS = 0 leaves the state unchanged | proved |
| C20 | Dual-time history shift and restart give a run identical to an uninterrupted one | Time | history arrays, restart; induction | proved |
| C21 | The CFL-limited time step honours both limits | Run | min/max reductions over lists and ranks | proved |
| C22 | Perfect-gas state conversion round-trips | Thermo | cpg and tpg algebra | proved |
| C23 | Mass fractions are bounded and sum to one after conversion | Thermo | clamp and sum | proved |
| C24 | Perfect-gas conversion yields a thermodynamically consistent state | Thermo | algebra of state relations | proved |
| C25 | Thermally perfect conversion: round-trip up to the Newton tolerance, exact at the fixed point | Thermo/Tpg | Newton loop as fuel iteration; fixed point and residual bounds | proved |
| C26 | Numerical fluxes are consistent | Flux | left = right states in each flux | partial |
| C27 | Numerical fluxes do not depend on which side a face is seen from | Flux | mirror map of states | partial |
| C28 | Upwind fluxes take the upstream state in supersonic flow and resolve contacts | Flux/Upwind* | case analysis on wave speeds | proved |
| C29 | Rusanov dissipation speed dominates the local wave speeds | Flux/Upwind | inequalities; counterexample for the code's speed | partial |
| C30 | Shock sensors stay within [0,1] and vanish on smooth (uniform) pressure | Sensor | bounds by `abs` inequalities | partial |
| C31 | Slope-limited reconstruction creates no new extrema | Flux/Upwind | limiter bounds | partial |
| C32 | Walls pass no mass | BC/Walls | boundary kernels + flux kernels at the wall face | partial |
| C33 | Rotational periodicity transforms velocity by inverse rotations that preserve speed | BC/Periodic | rotation matrices over reals | partial |
| C34 | Boundary conditions fill every halo layer from its mirror layer | BC/Layers | index arithmetic of layers | proved |
| C35 | Configuration validation accepts exactly consistent combinations | Config | decision procedure of validation, all combinations | partial |
| C36 | Configuration key set is fixed | Config/Dict | frozen dictionary state machine | partial |
| C37 | The halo depth chosen suffices for the stencil of the chosen scheme | Config/Stencil | stencil offsets of each kernel vs halo depth | proved |
| C38 | Every block is solved by exactly one rank | Setup/Balance | partition invariants | partial |
| C39 | Block assignment file round-trips | Setup | text round trip on character lists | proved |
| C40 | Load balancing partitions the blocks within the limits | Setup/Balance | greedy loop invariants | partial |
| C41 | Generated cartesian connectivity is reciprocal | Grid/Create | block arithmetic, C01 | proved |
| C42 | Generated multi-block cube tiles the domain without gaps | Grid/Create | coordinates as functions, shared faces | proved |
| C43 | Periodic spans of generated grids equal the domain length | Grid/Create | lengths | partial |
| C44 | Cutting a grid preserves cells, boundary patches and connectivity | Util/Cut* | cut operation as list transformation; induction on cuts, paths of cuts | proved |
| C45 | Restart files round-trip | IO | write/read of arrays as inverse index maps | partial |
| C46 | Grid files round-trip | IO/Grid | same for grids | proved |
| C47 | Connectivity files round-trip | IO/Conn | yaml tree round trip | proved |
| C48 | Parallel output metadata lists every block once with its own size, the same on every rank | IO/Parallel | gather over ranks | proved |
| C49 | Output files of different blocks and iterations never collide | IO/Names | decimal formatting on character lists, injectivity | partial |
| C50 | Output and restart schedule of the main loop | Run/Loop | main loop state machine; induction on iterations | proved |
| C51 | NaN detection is global and complete | Run | reductions with NaN | proved |
| C52 | Time and iteration set on a multi-block object reach all blocks | Run | setters over block lists | proved |
| C53 | Blocks are found by number and appended numbers are fresh | Setup | list search | partial |
| C54 | Species-sum verification reports exactly the bad inputs | Setup | predicate over faces | partial |
| C55 | Interpolated fields create no new extrema | Interp | convex weights | proved |
| C56 | Interpolation source search misses no block | Interp | bounding boxes | proved |
| C57 | Viscous sponge multiplier is bounded by the requested multiplier | Sensor | bounds | partial |
| C58 | Sector copies connect into a closed ring | Util/Sector | modular block arithmetic, rotations | partial |
| C59 | Grid verification is sound and complete for connectivity | Util/Verify* | checker as a function; soundness against a specification of proper connections | partial |
| C60 | Central kinetic-energy-preserving fluxes satisfy their discrete identity | Flux/Upwind | discrete product rule | proved |
| C61 | Diffusive fluxes: zero on uniform fields, no net mass, Newton/Fourier/Fick, correct viscous work | Diff | pointwise stress, heat, diffusion fluxes | partial |
| C62 | Finite-difference gradients are exact on fields linear in computational space and blind to constants | Mesh | central differences | proved |
| C63 | Boundary conditions see the time of the stage | Time | times seen by boundary conditions per stage | partial |
| C64 | The dual-time block solve returns the exact solution of the preconditioned system | Dual/LU | elimination with pivoting for any size n; induction | proved |
| C65 | The real-gas state satisfies the Peng-Robinson equation of state | Thermo/Cubic | cubic roots, trigonometric and Cardano branches over reals | partial |
| C66 | Real-gas conversions are mutual inverses from the stored temperature | Thermo/Cubic | composition of conversions | proved |
| C67 | Real-gas derivative formulas are derivatives of what the code computes | Thermo/CubicDeriv | HasDerivAt of modelled functions | proved |
| C68 | The acoustic step limit accounts for the true face-normal signal speed | Run | lower bound of signal speed; counterexample | partial |
| C69 | Dual time stepping converges to the second-order backward difference equation | Time/Dual | fixed points of inner iteration = BDF2 | partial |
| C70 | The dual-time matrix is the Jacobian of conserved with respect to primitive variables | Dual | HasDerivAt of conserved variables | proved |
| C71 | Stored species enthalpies add up to the stored mixture enthalpy | Thermo/Enthalpy | sums over species | proved |
| C72 | Inlets deliver what the user prescribed | BC/Inlets | face averages of halo and interior | partial |
| C73 | Stagnation inlet reproduces the reservoir | BC/Stag | isentropic relations over reals | partial |
| C74 | Exits impose pressure and feed no backflow | BC/Stag | layer algebra | partial |
| C75 | Time dependent inlet follows the periodic spline | BC/Spline | piecewise cubic, periodic index | partial |
| C76 | Damped face gradients are exact on linear fields, orientation independent and frame independent | Diff | linear fields on general nodes | partial |
| C77 | Transport properties of a cell depend only on that cell's state | Trans | dependency on cell only, as functional equality | partial |
| C78 | Transport mixture rules have the right limits and reproduce the fitted species properties | Trans/Mix, Chung* | mixture rule limits | partial |
| C79 | Subgrid models add the documented eddy viscosity once per evaluation and never anti-diffuse | Subgrid | viscosity sign, accumulation over calls | proved |
| C80 | Generated annular sectors lie on cylinders and close on themselves | Grid/Annulus | trigonometry | partial |
| C81 | Finite-rate chemistry conserves elements and mass | Chem | stoichiometric tables, sums over reactions | proved |
| C82 | Reaction rates are thermodynamically consistent | Chem | equilibrium constants, exp/log | proved |
| C83 | Chemistry never consumes an absent species | Chem | product terms vanish | proved |
| C84 | Chemistry sub-stepping | Chem/Loop | sub-stepping loop as iteration; invariants | partial |
| C85 | Pressure fall-off rates lie between their limits | Chem | fall-off formulas | proved |
| C86 | Repeated exchanges fill edge and corner halos | Halo/Rounds | repeated exchange, induction on rounds over arbitrary multi-block topology | proved |
| C87 | Grid unification gives geometrically continued halo nodes | Halo/Unify* | coordinates through exchanges and periodic shifts | partial |
| C88 | Boundary condition input reaches the faces | BC/ReadBcs | dictionary merge model | partial |
| C89 | Trace recorder writes a faithful time history | Trace | recorder state machine | partial |
| C90 | Trace point generation | Trace | point generators | partial |
| C91 | The solution does not depend on the domain decomposition | Whole | whole right-hand side on all blocks; dependency cones, simulation between split and unsplit grids, induction on steps | partial |
| C92 | Local pseudo time step | Dual/Dtau | pointwise formula; bounds | partial |
| C93 | Global conservation over blocks and ranks | Whole/Cons*, Real* | sum over all blocks with face pairing involution | partial |
| C94 | Mechanism conversion writes the law of mass action | Gen | generator as list of emitted statements + interpreter; against law of mass action | partial |
| C95 | Configuration files: numbers and round trip | Config/File | yaml scalars and sections | partial |
| C96 | Species data are the user's, completed from the library | Config/SpData | dictionary completion | partial |
| C97 | Boundary layer and channel grids | Util/Channel | loops with partial fixpoint, geometric series | partial |
| C98 | GridPro conversion | Util/GridPro* | token lists, file grammar as predicate | partial |
| C99 | ICEM conversion | Util/Icem* | line state machines, file grammar as predicate | partial |
| C100 | Kernels give one result whatever the thread schedule | Par/Threads, Table, Kernels, Reduce | interleaving semantics, generated access table, disjoint footprints; reduction trees | proved |
| C101 | The residual printed by the dual-time integrator is a norm over the whole domain | Par/Reduce | folds over blocks and ranks | partial |
| C102 | Reduced ethylene mechanism: quasi-steady radicals | Chem/Red22Model, Red22 (generated by tools/genred22.py), Red22Elim, Red22Prog, Red22Checks, Red22Props, Red22Cell | verified checker for straight-line eliminations (live columns per row) decided on the 143 statements; substitution steps preserve solutions, signs and a positive left weight v with vB < v (so every pivot is positive); the initial weight comes from the denominators, perturbed in CH; link to stoichiometry by a count check of all 412 directions | partial |
| C103 | Reduced ethylene mechanism: rates and sources | Chem/Red22Spec, Red22Checks, Red22Props, Red22Cell, Red22Fall | multiset checks of concentration, radical and source tables against the stoichiometry of the equilibrium constants, lifted to products and sums | proved |
| C104 | Kinetic-theory data of species and pairs | Trans/KT, KTPair, KTProps | closed form of the array-writing pair loop by induction over the pair list; algebra of radicals | partial |
| C105 | Transport fits | Trans/Fit | orthogonal projection (existence), strict convexity and root counting (uniqueness) of least squares; packed index from C78 | proved |
| C106 | What a viewer sees | IO/Xmf, XmfProps | the description evaluated against the modelled file system; updates equal a fresh registration by induction over the history; file contents by key distinctness | partial |
| C107 | Builds with separate device memory give the same run | Mem/Model, Safe, Proofs, Setup, Props | one program, two semantics (one memory, two memories); a freshness discipline proved sound by induction over programs; the whole run proved to keep it by loop invariants | partial |
| C108 | A run killed at any moment can be resumed from its last complete restart | IO/Crash, CrashProps, CrashMain, CrashBad | transition system of ranks over a disk with torn files; per-file invariant kept by every move; file ownership from the injectivity of names (C49); collective operations keep the ranks in the same iteration | partial |
| C109 | Stopping and resuming does not change the result | the whole solver of C91 with the restart of C45/C108 reduced to its contents (interior primitives, clocks, older level), the reader's effect on a newly created solver with arbitrary arrays, bootstrap, and sequences of launches. | a step forgets stage storage and old stage time (Time/Forget); a state left by consistify is determined by its interior cells (Settled), so the resumed state equals the running one in everything the kernels read, for any redistribution of blocks (C91's relation with the identity decomposition); induction over launches. For cpg the round trip of a cell follows from C22. | partial |
| C110 | The choice of coordinate axes does not matter | the whole solver of C91 with complete cases: the models of C22-C25 (eos), C26-C28 (fluxes), C76 (diffusive fluxes), C21 (metrics), C34 (boundary conditions), C78 (sponge, sensors, Smagorinsky), and the case with nodes, boundary data and sponge moved. | a change of description that commutes with every kernel commutes with halo exchange, boundary loops, consistify, RHS and every integrator (Whole/Frame, Halo/Natural, Time/Equivariance); each kernel commutes with a rotation because it uses inner products, cross products and linear combinations; for axial rotations componentwise odd functions commute as well. Counterexamples with the 3-4-5 triangle. | partial |
| C111 | A whole parallel run neither deadlocks nor mixes up messages | MPI semantics of point-to-point and collective calls with an arbitrary library (buffering, early exit from rooted and file collectives); the complete sequence of MPI calls of runPeregrine.py per rank, built from the event trace of Run.simulate and the communicating calls of every integrator (Comm/Job, JobRun) | segments that are complete in themselves are composed: induction over the segment list gives progress from any reachable state; measure for termination; counting for the matching of messages; for the violations an invariant that no rank passes a collective on which two ranks disagree (Comm/JobProps) | partial |
| C112 | Interpolating a restart onto another grid | utilities/interpolate.py end to end (Interp/Main.lean): looking for lumped or separate files, the animated fallback through os.listdir, allocation of q, search, interpolation of every variable, species normalisation, writing; composed from the IO, Interp, Setup and Mesh models | composition of C45, C46, C54, C55 and C56 in their own terms, with the index arithmetic of flattening proved; end-to-end round trip through the file system; violations by following the control flow for arbitrary worlds; the unit cube as a concrete case | partial |
| C113 | No kernel touches memory outside its arrays | Safe/Model (array extents, allocation conditions, footprint of every kernel launch of a run), Safe/Proofs, Faces, Props; Safe/Table (accesses extracted from the text of the kernels by tools/mksource.py), Source, Covers, SourceFaces, SourceProps | linear arithmetic on index ranges for all block sizes, with the halo depth from C37 and the solver from C35; converse by an explicit illegal access; each extracted access is in the footprint of the launch that models its kernel | partial |
| C114 | Reported size and load | Util/Load (getNumCells, getLoadEfficiency with 32-bit addition; reduction trees over the ranks) | induction on the reduction tree modulo 2^32; argmax by induction on the gathered list | partial |
| C115 | One flux formula per convective scheme | Text/Flux (generated by tools/mktext.py from the text of ten convective flux kernels), Text/FluxProps, FluxWide, FluxMuscl, FluxMusclHllc | unfolding and commutative algebra, component by component, for arbitrary block contents; HLLC by its branches | partial |
| C116 | Stage kernels are the stages of the methods | Text/Stage (generated by tools/mktext2.py from the text of 18 stage kernels), Text/StageProps | induction on the order of the iterations with no repeated index; algebra at one index | proved |
| C117 | One diffusive flux formula | Text/Diff (generated by tools/mktext.py from the text of the two diffusive flux kernels), Text/DiffProps | closed forms of the two species folds by induction on the number of species, then unfolding and commutative algebra component by component | proved |
| C118 | Cell kernels do what they say on exactly their cells | Text/Cell (generated by tools/mktext3.py from the text of nine kernels), Text/CellProps | sweep over any duplicate-free order of the range by induction, then unfolding against FV/Model, Mesh/Model, Sensor/Model | proved |
| C119 | The calorically perfect gas kernel fills a cell as documented | Text/Thermo (generated by tools/mktext4.py from cpg.cpp), Text/ThermoProps | closed form of each species loop by induction on the number of species, then unfolding against Thermo/Model | proved |

Every property could be expressed in the model. What a partial theorem leaves out, and which theorems show the code violating the property, is said in the note of its claim in MANIFEST.json.

## Trusted base

* Lean 4.33.0 kernel, with the axioms `propext`, `Classical.choice`, `Quot.sound` and no others: `AXIOMS.txt` lists, for every theorem of the
  manifest, the axioms it depends on. No axioms of our own, no `native_decide`, no `bv_decide`; `decide +kernel` (kernel evaluation) is used.
* The fidelity of the hand-written model to /repo (cited per definition). Nothing was executed; the sandbox has none of the dependencies.
* Mathlib's definitions of the notions used in statements (real numbers, `HasDerivAt`, `Finset.sum`, …).

Modelled: the files cited by the definitions, i.e. of `src/peregrinepy`: multiBlock (topology, faces, blocks, solver blocks as far as they
are halo exchange, boundary data, counters), mpiComm (communicate, load distribution, reductions), grid (create, halo generation, metrics,
unification), integrators, bcs, RHS, consistify, readers, writers, files and configuration, interpolation, coproc traces, thermodynamic data, kinetic-theory tables and fits (the collision integral splines and np.polyfit as parameters); of
`src/compute`: advective fluxes, diffusive fluxes, switches, boundary conditions, thermodynamics (cpg, tpg, cubic), transport, chemistry (all
kernels; of Red22 everything but the NASA polynomials behind EG[], which enter as arbitrary positive numbers), subgrid models, time integration kernels, dual-time kernels, grid metrics, utilities for dt and residual; of
`utilities`: cutGrid, verifyGrid, copyRotateSectorGrid, gridPro2pg, icem2pg (tns3dmb), interpolate (whole script), boundaryLayerGrid, ct2pgChem,
loadBalancer.

Not modelled: floating point rounding (the interleaving of threads in a launch is modelled in C100, host and device copies in C107); hdf5, yaml and xml libraries (their round trip is
assumed); the Catalyst coprocessor beyond its arrays; `myKEEP.cpp` (bound nowhere); plotting and post-processing scripts; the mbi branch of icem2pg;
what the mpi4py runner does with an exception of one rank (C111).

## What the proofs found

Defects of the code, each with a `_violated` theorem or a note in the claim of the property named:

* Start-up: cell counts and load efficiency in 32-bit integers (C114).
* Numerics: Rusanov pairs a side's velocity with the other side's sound speed (C29); HLLC momentum with tangential velocity (C26, C12); MUSCL
  reuses the limiter of one variable (C27, C31); scalar dissipation reads neighbour (i+1, j, k) in all three directions (C27, C91, C115); viscous work has the
  wrong sign in some terms (C61); damped diffusion uses e·n without modulus (C76); acoustic step limit and local pseudo time step underestimate signal speeds
  (C68, C92); the reference velocity of the preconditioner jumps at U = 1e-5 c, the viscous limit uses fmin; the residual maximum is reduced with MPI.MIN;
  stage times of the Strang integrator and one-step-ahead `titme` (C16, C63).
* Boundary conditions: isothermal walls with Rusanov, HLLC wall with supersonic normal flow, fourth order KEEP at walls (C32); periodic axis
  taken unnormalised from raw input, velocity gradients not rotated (C33); stagnation inlet normals and sign (C73); supersonic exit (C74); spline
  last row (C75); mass flux inlet with upwind flux (C72).
* Transport and chemistry: scratch accumulation and pure species break in kineticTheory (C77); unity-Lewis viscosity (C78); Chung Fc on
  the first term only (C78); polar species listed after nonpolar ones lose the induction correction, cp/R of constant-cp species (C104); chemistry enthalpy units (C84); converter ignores reaction orders, fixed reference pressure (C94).
* Decomposition: face phi components not permuted on rotated connections, so mass is created (C93); mixed-scale model reads stale
  edge halos (C91); block thickness enters localDtau/invertDQ (C91); one-cell-thick periodic blocks (C87).
* Setup and files: periodic span of multiBlockCube is the block length (C43); annulus with several axial blocks fails (C80); restart files with
  halo cannot be read back, missing blocks read as zeros (C45); file name collisions (C49); bounding box precedence slip (C56); gaps of verifyGrid (C59);
  copyRotateSectorGrid (C58); cutGrid (C44); readBcs accepts families without values (C88); pgCoprocessor import (C89); createPlane edges (C90);
  YAML numbers without a dot are text (C95); species data types (C96); boundary layer grids (C97); GridPro labels, periodic families (C98);
  periodic ICEM grids (C99); xmf time of arrays written by hand is zero (C106); with separate device memory
  strang's chemistry is lost and the serial writers write old values (C107); without numbered restart files a kill during
  a write destroys the only restart, or leaves one mixing two iterations that is read without error (C108); on resuming, boundary conditions
  are evaluated at stage time 0, so a run with a time dependent inlet does not continue where it stopped (C109); results depend on the
  orientation of the axes through the MUSCL limiters, the damping length of the diffusive flux and the CFL numbers (C110); a rank that raises
  leaves the others waiting, and per-block restart files of different iterations make the ranks disagree on collective calls, so the run hangs (C111);
  interpolate.py never allocates the target's solution arrays, so it always fails, takes grids and solutions in directory listing order, and refuses
  a directory holding lump and per-block files (C112);
  a mechanism with more species than the case, strang without chemistry, and boundary faces without values start and access memory outside or
  unallocated arrays (C113).

## Testing the theorems

`seeded/LOG.jsonl` logs every wrong program tried: the model definition edited, the edit, the claim it breaks, the theorems that failed to prove.
Edits that survived led to tightened theorems or are argued to be equivalent there.

## Tools

`tools/mkmanifest.py` collects the theorems into MANIFEST.json; `tools/notes.json` holds the notes; `tools/addprop.py` adds properties;
`tools/mksource.py` extracts the array accesses of the kernels from /repo/src/compute (Safe/Table.lean);
`tools/mktext.py`, `mktext2.py`, `mktext3.py`, `mktext4.py` translate kernel bodies from /repo/src/compute into Lean, statement by statement (Text/Flux, Text/Diff,
Text/Stage, Text/Cell, Text/Thermo); they stop with an error at a construct they do not know. C115-C119 are about their output, so for those kernels the
hand-written models are not trusted, but the translators are: their reading of C++ (declarations, assignments, `if`, counted loops, calls
of `fmax fmin abs sqrt pow`, views with constant component indices), doubles as reals, `Kokkos::parallel_for` as one iteration per index;
`tools/mkdesign.py` writes this file; `tools/mklog.py` the mutation log.
