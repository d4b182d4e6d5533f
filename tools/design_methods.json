{
 "C01": [
  "Topo",
  "finite tables; all 48 legal orientations and 6 faces by kernel decision against an independent reading of the digits (Topo/Spec)"
 ],
 "C02": [
  "Halo",
  "slices, extraction, transposition/flips and placement as index maps; case analysis on faces and orientations, `omega`, any block sizes"
 ],
 "C03": [
  "Halo",
  "same model for nodes"
 ],
 "C04": [
  "Halo",
  "same model, one layer"
 ],
 "C05": [
  "Halo",
  "placement writes only halo indices"
 ],
 "C06": [
  "Halo",
  "tag arithmetic block*6+face injective; sender and receiver compute the same tag"
 ],
 "C07": [
  "Comm",
  "transition system of ranks with Irecv, blocking rendezvous Send, Wait, Barrier; invariant + progress + termination measure for any schedule"
 ],
 "C08": [
  "Halo",
  "shape equations of slices"
 ],
 "C09": [
  "FV",
  "telescoping sums over cells of a block"
 ],
 "C10": [
  "FV",
  "same, with blended fluxes"
 ],
 "C11": [
  "Mesh",
  "face area vectors of a hexahedral cell, polynomial identities"
 ],
 "C12": [
  "Flux/Freestream",
  "every flux kernel on uniform states + closure C11"
 ],
 "C13": [
  "Mesh",
  "volume formula; polynomial identities, sign"
 ],
 "C14": [
  "Mesh",
  "matrix inverse identities by `field_simp`/`ring`"
 ],
 "C15": [
  "Grid/HaloGen",
  "extrapolation loops on affine nodes"
 ],
 "C16": [
  "Time",
  "integrators as state transformers with counters and time; induction on steps"
 ],
 "C17": [
  "Time",
  "stability polynomial of each integrator"
 ],
 "C18": [
  "Time",
  "convex combinations"
 ],
 "C19": [
  "Time",
  "RHS = 0 leaves the state unchanged"
 ],
 "C20": [
  "Time",
  "history arrays, restart; induction"
 ],
 "C21": [
  "Run",
  "min/max reductions over lists and ranks"
 ],
 "C22": [
  "Thermo",
  "cpg and tpg algebra"
 ],
 "C23": [
  "Thermo",
  "clamp and sum"
 ],
 "C24": [
  "Thermo",
  "algebra of state relations"
 ],
 "C25": [
  "Thermo/Tpg",
  "Newton loop as fuel iteration; fixed point and residual bounds"
 ],
 "C26": [
  "Flux",
  "left = right states in each flux"
 ],
 "C27": [
  "Flux",
  "mirror map of states"
 ],
 "C28": [
  "Flux/Upwind*",
  "case analysis on wave speeds"
 ],
 "C29": [
  "Flux/Upwind",
  "inequalities; counterexample for the code's speed"
 ],
 "C30": [
  "Sensor",
  "bounds by `abs` inequalities"
 ],
 "C31": [
  "Flux/Upwind",
  "limiter bounds"
 ],
 "C32": [
  "BC/Walls",
  "boundary kernels + flux kernels at the wall face"
 ],
 "C33": [
  "BC/Periodic",
  "rotation matrices over reals"
 ],
 "C34": [
  "BC/Layers",
  "index arithmetic of layers"
 ],
 "C35": [
  "Config",
  "decision procedure of validation, all combinations"
 ],
 "C36": [
  "Config/Dict",
  "frozen dictionary state machine"
 ],
 "C37": [
  "Config/Stencil",
  "stencil offsets of each kernel vs halo depth"
 ],
 "C38": [
  "Setup/Balance",
  "partition invariants"
 ],
 "C39": [
  "Setup",
  "text round trip on character lists"
 ],
 "C40": [
  "Setup/Balance",
  "greedy loop invariants"
 ],
 "C41": [
  "Grid/Create",
  "block arithmetic, C01"
 ],
 "C42": [
  "Grid/Create",
  "coordinates as functions, shared faces"
 ],
 "C43": [
  "Grid/Create",
  "lengths"
 ],
 "C44": [
  "Util/Cut*",
  "cut operation as list transformation; induction on cuts, paths of cuts"
 ],
 "C45": [
  "IO",
  "write/read of arrays as inverse index maps"
 ],
 "C46": [
  "IO/Grid",
  "same for grids"
 ],
 "C47": [
  "IO/Conn",
  "yaml tree round trip"
 ],
 "C48": [
  "IO/Parallel",
  "gather over ranks"
 ],
 "C49": [
  "IO/Names",
  "decimal formatting on character lists, injectivity"
 ],
 "C50": [
  "Run/Loop",
  "main loop state machine; induction on iterations"
 ],
 "C51": [
  "Run",
  "reductions with NaN"
 ],
 "C52": [
  "Run",
  "setters over block lists"
 ],
 "C53": [
  "Setup",
  "list search"
 ],
 "C54": [
  "Setup",
  "predicate over faces"
 ],
 "C55": [
  "Interp",
  "convex weights"
 ],
 "C56": [
  "Interp",
  "bounding boxes"
 ],
 "C57": [
  "Sensor",
  "bounds"
 ],
 "C58": [
  "Util/Sector",
  "modular block arithmetic, rotations"
 ],
 "C59": [
  "Util/Verify*",
  "checker as a function; soundness against a specification of proper connections"
 ],
 "C60": [
  "Flux/Upwind",
  "discrete product rule"
 ],
 "C61": [
  "Diff",
  "pointwise stress, heat, diffusion fluxes"
 ],
 "C62": [
  "Mesh",
  "central differences"
 ],
 "C63": [
  "Time",
  "times seen by boundary conditions per stage"
 ],
 "C64": [
  "Dual/LU",
  "elimination with pivoting for any size n; induction"
 ],
 "C65": [
  "Thermo/Cubic",
  "cubic roots, trigonometric and Cardano branches over reals"
 ],
 "C66": [
  "Thermo/Cubic",
  "composition of conversions"
 ],
 "C67": [
  "Thermo/CubicDeriv",
  "HasDerivAt of modelled functions"
 ],
 "C68": [
  "Run",
  "lower bound of signal speed; counterexample"
 ],
 "C69": [
  "Time/Dual",
  "fixed points of inner iteration = BDF2"
 ],
 "C70": [
  "Dual",
  "HasDerivAt of conserved variables"
 ],
 "C71": [
  "Thermo/Enthalpy",
  "sums over species"
 ],
 "C72": [
  "BC/Inlets",
  "face averages of halo and interior"
 ],
 "C73": [
  "BC/Stag",
  "isentropic relations over reals"
 ],
 "C74": [
  "BC/Stag",
  "layer algebra"
 ],
 "C75": [
  "BC/Spline",
  "piecewise cubic, periodic index"
 ],
 "C76": [
  "Diff",
  "linear fields on general nodes"
 ],
 "C77": [
  "Trans",
  "dependency on cell only, as functional equality"
 ],
 "C78": [
  "Trans/Mix, Chung*",
  "mixture rule limits"
 ],
 "C79": [
  "Subgrid",
  "viscosity sign, accumulation over calls"
 ],
 "C80": [
  "Grid/Annulus",
  "trigonometry"
 ],
 "C81": [
  "Chem",
  "stoichiometric tables, sums over reactions"
 ],
 "C82": [
  "Chem",
  "equilibrium constants, exp/log"
 ],
 "C83": [
  "Chem",
  "product terms vanish"
 ],
 "C84": [
  "Chem/Loop",
  "sub-stepping loop as iteration; invariants"
 ],
 "C85": [
  "Chem",
  "fall-off formulas"
 ],
 "C86": [
  "Halo/Rounds",
  "repeated exchange, induction on rounds over arbitrary multi-block topology"
 ],
 "C87": [
  "Halo/Unify*",
  "coordinates through exchanges and periodic shifts"
 ],
 "C88": [
  "BC/ReadBcs",
  "dictionary merge model"
 ],
 "C89": [
  "Trace",
  "recorder state machine"
 ],
 "C90": [
  "Trace",
  "point generators"
 ],
 "C91": [
  "Whole",
  "whole right-hand side on all blocks; dependency cones, simulation between split and unsplit grids, induction on steps"
 ],
 "C92": [
  "Dual/Dtau",
  "pointwise formula; bounds"
 ],
 "C93": [
  "Whole/Cons*, Real*",
  "sum over all blocks with face pairing involution"
 ],
 "C94": [
  "Gen",
  "generator as list of emitted statements + interpreter; against law of mass action"
 ],
 "C95": [
  "Config/File",
  "yaml scalars and sections"
 ],
 "C96": [
  "Config/SpData",
  "dictionary completion"
 ],
 "C97": [
  "Util/Channel",
  "loops with partial fixpoint, geometric series"
 ],
 "C98": [
  "Util/GridPro*",
  "token lists, file grammar as predicate"
 ],
 "C99": [
  "Util/Icem*",
  "line state machines, file grammar as predicate"
 ],
 "C100": [
  "Par/Threads, Table, Kernels, Reduce",
  "interleaving semantics, generated access table, disjoint footprints; reduction trees"
 ],
 "C101": [
  "Par/Reduce",
  "folds over blocks and ranks"
 ],
 "C102": [
  "Chem/Red22Model, Red22 (generated by tools/genred22.py), Red22Elim, Red22Prog, Red22Checks, Red22Props, Red22Cell",
  "verified checker for straight-line eliminations (live columns per row) decided on the 143 statements; substitution steps preserve solutions, signs and a positive left weight v with vB < v (so every pivot is positive); the initial weight comes from the denominators, perturbed in CH; link to stoichiometry by a count check of all 412 directions"
 ],
 "C103": [
  "Chem/Red22Spec, Red22Checks, Red22Props, Red22Cell, Red22Fall",
  "multiset checks of concentration, radical and source tables against the stoichiometry of the equilibrium constants, lifted to products and sums"
 ],
 "C104": [
  "Trans/KT, KTPair, KTProps",
  "closed form of the array-writing pair loop by induction over the pair list; algebra of radicals"
 ],
 "C105": [
  "Trans/Fit",
  "orthogonal projection (existence), strict convexity and root counting (uniqueness) of least squares; packed index from C78"
 ],
 "C106": [
  "IO/Xmf, XmfProps",
  "the description evaluated against the modelled file system; updates equal a fresh registration by induction over the history; file contents by key distinctness"
 ],
 "C107": [
  "Mem/Model, Safe, Proofs, Setup, Props",
  "one program, two semantics (one memory, two memories); a freshness discipline proved sound by induction over programs; the whole run proved to keep it by loop invariants"
 ],
 "C108": [
  "IO/Crash, CrashProps, CrashMain, CrashBad",
  "transition system of ranks over a disk with torn files; per-file invariant kept by every move; file ownership from the injectivity of names (C49); collective operations keep the ranks in the same iteration"
 ],
 "C109": [
  "the whole solver of C91 with the restart of C45/C108 reduced to its contents (interior primitives, clocks, older level), the reader's effect on a newly created solver with arbitrary arrays, bootstrap, and sequences of launches.",
  "a step forgets stage storage and old stage time (Time/Forget); a state left by consistify is determined by its interior cells (Settled), so the resumed state equals the running one in everything the kernels read, for any redistribution of blocks (C91's relation with the identity decomposition); induction over launches. For cpg the round trip of a cell follows from C22."
 ],
 "C110": [
  "the whole solver of C91 with complete cases: the models of C22-C25 (eos), C26-C28 (fluxes), C76 (diffusive fluxes), C21 (metrics), C34 (boundary conditions), C78 (sponge, sensors, Smagorinsky), and the case with nodes, boundary data and sponge moved.",
  "a change of description that commutes with every kernel commutes with halo exchange, boundary loops, consistify, RHS and every integrator (Whole/Frame, Halo/Natural, Time/Equivariance); each kernel commutes with a rotation because it uses inner products, cross products and linear combinations; for axial rotations componentwise odd functions commute as well. Counterexamples with the 3-4-5 triangle."
 ],
 "C111": [
  "MPI semantics of point-to-point and collective calls with an arbitrary library (buffering, early exit from rooted and file collectives); the complete sequence of MPI calls of runPeregrine.py per rank, built from the event trace of Run.simulate and the communicating calls of every integrator (Comm/Job, JobRun)",
  "segments that are complete in themselves are composed: induction over the segment list gives progress from any reachable state; measure for termination; counting for the matching of messages; for the violations an invariant that no rank passes a collective on which two ranks disagree (Comm/JobProps)"
 ],
 "C112": [
  "utilities/interpolate.py end to end (Interp/Main.lean): looking for lumped or separate files, the animated fallback through os.listdir, allocation of q, search, interpolation of every variable, species normalisation, writing; composed from the IO, Interp, Setup and Mesh models",
  "composition of C45, C46, C54, C55 and C56 in their own terms, with the index arithmetic of flattening proved; end-to-end round trip through the file system; violations by following the control flow for arbitrary worlds; the unit cube as a concrete case"
 ],
 "C113": [
  "Safe/Model (array extents, allocation conditions, footprint of every kernel launch of a run), Safe/Proofs, Faces, Props; Safe/Table (accesses extracted from the text of the kernels by tools/mksource.py), Source, Covers, SourceFaces, SourceProps",
  "linear arithmetic on index ranges for all block sizes, with the halo depth from C37 and the solver from C35; converse by an explicit illegal access; each extracted access is in the footprint of the launch that models its kernel"
 ],
 "C114": [
  "Util/Load (getNumCells, getLoadEfficiency with 32-bit addition; reduction trees over the ranks)",
  "induction on the reduction tree modulo 2^32; argmax by induction on the gathered list"
 ],
 "C115": [
  "Text/Flux (generated by tools/mktext.py from the text of ten convective flux kernels), Text/FluxProps, FluxWide, FluxMuscl, FluxMusclHllc",
  "unfolding and commutative algebra, component by component, for arbitrary block contents; HLLC by its branches"
 ],
 "C116": [
  "Text/Stage (generated by tools/mktext2.py from the text of 18 stage kernels), Text/StageProps",
  "induction on the order of the iterations with no repeated index; algebra at one index"
 ],
 "C117": [
  "Text/Diff (generated by tools/mktext.py from the text of the two diffusive flux kernels), Text/DiffProps",
  "closed forms of the two species folds by induction on the number of species, then unfolding and commutative algebra component by component"
 ],
 "C118": [
  "Text/Cell (generated by tools/mktext3.py from the text of nine kernels), Text/CellProps",
  "sweep over any duplicate-free order of the range by induction, then unfolding against FV/Model, Mesh/Model, Sensor/Model"
 ],
 "C119": [
  "Text/Thermo (generated by tools/mktext4.py from cpg.cpp), Text/ThermoProps",
  "closed form of each species loop by induction on the number of species, then unfolding against Thermo/Model"
 ]
}
