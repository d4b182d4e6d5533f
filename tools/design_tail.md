## Trusted base

* Lean 4.33.0 kernel, with the axioms `propext`, `Classical.choice`, `Quot.sound` and no others: `AXIOMS.txt` lists, for every theorem of the
  manifest, the axioms it depends on. No axioms of our own, no `native_decide`, no `bv_decide`; `decide +kernel` (kernel evaluation) is used.
* The fidelity of the hand-written model to /repo (cited per definition). Nothing was executed; the sandbox has none of the dependencies.
* Mathlib's definitions of the notions used in statements (real numbers, `HasDerivAt`, `Finset.sum`, …).

Modelled: the files cited by the definitions, i.e. of `src/peregrinepy`: multiBlock (topology, faces, blocks, solver blocks as far as they
are halo exchange, boundary data, counters), mpiComm (communicate, load distribution, reductions), grid (create, halo generation, metrics,
unification), integrators, bcs, RHS, consistify, readers, writers, files and configuration, interpolation, coproc traces, thermodynamic data, kinetic-theory tables and fits (the collision integral splines and np.polyfit as parameters); of
`src/compute`: advective fluxes, diffusive fluxes, switches, boundary conditions, thermodynamics (cpg, tpg, cubic), transport, chemistry (all
kernels; of Red22 everything but the NASA polynomials behind EG[], which enter as arbitrary positive numbers), subgrid models, time integration kernels, dual-time kernels, grid metrics, utilities for dt and residual; of
`utilities`: cutGrid, verifyGrid, copyRotateSectorGrid, gridPro2pg, icem2pg (tns3dmb), interpolate (whole script), boundaryLayerGrid, ct2pgChem,
loadBalancer.

Not modelled: floating point rounding (the interleaving of threads in a launch is modelled in C100, host and device copies in C107); hdf5, yaml and xml libraries (their round trip is
assumed); the Catalyst coprocessor beyond its arrays; `myKEEP.cpp` (bound nowhere); plotting and post-processing scripts; the mbi branch of icem2pg;
what the mpi4py runner does with an exception of one rank (C111).

## What the proofs found

Defects of the code, each with a `_violated` theorem or a note in the claim of the property named:

* Start-up: cell counts and load efficiency in 32-bit integers (C114).
* Numerics: Rusanov pairs a side's velocity with the other side's sound speed (C29); HLLC momentum with tangential velocity (C26, C12); MUSCL
  reuses the limiter of one variable (C27, C31); scalar dissipation reads neighbour (i+1, j, k) in all three directions (C27, C91, C115); viscous work has the
  wrong sign in some terms (C61); damped diffusion uses e·n without modulus (C76); acoustic step limit and local pseudo time step underestimate signal speeds
  (C68, C92); the reference velocity of the preconditioner jumps at U = 1e-5 c, the viscous limit uses fmin; the residual maximum is reduced with MPI.MIN;
  stage times of the Strang integrator and one-step-ahead `titme` (C16, C63).
* Boundary conditions: isothermal walls with Rusanov, HLLC wall with supersonic normal flow, fourth order KEEP at walls (C32); periodic axis
  taken unnormalised from raw input, velocity gradients not rotated (C33); stagnation inlet normals and sign (C73); supersonic exit (C74); spline
  last row (C75); mass flux inlet with upwind flux (C72).
* Transport and chemistry: scratch accumulation and pure species break in kineticTheory (C77); unity-Lewis viscosity (C78); Chung Fc on
  the first term only (C78); polar species listed after nonpolar ones lose the induction correction, cp/R of constant-cp species (C104); chemistry enthalpy units (C84); converter ignores reaction orders, fixed reference pressure (C94).
* Decomposition: face phi components not permuted on rotated connections, so mass is created (C93); mixed-scale model reads stale
  edge halos (C91); block thickness enters localDtau/invertDQ (C91); one-cell-thick periodic blocks (C87).
* Setup and files: periodic span of multiBlockCube is the block length (C43); annulus with several axial blocks fails (C80); restart files with
  halo cannot be read back, missing blocks read as zeros (C45); file name collisions (C49); bounding box precedence slip (C56); gaps of verifyGrid (C59);
  copyRotateSectorGrid (C58); cutGrid (C44); readBcs accepts families without values (C88); pgCoprocessor import (C89); createPlane edges (C90);
  YAML numbers without a dot are text (C95); species data types (C96); boundary layer grids (C97); GridPro labels, periodic families (C98);
  periodic ICEM grids (C99); xmf time of arrays written by hand is zero (C106); with separate device memory
  strang's chemistry is lost and the serial writers write old values (C107); without numbered restart files a kill during
  a write destroys the only restart, or leaves one mixing two iterations that is read without error (C108); on resuming, boundary conditions
  are evaluated at stage time 0, so a run with a time dependent inlet does not continue where it stopped (C109); results depend on the
  orientation of the axes through the MUSCL limiters, the damping length of the diffusive flux and the CFL numbers (C110); a rank that raises
  leaves the others waiting, and per-block restart files of different iterations make the ranks disagree on collective calls, so the run hangs (C111);
  interpolate.py never allocates the target's solution arrays, so it always fails, takes grids and solutions in directory listing order, and refuses
  a directory holding lump and per-block files (C112);
  a mechanism with more species than the case, strang without chemistry, and boundary faces without values start and access memory outside or
  unallocated arrays (C113).

## Testing the theorems

`seeded/LOG.jsonl` logs every wrong program tried: the model definition edited, the edit, the claim it breaks, the theorems that failed to prove.
Edits that survived led to tightened theorems or are argued to be equivalent there.

## Tools

`tools/mkmanifest.py` collects the theorems into MANIFEST.json; `tools/notes.json` holds the notes; `tools/addprop.py` adds properties;
`tools/mksource.py` extracts the array accesses of the kernels from /repo/src/compute (Safe/Table.lean);
`tools/mktext.py`, `mktext2.py`, `mktext3.py`, `mktext4.py` translate kernel bodies from /repo/src/compute into Lean, statement by statement (Text/Flux, Text/Diff,
Text/Stage, Text/Cell, Text/Thermo); they stop with an error at a construct they do not know. C115-C119 are about their output, so for those kernels the
hand-written models are not trusted, but the translators are: their reading of C++ (declarations, assignments, `if`, counted loops, calls
of `fmax fmin abs sqrt pow`, views with constant component indices), doubles as reals, `Kokkos::parallel_for` as one iteration per index;
`tools/mkdesign.py` writes this file; `tools/mklog.py` the mutation log.
