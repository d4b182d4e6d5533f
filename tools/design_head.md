# Formal model of PEREGRINE in Lean 4 — design

(The first version of this file was committed before the proofs; this is the version that goes with the finished model.)

## Approach

The Lean project in `lean/` holds, per area of the code, modules `Verif/<Area>/...`:

* models — shallow, mostly executable models of the Python and Kokkos code, function by function, each definition citing file and
  lines in /repo and naming its simplifications;
* specifications — small and independent of the model's helpers (in `Spec.lean` files, or under a heading "specification");
* theorems `Cxx_...`, each with an `example` that a concrete, non-trivial case meets its hypotheses;
* theorems `Cxx_..._violated` — proofs that the code as written breaks the property, for a concrete input or a whole class;
* theorems `Cxx_..._partial` — the proved part of a property that fails or is open in the rest.

Conventions

* Floating point numbers are real numbers or elements of an arbitrary linearly ordered field: exact arithmetic. Rounding, overflow,
  NaN (except C51) are not modelled.
* Arrays are functions of integer indices with explicit extents; an update is a pointwise function update.
* Python exceptions, C++ aborts and endless loops are `none` or an error value.
* Lean's `x/0 = 0`; theorems that divide carry the guard under which the code divides by a nonzero number.
* MPI is modelled by matched (source, destination, tag) messages with rendezvous sends (no buffering). Kokkos kernels are modelled as
  pointwise maps (each work item writes its own cell or face); that work items do not race is proved from the accesses extracted from
  the text of the kernels (C100), and that they stay inside their arrays in C113.
* Text files are lists of lines and tokens; number parsing is a parameter where it does not matter.

## How the areas fit together

`Topo` (orientations) → `Halo` (exchange on one connection, repeated rounds, unification of grids) → `Whole` (all blocks: the right
hand side, time stepping, independence of the decomposition C91, global conservation C93). `Whole` is parametrised by abstract kernels with a
stated reach; `Whole/Real*` instantiates it with the modelled flux kernels of `Flux` and `Diff`. `Mesh`, `Grid` supply geometry; `Thermo`,
`Trans`, `Chem`, `Subgrid`, `Sensor` are pointwise models of the compute kernels; `BC` the boundary conditions; `Time`, `Dual`, `Run` the
integrators, the dual-time solver and the main loop; `Config`, `Setup`, `IO`, `Interp`, `Trace`, `Util`, `Gen` the Python layers around them.
