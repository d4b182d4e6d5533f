{"id": "C01", "title": "Face orientations are mutually inverse", "statement": "If a block face declares its relation to its neighbour by an orientation string, the orientation the neighbour would have to declare (neighborOrientation) is again a legal orientation, describes the inverse index map, and taking it twice gives the original back; the neighbour face number (neighborNface) likewise is a legal face number, is touched from the correct side, and its own neighbour face is the original face.", "quantifier": "all 6 face numbers and all 48 legal orientation strings (signed permutations)", "why_tests_cant": "hand tests exercise two or three orientations; the tables must be right for all 288 face/orientation pairs and as an inverse law", "anchors": ["src/peregrinepy/multiBlock/topologyFace.py: topologyFace.neighborNface, neighborOrientation"]}
{"id": "C02", "title": "Cell-centred halo exchange delivers the physically adjacent cell", "statement": "After a communicate() of a cell-centred variable over a reciprocally declared connection, every halo cell of every layer behind the receiving face holds exactly the value of the neighbour's interior cell that occupies that position under the declared index map.", "quantifier": "every block size, every number of halo layers, every face, every legal orientation, every array contents and number of components", "why_tests_cant": "288 face/orientation combinations times all sizes and contents; a wrong flip or transpose only shows for asymmetric data on specific pairs", "anchors": ["src/peregrinepy/multiBlock/solverFace.py: _setOrientFunc, _setCommBuffers", "src/peregrinepy/mpiComm/communicate.py: communicate", "src/compute/utils/sendRecvBuffer.cpp"]}
{"id": "C03", "title": "Node-coordinate halo exchange delivers the neighbour's next node planes", "statement": "After a communicate() of node coordinates over a reciprocal connection, halo node plane g behind the face holds the neighbour's nodes g planes inside the shared face (the shared plane itself is not sent).", "quantifier": "every block size, number of halo layers, face, legal orientation and coordinates", "why_tests_cant": "off-by-one in node slices depends on side, direction and ng; tests fix one layout", "anchors": ["src/peregrinepy/multiBlock/solverFace.py: _setCommBuffers", "src/peregrinepy/grid/unifySolverGrid.py"]}
{"id": "C04", "title": "Single-layer exchange of gradients and switches delivers the first adjacent cell", "statement": "For the one-layer variables (gradients, shock sensor) the exchange fills the first halo layer behind the face with the neighbour's first interior layer, and no other layer.", "quantifier": "every block size, halo depth, face, legal orientation and contents", "why_tests_cant": "the one-layer slice is chosen from lists that are reversed in some orientations; only particular pairs expose a wrong pick", "anchors": ["src/peregrinepy/multiBlock/solverFace.py: _setCommBuffers", "src/peregrinepy/mpiComm/communicate.py"]}
{"id": "C05", "title": "Halo exchange never changes interior data", "statement": "communicate() writes only cells that lie in halo layers behind connected faces: every interior cell (and every halo cell not behind a connected face) is unchanged.", "quantifier": "every block size with at least one cell per direction, every face, orientation, number of layers, contents", "why_tests_cant": "absence of a stray write has to hold for every index and every combination of faces", "anchors": ["src/peregrinepy/mpiComm/communicate.py: communicate", "src/compute/utils/sendRecvBuffer.cpp: placeRecvBuffer", "src/peregrinepy/multiBlock/solverFace.py: _setCommBuffers"]}
{"id": "C06", "title": "Messages reach exactly the intended face", "statement": "Tags used for halo messages are distinct for distinct receiving (block, face) pairs, and over a reciprocal connection the tag a sender uses equals the tag the intended receiver posted.", "quantifier": "all block numbers and all face numbers", "why_tests_cant": "a tag collision appears only for particular pairs of block numbers in particular decompositions", "anchors": ["src/peregrinepy/multiBlock/solverFace.py: tagR/tagS", "src/peregrinepy/mpiComm/communicate.py"]}
{"id": "C07", "title": "communicate() cannot deadlock", "statement": "In any set of ranks with reciprocal block connections, every rank completes the exchange: whatever the interleaving and even if MPI sends never buffer (a send completes only once the matching receive is posted), from every reachable unfinished state some rank can take a step, and each run is finite, ending with all ranks past the barrier with the right number of messages received.", "quantifier": "every number of ranks, every assignment of faces to ranks, every schedule of the ranks", "why_tests_cant": "deadlock depends on the schedule and on MPI buffering limits; no finite set of runs covers them", "anchors": ["src/peregrinepy/mpiComm/communicate.py: communicate"]}
{"id": "C08", "title": "Send and receive buffers agree in shape across a connection", "statement": "Over a connection whose two faces have matching extents, the oriented send buffer of one side has the same shape as the receive buffer of the other.", "quantifier": "every block size, halo depth, face and legal orientation", "why_tests_cant": "mismatch occurs only for non-square faces in transposing orientations", "anchors": ["src/peregrinepy/multiBlock/solverFace.py: _setCommBuffers, _setOrientFunc"]}
{"id": "C09", "title": "Flux application is conservative", "statement": "After zeroing dQ and applying the face fluxes, the volume-weighted sum of dQ over the interior cells of a block equals the net flux through the block's boundary faces for every conserved component: interior faces cancel exactly.", "quantifier": "every block size, every flux field, every volume field", "why_tests_cant": "a telescoping identity over arbitrary sizes and values", "anchors": ["src/compute/utils/applyFluxes.cpp: applyFlux", "src/compute/utils/dQzero"]}
{"id": "C10", "title": "Blended flux application is conservative and uses weights that sum to one", "statement": "Hybrid and dissipative flux application also telescope to boundary terms for any switch field; at each face the primary and secondary weights add to one and both cells of the face see the same weights; with the switch at zero only the primary flux acts, at one only the secondary.", "quantifier": "every block size, flux field, switch field", "why_tests_cant": "must hold for every switch value at every face", "anchors": ["src/compute/utils/applyFluxes.cpp: applyHybridFlux, applyDissipationFlux", "src/peregrinepy/RHS.py"]}
{"id": "C11", "title": "Grid cells are geometrically closed", "statement": "For arbitrary node coordinates, the six outward area vectors computed for each cell sum to zero, and the area vector of a shared face is the same seen from both cells.", "quantifier": "every assignment of node coordinates, every cell", "why_tests_cant": "identity over a 24-dimensional space of coordinates", "anchors": ["src/peregrinepy/grid/metrics.py: generateMetrics"]}
{"id": "C12", "title": "Uniform flow stays uniform on any grid", "statement": "On any block with any node coordinates (including skewed, stretched grids) a spatially uniform state yields a zero residual in every interior cell for the consistent advective flux schemes.", "quantifier": "every grid, every uniform state, each of the advective flux functions modelled", "why_tests_cant": "requires exact cancellation for all coordinates, not for a sample mesh", "anchors": ["src/peregrinepy/grid/metrics.py", "src/compute/advFlux/*.cpp", "src/compute/utils/applyFluxes.cpp"]}
{"id": "C13", "title": "Cell volume is exact for parallelepiped cells and positive for right-handed ones", "statement": "For cells whose nodes form a parallelepiped the reported volume is the exact (clipped) signed volume, face areas are the exact cross products and unit normals have unit length with S*n equal to the area vector whenever the area is above the clip.", "quantifier": "every base point and every three edge vectors", "why_tests_cant": "continuum of shapes", "anchors": ["src/peregrinepy/grid/metrics.py: generateMetrics"]}
{"id": "C14", "title": "Grid metrics invert the coordinate Jacobian", "statement": "On affinely mapped grids the computed metric terms d(E,N,X)/d(x,y,z) are the inverse of the matrix of physical derivatives, so that gradients of linear fields are computed exactly.", "quantifier": "every affine grid with nonzero volume, every linear field", "why_tests_cant": "continuum of grids and fields", "anchors": ["src/peregrinepy/grid/metrics.py: generateMetrics", "src/compute/utils/dq2FD.cpp"]}
{"id": "C15", "title": "Generated halo coordinates continue the grid exactly when it is affine", "statement": "generateHalo extends an affinely mapped block so that every halo node (faces, edges, corners) of the first halo layers lies exactly where the affine map would put it.", "quantifier": "every affine map, every block size, any number of halo layers", "why_tests_cant": "sentinel comparisons with zero make the result depend on coordinates in ways a sample cannot rule out", "anchors": ["src/peregrinepy/grid/generateHalo.py"]}
{"id": "C16", "title": "Simulation time and iteration counters advance consistently", "statement": "After any sequence of time steps of positive sizes, the iteration counter has grown by the number of steps, the time by the sum of step sizes, and the integrator-internal time equals the time.", "quantifier": "every integrator, every history of step sizes", "why_tests_cant": "histories are unbounded; the internal time is only observable through time dependent boundary conditions", "anchors": ["src/peregrinepy/integrators/*.py"]}
{"id": "C17", "title": "Explicit Runge-Kutta integrators attain their order on linear problems", "statement": "Applied to q'=lambda q, one step of rk1, rk2, rk3, rk34, rk4 (and maccormack with its alternating flux replaced by the full right-hand side) multiplies the solution by the Taylor polynomial of exp(lambda dt) of the claimed order (up to higher-order terms for rk34), and for right hand sides that are polynomials in time integrates the quadrature conditions of that order exactly.", "quantifier": "every lambda, dt, initial value", "why_tests_cant": "polynomial identities in lambda*dt", "anchors": ["src/peregrinepy/integrators/rk1.py..rk4.py, rk34.py", "src/compute/timeIntegration/rk*Stages.cpp"]}
{"id": "C18", "title": "SSP integrators preserve every convex bound that forward Euler preserves", "statement": "If every forward-Euler step of size at most dt0 keeps a state inside a convex set, then a step of rk2, rk3 of size at most dt0, and of rk34 of size at most 2*dt0, keeps it there.", "quantifier": "every convex set, every right-hand side, every state, every dt within the bound", "why_tests_cant": "quantifies over all convex sets and right-hand sides", "anchors": ["src/peregrinepy/integrators/rk2.py, rk3.py, rk34.py", "src/compute/timeIntegration/rk2Stages.cpp, rk3Stages.cpp, rk34Stages.cpp"]}
{"id": "C19", "title": "Steady states are fixed points of every explicit integrator", "statement": "If the right-hand side vanishes at the current state, a step of any explicit integrator leaves the conserved variables of interior cells unchanged.", "quantifier": "every state, every dt, every explicit integrator", "why_tests_cant": "over all states and step sizes", "anchors": ["src/peregrinepy/integrators/*.py", "src/compute/timeIntegration/*Stages.cpp"]}
{"id": "C20", "title": "Dual-time history shift and restart give a run identical to an uninterrupted one", "statement": "With dual time stepping, at the start of each physical step the stored older levels are the two previous solutions; a run that is stopped after any step at which restart files were written, and resumed from them, computes the same subsequent interior states as one that never stopped; without the auxiliary file the older level falls back to the current solution.", "quantifier": "every number of steps, every stop point", "why_tests_cant": "crash/restart points are unbounded", "anchors": ["src/peregrinepy/integrators/dualTime.py", "src/peregrinepy/writers/writeDualTimeQnm1.py"]}
{"id": "C21", "title": "The CFL-limited time step honours both limits", "statement": "With variable time stepping the chosen dt never exceeds maxDt and dt times the largest wave-speed rate of any block never exceeds maxCFL; with fixed time stepping dt is exactly the configured value; the same dt results on every rank.", "quantifier": "all CFL rates, all limits, any number of ranks and blocks", "why_tests_cant": "depends on reductions over arbitrary rank sets", "anchors": ["src/peregrinepy/mpiComm/mpiUtils.py: getDtMaxCFL", "src/compute/utils/cfl.cpp", "runPeregrine.py"]}
{"id": "C22", "title": "Perfect-gas state conversion round-trips", "statement": "For physically admissible primitives (positive p, T; mass fractions nonnegative with sum at most one) converting primitives to conserved variables and back returns the same primitives, and conserved to primitive and back returns the same conserved variables.", "quantifier": "every admissible state, every number of species, every positive cp and molecular weight table", "why_tests_cant": "continuum of states, arbitrary species count", "anchors": ["src/compute/thermo/cpg.cpp"]}
{"id": "C23", "title": "Mass fractions are bounded and sum to one after conversion", "statement": "After either thermodynamic conversion the mass fractions used (including the implied last species) lie in [0,1] and sum to one, for any stored input with positive density, and the stored conserved species are consistent with them.", "quantifier": "every stored state, every number of species", "why_tests_cant": "must include unphysical inputs such as negative or oversumming mass fractions", "anchors": ["src/compute/thermo/cpg.cpp, tpg.cpp"]}
{"id": "C24", "title": "Perfect-gas conversion yields a thermodynamically consistent state", "statement": "For any admissible state the derived quantities satisfy p = rho R T, h = e + p/rho, c^2 = gamma R T > 0, gamma > 1, total energy = internal + kinetic.", "quantifier": "every admissible state", "why_tests_cant": "continuum of states", "anchors": ["src/compute/thermo/cpg.cpp"]}
{"id": "C25", "title": "Thermally perfect conversion: round-trip up to the Newton tolerance, exact at the fixed point", "statement": "With temperature-dependent heat capacities, converting primitives to conserved and back starting the temperature search at the true temperature returns the true temperature; whatever the starting guess, when the search stops before its iteration cap the reported temperature is the previous iterate's state within the tolerance criterion, and it performs at most 100 iterations.", "quantifier": "every NASA polynomial table, every state, every guess", "why_tests_cant": "iteration count and fixed point are for all tables and guesses", "anchors": ["src/compute/thermo/tpg.cpp"]}
{"id": "C26", "title": "Numerical fluxes are consistent", "statement": "Evaluated on identical left and right states each advective flux equals the physical Euler flux through the face (mass, three momenta with pressure, energy, species).", "quantifier": "every state, every face normal and area, every number of species", "why_tests_cant": "continuum of inputs", "anchors": ["src/compute/advFlux/*.cpp"]}
{"id": "C27", "title": "Numerical fluxes do not depend on which side a face is seen from", "statement": "Swapping left and right states and reversing the normal negates each modelled flux (so two blocks that both compute a shared face agree and conserve).", "quantifier": "every pair of states, every normal", "why_tests_cant": "continuum of inputs, including the branch boundaries of upwind fluxes", "anchors": ["src/compute/advFlux/*.cpp"]}
{"id": "C28", "title": "Upwind fluxes take the upstream state in supersonic flow and resolve contacts", "statement": "HLLC with supersonic flow towards either side returns exactly the upstream physical flux; across a stationary contact (equal pressure, zero normal velocity) it transports no mass. AUSM+-up in supersonic flow towards either side returns the upstream physical flux.", "quantifier": "every pair of states satisfying the wave-speed conditions", "why_tests_cant": "branch selection over a continuum", "anchors": ["src/compute/advFlux/hllc.cpp", "src/compute/advFlux/ausmPlusUp.cpp"]}
{"id": "C29", "title": "Rusanov dissipation speed dominates the local wave speeds", "statement": "The dissipation speed used at a face is at least |u_n|+c of each of the adjacent states.", "quantifier": "every pair of states", "why_tests_cant": "the violating region of state space is easily missed by samples", "anchors": ["src/compute/advFlux/rusanov.cpp, muscl2rusanov.cpp"]}
{"id": "C30", "title": "Shock sensors stay within [0,1] and vanish on smooth (uniform) pressure", "statement": "Each shock switch yields values in [0,1] for any positive pressure field, is zero where pressure is locally uniform, and is independent of the direction of indices.", "quantifier": "every positive pressure field, every cell, each of the three sensors", "why_tests_cant": "continuum of fields", "anchors": ["src/compute/switches/jameson.cpp, vanAlbada.cpp, vanLeer.cpp"]}
{"id": "C31", "title": "Slope-limited reconstruction creates no new extrema", "statement": "The second order reconstruction at a face lies between the adjacent cell values whenever data are monotone, and falls back to the cell value at an extremum.", "quantifier": "every three neighbouring values", "why_tests_cant": "continuum and degenerate zero-slope cases", "anchors": ["src/compute/advFlux/muscl2rusanov.cpp, muscl2hllc.cpp"]}
{"id": "C32", "title": "Walls pass no mass", "statement": "At slip and no-slip walls, the halo values set by the boundary condition make the average face-normal velocity zero (slip: tangential part kept; no-slip: all components zero or, for moving walls, the wall velocity) in every halo layer in use.", "quantifier": "every interior state, normal, every supported number of halo layers", "why_tests_cant": "continuum of states and normals", "anchors": ["src/compute/boundaryConditions/walls.cpp", "src/compute/boundaryConditions/exits.cpp, inlets.cpp"]}
{"id": "C33", "title": "Rotational periodicity transforms velocity by inverse rotations that preserve speed", "statement": "For the periodic axis and span given by the user, the high-side and low-side rotations are mutually inverse, preserve vector lengths and kinetic energy, and fix the axis.", "quantifier": "every axis and angle the API accepts", "why_tests_cant": "continuum of axes; non-unit axes are accepted", "anchors": ["src/peregrinepy/multiBlock/gridFace.py: setPeriodicRotMatrix", "src/compute/boundaryConditions/periodics.cpp"]}
{"id": "C34", "title": "Boundary conditions fill every halo layer from its mirror layer", "statement": "For each boundary face, halo layer g (counted outward) is written exactly once, from the cell indices the condition prescribes, for any supported halo depth, and no interior cell is written.", "quantifier": "every block size, every halo depth selected by the configuration", "why_tests_cant": "offset accumulation depends on the halo depth", "anchors": ["src/compute/boundaryConditions/*.cpp", "src/compute/rangeMap.cpp", "src/peregrinepy/multiBlock/__init__.py: howManyNG"]}
{"id": "C35", "title": "Configuration validation accepts exactly consistent combinations", "statement": "A configuration passes validation only if every referenced scheme combination can be set up by the solver; invalid combinations raise an error at start rather than during the run.", "quantifier": "every configuration dictionary value combination", "why_tests_cant": "combinatorially many option combinations including strings outside the list", "anchors": ["src/peregrinepy/files/configFile.py: validateConfig", "src/peregrinepy/multiBlock/__init__.py: setRHS, howManyNG, setConsistify"]}
{"id": "C36", "title": "Configuration key set is fixed", "statement": "Once built, a configuration object never gains a key: any sequence of assignments, updates and file reads either leaves the key set unchanged or raises an error, and successful assignments are readable back.", "quantifier": "every sequence of assignments", "why_tests_cant": "unbounded operation histories", "anchors": ["src/peregrinepy/misc/frozenDict.py", "src/peregrinepy/files/configFile.py", "src/peregrinepy/readers/readConfigFile.py"]}
{"id": "C37", "title": "The halo depth chosen suffices for the stencil of the chosen scheme", "statement": "For every configurable advective scheme the number of halo layers allocated covers the cells the scheme reads next to block faces, and unknown scheme names raise an error.", "quantifier": "every advective scheme and pair of schemes", "why_tests_cant": "must hold for each combination in the table, and at every cell of every block size", "anchors": ["src/peregrinepy/multiBlock/__init__.py: howManyNG", "src/compute/advFlux/*.cpp"]}
{"id": "C38", "title": "Every block is solved by exactly one rank", "statement": "A block-to-rank assignment file accepted at start assigns every block number 0..n-1 to exactly one rank, and each face's communication rank is the rank that owns the neighbour block.", "quantifier": "every assignment file", "why_tests_cant": "the acceptance check looks only at a count and a maximum", "anchors": ["src/peregrinepy/bootstrapCase.py", "src/peregrinepy/readers/readBlocksForProcs.py"]}
{"id": "C39", "title": "Block assignment file round-trips", "statement": "Reading a blocksForProcs.inp written by the load balancer gives back exactly the written lists, ignoring comment lines and trailing commas.", "quantifier": "every list of lists of block numbers", "why_tests_cant": "string parsing over arbitrary inputs", "anchors": ["src/peregrinepy/readers/readBlocksForProcs.py", "utilities/loadBalancer.py"]}
{"id": "C40", "title": "Load balancing partitions the blocks within the limits", "statement": "Whatever the block sizes and limits, the load balancer puts each block on exactly one processor, respects the given maximum number of blocks per processor / processor count, and its self check accepts only complete partitions.", "quantifier": "every list of block sizes, every limit, every strategy", "why_tests_cant": "greedy placement over arbitrary inputs", "anchors": ["utilities/loadBalancer.py"]}
{"id": "C41", "title": "Generated cartesian connectivity is reciprocal", "statement": "For every block of a generated multi-block grid of any dimensions and any periodic choice, the neighbour named on each face names that block back on the opposite face, interior faces are internal connections and outer faces are boundaries or periodic wraps.", "quantifier": "every grid of blocks and every periodicity choice", "why_tests_cant": "arbitrary dimensions, wrap-around and size-one directions", "anchors": ["src/peregrinepy/grid/create.py: cubicConnectivity, multiBlockCube"]}
{"id": "C42", "title": "Generated multi-block cube tiles the domain without gaps", "statement": "Block numbers assigned are a bijection with block positions, adjacent blocks share identical face node coordinates, and the union spans exactly the requested lengths from the requested origin.", "quantifier": "every number of blocks and cells per direction, all lengths and origins", "why_tests_cant": "arithmetic over arbitrary sizes", "anchors": ["src/peregrinepy/grid/create.py: cube, multiBlockCube"]}
{"id": "C43", "title": "Periodic spans of generated grids equal the domain length", "statement": "For a generated periodic multi-block cube, shifting the high boundary by the recorded periodic span along the recorded axis lands on the low boundary.", "quantifier": "every number of blocks per direction", "why_tests_cant": "single-block tests cannot distinguish block length from domain length", "anchors": ["src/peregrinepy/grid/create.py: multiBlockCube", "src/peregrinepy/grid/unifySolverGrid.py"]}
{"id": "C44", "title": "Cutting a grid preserves cells, boundary patches and connectivity", "statement": "Whenever the cutting utility writes a grid, in either of its modes, the new grid has exactly the cells of the old one and exactly its boundary and periodic patches, every block has at least one cell each way, every face is a valid boundary or is attached to a block with the same nodes that points back; a cut propagates to exactly the blocks it has to, at the index that continues the same plane; the indices of repeated cuts are admissible exactly when there are fewer cuts than cells; in the maximal-size mode no block exceeds the size, and the loop ends; halving a block without neighbours always succeeds and the halves share the cut plane.", "quantifier": "every grid, every sequence of cut operations, every block size, axis, number of cuts, orientation of neighbours and maximal size", "why_tests_cant": "orientation-dependent index reversal, propagation over arbitrary block graphs and arbitrary sizes", "anchors": ["utilities/cutGrid.py"]}
{"id": "C45", "title": "Restart files round-trip", "statement": "Writing a restart and reading it back yields the same interior primitive fields and time/iteration, for any block size, species count, and both with and without stored halos.", "quantifier": "every block size, field contents, species count", "why_tests_cant": "index ordering errors are invisible on symmetric data", "anchors": ["src/peregrinepy/writers/writeRestart.py, parallelWriter.py", "src/peregrinepy/readers/readRestart.py"]}
{"id": "C46", "title": "Grid files round-trip", "statement": "Writing a grid and reading it back yields the same node coordinates in every index position.", "quantifier": "every block size and coordinates", "why_tests_cant": "ravel/reshape order must be a bijection for every shape", "anchors": ["src/peregrinepy/writers/writeGrid.py", "src/peregrinepy/readers/readGrid.py"]}
{"id": "C47", "title": "Connectivity files round-trip", "statement": "Writing and reading the connectivity of a topology reproduces every face's boundary type, neighbour, orientation and family.", "quantifier": "every topology of any number of blocks", "why_tests_cant": "None/null conversions over all field combinations", "anchors": ["src/peregrinepy/writers/writeConnectivity.py", "src/peregrinepy/readers/readConnectivity.py"]}
{"id": "C48", "title": "Parallel output metadata lists every block once with its own size, the same on every rank", "statement": "Registering parallel metadata yields on every rank a table in block number order whose entry for block b holds b's cell counts, for any distribution of blocks over ranks.", "quantifier": "every number of ranks and any distribution of blocks", "why_tests_cant": "depends on gather order and sorting for arbitrary distributions", "anchors": ["src/peregrinepy/writers/parallelWriter.py: registerParallelMetaData"]}
{"id": "C49", "title": "Output files of different blocks and iterations never collide", "statement": "File names of restart, grid and auxiliary files are distinct for distinct (iteration, block) pairs unless overwriting output is requested, and the names written are the names read.", "quantifier": "every iteration and block number", "why_tests_cant": "zero padding overflows for large numbers", "anchors": ["src/peregrinepy/writers/writeMetaData.py, writeRestart.py, parallelWriter.py", "src/peregrinepy/readers/readRestart.py", "src/peregrinepy/integrators/dualTime.py"]}
{"id": "C50", "title": "Output and restart schedule of the main loop", "statement": "The driver performs exactly the configured number of iterations unless a NaN is detected; restarts, archives and NaN checks happen exactly at the iterations divisible by their configured intervals; on a NaN nothing is run after the emergency output; no regular restart is written after a detected NaN.", "quantifier": "every iteration count, every interval setting, any iteration at which a NaN appears", "why_tests_cant": "unbounded histories", "anchors": ["runPeregrine.py"]}
{"id": "C51", "title": "NaN detection is global and complete", "statement": "The check aborts on every rank if and only if some interior conserved value on some rank is NaN or infinite.", "quantifier": "every rank set, block set, field", "why_tests_cant": "any location could hold the NaN", "anchors": ["src/compute/utils/checkNan.cpp", "src/peregrinepy/mpiComm/mpiUtils.py: checkForNan"]}
{"id": "C52", "title": "Time and iteration set on a multi-block object reach all blocks", "statement": "Setting nrt, tme or titme on the collection is read back from the collection and from each of its blocks, for any sequence of assignments, restart reads and attempts to append blocks (which are refused).", "quantifier": "every history of assignments", "why_tests_cant": "unbounded histories", "anchors": ["src/peregrinepy/multiBlock/restart.py, solver.py"]}
{"id": "C53", "title": "Blocks are found by number and appended numbers are fresh", "statement": "getBlock(n) returns the block numbered n when present, whatever the order of blocks; appending a block gives it a number not used before and keeps the others.", "quantifier": "every list of distinct block numbers and every history of appends", "why_tests_cant": "arbitrary orders and gaps", "anchors": ["src/peregrinepy/multiBlock/topology.py"]}
{"id": "C54", "title": "Species-sum verification reports exactly the bad inputs", "statement": "The restart check of mass fractions reports a problem iff some cell's mass fractions sum to more than one, and normalising makes all sums at most one without changing the good cells.", "quantifier": "every field and species count", "why_tests_cant": "arbitrary data", "anchors": ["src/peregrinepy/multiBlock/restartBlock.py: verifySpeciesSum", "src/peregrinepy/multiBlock/restart.py: checkSpeciesSum"]}
{"id": "C55", "title": "Interpolated fields create no new extrema", "statement": "Interpolating a solution to another grid produces values within the range of the source data.", "quantifier": "every source data and any interpolant", "why_tests_cant": "arbitrary data", "anchors": ["src/peregrinepy/interpolation/blocksToBlock.py"]}
{"id": "C56", "title": "Interpolation source search misses no block", "statement": "For every target block the search returns, with verbose search, exactly the source blocks whose test hull (corners, edge and face middles) contains a target cell centre; without it, a subset of these, none twice, such that every target centre lying in the hull of any source block lies in the hull of a returned one. The list is empty (reported as an error) exactly if no target centre lies in any source hull. The bounding-box shortcut loses nothing.", "quantifier": "every set of source blocks of any size and shape, every set of target centres, both search modes", "why_tests_cant": "the condition has an operator-precedence slip and an early exit; whether they lose blocks depends on the combination of boxes", "anchors": ["src/peregrinepy/interpolation/bounds.py: findBounds, ptsInBlkBounds", "utilities/interpolate.py"]}
{"id": "C57", "title": "Viscous sponge multiplier is bounded by the requested multiplier", "statement": "The viscosity multiplier is 1 before the sponge, increases monotonically through it, reaches the requested multiplier at its end and never exceeds it.", "quantifier": "every point, sponge origin/end and multiplier >= 1", "why_tests_cant": "continuum of points, including beyond the end of the sponge", "anchors": ["src/compute/utils/viscousSponge.cpp"]}
{"id": "C58", "title": "Sector copies connect into a closed ring", "statement": "Replicating a periodic sector yields blocks whose connectivity is reciprocal and (for a full ring) closed, each copy rotated by its multiple of the sector angle.", "quantifier": "every sector connectivity, any number of copies", "why_tests_cant": "arbitrary topologies including sectors one block wide", "anchors": ["utilities/copyRotateSectorGrid.py"]}
{"id": "C59", "title": "Grid verification is sound and complete for connectivity", "statement": "The grid checker accepts a grid only if all connections are reciprocal in neighbour number, orientation and coordinates, and accepts all valid boundary types.", "quantifier": "every topology", "why_tests_cant": "arbitrary topologies", "anchors": ["utilities/verifyGrid.py", "src/peregrinepy/multiBlock/topologyFace.py"]}
{"id": "C60", "title": "Central kinetic-energy-preserving fluxes satisfy their discrete identity", "statement": "For the KEEP type fluxes the convective kinetic energy flux at a face equals mass flux times half the dot product of the two velocities, so that momentum and kinetic energy fluxes are compatible; the scheme is symmetric in its two states.", "quantifier": "every pair of states and normal", "why_tests_cant": "algebraic identity over a continuum", "anchors": ["src/compute/advFlux/KEEP.cpp, KEEPpe.cpp, KEPaEC.cpp"]}
{"id": "C61", "title": "Diffusive fluxes: zero on uniform fields, no net mass, Newton/Fourier/Fick, correct viscous work", "statement": "With uniform velocity, temperature and composition all diffusive fluxes vanish and the residual of every cell is unchanged; diffusion transports no mass and every species flux (including the implied last) is Fick's law with correction velocity, summing to zero; momentum flux is minus the Newtonian stress on the face; the energy flux carries conduction, the enthalpy of every species flux, and viscous work equal to face velocity times momentum flux.", "quantifier": "every state, gradient, face, species count, transport coefficients, block size", "why_tests_cant": "continuum of states and gradients; tests sample a few", "anchors": ["src/compute/diffFlux/diffusiveFlux.cpp", "src/compute/diffFlux/alphaDampingFlux.cpp", "src/peregrinepy/RHS.py"]}
{"id": "C62", "title": "Finite-difference gradients are exact on fields linear in computational space and blind to constants", "statement": "Cell gradients from the second and fourth order stencils vanish for constants, are linear, and are exact for polynomials of the stencil's order in index space.", "quantifier": "every field, every cell of every block size", "why_tests_cant": "identity over arbitrary fields", "anchors": ["src/compute/utils/dq2FD.cpp, dq4FD.cpp"]}
{"id": "C63", "title": "Boundary conditions see the time of the stage", "statement": "Whenever the solver refreshes primitives, halos and boundary conditions during or after a time step, time-dependent boundary conditions (the splined inlet) are evaluated at the physical time of the solution they are applied to, so a completed step leaves boundary values at the new time.", "quantifier": "every integrator, time step, start time and history", "why_tests_cant": "needs every integrator and every step history; the error is a one-step lag that regression tolerances hide", "anchors": ["src/peregrinepy/integrators/*.py", "src/peregrinepy/consistify.py", "src/compute/boundaryConditions/inlets.cpp cubicSplineSubsonicInlet"]}
{"id": "C64", "title": "The dual-time block solve returns the exact solution of the preconditioned system", "statement": "The LU factorisation with row pivoting and the forward/backward substitution used for the implicit pseudo-time update solve the dense per-cell system exactly whenever the matrix is nonsingular, and they never divide by zero in that case.", "quantifier": "every system size, every nonsingular matrix and every right-hand side", "why_tests_cant": "continuum of matrices of every size; pivoting paths are data dependent", "anchors": ["src/compute/timeIntegration/dualTime.cpp invertDQ"]}
{"id": "C65", "title": "The real-gas state satisfies the Peng-Robinson equation of state", "statement": "After a real-gas equation-of-state update the stored density is that of the largest real root of the Peng-Robinson cubic at the stored pressure, temperature and mole fractions, and the mole fractions used are normalised.", "quantifier": "every pressure, temperature, composition and species table", "why_tests_cant": "continuum of states; root branch selection", "anchors": ["src/compute/thermo/cubic.cpp"]}
{"id": "C66", "title": "Real-gas conversions are mutual inverses from the stored temperature", "statement": "For the real gas, conserved variables computed from primitives convert back to the same primitives when the stored temperature is the starting guess.", "quantifier": "every admissible state, composition, species table", "why_tests_cant": "continuum of states", "anchors": ["src/compute/thermo/cubic.cpp"]}
{"id": "C67", "title": "Real-gas derivative formulas are derivatives of what the code computes", "statement": "The closed forms used for d(am)/dT, dA/dT, dB/dT, dZ/dT, dZ/dp, drho/dp, drho/dT and cp are the true derivatives of the attraction parameter, coefficients, compressibility root, density and enthalpy the same kernel computes.", "quantifier": "every state at a simple root, every composition and species table", "why_tests_cant": "an identity between functions; finite differences only sample it", "anchors": ["src/compute/thermo/cubic.cpp"]}
{"id": "C68", "title": "The acoustic step limit accounts for the true face-normal signal speed", "statement": "The rate behind the CFL time step is at least (|n.u|+c) per cell width along every grid direction that is more than one cell thick, so a step at CFL<=1 never lets a signal cross more than one cell along any direction.", "quantifier": "every velocity, sound speed and unit face normal", "why_tests_cant": "continuum of velocities and grid orientations", "anchors": ["src/compute/utils/cfl.cpp", "src/peregrinepy/mpiComm/mpiUtils.py:getDtMaxCFL"]}
{"id": "C69", "title": "Dual time stepping converges to the second-order backward difference equation", "statement": "The time difference used is exact for quadratic histories; a state satisfying the implicit equation (3Q^{n+1}-4Q^n+Q^{n-1})/(2dt) = RHS at the new time is left unchanged by the pseudo-time iteration, and when the iteration stalls that equation holds.", "quantifier": "every mesh size, step, right-hand side and history", "why_tests_cant": "fixed points of an arbitrary right-hand side", "anchors": ["src/compute/timeIntegration/dualTime.cpp dQdt, DTrk3s1, DTrk3s2, DTrk3s3", "src/peregrinepy/integrators/dualTime.py step"]}
{"id": "C70", "title": "The dual-time matrix is the Jacobian of conserved with respect to primitive variables", "statement": "For ideal-gas mixtures the dense matrix multiplying the physical-time term of the dual-time update is exactly the matrix of partial derivatives of the conserved variables by the primitive variables, for any number of species.", "quantifier": "every admissible state, species count and row/column", "why_tests_cant": "identity between derivatives over a continuum; finite differences sample it", "anchors": ["src/compute/timeIntegration/dualTime.cpp invertDQ"]}
{"id": "C71", "title": "Stored species enthalpies add up to the stored mixture enthalpy", "statement": "After evaluating the gas model, density times the mass-fraction weighted sum of stored species enthalpies equals the stored mixture enthalpy per volume; for the perfect-gas models and for the real-gas model.", "quantifier": "every admissible state, species table and species count", "why_tests_cant": "continuum of states and compositions", "anchors": ["src/compute/thermo/cpg.cpp", "src/compute/thermo/tpg.cpp", "src/compute/thermo/cubic.cpp"]}
{"id": "C72", "title": "Inlets deliver what the user prescribed", "statement": "At a mass flux inlet the averaged density times the averaged velocity at the face equals the prescribed mass flow along the inward normal, in every halo layer and on low and high faces, and the mass flux of the solver through the face is the prescribed one; velocity and supersonic inlets hold the prescribed velocity, temperature, composition (and pressure); stored momentum and energy of the halo match its velocity.", "quantifier": "every interior state, face, normal, prescribed value, halo depth, equation of state", "why_tests_cant": "continuum of states; sign of the normal and order of passes differ per face and depth", "anchors": ["src/compute/boundaryConditions/inlets.cpp", "src/peregrinepy/bcs/prepInlets.py"]}
{"id": "C73", "title": "Stagnation inlet reproduces the reservoir", "statement": "The state set by the stagnation inlet flows along the inward face normal, has the prescribed stagnation pressure and temperature, the interior total enthalpy and the interior's outgoing Riemann invariant; a uniform flow that already has the prescribed stagnation values is reproduced.", "quantifier": "every interior state with gamma above one, every face", "why_tests_cant": "continuum of states; square root of a discriminant; six faces", "anchors": ["src/compute/boundaryConditions/inlets.cpp: stagnationSubsonicInlet"]}
{"id": "C74", "title": "Exits impose pressure and feed no backflow", "statement": "The pressure exit imposes the prescribed pressure, extrapolates outflow velocity linearly and turns into a slip wall under backflow; the supersonic exit never produces negative pressure, temperature or mass fractions, and its halo temperature is positive.", "quantifier": "every interior state and face", "why_tests_cant": "branches on the sign of the normal velocity over a continuum of states", "anchors": ["src/compute/boundaryConditions/exits.cpp"]}
{"id": "C75", "title": "Time dependent inlet follows the periodic spline", "statement": "Whatever the history of evaluation times, evaluating the spline inlet at time t prescribes at each face cell the value at t of the periodically repeated piecewise cubic read from file; profile and spline data are replicated into the face's halo from the nearest interior cell.", "quantifier": "every history of evaluation times, number of intervals, interval length, halo depth, face size", "why_tests_cant": "cached coefficients depend on the history of calls", "anchors": ["src/compute/boundaryConditions/inlets.cpp: cubicSplineSubsonicInlet", "src/peregrinepy/bcs/prepInlets.py"]}
{"id": "C76", "title": "Damped face gradients are exact on linear fields, orientation independent and frame independent", "statement": "The face gradient used for diffusion equals the gradient of any linear field exactly; swapping the two cells and reversing the normal negates the flux; a jump between cells with zero gradients is diffused down; and rotating the grid as a whole does not change the exchanged heat.", "quantifier": "every pair of cells, face geometry, field", "why_tests_cant": "all geometries and states", "anchors": ["src/compute/diffFlux/alphaDampingFlux.cpp"]}
{"id": "C77", "title": "Transport properties of a cell depend only on that cell's state", "statement": "For each transport model, the viscosity, conductivity and diffusivities stored for a cell are a function of that cell's own state and the species data: they do not depend on how cells are distributed over threads, on processing order, or on leftover scratch memory.", "quantifier": "every schedule of cells over workers, every state, species count", "why_tests_cant": "schedules and leftover memory contents cannot be enumerated; tests with one cell per call never see it", "anchors": ["src/compute/transport/constantProps.cpp", "src/compute/transport/kineticTheory.cpp", "src/compute/transport/kineticTheoryUnityLewis.cpp", "src/compute/transport/chungDenseGasUnityLewis.cpp"]}
{"id": "C78", "title": "Transport mixture rules have the right limits and reproduce the fitted species properties", "statement": "Mole fractions are non-negative and sum to one; the mixture conductivity lies between the extreme species values; the mixture viscosity is positive and bounded; a pure species gets its own properties; unity-Lewis models satisfy kappa = rho cp D; the packed table index finds the right species pair for every number of species; the kinetic models return the viscosity their fits were made for and the mixture-averaged diffusion coefficients.", "quantifier": "every admissible composition, temperature, species count", "why_tests_cant": "continuum of compositions, unbounded species count", "anchors": ["src/compute/transport/*.cpp", "src/peregrinepy/thermoTransport/kineticTheoryPoly.py"]}
{"id": "C79", "title": "Subgrid models add the documented eddy viscosity once per evaluation and never anti-diffuse", "statement": "With a subgrid model configured, each evaluation of the right-hand side uses the molecular transport coefficients of the current flow (times the sponge factor) plus the subgrid contribution exactly once; the contribution is the published one ((0.18 delta)^2 |S| for Smagorinsky, 0.06 |S|^1/2 q_c^1/2 delta^3/2 for the mixed-scale model, turbulent Prandtl number 0.4, Schmidt number 1), never negative, zero in rigid motion (and for linear velocity in the mixed-scale model) and independent of the coordinate frame.", "quantifier": "every velocity field, gradient, cell volume, block size and number of species; every integrator and number of steps", "why_tests_cant": "holds for arbitrary fields and over arbitrary histories of calls", "anchors": ["src/compute/subgrid/smagorinsky.cpp: smagorinsky", "src/compute/subgrid/mixedScaleModel.cpp: mixedScaleModel", "src/peregrinepy/RHS.py: RHS", "src/peregrinepy/consistify.py: consistify"]}
{"id": "C80", "title": "Generated annular sectors lie on cylinders and close on themselves", "statement": "A generated multi-block annular sector has its nodes at equally spaced axial, radial and angular positions measured from the given start point about the given axis; neighbouring blocks share their face nodes; the last angular plane is the first one rotated by the recorded span about the recorded axis and coincides with it for a full ring; outer angular faces are internal connections for a full ring, rotational periodic for a periodic sector and walls otherwise.", "quantifier": "every axis, perpendicular start point, sweep in [0,360], thickness, number of blocks and nodes per direction", "why_tests_cant": "continuous ranges of directions and angles, arbitrary block counts", "anchors": ["src/peregrinepy/grid/create.py: annulus, multiBlockAnnulus, cubicConnectivity"]}
{"id": "C81", "title": "Finite-rate chemistry conserves elements and mass", "statement": "For each tabulated mechanism (chem_CH4_O2_FFCMY, chem_C2H4_Air_Skeletal, chem_GRI30) the production rates, divided by molecular weight and weighted by the number of C, H, O, N or Ar atoms in each species, sum to zero; if the molecular weights are sums of atomic weights the mass production rates sum to zero; inert species (Ar in GRI30, N2 in the ethylene skeleton) have no source.", "quantifier": "all temperatures, densities, compositions, thermodynamic tables and all reactions of the three mechanisms", "why_tests_cant": "A test evaluates the sources at a few states and compares floats with a tolerance; a wrong coefficient in a reaction that is slow at those states is invisible.", "anchors": ["src/compute/chemistry/chem_CH4_O2_FFCMY.cpp", "src/compute/chemistry/chem_C2H4_Air_Skeletal.cpp", "src/compute/chemistry/chem_GRI30.cpp: dYdt"]}
{"id": "C82", "title": "Reaction rates are thermodynamically consistent", "statement": "In each tabulated mechanism the source terms, the Gibbs energy change and the pressure exponent of the equilibrium constant all use the stoichiometry of the rate expressions; a reversible reaction runs downhill in Gibbs energy and its net rate vanishes exactly at equilibrium; an element-potential equilibrium is a rest point of all reversible reactions; with all reactions reversible the mixture Gibbs energy never increases.", "quantifier": "all reactions, temperatures, densities, positive compositions and thermodynamic tables", "why_tests_cant": "Consistency of 569 reactions between five separately written expressions and the sign of the net rate at every state cannot be sampled.", "anchors": ["src/compute/chemistry/chem_*.cpp: k_f, dG, K_c, q_f, q_b, q, dYdt"]}
{"id": "C83", "title": "Chemistry never consumes an absent species", "statement": "If the mass fraction of a species is zero and the others are nonnegative, its production rate is nonnegative; hence from any composition there is a positive sub-step length below which all mass fractions stay nonnegative and sum to one.", "quantifier": "all species of the three tabulated mechanisms, temperatures, densities and compositions on the boundary of the simplex", "why_tests_cant": "It concerns every face of a 12- to 53-dimensional simplex.", "anchors": ["src/compute/chemistry/chem_*.cpp: q, dYdt, Y"]}
{"id": "C84", "title": "Chemistry sub-stepping", "statement": "The kernels evaluate rates only at nonnegative mass fractions summing to one, whatever the cell holds; the source added to dQ takes the cell to where the nChemSubSteps explicit sub-steps end; with one sub-step on an admissible cell it is exactly the production rate; a frozen mixture gets no source; element masses are conserved over unclipped sub-steps; the stored temperature rate is the heat release over rho cp.", "quantifier": "all rate laws, cell contents, densities, time steps and numbers of sub-steps", "why_tests_cant": "Tests use the default single sub-step and in-range compositions.", "anchors": ["src/compute/chemistry/chem_*.cpp: nChemSubSteps loop, dQ, omega"]}
{"id": "C85", "title": "Pressure fall-off rates lie between their limits", "statement": "For every Lindemann reaction of the tabulated mechanisms the effective rate constant is the harmonic combination of the high-pressure constant and the low-pressure constant times third-body concentration, below both; for every Troe reaction the third-body concentration and the centring parameter are positive (so the logarithms are defined) and the constant is the Lindemann value times a factor between 1 and the centring parameter.", "quantifier": "all fall-off reactions, positive temperatures and densities, all compositions", "why_tests_cant": "The logarithms could fail at compositions or temperatures no test visits, e.g. with the Troe coefficient 1.98 of C2H3 decomposition.", "anchors": ["src/compute/chemistry/chem_*.cpp: Fcent, Pr, F_pdr, pmod"]}
{"id": "C86", "title": "Repeated exchanges fill edge and corner halos", "statement": "One exchange replaces every halo value behind a connected face by the value the neighbour held at the same place (the last face listed wins where several qualify) and changes nothing else; if the arrays hold a field of the connected grid wherever no connected face writes, then after k exchanges every position outside its block along at most k directions holds the field, so three exchanges fill all faces, edges and corners and a fourth changes nothing.", "quantifier": "all well-connected decompositions (any number of ranks and blocks, any legal orientations), halo depths, positions, data, numbers of exchanges; blocks at least as many cells across as there are halo layers", "why_tests_cant": "Edge and corner values depend on the topology around every block edge and on the order of faces; tests exchange a few two-block cases.", "anchors": ["src/peregrinepy/mpiComm/blockComm.py: communicate", "src/peregrinepy/grid/unifySolverGrid.py: unifySolverGrid"]}
{"id": "C87", "title": "Grid unification gives geometrically continued halo nodes", "statement": "Unification leaves interior nodes alone, gives every node behind a connected face the neighbour's coordinates carried by the face's periodic transformation (minus/plus the span along the axis on low/high faces, down/up rotation for rotational ones, unchanged for interior connections), and for a periodic box makes all halo nodes, edges and corners included, those of the periodically continued grid.", "quantifier": "all well-connected decompositions and periodic data; all node coordinates; all spans, axes and sets of periodic directions", "why_tests_cant": "Needs every grid, every set of periodic directions and every halo node including corners; blocks thinner than the halo behave differently.", "anchors": ["src/peregrinepy/grid/unifySolverGrid.py: unifySolverGrid", "src/peregrinepy/mpiComm/blockComm.py: communicate"]}
{"id": "C88", "title": "Boundary condition input reaches the faces", "statement": "Reading bcFams.yaml succeeds exactly when every face is described (no family only for interior, supersonic exit and plain adiabatic walls; otherwise the family exists, its type fits the face, and its values contain what the type needs); it then gives every face cell, halo cells included, the numbers (or profile / spline data of the nearest interior cell) of its family and changes nothing else; every face that needs target values gets them; the periodic-only pass followed by the full pass equals one full pass; the values end up in the halo cells the boundary condition fills.", "quantifier": "all input files, all blocks, faces and boundary types, all profile data, both passes", "why_tests_cant": "Validity and values depend on the combination of file content, boundary type, face and halo position; tests read a few files.", "anchors": ["src/peregrinepy/readers/readBcs.py: readBcs", "src/peregrinepy/bcs/prepInlets.py", "src/peregrinepy/bcs/prepExits.py", "src/peregrinepy/bcs/prepWalls.py", "src/peregrinepy/multiBlock/topologyFace.py: bcType, periodicAxis"]}
{"id": "C89", "title": "Trace recorder writes a faithful time history", "statement": "With tracing on, every listed point in an existing block is recorded by exactly one rank, from the interior cell the point names; its file is, over any number of runs and restarts, what it was before (or the header line if new) followed by one row per step whose number is a multiple of the trace interval, in order; header and rows have the same columns: time, p, u, v, w, T and all species but the last.", "quantifier": "all point lists, all distributions of blocks over ranks, all species lists, all histories of runs and steps", "why_tests_cant": "Restarts append to existing files, and block distribution and step numbers range over all histories; a test sees one run on one rank.", "anchors": ["src/peregrinepy/coproc/tracePointCoprocessor.py: trace", "src/peregrinepy/coproc/pgCoprocessor.py", "src/peregrinepy/runPeregrine.py"]}
{"id": "C90", "title": "Trace point generation", "statement": "A line of n points is equally spaced from the first to the last given point; a plane of n01 x n02 points is the regular grid of the parallelogram spanned by the three given points; every requested point inside some block yields one row with its tag, the first block containing it and the cell of that block whose centre is nearest; other points are left out.", "quantifier": "all end points, counts, blocks, cell centres and point lists", "why_tests_cant": "Spacing and nearest-cell choice must hold for every geometry and point list.", "anchors": ["utilities/generateTracePoints.py: createLine, createPlane, generateTracePoints"]}
{"id": "C91", "title": "The solution does not depend on the domain decomposition", "statement": "Take a case and any decomposition of it: each block cut into boxes, boxes distributed over ranks in any way, connections oriented in any legal way. Start both from the same primitives with the same grid and boundary conditions (no boundary condition on cut faces) and run the same integrator with the same time steps. Then at every time every cell of the decomposed case holds exactly the conserved and primitive variables the undivided case holds in that cell, and iteration count and time agree. In particular the distribution of blocks over ranks is irrelevant, and any two decompositions agree with each other.", "quantifier": "all topologies, splits, rank distributions, orientations, halo depths at least 1, integrators, sequences of time steps, initial states, boundary conditions and kernels reading no more cells than those of the code", "why_tests_cant": "ranges over all decompositions, run lengths and states; a test compares two decompositions of one case for a few steps", "anchors": ["src/peregrinepy/consistify.py", "src/peregrinepy/RHS.py", "src/peregrinepy/mpiComm/communicate.py", "src/peregrinepy/integrators/", "src/peregrinepy/bootstrapCase.py", "src/compute/timeIntegration/dualTime.cpp", "src/compute/subgrid/mixedScaleModel.cpp"]}
{"id": "C92", "title": "Local pseudo time step", "statement": "The local pseudo time step of dual time stepping is positive and finite in every proper cell, keeps the viscous number nu*dtau/width^2 at or below 0.1 and the convective number (|n.u|+c)*dtau/width at or below 0.5 in every direction that is more than one cell thick, scales with the cell size, and does not depend on the orientation of the coordinate frame.", "quantifier": "all cell geometries, velocities, sound speeds, viscosities, densities, and combinations of one-cell-thick directions", "why_tests_cant": "continuum of geometries and flow directions", "anchors": ["src/compute/timeIntegration/dualTime.cpp:localDtau"]}
{"id": "C93", "title": "Global conservation over blocks and ranks", "statement": "In any multi-block case with legal connections (any orientation, any distribution over ranks, periodic or not) mass, momentum, energy and species mass integrated over all blocks change only by what passes the faces that carry boundary conditions: what leaves a block through a connection enters its neighbour, for every flux scheme, blended or not, so in a closed domain the totals are the same after any number of steps of any explicit integrator.", "quantifier": "all multi-block topologies with legal connections, orientations and rank assignments, all grids, states, explicit integrators, sequences of time steps and flux schemes", "why_tests_cant": "topologies, grids and run lengths are unbounded; a test fixes one grid and one run", "anchors": ["src/peregrinepy/RHS.py:RHS", "src/peregrinepy/consistify.py:consistify", "src/peregrinepy/mpiComm/communicate.py:communicate", "src/compute/utils/applyFluxes.cpp:applyFlux,applyHybridFlux", "src/peregrinepy/grid/unifySolverGrid.py:unifySolverGrid"]}
{"id": "C94", "title": "Mechanism conversion writes the law of mass action", "statement": "For every mechanism handed over by Cantera that ct2pgChem.py converts, the generated C++ statements, read with the C++ expression grammar and executed on any cell (any temperature > 0, concentrations, Gibbs energies, any prior contents of the temporaries), leave in q[i] the net rate of progress of reaction i (modified Arrhenius, third body, Lindemann or Troe fall-off, equilibrium constant from Gibbs energies, concentration powers) and in dYdt[n] the molecular weight times the stoichiometric sum; reactions of other types are refused; the sources conserve mass and elements whenever the reactions do.", "quantifier": "all mechanisms (any number of species and reactions, any parameters), all cells, all prior values of temporaries", "why_tests_cant": "The generator is a compiler: each mechanism yields a different program, and its special cases (unit coefficients, sign of the first term, integer exponents, zero activation energy, missing terms) combine without bound; tests run a few mechanisms.", "anchors": ["utilities/ct2pgChem.py: intOrFloat, rateConstString, ct2pgChem"]}
{"id": "C95", "title": "Configuration files: numbers and round trip", "statement": "A configuration that was read and accepted, written to a file and read again, gives the same settings and the same validated choices; a number written in the file, in any notation Python accepts for a number, is used as that number.", "quantifier": "all configuration files (any keys, any values), all number notations", "why_tests_cant": "unboundedly many files and notations; tests use a few", "anchors": ["src/peregrinepy/readers/readConfigFile.py:readConfigFile", "src/peregrinepy/writers/writeConfigFile.py:writeConfigFile", "src/peregrinepy/files/configFile.py:configFile,validateConfig"]}
{"id": "C96", "title": "Species data are the user's, completed from the library", "statement": "The table of each species property has one entry per species of the user's file, in that order; each entry is the value the file gives or, if it gives none, the value of the library; data that neither has stop the set-up with an error; the file is looked for in the input directory, the working directory, the library and then as a path, in that order; how a number is written and which species comes first does not matter.", "quantifier": "all species files, libraries, property names, directory contents", "why_tests_cant": "species files are user input of unbounded size and shape", "anchors": ["src/peregrinepy/thermoTransport/thtrdat.py:thtrdat", "src/peregrinepy/thermoTransport/findUserSpData.py", "src/peregrinepy/thermoTransport/completeSpecies.py"]}
{"id": "C97", "title": "Boundary layer and channel grids", "statement": "The wall-normal coordinates made by boundaryLayerGrid.py start on the wall, increase strictly and end at the requested height (two half heights for a channel, yHeight times delta for a boundary layer); a channel is symmetric; the viscous sub-layer has the requested number of points; the steps grow from cell to cell by no more than the requested ratio; the buffer layer ends at 30 wall units (to the nearest point); the core is at least as fine as requested; the tool always ends.", "quantifier": "all input files: thickness, viscosity, Reynolds number, numbers of points, growth ratios, resolutions", "why_tests_cant": "continuum of inputs; the loops run an input-dependent number of steps", "anchors": ["utilities/boundaryLayerGrid.py:ptsWithGR,growToDy,__main__"]}
{"id": "C98", "title": "GridPro conversion", "statement": "gridPro2pg.py gives every face of every block the neighbour, orientation and boundary family that the GridPro connectivity and property files state (interior, wall and slip labels mapped to the corresponding types), puts every node of an ASCII or binary block file in its place times the unit, marks the two sides of a periodic pair Low and High so that the corresponding shift carries each face onto its partner, and writes only grids that pass verification.", "quantifier": "all meshes (any number of blocks, any comments), all property tables, family files, units and coordinates", "why_tests_cant": "text files of unbounded size and arbitrary labels; tests would use a few meshes", "anchors": ["utilities/gridPro2pg.py", "src/peregrinepy/grid/topologyFace.py:topologyFace.bcType", "utilities/verifyGrid.py:verify"]}
{"id": "C99", "title": "ICEM conversion", "statement": "icem2pg.py gives every external face of every block the label of its patch and the boundary type that the family file names for it, and every connected face the neighbour and the orientation that the topology file states, so that PEREGRINE attaches the same face of the neighbour from both sides; periodic connections are converted too; dimensions and coordinates arrive in their places, times the unit; only grids that pass verification are written.", "quantifier": "all meshes (blocks, orders of directions, orientations, patches), family files, units and coordinates", "why_tests_cant": "files of unbounded size; all signed permutations of the directions of both blocks", "anchors": ["utilities/icem2pg.py", "src/peregrinepy/multiBlock/topologyFace.py:topologyFace.bcType"]}
{"id": "C100", "title": "Kernels give one result whatever the thread schedule", "statement": "Every compute kernel (flux, gradient, boundary condition, equation of state, transport, chemistry, time stage, utility) run in parallel over its range of cells or faces finishes under every interleaving of its work items and leaves exactly the arrays that a sequential loop over the range, in any order, would leave. Every parallel reduction (CFL factors, NaN flag, dual-time residuals) gives the same value however work is split among accumulators and in whatever order they are joined.", "quantifier": "every parallel kernel in src/compute, every finite index range, every initial array contents, every work item body confined to the accesses of the kernel, every interleaving; every reduction plan", "why_tests_cant": "A test runs one thread count and one schedule; a data race shows only under some interleavings.", "anchors": ["src/compute/utils/applyFluxes.cpp:applyFlux", "src/compute/utils/cfl.cpp:CFLmax", "src/compute/utils/checkNan.cpp:checkNan", "src/compute/timeIntegration/dualTime.cpp:residual", "src/compute (all KOKKOS_LAMBDA)"]}
{"id": "C101", "title": "The residual printed by the dual-time integrator is a norm over the whole domain", "statement": "The number printed per variable in each pseudo-time iteration is the square root of the sum, over all interior cells of all blocks of all ranks, of the squared change of that variable in the iteration; it does not depend on how blocks are distributed over ranks and is zero exactly when nothing changed. The maximum norm computed next to it is the largest change over the domain.", "quantifier": "every number of ranks and blocks, every assignment of blocks to ranks, every cell values", "why_tests_cant": "It ranges over all decompositions and field values; with one rank the wrong reduction operator is invisible.", "anchors": ["src/compute/timeIntegration/dualTime.cpp:residual", "src/peregrinepy/integrators/dualTime.py:step"]}
{"id": "C102", "title": "Reduced ethylene mechanism: quasi-steady radicals", "statement": "In chem_C2H4_Air_Red22 the concentrations computed for the ten radicals that are not transported are nonnegative and make every radical's production by the 206 reactions equal to its consumption, they are the only such values, none of the divisors met on the way is zero, and therefore the sources of the transported species conserve carbon, hydrogen, oxygen and mass - for every mixture.", "quantifier": "all positive pressures and temperatures, all nonnegative compositions, all positive thermodynamic tables", "why_tests_cant": "The radicals come from about 150 hand-ordered elimination statements on ten coupled balances of 206 reactions; a wrong or missing term shows only where that reaction matters, and division by zero only at special mixtures.", "anchors": ["src/compute/chemistry/chem_C2H4_Air_Red22.cpp: DEN, A<i>_<k>, XQ, RF, RB, dYdt"]}
{"id": "C103", "title": "Reduced ethylene mechanism: rates and sources", "statement": "In chem_C2H4_Air_Red22 forward and backward rates of every reaction are one constant times the concentrations of what is consumed and that constant over the equilibrium constant times the concentrations of what is made (six directions, which would need two radicals, are switched off); the equilibrium constant carries the reference concentration to the power of the mole change, so a two-way reaction rests at its equilibrium; the sources of the 21 transported species follow the same stoichiometry, N2 has none, an absent species is not consumed, fall-off constants are the Lindemann combination (times Troe's factor between 1 and a positive centring parameter), and the concentrations used sum to p/(RT).", "quantifier": "all 206 reactions, all states", "why_tests_cant": "Stoichiometry is written out five times (equilibrium constant, concentrations, radical factors, balances, sources); agreement for all reactions and states cannot be sampled.", "anchors": ["src/compute/chemistry/chem_C2H4_Air_Red22.cpp: RF, RB, EQK, cs, CTB, PCOR, XQ, ROP, dYdt"]}
{"id": "C104", "title": "Kinetic-theory data of species and pairs", "statement": "When a case is started with kinetic-theory transport, the pair parameters (reduced mass, well depth, diameter, reduced dipole moment) are the textbook combination rules with the induction correction for polar/nonpolar pairs, the same for (i,j) and (j,i), and do not depend on the order in which the species are listed; the tabulated viscosity and binary diffusion are the first-order Chapman-Enskog values, the conductivity is the Mason-Monchick value for the species' heat capacity and geometry (15/4 mu R/M for a monatomic gas); all are positive; an unknown geometry word is rejected.", "quantifier": "all species lists, temperatures, collision integrals", "why_tests_cant": "The pair loop writes arrays while reading them, so a result may depend on list order; formulas must hold at all temperatures and for all species data.", "anchors": ["src/peregrinepy/thermoTransport/kineticTheoryPoly.py: kineticTheoryPoly"]}
{"id": "C105", "title": "Transport fits", "statement": "The polynomials the solver evaluates for viscosity, conductivity and binary diffusion are, for every species and every pair in either order, the unique weighted least-squares quartics in ln T of that species' or pair's own table; scaled back they reproduce the kinetic-theory value exactly whenever that is such a quartic, and then the mixture value of a cell is the mixture rule of the kinetic-theory values.", "quantifier": "all species lists, all data, all temperatures", "why_tests_cant": "Coefficient order, packed pair index and scaling are conventions between two languages; a slip for some species count or pair needs that pair to show.", "anchors": ["src/peregrinepy/thermoTransport/kineticTheoryPoly.py: muPoly, kappaPoly, DijPoly", "src/compute/transport/kineticTheory.cpp: mu_sp, kappa_sp, Dij"]}
{"id": "C106", "title": "What a viewer sees", "statement": "Every xmf file written with a grid, a restart or an array describes, for every block, that block and nothing else: its number, node counts and coordinates, the time of the data, and attributes (scalars by name, the velocity vector) that resolve to existing datasets of the right size holding the named field cell by cell; in a run, where the description is registered once and edited in place, this holds at every output whatever was written before, for every distribution of blocks over ranks, order of writing, and file layout.", "quantifier": "all block sets and sizes, halo and layout options, species lists, arrays with any number of components, rank distributions, write orders and histories of outputs", "why_tests_cant": "The description is text assembled by one class, edited by another and resolved by a third program; a stale path, swapped extent or misplaced block shows only for particular block numbers, layouts or second and later outputs.", "anchors": ["src/peregrinepy/writers/writeMetaData.py: restartMetaData, arbitraryMetaData", "src/peregrinepy/writers/writeRestart.py: writeRestart", "src/peregrinepy/writers/writeArbitraryArray.py: writeArbitraryArray", "src/peregrinepy/writers/parallelWriter.py: registerParallelMetaData, parallelWriteRestart, parallelWriteArbitraryArray", "src/peregrinepy/writers/writeGrid.py: writeGrid"]}
{"id": "C107", "title": "Builds with separate device memory give the same run", "statement": "On a build whose Kokkos views live in device memory, every file, log line and printed value of a run (set-up from files, every integrator, residual and CFL prints, restart, archive and extra array files, NaN logs, trace records, data handed to Catalyst), and every field, is exactly what a build with one shared memory produces from the same inputs: no kernel ever reads a view whose host array was changed later, and no output is made from a host array whose view was changed later.", "quantifier": "all functions computed by kernels and Python steps with the stated input and output arrays, all block sets, connections, boundary faces, configurations and integrators, restart iterations, numbers of steps and initial memory contents", "why_tests_cant": "The tests run where views and arrays are the same memory, so a missing or misplaced updateHostView or updateDeviceView cannot be seen; on a device it shows only for the variable, integrator, output and history that need it.", "anchors": ["src/peregrinepy/misc/createViewMirrorArray.py: createViewMirrorArray", "src/peregrinepy/multiBlock/solverBlock.py: updateDeviceView, updateHostView", "src/peregrinepy/mpiComm/communicate.py: communicate", "src/peregrinepy/bootstrapCase.py: bootstrapCase", "src/peregrinepy/integrators/strang.py: strang", "src/peregrinepy/writers/writeRestart.py: writeRestart", "runPeregrine.py: simulate"]}
{"id": "C108", "title": "A run killed at any moment can be resumed from its last complete restart", "statement": "If a run is killed at any moment, with its ranks at any points of their work, every scheduled restart of an iteration before the step that any rank has begun can be read back: any selection of blocks reads without error and gives that iteration's number, time and solution, and with dual time stepping the older level of the same iteration; nothing written since (later restarts, archives, extra arrays, the emergency restart of a NaN check) has touched it. The output of the ranks cannot deadlock.", "quantifier": "all numbers of ranks, distributions of blocks, solutions, output configurations (lumped or not, archives, extra arrays, dual time), frequencies, outcomes of NaN checks, interleavings of the ranks, crash points, previous disk contents and contents of half-written files", "why_tests_cant": "Crash points and interleavings of ranks are unbounded and no test kills a run; a restart damaged by a later write shows only when it is needed.", "anchors": ["runPeregrine.py: simulate", "src/peregrinepy/writers/parallelWriter.py: parallelWriteRestart", "src/peregrinepy/writers/writeDualTimeQnm1.py: writeDualTimeQnm1", "src/peregrinepy/readers/readRestart.py: readRestart", "src/peregrinepy/integrators/dualTime.py: initializeDualTime", "src/peregrinepy/mpiComm/mpiUtils.py: getDtMaxCFL, checkForNan"]}
{"id": "C109", "title": "Stopping and resuming does not change the result", "statement": "A run that is stopped after any step and started again from the restart it wrote, any number of times and each time with the blocks distributed over ranks differently, ends with exactly the conserved and primitive variables, iteration number and time that one uninterrupted run over the same time steps gives; with dual time stepping when the older level is restored from its file.", "quantifier": "all legal multi-block cases, kernel selections, integrators, step sizes, numbers and places of stops, distributions of blocks over ranks, and contents of the newly created solver's arrays", "why_tests_cant": "Stops, redistributions and histories are unbounded; a quantity missing from the restart (halo, stage storage, clock) shows only in some configurations, as a small difference.", "anchors": ["src/peregrinepy/bootstrapCase.py: bootstrapCase", "src/peregrinepy/readers/readRestart.py: readRestart", "src/peregrinepy/writers/parallelWriter.py: parallelWriteRestart", "src/peregrinepy/integrators/dualTime.py: initializeDualTime", "src/peregrinepy/consistify.py: consistify", "src/peregrinepy/multiBlock/solver.py: titme"]}
{"id": "C110", "title": "The choice of coordinate axes does not matter", "statement": "Rotating and translating a whole case - grid nodes, boundary velocities and mass fluxes, rotation axes of periodic faces, viscous sponge, initial velocities - and running it with the same time steps gives the same flow rotated and translated: in every cell the same pressure, temperature, composition, density and energy, and the rotated velocity and momentum; the run has the same number of steps and the same time. It holds for any rotation with the advective schemes rusanov, ausmPlusUp, hllc, KEEP, KEEPpe, KEPaEC, centralDifference and fourthOrderKEEP, single or blended. Violated in general by the MUSCL schemes (they limit the velocity components separately), by the alphaDamping diffusive flux which every viscous run uses, and by the CFL and pseudo time step formulas (products of components instead of projections); for quarter turns it holds with all of these schemes.", "quantifier": "every rotation and translation, every case (blocks, ranks, grid, boundary conditions of every kind, time dependent values), every gas model, explicit integrator, sequence of time steps and initial state", "why_tests_cant": "Tests run one grid in one orientation; frame dependence shows only when two differently oriented runs of the same case are compared, for all orientations.", "anchors": ["src/compute/advFlux/", "src/compute/diffFlux/alphaDampingFlux.cpp", "src/compute/diffFlux/diffusiveFlux.cpp", "src/compute/boundaryConditions/", "src/compute/thermo/", "src/compute/utils/dq2FD.cpp", "src/compute/utils/dq4FD.cpp", "src/compute/utils/viscousSponge.cpp", "src/compute/utils/cfl.cpp", "src/compute/timeIntegration/dualTime.cpp", "src/peregrinepy/grid/metrics.py", "src/peregrinepy/RHS.py", "src/peregrinepy/consistify.py"]}
{"id": "C111", "title": "A whole parallel run neither deadlocks nor mixes up messages", "statement": "From reading the configuration to the last iteration, including restart, archive and emergency files, every rank completes under every schedule, even if MPI never buffers; all ranks make the same collective calls in the same order whatever blocks they own; every message is received in the exchange, variable and iteration it was sent in. A rank that fails ends the job.", "quantifier": "every decomposition with reciprocal connections, every number of ranks, every integrator and configuration, every number of iterations, every outcome of the NaN checks, every schedule and every buffering behaviour of the MPI library, every restart number read by each rank", "why_tests_cant": "Deadlocks depend on timing, on message sizes and on the MPI library; a test runs a few ranks with small messages that are always buffered, and restart files that all belong to one iteration.", "anchors": ["runPeregrine.py:simulate", "src/peregrinepy/bootstrapCase.py:bootstrapCase", "src/peregrinepy/mpiComm/communicate.py:communicate", "src/peregrinepy/mpiComm/mpiUtils.py", "src/peregrinepy/writers/parallelWriter.py", "src/peregrinepy/readers/readRestart.py", "src/peregrinepy/integrators"]}
{"id": "C112", "title": "Interpolating a restart onto another grid", "statement": "Running the interpolation utility on a directory with a grid and a restart (lumped or not, plain or animated) and a directory with another grid writes, next to that grid and in its form, a restart that the solver's reader finds and that carries the iteration and time of the source. In every cell of every target block every variable is the chosen interpolant's value at that cell's centre, from source blocks that contain the block's cell centres, limited to the range of the source values, with the mass fractions of a cell scaled down together only if their sum exceeds one; an interpolant that reproduces its data reproduces the source at coinciding cell centres. No other file changes, the outcome does not depend on the order in which the operating system lists files, and if a target block lies outside the source grid the utility stops with an error and writes nothing.", "quantifier": "every source and target grid (numbers, sizes and shapes of blocks), every solution, number of species, interpolant, form of the files, directory listing order", "why_tests_cant": "a test uses one pair of grids and one listing order; the claim is about all grids, data and orders (and the utility as committed fails on all of them)", "anchors": ["utilities/interpolate.py", "src/peregrinepy/interpolation/blocksToBlock.py: blocksToBlock", "src/peregrinepy/interpolation/bounds.py: findBounds", "src/peregrinepy/multiBlock/restart.py: checkSpeciesSum", "src/peregrinepy/readers/readGrid.py", "src/peregrinepy/readers/readRestart.py", "src/peregrinepy/writers/writeRestart.py"]}
{"id": "C113", "title": "No kernel touches memory outside its arrays", "statement": "In a case that starts, every kernel launched during the run - equation of state, transport, boundary conditions, halo exchange, fluxes, gradients, subgrid models, chemistry, time integration, monitors - reads and writes only elements of arrays that were allocated, on every block with at least one cell in each direction.", "quantifier": "every configuration that starts, every block size, number of species, boundary type on each face, contents of the boundary file, connection and orientation of neighbours", "why_tests_cant": "Accesses outside a Kokkos view are not checked in release builds and usually read neighbouring memory without a visible effect; the combinations of scheme, halo depth, boundary type, mechanism and block size are too many to run, and block sizes are unbounded.", "anchors": ["src/peregrinepy/multiBlock/solverBlock.py", "src/peregrinepy/multiBlock/solverFace.py", "src/peregrinepy/multiBlock/__init__.py:howManyNG", "src/compute/utils/rangeMap.cpp", "src/compute/advFlux", "src/compute/diffFlux", "src/compute/boundaryConditions", "src/compute/chemistry", "src/compute/timeIntegration", "src/peregrinepy/readers/readBcs.py"]}
{"id": "C114", "title": "Reported size and load", "statement": "The number of cells printed at the start is the number of cells of the grid however its blocks are spread over the ranks, and the load efficiency is the average over the largest number of cells per rank in per cent, reported together with the first rank that has the most cells.", "quantifier": "every number of ranks, distribution of blocks, block sizes and order in which MPI combines the values", "why_tests_cant": "The counters have a fixed width, so the result is wrong only for grids too large for a test; the order of a reduction cannot be forced.", "anchors": ["src/peregrinepy/mpiComm/mpiUtils.py:getNumCells", "src/peregrinepy/mpiComm/mpiUtils.py:getLoadEfficiency"]}
{"id": "C115", "title": "One flux formula per convective scheme", "statement": "The flux that a convective scheme stores at a face is one fixed formula, the same in the three grid directions, of the states of the two cells beside the face (four for the wide schemes) and of the face's own area vector; every component is stored and no other.", "quantifier": "every scheme, every face of every block, all states of the cells and all species counts", "why_tests_cant": "The formulas are written out once per direction or called with per-direction arrays; an interchanged array or index of one direction shows only for states and grids that vary in that direction, and the states form a continuum.", "anchors": ["src/compute/advFlux/KEEP.cpp", "src/compute/advFlux/KEEPpe.cpp", "src/compute/advFlux/KEPaEC.cpp", "src/compute/advFlux/centralDifference.cpp", "src/compute/advFlux/rusanov.cpp", "src/compute/advFlux/hllc.cpp", "src/compute/advFlux/scalarDissipation.cpp", "src/compute/advFlux/fourthOrderKEEP.cpp", "src/compute/advFlux/muscl2rusanov.cpp", "src/compute/advFlux/muscl2hllc.cpp"]}
{"id": "C116", "title": "Stage kernels are the stages of the methods", "statement": "Each kernel that combines a stage of a time integrator (rk2, rk3, rk34, rk4, maccormack, the physical time derivative and pseudo-time stages of dual time) replaces the value at every interior index by the stage formula of that index's old values, changes nothing else, and does so whatever the order in which the indices are processed.", "quantifier": "every stage kernel, contents of all arrays, time step, set of interior indices and processing order", "why_tests_cant": "A stage kernel overwrites arrays it also reads, so its meaning depends on the order of the statements and of the iterations; orders of a parallel loop cannot be enumerated, and a wrong coefficient shows only in the order of accuracy.", "anchors": ["src/compute/timeIntegration/rk2Stages.cpp", "src/compute/timeIntegration/rk3Stages.cpp", "src/compute/timeIntegration/rk34Stages.cpp", "src/compute/timeIntegration/rk4Stages.cpp", "src/compute/timeIntegration/maccormackStages.cpp", "src/compute/timeIntegration/dualTime.cpp"]}
{"id": "C117", "title": "One diffusive flux formula", "statement": "The flux that a diffusive flux kernel stores at a face is one fixed formula, the same in the three grid directions, of the states, transport properties and stored gradients of the two cells beside the face and of the face's own area vector, normal and centre; the species loop stores every transported species, and no component beyond the block's equations is touched.", "quantifier": "both diffusive flux kernels, every face of every block, all states, gradients, grids and species counts", "why_tests_cant": "The kernel is called once per direction with nine arrays of the same type; interchanged arrays or a wrong offset show only for grids and states that vary in that direction, and the species loop carries two sums from species to species for any number of species.", "anchors": ["src/compute/diffFlux/diffusiveFlux.cpp", "src/compute/diffFlux/alphaDampingFlux.cpp"]}
{"id": "C118", "title": "Cell kernels do what they say on exactly their cells", "statement": "The kernels that add fluxes to the residual (plain, blended, dissipative), form gradients (second and fourth order), evaluate the shock sensors and scale the viscosity in a sponge give every cell of their range the value of one fixed formula of the values around it, change no other element and no other array, and give the same result in whatever order the cells are processed.", "quantifier": "each of these kernels, all block sizes and halo widths the formula needs, all array contents, every processing order", "why_tests_cant": "The three directions and the three components are written out by hand; a wrong index, sign or metric in one of them shows only for data varying in that direction, a wrong bound only at the border, and orders of a parallel loop cannot be enumerated.", "anchors": ["src/compute/utils/applyFluxes.cpp", "src/compute/utils/dq2FD.cpp", "src/compute/utils/dq4FD.cpp", "src/compute/switches/jameson.cpp", "src/compute/switches/vanAlbada.cpp", "src/compute/switches/vanLeer.cpp", "src/compute/utils/viscousSponge.cpp"]}
{"id": "C119", "title": "The calorically perfect gas kernel fills a cell as documented", "statement": "Evaluating the calorically perfect equation of state in a cell, from primitives or from conserved variables, leaves there one fixed function of what the cell held: species clipped, the last one the remainder, everything rescaled when the sum exceeds one, then density, momenta, energy, temperature, pressure, sound speed and species enthalpies of that mixture. Nothing depends on uninitialised scratch memory, and no other component is changed.", "quantifier": "all numbers of species from one, all species data, all cell contents including unphysical ones, all contents of the scratch array", "why_tests_cant": "The species loops run over a number of species fixed only at run time, with clipping and rescaling branches and a scratch array that is allocated but not initialised; tests see a few mixtures and whatever the memory held.", "anchors": ["src/compute/thermo/cpg.cpp", "src/compute/thtrdat_.hpp"]}
