{
 "C12": {
  "note": "Zero residual on every grid for rusanov, ausm, KEEP, KEEPpe, KEPaEC, fourth-order KEEP, MUSCL-Rusanov, central, hybrids and dissipation fluxes (C12_freestream*). HLLC and MUSCL-HLLC: mass, energy and species always, momentum for fluid at rest (C12_hllc_partial); for moving fluid the momentum residual of a uniform flow is not zero on a skewed grid (C12_hllc_violated): a defect of the code, see C26."
 },
 "C16": {
  "note": "Counters proved for every integrator and history; the strang integrator leaves the internal time one dt ahead (C16_strang_violated): a defect of the code."
 },
 "C17": {
  "note": "Order conditions, identification with the tableau, and exactness; C17_maccormack_time_violated records that maccormack is first order for time-dependent right-hand sides. C17_quadrature_partial therefore covers every integrator except maccormack."
 },
 "C63": {
  "note": "The claim is false of the code except for rk1: C63_boundary_time_violated."
 },
 "C23": {
  "note": "C23_prims_stale_violated: the primitive-to-conserved direction leaves the stored primitive mass fractions unclipped while everything derived uses the clipped values; the stored species then disagree with the derived state (finding)."
 },
 "C65": {
  "note": "C65_eos_partial proves the equation of state and largest root whenever the solver produces a root; C65_nan_violated exhibits admissible coefficients (discriminant exactly zero with Q <= 0) where it produces NaN, and C65_moles_violated shows mole fractions that do not sum to one when species sum above one."
 },
 "C66": {
  "note": "The cubic Newton iteration's denominator uses Z*dZdT where Z + T*dZdT is the derivative: it affects convergence only, so the fixed-point round trip still holds."
 },
 "C30": {
  "note": "Range, uniform and axis claims in full. Mirror symmetry is proved for the Jameson and van Leer sensors; the van Albada sensor depends on the index direction and can store 0/0, both only at pressure differences of order 1e-16 (C30_albada_violated)."
 },
 "C57": {
  "note": "Inside the ramp the multiplier is between 1 and the configured one; past the end of the ramp the code's multiplier reaches 1+mult (C57_violated)."
 },
 "C68": {
  "note": "The code combines normal components as sqrt((nx u)^2+(ny v)^2+(nz w)^2), which underestimates |n.u| by up to sqrt 3: C68_violated; C68_normal_speed_partial and, for the step the run really takes, C68_true_cfl_partial give the sqrt 3 bound (and the exact bound on axis-parallel directions); C68_true_cfl_violated: no smaller factor holds."
 },
 "C21": {
  "note": "C21_unresolved: if every direction is one cell thick the rate is zero and the driver's numpy error state raises."
 },
 "C50": {
  "note": "C50_bad_restart_violated: within one iteration the restart is written before the NaN check, so a NaN restart may be the last file on disk."
 },
 "C52": {
  "note": "C52_stage_time_violated: after a restart the internal stage time stays 0."
 },
 "C38": {
  "note": "Ownership is exclusive and complete for every list with distinct blocks; C38_violated: the count/maximum check accepts a list with duplicated and missing blocks."
 },
 "C40": {
  "note": "C40_limit_violated: the numProcs strategy ignores the cell limit, and fractional limits are exceeded."
 },
 "C53": {
  "note": "C53_getBlock_violated: lookup raises IndexError when the block number is at least the list length although the block is present (any parallel rank other than the first)."
 },
 "C54": {
  "note": "Normalisation and the verification criterion are proved; C54_report_violated: verifySpeciesSum returns nothing, so checkSpeciesSum always reports the species as bad."
 },
 "C69": {
  "note": "Fixed-point and converse proved when the right-hand side does not depend on time explicitly; C69_time_violated: the three pseudo stages use t, t+dt, t+dt/2 rather than t+dt, so with time-dependent forcing the implicit solution is not a fixed point."
 },
 "C64": {
  "note": "C64_refVel_jump_violated: the reference velocity of the preconditioner jumps at |U| = 1e-5 c (finding)."
 },
 "C32": {
  "note": "Mirror/no-slip/moving-wall halo values and zero average normal velocity proved for every wall kind and halo layer (C32_mirror, C32_no_slip, C32_moving), and zero mass flux for the KEEP family and for adiabatic walls with Rusanov. The headline 'walls pass no mass' is false in three configurations: C32_isothermal_violated (Rusanov dissipates density through an isothermal wall), C32_hllc_supersonic_violated, C32_fourth_order_violated."
 },
 "C33": {
  "note": "Inverse, length preserving and axis fixing for unit axes; the API accepts non-unit axes and gridFace.py:38 uses the raw axis (C33_nonunit_violated). Halo velocities proved rotated; velocity gradients are rotated row by row without mixing rows (C33_gradient_violated)."
 },
 "C34": {
  "note": "Layers, bounds and no-interior-write proved for halo depth 1 and 2 (all that howManyNG selects); C34_depth_limit shows the cumulative shift of the source layer would be wrong at depth 3."
 },
 "C72": {
  "note": "Proved for all inlets and the KEEP family of fluxes; C72_rusanov_violated: with an upwind flux the delivered mass differs from the prescribed one whenever inlet and interior densities differ (interior at rest)."
 },
 "C73": {
  "note": "Holds on low i faces only. C73_jk_faces_violated: the kernel always reads i-family normals (inlets.cpp:373-375); C73_high_face_violated: no sign flip on high faces, so the wrong Riemann invariant is kept."
 },
 "C74": {
  "note": "C74_superExit_violated: the supersonic exit sets temperature exactly zero when the second interior cell is at least twice as hot as the first; the equation of state then divides by zero."
 },
 "C75": {
  "note": "Proved for every history on all face cells but the outermost halo row and column, which the kernel never updates (C75_last_row_violated, inlets.cpp:109-110). Times are reals: the floor and truncation of the code agree exactly, which double rounding could break next to frame times."
 },
 "C61": {
  "note": "Proved for both schemes: zero on uniform fields (face and block level), zero mass flux, Fick's law with correction velocity for every species, Newton stress, Fourier conduction, enthalpy transport (undamped scheme: only while the mean mass fractions sum to at most one, C61_clamp_violated). Violated by the code: viscous work has the wrong sign (C61_work_violated, C61_galilean_violated), because the stored components txx.. already carry the minus sign and the energy flux negates again."
 },
 "C76": {
  "note": "Exactness on linear fields, reversal and damping of jumps proved. Two-point consistency proved when e or n is axis aligned; on other grids MAGeDOTn = sqrt(sum (e_i n_i)^2) is not |e.n| and the flux changes when the grid is turned (C76_frame_violated)."
 },
 "C77": {
  "note": "Proved for constantProps and the dense-gas model for all schedules. kineticTheory/kineticTheoryUnityLewis: proved on clean accumulators (partial); violated in the default build because mu_sp, kappa_sp, Dij are accumulated into per-worker scratch that is never reset between cells (C77_accumulation_violated), and for pure species other than the last because the mole-fraction loop breaks early (C77_pure_violated)."
 },
 "C78": {
  "status": "partial",
  "note": "All listed rules proved, except: kineticTheoryUnityLewis does not return the fitted viscosity (C78_unityLewis_violated: sqrt(T)*P instead of sqrt(T)*P^2). Chung dense gas: conductivity and mixture rules equal the published formula (C78_chung_kappa, C78_wilke); the viscosity misses the factor Fc on its second term (C78_chung_mu_partial exact relation, C78_chung_mu_violated)."
 },
 "C35": {
  "note": "C35_start_exact: validation+set-up succeed exactly on the independent predicate Startable. C35_solver: what is set up. C35_tables_partial: started cases read only allocated species tables iff dense-gas transport is used with cubic and chemistry not with cpg; neither is checked by the code, so the claim 'no late failure' is violated (C35_violated: unknown shockHandling, secondary flux without shock handler and ausmPlusUp pass validation and fail later in set-up; chung with tpg / chemistry with cpg start and read unallocated tables; the number of species of a mechanism is not checked)."
 },
 "C36": {
  "note": "Assignment to existing keys, rejection of new keys, new sections, configuration files: proved for every history of item assignments. The guard covers only __setitem__: update, setdefault, del and replacing a whole section bypass it (C36_violated)."
 },
 "C43": {
  "note": "C43_span_partial: the recorded span is the length of ONE block, which equals the domain length exactly when there is one block in that direction. C43_violated: with two blocks along a periodic direction the recorded span is half the domain length (the loop variable `lengths` shadows the argument in multiBlockCube), so shifting the high boundary does not land on the low one."
 },
 "C80": {
  "status": "partial",
  "note": "Coordinates, closure and connections proved for one block along the axis (C80_cylindrical_partial, C80_closed_partial, C80_connections). With more than one axial block the claim is violated: C80_axial_violated (ValueError, because `annulus` replaces the block's own start by the origin)."
 },
 "C45": {
  "note": "C45_roundtrip_partial: round trip into blocks of the stored shape (any selection of blocks, any halo depth, lumped or not, any species). C45_halo, C45_last_species: what else is set. C45_withHalo_violated: with stored halos the file cannot be read back into a block of its own size (reshape error). C45_missing: a block or variable absent from the file is silently read as zeros (finding)."
 },
 "C49": {
  "note": "C49_distinct_partial: restart, previous-step, archive and extra-variable files of one run never share a path for different iterations/blocks, provided the restart and archive directories differ and 'q' is not an extra variable. C49_collision_violated: without these conditions single-precision archives overwrite restarts (same directory) and the extra variable q overwrites the archive. C49_read_names, C49_xmf: reader names and xmf pointers agree with the written files."
 },
 "C59": {
  "status": "partial",
  "note": "C59_verify_iff_partial characterises acceptance for every grid with at least two nodes each way; C59_reciprocal proves that accepted attachments without a periodic shift (or with opposite translations) are reciprocal in face and orientation. Violated as worded: verifyGrid only compares the block number on the way back, never the neighbour's orientation or face (C59_reciprocity_violated), and it rejects the valid type stagnationSubsonicInlet (C59_stagnation_violated); it also accepts a wall type on a face that has a neighbour. Rotational periodicity is not covered by C59_reciprocal."
 },
 "C58": {
  "status": "partial",
  "note": "Proved for every reciprocal sector in which no block touches both periodic sides and all attached faces are interior or rotationally periodic, any number of copies, full ring or not (C58_ring_partial), with matching coordinates for a unit axis (C58_nodes_partial, C58_copy_rotated). Violated otherwise: the utility decides by block, not by face, so a sector one block wide gives non-reciprocal connectivity (C58_one_block_wide_violated); translation-periodic faces of copies become walls (C58_translation_lost_violated); the axis is not normalised (C58_axis_violated)."
 },
 "C44": {
  "note": "Soundness is for every grid and operation list on which the utility succeeds (it asserts its own result with the grid checker, modelled in C59). Success is proved for blocks without neighbours; for cuts that propagate, the path and the indices are characterised, but that the centroid search reconnects every split face is not proved. The number of cuts of the last axis is used for the chosen one (stale loop variable): proved harmless because all axes ask for the same number."
 },
 "C84": {
  "status": "partial",
  "note": "All parts proved except the last, which is false (C84_temperature_violated): hi[n] in the kernels is h MW/(Ru T), so dTdt (used for T during sub-steps and as omega(0) by the implicit 'strang' integrator) is short by the factor Ru T/MW_n in every term; C84_temperature_partial states exactly what is computed. chem_C2H4_Air_Red22 stores omega(0) = 0 instead, so the implicit integrator never changes the temperature with it."
 },
 "C81": {
  "note": "Tables extracted by tools/genchem.py (stops at unknown statements); formulas in Chem/Formulas.lean are specification. chem_C2H4_Air_Red22 is C102/C103."
 },
 "C26": {
  "note": "C26_consistent: every flux except HLLC. C26_hllc_partial: HLLC's mass, energy and species fluxes always, momentum when the velocity has no component tangential to the face or the flow is supersonic. In subsonic flow with tangential velocity the momentum flux is wrong (C26_hllc_violated), a defect of the code."
 },
 "C27": {
  "note": "C27_antisymmetric: rusanov, ausm, KEEP, KEEPpe, KEPaEC, central, fourth-order KEEP. The rest is false of the code and partial where it holds: hllc for colliding supersonic streams (C27_hllc_violated), MUSCL fluxes because pressure and sound speed reuse the limiter of another variable (C27_muscl_violated), scalarDissipation in the j and k directions because it reads cell (i+1,j,k) in every direction (C27_scalarDissipation_violated)."
 },
 "C29": {
  "note": "MUSCL-Rusanov in full. rusanov pairs each side's velocity with the OTHER side's sound speed, so the bound holds only up to the difference of the sound speeds (C29_rusanov_partial) and fails in general (C29_rusanov_violated)."
 },
 "C31": {
  "note": "C31_between_partial and C31_extremum_partial: proved for every variable reconstructed with its own limiter. Pressure (and sound speed) reuse the limiter of another variable; C31_pressure_violated gives a reconstructed pressure of -2 from pressures 1,1,1,4."
 },
 "C87": {
  "note": "Proved for blocks with at least as many cells across as halo layers (C87_face_partial for every topology, C87_box_partial for periodic boxes incl. edges and corners). False for thinner blocks, which the code accepts: a one-cell-thick periodic direction with two halo layers gets coincident halo planes (C87_thin_violated)."
 },
 "C88": {
  "note": "Acceptance, values, two-pass equality and the path into the halo cells are proved without restriction; completeness only for families that have values (C88_complete_partial): a family without bcVals, or a missing bcFams.yaml, is accepted for every type and leaves the face without target values (C88_needs_violated), a defect of the code."
 },
 "C89": {
  "note": "The recorder itself meets the property (history, columns, distribution), but a user cannot switch it on: pgCoprocessor imports the module name 'tracePointCoprocesor', which does not exist, so every run with tracing stops at start (C89_import_violated), a defect of the code. The number format %.8e is a parameter that contains no comma or line break; file names of different points are assumed different."
 },
 "C90": {
  "note": "Lines, nearest cells and rows proved without restriction; planes only for edges of length one (C90_plane_partial): createPlane divides the edge vectors by their length, so any other plane misses its corners (C90_plane_violated), a defect of the code. The bounds test ptsInBlkBounds is a parameter here (see C56)."
 },
 "C91": {
  "note": "Proved for all splits, rank distributions, orientations, halo depths, the eight integrators and any number of steps, as a simulation between the two multi-block systems; kernels are parameters limited to the cells the code reads (LocalKernels). Partial because the code does depend on the decomposition in two places, both proved: localDtau/invertDQ drop directions in which a block is one cell thick (C91_thin_violated), and mixedScaleModel reads edge halo cells, which one exchange does not fill (C91_edge_violated; with one halo layer it even reads index -1). scalarDissipation, which reads (i+1,j,k) in every direction, is outside LocalKernels too. EosFromQ is exact for cpg; tpg starts its Newton iteration from the old temperature, so there the claim holds up to the iteration's tolerance (C22)."
 },
 "C92": {
  "note": "Positivity, viscous limit, scaling and finiteness (unless the block is a single cell) proved. Violated: the convective number reaches sqrt(3)/2 instead of 1/2 because uI is the root of the sum of squares of n_i*u_i instead of |n.u| (C92_convective_violated, bound sqrt(3)/2 proved sharp); hence the step depends on the coordinate frame (C92_frame_violated); single-cell block gives infinity (C92_single_cell_violated)."
 },
 "C93": {
  "note": "Proved: what two connected blocks compute for their common face is the same number with opposite sign, for arbitrary multi-block topologies, orientations, rank distributions and grids, from the node coordinates unifySolverGrid makes (C93_grid_fits) through the metrics (C93_same_face), halo exchange, consistify and RHS (C93_balance) to whole runs of all explicit integrators (C93_run; C93_solver_partial/C93_case_partial with the actual flux kernels, diffusive fluxes and applyFluxes). Violated (C93_hybrid_violated, a complete two-block case whose mass grows although it is closed): with blended schemes the sensor components are exchanged in the neighbour's axis order, so at a connection between different axes the two blocks blend differently. Also outside the proved part: hllc/muscl schemes where index directions are opposite (not antisymmetric, C27), scalarDissipation (C27), dualTime (conserves only at convergence), Smagorinsky with warped cells (volume by one diagonal is not the same in another block's numbering), sponge with periodic connections, rotational periodicity."
 },
 "C94": {
  "note": "Proved for mechanisms whose rate laws are elementary, with positive pre-exponential factors, non-negative coefficients and efficiencies (C94_source_partial), and without the elementary assumption for conservation (C94_conserves) and refusal of other types (C94_refuses). Violated: reaction orders given in the mechanism file are silently ignored (C94_orders_violated); a negative pre-exponential factor ends up inside log() (C94_negative_factor_violated; NaN in floating point); three-parameter Troe reactions, for which Cantera hands over three coefficients, and reactions without net change make the tool fail with IndexError (C94_three_parameter_troe_violated, C94_no_net_change_violated). Text is modelled as C++ tokens with a recursive-descent reader as part of the specification; decimal printing of doubles is taken as exact; the fixed text around the reactions is that of the kernels modelled for C81-C85. The reference pressure is the 101325 Pa of the text; a mechanism file with another reference pressure is not looked at."
 },
 "C95": {
  "status": "partial",
  "note": "Round trip proved for every file that is accepted (C95_round_trip; the YAML library's dump/load pair is a parameter assumed inverse on the documents written). Numbers in plain notation (digits, optional fraction with a dot, exponent only with a dot and a signed exponent) are read as the number (C95_plain_number_partial, model of the YAML 1.1 number patterns of PyYAML). Violated for other notations (C95_notation_violated): 1e-3 is read as text; only dt is passed through float(), so the same notation for maxDt is accepted by the validation and the run stops with TypeError in the first step."
 },
 "C96": {
  "status": "partial",
  "note": "C96_values, C96_missing, C96_search, C96_names proved without restriction. Violated: a property name without value (YAML null) is taken as the user's value and becomes not-a-number although the library has it (C96_empty_value_violated); a number YAML reads as text (1e-5) is converted when another species comes first but makes the table a plain list, hence AttributeError, if its species is the first (C96_notation_violated)."
 },
 "C97": {
  "note": "Monotonicity, both ends, first step, symmetry (C97_wall_normal_partial), ratios inside and between buffer and log layer (C97_growth_partial) and termination (C97_ends) proved for all inputs that leave room for two core points. Violated: with less room the core is empty or a single point and the top is missing (C97_height_violated: channel of height 0.76 instead of 2); boundary layers use yHeight in metres although the template says units of delta (C97_units_violated, for every such input); the core spacing is always larger than dYplusCore because nCore counts points instead of cells (C97_resolution_violated, for every input; nx and nz have the same slip); ptsWithGR multiplies by stop instead of stop-start, so the buffer layer is stretched to end at 35 instead of 30 and its first step is 1.2 times too long (C97_buffer_violated). Reals instead of doubles; the x and z directions are those of multiBlockCube (C41-C43)."
 },
 "C98": {
  "note": "Faces proved for all meshes whose labels are clean, i.e. user names do not begin or end with one of the characters p, d, c, : (C98_faces_partial); coordinates for ASCII and binary files (C98_coordinates, C98_binary); the type chosen for a periodic face always belongs to the shift that carries its centre onto its partner's (C98_periodic), and a pair one span apart becomes Low and High (C98_pair). Violated: strip('pdc:') removes characters, not the prefix, so family dinlet silently becomes inlet (C98_strip_violated); every periodic face gets the first periodic family of the file (C98_periodic_family_violated, for every file); the result of verify is ignored, so a rejected grid is written (C98_unverified_violated). A property file without a 2D table makes the tool loop for ever (modelled as failure). int() and line splitting are parameters of the model; reals instead of doubles."
 },
 "C99": {
  "note": "C99_topology_partial: for every file of a mesh without periodic faces whose labels have one of the six types the tool knows, every face comes out right; C99_both_sides: the two sides of a connection agree with neighborNface and neighborOrientation. Reading of the format assumed (Records): each record lists its own directions in corresponding order, each with its own outward normal; that is the convention under which the sign rule of the code is right. C99_coordinates, C99_dimensions: tns3dmb.dat. Violated: every file with a periodic section (C99_periodic_violated: bcType 'b1' does not exist), every file with one of seven external types such as supersonicInlet (C99_types_violated: the tool's own list has six), unverified grids are written (C99_unverified_violated). Not modelled: the mbi format (it never sets ni, nj, nk, so writeGrid would get extent 0). Text splitting and number parsing are parameters."
 },
 "C100": {
  "note": "The footprint of each of the 107 kernels is a table generated from the C++ text (tools/mkfootprint.py) and is trusted as such; a work item is any sequence of reads and writes within the footprint. C100_schedule_independent, C100_terminates: every interleaving ends, in the memory of the sequential loop. C100_applyFlux gives one body access by access. C100_shared_write_differs shows the ownership condition is needed. Reductions: C100_cfl, C100_nan, C100_residual (the sum in exact arithmetic). Sequentially consistent memory (the kernels are race free); scratch handed out by UniqueToken is private to a running work item (stale contents: C77)."
 },
 "C101": {
  "status": "partial",
  "note": "The printed L2 residual is proved (C101_residual). The maximum norm is right on one rank (C101_max_on_rank) but reduced over ranks with MPI.MIN (dualTime.py:99), so over several ranks it is not the largest change (C101_max_violated): a defect, harmless today because the row is not printed."
 },
 "C102": {
  "status": "partial",
  "note": "Proved for every mixture in which the radical pool can empty, in particular whenever at least one of H2, O2, OH, H2O, CH3, CH4, CO, CO2 is present (C102_drains, C102_cell_partial). False for the remaining mixtures: in pure ethylene (or ethylene in nitrogen) nothing consumes CH, the first divisor is zero (C102_fuel_only_violated), every radical becomes not-a-number and the kernel silently sets all sources to zero although ethylene decomposition has a positive rate."
 },
 "C103": {
  "note": "EG[] is any positive table: the NASA polynomials behind it (lines 162-411) are not modelled. The six directions set to zero are exempt, so those six reactions are one-way."
 },
 "C104": {
  "status": "partial",
  "note": "Everything holds except two points. (1) The induction correction is lost when the polar species is listed after the nonpolar one: the loop reads r_dipole[kp,kp], which is still zero then (kineticTheoryPoly.py:121), so pair parameters depend on the order of the species list (C104_order_iff, C104_order_violated; C104_pairs_partial for the other pairs). (2) With constant-cp thermodynamics cp/R is formed as cp0*T/(Ru*MW) instead of cp0*MW/Ru (line 19), so the conductivity is right only at T = MW^2 (C104_cpg_violated; C104_conductivity_partial for NASA7). The splines of the collision integrals are parameters, assumed positive."
 },
 "C105": {
  "note": "np.polyfit is any function that minimises the weighted sum of squares it is documented to minimise (existence and uniqueness of the minimiser are proved). C105_mixture is on clean accumulators and away from pure species, where C77 holds."
 },
 "C106": {
  "note": "Violated for the time of arrays written outside a run: arbitraryMetaData hands nrt=0, tme=0.0 to its parent (C106_time_violated); everything else about that file is C106_array_partial. C106_coordinates: the coordinates are found when the grid was written with the same lumping and number of halo layers, in the directory gridPath names; C106_grid: the grid's own xmf file. Species must not be called Velocity."
 },
 "C107": {
  "note": "C107_run_partial covers whole runs with every integrator but strang, for which the claim is false (C107_strang_violated): its chemistry reads and writes the host arrays without updateHostView/updateDeviceView, so on a device build chemistry never reaches the solution. The serial writers writeRestart and writeArbitraryArray accept solver blocks but never update the host (C107_serial_violated); after a call of updateHostView they are right (C107_serial_partial). C107_kernel_writes and C107_kernel_reads check the assumed inputs and outputs of kernels against the listing of src/compute used for C100. Which of the extra arrays exist is assumed to match the configuration; Catalyst's first data set, replaced before it is used, is not modelled."
 },
 "C108": {
  "note": "Proved for numbered restart files (animateRestart: true) and iteration numbers below 99999999, the number of the emergency restart (C108_resume_partial, C108_numbered_partial, C108_all_done_partial); deadlock freedom without restriction (C108_progress). Without numbers the claim is false: the only restart is overwritten in place, so a kill during the second write leaves none (lumped, C108_overwrite_violated), a silent mixture of two iterations (one file per block, C108_mixed_violated), or solution and older level of different iterations (dual time, C108_levels_violated). C108_missing_level_violated: a numbered dual time restart killed between its two halves is accepted without its older level. A closed file is taken to be on disk (no fsync is modelled); the ranks' collective calls are the Allreduce of each step and NaN check and the opening and closing of lumped files."
 },
 "C109": {
  "note": "Proved for boundary conditions that are steady and compute their halo cells from interior cells, equations of state that convert conserved variables without memory (cpg; the tpg iteration starts from the old temperature), and states whose primitives determine the conserved variables at every stop (C109_restarts_partial). For the calorically perfect gas with any number of species the last two hypotheses reduce to: density, pressure, temperature positive, stored mass fractions not negative and summing to at most one (C109_cpg_partial). Numbers are reals and the files hold them exactly (the writers can be told to store single precision, C45). Without these hypotheses the claim is false: the stage time is not in the restart and boundary conditions are evaluated at time 0 on resuming (C109_inlet_time_violated); a dual time state with mass fractions summing to more than one comes back rescaled (C109_round_trip_violated)."
 },
 "C110": {
  "note": "C110_rigid_motion_partial: any rotation and translation, the eight schemes named, with diffusion off or the plain diffusive flux (bound, but multiBlock/__init__.py:122 always selects alphaDamping, so for configured viscous runs only quarter turns are covered); explicit integrators with given time steps. C110_quarter_turns: rotations permuting the axes, every advective scheme but scalarDissipation and both diffusive fluxes. Equations of state cpg, tpg and cubic, every boundary condition, sponge, pressure sensors, Smagorinsky, second and fourth order gradients are the models of C22-C25, C34, C78; transport and chemistry are arbitrary functions of the scalars. False otherwise: C110_muscl_violated, C110_alphaDamping_violated, C110_speed_violated (pseudo time step and CFL). Not covered: mixed scale subgrid model, dual time stepping, rounding."
 },
 "C111": {
  "note": "Progress, termination, equality of the collective calls and matching of messages are proved for the whole run (input, set-up, every integrator, files, NaN checks, emergency output) when no rank raises and all ranks start from the same iteration number. C111_exception_violated: a rank that raises leaves the others waiting for ever (unless the mpi4py runner aborts the job). C111_mixed_restart_violated: with one restart file per block, files of different iterations make ranks disagree on the collective calls and the run hangs. stepCalls_logged checks the sequence of communicating calls against the model of the integrators."
 },
 "C112": {
  "note": "The utility as committed can never succeed (C112_utility_violated): the arrays q of the target blocks are never allocated (interpolate.py never calls initRestartArrays on mbTo), so the first assignment in blocksToBlock raises TypeError, for every input with at least one target block. With that one call added (init = true in the model), C112_values_partial states the whole claim from the files read to reading the written restart back, for all grids, data and interpolants; C112_reads_partial shows that what the writers leave is what is read; C112_exact, C112_outside the reproduction of data and the refusal. Two further defects remain even then: an animated restart is found or not depending on the order of os.listdir (C112_listing_violated), and a lumped grid with an unlumped solution is refused (C112_mixed_lump_violated)."
 },
 "C113": {
  "note": "C113_exact_partial: for every configuration that starts and every block, all accesses of all launches are legal exactly when each face holds the data its boundary type reads, the chemistry mechanism has no more species than the case, and strang is used with chemistry. None of the three is checked at start: C113_mechanism_violated (a kernel of nm species on arrays of ns < nm components), C113_split_violated, C113_missing_file_violated (no bcFams.yaml, or C113_files: a family without bcVals). C113_files and C113_program_partial connect this to what readBcs leaves on the faces. C113_three_layers_violated: the halo loops are written for at most two layers. Footprints (index boxes, offsets, component ranges, extents) are transcribed from the kernels, and C113_source / C113_source_faces prove the same of the accesses that tools/mksource.py extracts from the text of the 65 cell and face kernels and the 34 boundary kernels (Safe/Table.lean); C113_source_complete: every function a run calls is in the table. Kernel-private scratch arrays, the species tables and the metrics set-up are not included."
 },
 "C114": {
  "note": "C114_total_partial: the count is right exactly for grids of fewer than 2^31 cells (32-bit counters), for every reduction order; C114_total_violated: negative from 2^31 to 2^32 - 1. C114_load_partial under the same bound per rank; C114_load_violated: a rank of 2^31 cells beside a small one is reported as the slowest with a negative efficiency. The mean is exact instead of rounded."
 },
 "C115": {
  "note": "About definitions that tools/mktext.py generates from the kernel text statement by statement (Text/Flux.lean): each loop leaves the formula of Flux/Model.lean, in the three directions, for all block contents. Complete for KEEP, KEEPpe, KEPaEC, centralDifference, rusanov, hllc, fourthOrderKEEP. _partial for the MUSCL schemes: where neighbouring values differ (the limiter divides by their difference; IEEE division by zero is in Flux/Model but not in the translation). scalarDissipation: C115_scalarDissipation_violated, the j and k loops read the cell (i+1,j,k). Doubles are reals."
 },
 "C116": {
  "note": "About iterations that tools/mktext2.py generates from the kernel text (Text/Stage.lean); the translation fails on an access outside the own index or a range other than the interior. Every sequential order of the iterations; real parallel schedules are C100. The stages of Time/Model.lean, on which the claims about the integrators rest, are thereby tied to the text. dtau, which has no component index in the code, is read through the same index."
 },
 "C117": {
  "note": "About definitions that tools/mktext.py generates from the kernel text (Text/Diff.lean); a species loop becomes a fold over its carried values. Each loop leaves the flux of Diff/Model.lean, on which the claims about diffusion rest, in the three directions, for all block contents and any number of species. Doubles are reals (0.5 exact, division by zero 0 on both sides)."
 },
 "C118": {
  "note": "About ranges and iterations that tools/mktext3.py generates from the kernel text (Text/Cell.lean); the translation fails on a store at another index than the own. The formulas are the kernels of FV/Model, Mesh/Model and Sensor/Model, on which the claims about conservation, gradients and sensors rest. Sensors: where the division is defined (Sensor.phi gives a value); a NaN or infinity is not described. Sequential orders; real parallel schedules are C100. Doubles are reals."
 },
 "C119": {
  "note": "About one iteration of each of the two loops of cpg.cpp, which tools/mktext4.py generates from the text (Text/Thermo.lean); the translation fails on a statement it does not know. The formulas are cpgPrims and cpgCons of Thermo/Model, on which C22-C24, C71 and the other gas claims rest; any contents of the arrays and of the local array, physical or not. At least one species. Not covered: the cell range chosen per face (range.hpp), the tpg and cubic kernels. Doubles are reals, and x/0 = 0."
 }
}
