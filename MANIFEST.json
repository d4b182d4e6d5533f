{
 "claims": [
  {
   "property": "C01",
   "status": "proved",
   "theorems": [
    "PG.Topo.C01_neighborOrientation_inverse",
    "PG.Topo.C01_neighborOrientation_involutive",
    "PG.Topo.C01_neighborNface"
   ],
   "note": ""
  },
  {
   "property": "C02",
   "status": "proved",
   "theorems": [
    "PG.Halo.C02_cell_exchange",
    "PG.Halo.C02_source_interior_iff"
   ],
   "note": ""
  },
  {
   "property": "C03",
   "status": "proved",
   "theorems": [
    "PG.Halo.C03_node_exchange"
   ],
   "note": ""
  },
  {
   "property": "C04",
   "status": "proved",
   "theorems": [
    "PG.Halo.C04_first_layer_exchange"
   ],
   "note": ""
  },
  {
   "property": "C05",
   "status": "proved",
   "theorems": [
    "PG.Halo.C05_only_halos_change",
    "PG.Halo.C05_interior_unchanged"
   ],
   "note": ""
  },
  {
   "property": "C06",
   "status": "proved",
   "theorems": [
    "PG.Halo.C06_tag_injective",
    "PG.Halo.C06_receive_matched"
   ],
   "note": ""
  },
  {
   "property": "C07",
   "status": "proved",
   "theorems": [
    "PG.Comm.C07_no_deadlock",
    "PG.Comm.C07_terminates",
    "PG.Comm.C07_stuck_is_finished",
    "PG.Comm.C07_lockstep"
   ],
   "note": ""
  },
  {
   "property": "C08",
   "status": "proved",
   "theorems": [
    "PG.Halo.C08_buffer_shapes_match"
   ],
   "note": ""
  },
  {
   "property": "C09",
   "status": "proved",
   "theorems": [
    "PG.FV.C09_conservation",
    "PG.FV.C09_halo_untouched"
   ],
   "note": ""
  },
  {
   "property": "C10",
   "status": "proved",
   "theorems": [
    "PG.FV.C10_hybrid_is_blend",
    "PG.FV.C10_hybrid_conservation",
    "PG.FV.C10_switch_extremes",
    "PG.FV.C10_dissipation_conservation",
    "PG.FV.C10_weights_unit"
   ],
   "note": ""
  },
  {
   "property": "C11",
   "status": "proved",
   "theorems": [
    "PG.Mesh.C11_closed_cell",
    "PG.Mesh.C11_area_is_quad",
    "PG.Mesh.C11_shared_face"
   ],
   "note": ""
  },
  {
   "property": "C12",
   "status": "partial",
   "theorems": [
    "PG.Flux.C12_freestream",
    "PG.Flux.C12_freestream_KEPaEC",
    "PG.Flux.C12_freestream_hybrid",
    "PG.Flux.C12_freestream_dissipation",
    "PG.Flux.C12_hllc_partial",
    "PG.Flux.C12_hllc_violated"
   ],
   "note": "Zero residual on every grid for rusanov, ausm, KEEP, KEEPpe, KEPaEC, fourth-order KEEP, MUSCL-Rusanov, central, hybrids and dissipation fluxes (C12_freestream*). HLLC and MUSCL-HLLC: mass, energy and species always, momentum for fluid at rest (C12_hllc_partial); for moving fluid the momentum residual of a uniform flow is not zero on a skewed grid (C12_hllc_violated): a defect of the code, see C26."
  },
  {
   "property": "C13",
   "status": "proved",
   "theorems": [
    "PG.Mesh.C13_area_times_normal",
    "PG.Mesh.C13_unit_normal",
    "PG.Mesh.C13_normal_le_one",
    "PG.Mesh.C13_volume_is_hex_volume",
    "PG.Mesh.C13_parallelepiped"
   ],
   "note": ""
  },
  {
   "property": "C14",
   "status": "proved",
   "theorems": [
    "PG.Mesh.C14_metrics_dual",
    "PG.Mesh.C14_affine_inverse"
   ],
   "note": ""
  },
  {
   "property": "C15",
   "status": "proved",
   "theorems": [
    "PG.HaloGen.C15_affine",
    "PG.HaloGen.C15_nodes_kept",
    "PG.HaloGen.C15_mirror"
   ],
   "note": ""
  },
  {
   "property": "C16",
   "status": "partial",
   "theorems": [
    "PG.Time.C16_counters_partial",
    "PG.Time.C16_strang_violated"
   ],
   "note": "Counters proved for every integrator and history; the strang integrator leaves the internal time one dt ahead (C16_strang_violated): a defect of the code."
  },
  {
   "property": "C17",
   "status": "partial",
   "theorems": [
    "PG.Time.C17_tableau_orders",
    "PG.Time.C17_is_runge_kutta",
    "PG.Time.C17_linear",
    "PG.Time.C17_quadrature_partial",
    "PG.Time.C17_maccormack_time_violated"
   ],
   "note": "Order conditions, identification with the tableau, and exactness; C17_maccormack_time_violated records that maccormack is first order for time-dependent right-hand sides. C17_quadrature_partial therefore covers every integrator except maccormack."
  },
  {
   "property": "C18",
   "status": "proved",
   "theorems": [
    "PG.Time.C18_ssp"
   ],
   "note": ""
  },
  {
   "property": "C19",
   "status": "proved",
   "theorems": [
    "PG.Time.C19_steady"
   ],
   "note": ""
  },
  {
   "property": "C20",
   "status": "proved",
   "theorems": [
    "PG.Time.C20_history",
    "PG.Time.C20_restart",
    "PG.Time.C20_fallback"
   ],
   "note": ""
  },
  {
   "property": "C21",
   "status": "proved",
   "theorems": [
    "PG.Run.C21_variable",
    "PG.Run.C21_fixed",
    "PG.Run.C21_distribution",
    "PG.Run.C21_blocks_moved",
    "PG.Run.C21_unresolved"
   ],
   "note": "C21_unresolved: if every direction is one cell thick the rate is zero and the driver's numpy error state raises."
  },
  {
   "property": "C22",
   "status": "proved",
   "theorems": [
    "PG.Thermo.C22_prims_cons_prims",
    "PG.Thermo.C22_cons_prims_cons",
    "PG.Thermo.C22_cleaned"
   ],
   "note": ""
  },
  {
   "property": "C23",
   "status": "proved",
   "theorems": [
    "PG.Thermo.C23_prims",
    "PG.Thermo.C23_cons",
    "PG.Thermo.C23_prims_stale_violated"
   ],
   "note": "C23_prims_stale_violated: the primitive-to-conserved direction leaves the stored primitive mass fractions unclipped while everything derived uses the clipped values; the stored species then disagree with the derived state (finding)."
  },
  {
   "property": "C24",
   "status": "proved",
   "theorems": [
    "PG.Thermo.C24_prims",
    "PG.Thermo.C24_cons"
   ],
   "note": ""
  },
  {
   "property": "C25",
   "status": "proved",
   "theorems": [
    "PG.Thermo.C25_search",
    "PG.Thermo.C25_roundtrip",
    "PG.Thermo.C25_newton_derivative",
    "PG.Thermo.C25_accuracy"
   ],
   "note": ""
  },
  {
   "property": "C26",
   "status": "partial",
   "theorems": [
    "PG.Flux.C26_consistent",
    "PG.Flux.C26_hllc_partial",
    "PG.Flux.C26_hllc_violated",
    "PG.Flux.C26_scalarDissipation_uniform"
   ],
   "note": "C26_consistent: every flux except HLLC. C26_hllc_partial: HLLC's mass, energy and species fluxes always, momentum when the velocity has no component tangential to the face or the flow is supersonic. In subsonic flow with tangential velocity the momentum flux is wrong (C26_hllc_violated), a defect of the code."
  },
  {
   "property": "C27",
   "status": "partial",
   "theorems": [
    "PG.Flux.C27_antisymmetric",
    "PG.Flux.C27_hllc_partial",
    "PG.Flux.C27_hllc_violated",
    "PG.Flux.C27_muscl_violated",
    "PG.Flux.C27_scalarDissipation_partial",
    "PG.Flux.C27_scalarDissipation_violated"
   ],
   "note": "C27_antisymmetric: rusanov, ausm, KEEP, KEEPpe, KEPaEC, central, fourth-order KEEP. The rest is false of the code and partial where it holds: hllc for colliding supersonic streams (C27_hllc_violated), MUSCL fluxes because pressure and sound speed reuse the limiter of another variable (C27_muscl_violated), scalarDissipation in the j and k directions because it reads cell (i+1,j,k) in every direction (C27_scalarDissipation_violated)."
  },
  {
   "property": "C28",
   "status": "proved",
   "theorems": [
    "PG.Flux.C28_supersonic_right",
    "PG.Flux.C28_supersonic_left",
    "PG.Flux.C28_contact",
    "PG.Flux.C28_ausm_supersonic_right",
    "PG.Flux.C28_ausm_supersonic_left"
   ],
   "note": ""
  },
  {
   "property": "C29",
   "status": "partial",
   "theorems": [
    "PG.Flux.C29_muscl_speed",
    "PG.Flux.C29_rusanov_partial",
    "PG.Flux.C29_rusanov_violated"
   ],
   "note": "MUSCL-Rusanov in full. rusanov pairs each side's velocity with the OTHER side's sound speed, so the bound holds only up to the difference of the sound speeds (C29_rusanov_partial) and fails in general (C29_rusanov_violated)."
  },
  {
   "property": "C30",
   "status": "partial",
   "theorems": [
    "PG.Sensor.C30_range",
    "PG.Sensor.C30_uniform",
    "PG.Sensor.C30_axes",
    "PG.Sensor.C30_mirror_partial",
    "PG.Sensor.C30_albada_violated"
   ],
   "note": "Range, uniform and axis claims in full. Mirror symmetry is proved for the Jameson and van Leer sensors; the van Albada sensor depends on the index direction and can store 0/0, both only at pressure differences of order 1e-16 (C30_albada_violated)."
  },
  {
   "property": "C31",
   "status": "partial",
   "theorems": [
    "PG.Flux.C31_between_partial",
    "PG.Flux.C31_extremum_partial",
    "PG.Flux.C31_second_order",
    "PG.Flux.C31_pressure_violated"
   ],
   "note": "C31_between_partial and C31_extremum_partial: proved for every variable reconstructed with its own limiter. Pressure (and sound speed) reuse the limiter of another variable; C31_pressure_violated gives a reconstructed pressure of -2 from pressures 1,1,1,4."
  },
  {
   "property": "C32",
   "status": "partial",
   "theorems": [
    "PG.BC.C32_mirror",
    "PG.BC.C32_no_slip",
    "PG.BC.C32_moving",
    "PG.BC.C32_slip_pre",
    "PG.BC.C32_wall_gradients",
    "PG.BC.C32_no_mass_KEEP_partial",
    "PG.BC.C32_no_mass_adiabatic_partial",
    "PG.BC.C32_isothermal_violated",
    "PG.BC.C32_hllc_supersonic_violated",
    "PG.BC.C32_fourth_order_violated"
   ],
   "note": "Mirror/no-slip/moving-wall halo values and zero average normal velocity proved for every wall kind and halo layer (C32_mirror, C32_no_slip, C32_moving), and zero mass flux for the KEEP family and for adiabatic walls with Rusanov. The headline 'walls pass no mass' is false in three configurations: C32_isothermal_violated (Rusanov dissipates density through an isothermal wall), C32_hllc_supersonic_violated, C32_fourth_order_violated."
  },
  {
   "property": "C33",
   "status": "partial",
   "theorems": [
    "PG.BC.C33_rotation_partial",
    "PG.BC.C33_nonunit_violated",
    "PG.BC.C33_halo_partial",
    "PG.BC.C33_scalar_gradient_partial",
    "PG.BC.C33_gradient_violated"
   ],
   "note": "Inverse, length preserving and axis fixing for unit axes; the API accepts non-unit axes and gridFace.py:38 uses the raw axis (C33_nonunit_violated). Halo velocities proved rotated; velocity gradients are rotated row by row without mixing rows (C33_gradient_violated)."
  },
  {
   "property": "C34",
   "status": "proved",
   "theorems": [
    "PG.BC.C34_euler",
    "PG.BC.C34_periodic",
    "PG.BC.C34_massFlux",
    "PG.BC.C34_pre",
    "PG.BC.C34_post",
    "PG.BC.C34_interior_untouched",
    "PG.BC.C34_in_bounds",
    "PG.BC.C34_depth_limit"
   ],
   "note": "Layers, bounds and no-interior-write proved for halo depth 1 and 2 (all that howManyNG selects); C34_depth_limit shows the cumulative shift of the source layer would be wrong at depth 3."
  },
  {
   "property": "C35",
   "status": "partial",
   "theorems": [
    "PG.Config.C35_start_exact",
    "PG.Config.C35_solver",
    "PG.Config.C35_tables_partial",
    "PG.Config.C35_violated",
    "PG.Config.C35_switch_values",
    "PG.Config.C35_integrator"
   ],
   "note": "C35_start_exact: validation+set-up succeed exactly on the independent predicate Startable. C35_solver: what is set up. C35_tables_partial: started cases read only allocated species tables iff dense-gas transport is used with cubic and chemistry not with cpg; neither is checked by the code, so the claim 'no late failure' is violated (C35_violated: unknown shockHandling, secondary flux without shock handler and ausmPlusUp pass validation and fail later in set-up; chung with tpg / chemistry with cpg start and read unallocated tables; the number of species of a mechanism is not checked)."
  },
  {
   "property": "C36",
   "status": "partial",
   "theorems": [
    "PG.Config.C36_assign",
    "PG.Config.C36_new_section",
    "PG.Config.C36_history_partial",
    "PG.Config.C36_read_file",
    "PG.Config.C36_violated",
    "PG.Config.C36_set_up_can_read"
   ],
   "note": "Assignment to existing keys, rejection of new keys, new sections, configuration files: proved for every history of item assignments. The guard covers only __setitem__: update, setdefault, del and replacing a whole section bypass it (C36_violated)."
  },
  {
   "property": "C37",
   "status": "proved",
   "theorems": [
    "PG.Config.C37_layers",
    "PG.Config.C37_unknown",
    "PG.Config.C37_fluxes",
    "PG.Config.C37_subgrid",
    "PG.Config.C37_one_layer_too_few"
   ],
   "note": ""
  },
  {
   "property": "C38",
   "status": "partial",
   "theorems": [
    "PG.Setup.C38_commRank",
    "PG.Setup.C38_ownership_partial",
    "PG.Setup.C38_violated",
    "PG.Setup.C38_balanced",
    "PG.Setup.C38_default"
   ],
   "note": "Ownership is exclusive and complete for every list with distinct blocks; C38_violated: the count/maximum check accepts a list with duplicated and missing blocks."
  },
  {
   "property": "C39",
   "status": "proved",
   "theorems": [
    "PG.Setup.C39_roundtrip",
    "PG.Setup.C39_comment"
   ],
   "note": ""
  },
  {
   "property": "C40",
   "status": "partial",
   "theorems": [
    "PG.Setup.C40_selfcheck",
    "PG.Setup.C40_partition",
    "PG.Setup.C40_limit_partial",
    "PG.Setup.C40_limit_violated",
    "PG.Setup.C40_load",
    "PG.Setup.C40_numProcs",
    "PG.Setup.C40_numProcs_least"
   ],
   "note": "C40_limit_violated: the numProcs strategy ignores the cell limit, and fractional limits are exceeded."
  },
  {
   "property": "C41",
   "status": "proved",
   "theorems": [
    "PG.Grid.C41_reciprocal"
   ],
   "note": ""
  },
  {
   "property": "C42",
   "status": "proved",
   "theorems": [
    "PG.Grid.C42_numbering",
    "PG.Grid.C42_tiling",
    "PG.Grid.C42_partition"
   ],
   "note": ""
  },
  {
   "property": "C43",
   "status": "partial",
   "theorems": [
    "PG.Grid.C43_span_partial",
    "PG.Grid.C43_violated"
   ],
   "note": "C43_span_partial: the recorded span is the length of ONE block, which equals the domain length exactly when there is one block in that direction. C43_violated: with two blocks along a periodic direction the recorded span is half the domain length (the loop variable `lengths` shadows the argument in multiBlockCube), so shifting the high boundary does not land on the low one."
  },
  {
   "property": "C44",
   "status": "proved",
   "theorems": [
    "PG.Util.C44_box",
    "PG.Util.C44_cells_patches_valid",
    "PG.Util.C44_path",
    "PG.Util.C44_cuts_align",
    "PG.Util.C44_path_terminates",
    "PG.Util.C44_indices",
    "PG.Util.C44_size",
    "PG.Util.C44_size_terminates"
   ],
   "note": "Soundness is for every grid and operation list on which the utility succeeds (it asserts its own result with the grid checker, modelled in C59). Success is proved for blocks without neighbours; for cuts that propagate, the path and the indices are characterised, but that the centroid search reconnects every split face is not proved. The number of cuts of the last axis is used for the chosen one (stale loop variable): proved harmless because all axes ask for the same number."
  },
  {
   "property": "C45",
   "status": "partial",
   "theorems": [
    "PG.IO.C45_roundtrip_partial",
    "PG.IO.C45_halo",
    "PG.IO.C45_last_species",
    "PG.IO.C45_missing",
    "PG.IO.C45_withHalo_violated"
   ],
   "note": "C45_roundtrip_partial: round trip into blocks of the stored shape (any selection of blocks, any halo depth, lumped or not, any species). C45_halo, C45_last_species: what else is set. C45_withHalo_violated: with stored halos the file cannot be read back into a block of its own size (reshape error). C45_missing: a block or variable absent from the file is silently read as zeros (finding)."
  },
  {
   "property": "C46",
   "status": "proved",
   "theorems": [
    "PG.IO.C46_roundtrip"
   ],
   "note": ""
  },
  {
   "property": "C47",
   "status": "proved",
   "theorems": [
    "PG.IO.Conn.C47_roundtrip",
    "PG.IO.Conn.C47_valid",
    "PG.IO.Conn.C47_unquoted_refused"
   ],
   "note": ""
  },
  {
   "property": "C48",
   "status": "proved",
   "theorems": [
    "PG.IO.C48_table",
    "PG.IO.C48_parallel_file"
   ],
   "note": ""
  },
  {
   "property": "C49",
   "status": "partial",
   "theorems": [
    "PG.IO.C49_distinct_partial",
    "PG.IO.C49_collision_violated",
    "PG.IO.C49_read_names",
    "PG.IO.C49_xmf"
   ],
   "note": "C49_distinct_partial: restart, previous-step, archive and extra-variable files of one run never share a path for different iterations/blocks, provided the restart and archive directories differ and 'q' is not an extra variable. C49_collision_violated: without these conditions single-precision archives overwrite restarts (same directory) and the extra variable q overwrites the archive. C49_read_names, C49_xmf: reader names and xmf pointers agree with the written files."
  },
  {
   "property": "C50",
   "status": "proved",
   "theorems": [
    "PG.Run.C50_steps",
    "PG.Run.C50_schedule",
    "PG.Run.C50_abort",
    "PG.Run.C50_nothing_after",
    "PG.Run.C50_bad_restart_violated"
   ],
   "note": "C50_bad_restart_violated: within one iteration the restart is written before the NaN check, so a NaN restart may be the last file on disk."
  },
  {
   "property": "C51",
   "status": "proved",
   "theorems": [
    "PG.Run.C51_check",
    "PG.Run.C51_no_wrap"
   ],
   "note": ""
  },
  {
   "property": "C52",
   "status": "proved",
   "theorems": [
    "PG.Run.C52_agree",
    "PG.Run.C52_read_back",
    "PG.Run.C52_stage_time_violated"
   ],
   "note": "C52_stage_time_violated: after a restart the internal stage time stays 0."
  },
  {
   "property": "C53",
   "status": "partial",
   "theorems": [
    "PG.Setup.C53_getBlock_partial",
    "PG.Setup.C53_getBlock_complete",
    "PG.Setup.C53_getBlock_violated",
    "PG.Setup.C53_append",
    "PG.Setup.C53_append_history",
    "PG.Setup.C53_append_numbering"
   ],
   "note": "C53_getBlock_violated: lookup raises IndexError when the block number is at least the list length although the block is present (any parallel rank other than the first)."
  },
  {
   "property": "C54",
   "status": "partial",
   "theorems": [
    "PG.Setup.C54_verify_partial",
    "PG.Setup.C54_normalize",
    "PG.Setup.C54_report_violated"
   ],
   "note": "Normalisation and the verification criterion are proved; C54_report_violated: verifySpeciesSum returns nothing, so checkSpeciesSum always reports the species as bad."
  },
  {
   "property": "C55",
   "status": "proved",
   "theorems": [
    "PG.Interp.C55_no_new_extrema",
    "PG.Interp.C55_uniform"
   ],
   "note": ""
  },
  {
   "property": "C56",
   "status": "proved",
   "theorems": [
    "PG.Interp.C56_verbose",
    "PG.Interp.C56_normal",
    "PG.Interp.C56_empty",
    "PG.Interp.C56_hull_parallelepiped",
    "PG.Interp.C56_hull_corners"
   ],
   "note": ""
  },
  {
   "property": "C57",
   "status": "partial",
   "theorems": [
    "PG.Sensor.C57_sponge_partial",
    "PG.Sensor.C57_violated",
    "PG.Sensor.C57_viscosity"
   ],
   "note": "Inside the ramp the multiplier is between 1 and the configured one; past the end of the ramp the code's multiplier reaches 1+mult (C57_violated)."
  },
  {
   "property": "C58",
   "status": "partial",
   "theorems": [
    "PG.Util.C58_ring_partial",
    "PG.Util.C58_copy_rotated",
    "PG.Util.C58_nodes_partial",
    "PG.Util.C58_one_block_wide_violated",
    "PG.Util.C58_translation_lost_violated",
    "PG.Util.C58_axis_violated"
   ],
   "note": "Proved for every reciprocal sector in which no block touches both periodic sides and all attached faces are interior or rotationally periodic, any number of copies, full ring or not (C58_ring_partial), with matching coordinates for a unit axis (C58_nodes_partial, C58_copy_rotated). Violated otherwise: the utility decides by block, not by face, so a sector one block wide gives non-reciprocal connectivity (C58_one_block_wide_violated); translation-periodic faces of copies become walls (C58_translation_lost_violated); the axis is not normalised (C58_axis_violated)."
  },
  {
   "property": "C59",
   "status": "partial",
   "theorems": [
    "PG.Util.C59_verify_iff_partial",
    "PG.Util.C59_stagnation_violated",
    "PG.Util.C59_reciprocal",
    "PG.Util.C59_reciprocity_violated"
   ],
   "note": "C59_verify_iff_partial characterises acceptance for every grid with at least two nodes each way; C59_reciprocal proves that accepted attachments without a periodic shift (or with opposite translations) are reciprocal in face and orientation. Violated as worded: verifyGrid only compares the block number on the way back, never the neighbour's orientation or face (C59_reciprocity_violated), and it rejects the valid type stagnationSubsonicInlet (C59_stagnation_violated); it also accepts a wall type on a face that has a neighbour. Rotational periodicity is not covered by C59_reciprocal."
  },
  {
   "property": "C60",
   "status": "proved",
   "theorems": [
    "PG.Flux.C60_kinetic_energy_identity",
    "PG.Flux.C60_members",
    "PG.Flux.C60_pressure_equilibrium"
   ],
   "note": ""
  },
  {
   "property": "C61",
   "status": "partial",
   "theorems": [
    "PG.Diff.C61_rhs_uniform",
    "PG.Diff.C61_hot_cell_cools",
    "PG.Diff.C61_uniform_zero",
    "PG.Diff.C61_no_mass",
    "PG.Diff.C61_fick",
    "PG.Diff.C61_species_sum",
    "PG.Diff.C61_enthalpy_partial",
    "PG.Diff.C61_newton",
    "PG.Diff.C61_stress",
    "PG.Diff.C61_rigid",
    "PG.Diff.C61_work_partial",
    "PG.Diff.C61_work_violated",
    "PG.Diff.C61_galilean_violated",
    "PG.Diff.C61_fourier",
    "PG.Diff.C61_clamp_violated"
   ],
   "note": "Proved for both schemes: zero on uniform fields (face and block level), zero mass flux, Fick's law with correction velocity for every species, Newton stress, Fourier conduction, enthalpy transport (undamped scheme: only while the mean mass fractions sum to at most one, C61_clamp_violated). Violated by the code: viscous work has the wrong sign (C61_work_violated, C61_galilean_violated), because the stored components txx.. already carry the minus sign and the energy flux negates again."
  },
  {
   "property": "C62",
   "status": "proved",
   "theorems": [
    "PG.Mesh.C62_linear_exact",
    "PG.Mesh.C62_constant"
   ],
   "note": ""
  },
  {
   "property": "C63",
   "status": "partial",
   "theorems": [
    "PG.Time.C63_boundary_time_rk1_partial",
    "PG.Time.C63_boundary_time_violated"
   ],
   "note": "The claim is false of the code except for rk1: C63_boundary_time_violated."
  },
  {
   "property": "C64",
   "status": "proved",
   "theorems": [
    "PG.Dual.C64_solve",
    "PG.Dual.C64_unique",
    "PG.Dual.C64_cell",
    "PG.Dual.C64_refVel",
    "PG.Dual.C64_refVel_jump_violated"
   ],
   "note": "C64_refVel_jump_violated: the reference velocity of the preconditioner jumps at |U| = 1e-5 c (finding)."
  },
  {
   "property": "C65",
   "status": "partial",
   "theorems": [
    "PG.Thermo.C65_eos_partial",
    "PG.Thermo.C65_nan_violated",
    "PG.Thermo.C65_moles_violated"
   ],
   "note": "C65_eos_partial proves the equation of state and largest root whenever the solver produces a root; C65_nan_violated exhibits admissible coefficients (discriminant exactly zero with Q <= 0) where it produces NaN, and C65_moles_violated shows mole fractions that do not sum to one when species sum above one."
  },
  {
   "property": "C66",
   "status": "proved",
   "theorems": [
    "PG.Thermo.C66_roundtrip"
   ],
   "note": "The cubic Newton iteration's denominator uses Z*dZdT where Z + T*dZdT is the derivative: it affects convergence only, so the fixed-point round trip still holds."
  },
  {
   "property": "C67",
   "status": "proved",
   "theorems": [
    "PG.Thermo.C67_density_branch",
    "PG.Thermo.C67_cp_branch",
    "PG.Thermo.C67_attraction",
    "PG.Thermo.C67_Astar",
    "PG.Thermo.C67_root_derivative",
    "PG.Thermo.C67_density",
    "PG.Thermo.C67_gamma",
    "PG.Thermo.C67_cp"
   ],
   "note": ""
  },
  {
   "property": "C68",
   "status": "partial",
   "theorems": [
    "PG.Run.C68_normal_speed_partial",
    "PG.Run.C68_violated",
    "PG.Run.C68_true_cfl_partial",
    "PG.Run.C68_true_cfl_violated"
   ],
   "note": "The code combines normal components as sqrt((nx u)^2+(ny v)^2+(nz w)^2), which underestimates |n.u| by up to sqrt 3: C68_violated; C68_normal_speed_partial and, for the step the run really takes, C68_true_cfl_partial give the sqrt 3 bound (and the exact bound on axis-parallel directions); C68_true_cfl_violated: no smaller factor holds."
  },
  {
   "property": "C69",
   "status": "partial",
   "theorems": [
    "PG.Time.C69_bdf2_exact",
    "PG.Time.C69_dQdt_interior_only",
    "PG.Time.C69_fixed_partial",
    "PG.Time.C69_converged_partial",
    "PG.Time.C69_time_violated"
   ],
   "note": "Fixed-point and converse proved when the right-hand side does not depend on time explicitly; C69_time_violated: the three pseudo stages use t, t+dt, t+dt/2 rather than t+dt, so with time-dependent forcing the implicit solution is not a fixed point."
  },
  {
   "property": "C70",
   "status": "proved",
   "theorems": [
    "PG.Dual.C70_jacobian"
   ],
   "note": ""
  },
  {
   "property": "C71",
   "status": "proved",
   "theorems": [
    "PG.Thermo.C71_cpg_prims",
    "PG.Thermo.C71_cpg_cons",
    "PG.Thermo.C71_tpg_prims",
    "PG.Thermo.C71_cubic_prims"
   ],
   "note": ""
  },
  {
   "property": "C72",
   "status": "partial",
   "theorems": [
    "PG.BC.C72_massFlux_state",
    "PG.BC.C72_massFlux_KEEP_partial",
    "PG.BC.C72_rusanov_violated",
    "PG.BC.C72_prescribed",
    "PG.BC.C72_species"
   ],
   "note": "Proved for all inlets and the KEEP family of fluxes; C72_rusanov_violated: with an upwind flux the delivered mass differs from the prescribed one whenever inlet and interior densities differ (interior at rest)."
  },
  {
   "property": "C73",
   "status": "partial",
   "theorems": [
    "PG.BC.C73_stagnation_partial",
    "PG.BC.C73_fixed_point",
    "PG.BC.C73_jk_faces_violated",
    "PG.BC.C73_high_face_violated"
   ],
   "note": "Holds on low i faces only. C73_jk_faces_violated: the kernel always reads i-family normals (inlets.cpp:373-375); C73_high_face_violated: no sign flip on high faces, so the wrong Riemann invariant is kept."
  },
  {
   "property": "C74",
   "status": "partial",
   "theorems": [
    "PG.BC.C74_pressureExit",
    "PG.BC.C74_superExit_partial",
    "PG.BC.C74_species",
    "PG.BC.C74_superExit_violated"
   ],
   "note": "C74_superExit_violated: the supersonic exit sets temperature exactly zero when the second interior cell is at least twice as hot as the first; the equation of state then divides by zero."
  },
  {
   "property": "C75",
   "status": "partial",
   "theorems": [
    "PG.BC.C75_spline_partial",
    "PG.BC.C75_periodic",
    "PG.BC.C75_frame",
    "PG.BC.C75_last_row_violated",
    "PG.BC.C75_profile",
    "PG.BC.C75_fill"
   ],
   "note": "Proved for every history on all face cells but the outermost halo row and column, which the kernel never updates (C75_last_row_violated, inlets.cpp:109-110). Times are reals: the floor and truncation of the code agree exactly, which double rounding could break next to frame times."
  },
  {
   "property": "C76",
   "status": "partial",
   "theorems": [
    "PG.Diff.C76_linear_exact",
    "PG.Diff.C76_reversal",
    "PG.Diff.C76_damps_jumps",
    "PG.Diff.C76_two_point_partial",
    "PG.Diff.C76_frame_violated"
   ],
   "note": "Exactness on linear fields, reversal and damping of jumps proved. Two-point consistency proved when e or n is axis aligned; on other grids MAGeDOTn = sqrt(sum (e_i n_i)^2) is not |e.n| and the flux changes when the grid is turned (C76_frame_violated)."
  },
  {
   "property": "C77",
   "status": "partial",
   "theorems": [
    "PG.Trans.C77_chung",
    "PG.Trans.C77_pure_violated",
    "PG.Trans.C77_constantProps",
    "PG.Trans.C77_kinetic_partial",
    "PG.Trans.C77_unityLewis_partial",
    "PG.Trans.C77_accumulation_violated"
   ],
   "note": "Proved for constantProps and the dense-gas model for all schedules. kineticTheory/kineticTheoryUnityLewis: proved on clean accumulators (partial); violated in the default build because mu_sp, kappa_sp, Dij are accumulated into per-worker scratch that is never reset between cells (C77_accumulation_violated), and for pure species other than the last because the mole-fraction loop breaks early (C77_pure_violated)."
  },
  {
   "property": "C78",
   "status": "partial",
   "theorems": [
    "PG.Trans.C78_unityLewis_violated",
    "PG.Trans.C78_chung_kappa",
    "PG.Trans.C78_chung_mu_partial",
    "PG.Trans.C78_chung_mu_violated",
    "PG.Trans.C78_wilke",
    "PG.Trans.C78_moleFrac",
    "PG.Trans.C78_kappa_bounds",
    "PG.Trans.C78_mu_bounds",
    "PG.Trans.C78_pure",
    "PG.Trans.C78_unit_lewis",
    "PG.Trans.C78_packed_index",
    "PG.Trans.C78_diffusion"
   ],
   "note": "All listed rules proved, except: kineticTheoryUnityLewis does not return the fitted viscosity (C78_unityLewis_violated: sqrt(T)*P instead of sqrt(T)*P^2). Chung dense gas: conductivity and mixture rules equal the published formula (C78_chung_kappa, C78_wilke); the viscosity misses the factor Fc on its second term (C78_chung_mu_partial exact relation, C78_chung_mu_violated)."
  },
  {
   "property": "C79",
   "status": "proved",
   "theorems": [
    "PG.Subgrid.C79_smagorinsky",
    "PG.Subgrid.C79_mixedScale",
    "PG.Subgrid.C79_added",
    "PG.Subgrid.C79_dissipative",
    "PG.Subgrid.C79_rigid",
    "PG.Subgrid.C79_mixed_zero",
    "PG.Subgrid.C79_galilean",
    "PG.Subgrid.C79_rotation",
    "PG.Subgrid.C79_covers_diffusion",
    "PG.Subgrid.C79_once"
   ],
   "note": ""
  },
  {
   "property": "C80",
   "status": "partial",
   "theorems": [
    "PG.Grid.C80_cylindrical_partial",
    "PG.Grid.C80_closed_partial",
    "PG.Grid.C80_connections",
    "PG.Grid.C80_axial_violated"
   ],
   "note": "Coordinates, closure and connections proved for one block along the axis (C80_cylindrical_partial, C80_closed_partial, C80_connections). With more than one axial block the claim is violated: C80_axial_violated (ValueError, because `annulus` replaces the block's own start by the origin)."
  },
  {
   "property": "C81",
   "status": "proved",
   "theorems": [
    "PG.Chem.C81_elements",
    "PG.Chem.C81_mass",
    "PG.Chem.C81_inert"
   ],
   "note": "Tables extracted by tools/genchem.py (stops at unknown statements); formulas in Chem/Formulas.lean are specification. chem_C2H4_Air_Red22 is C102/C103."
  },
  {
   "property": "C82",
   "status": "proved",
   "theorems": [
    "PG.Chem.C82_sources",
    "PG.Chem.C82_equilibrium_constant",
    "PG.Chem.C82_second_law",
    "PG.Chem.C82_irreversible",
    "PG.Chem.C82_gibbs_decreases",
    "PG.Chem.C82_equilibrium"
   ],
   "note": ""
  },
  {
   "property": "C83",
   "status": "proved",
   "theorems": [
    "PG.Chem.C83_absent_not_consumed",
    "PG.Chem.C83_short_step"
   ],
   "note": ""
  },
  {
   "property": "C84",
   "status": "partial",
   "theorems": [
    "PG.Chem.C84_rates_on_simplex",
    "PG.Chem.C84_lands",
    "PG.Chem.C84_one_step",
    "PG.Chem.C84_plain",
    "PG.Chem.C84_frozen",
    "PG.Chem.C84_sum_one",
    "PG.Chem.C84_invariant",
    "PG.Chem.C84_short_step",
    "PG.Chem.C84_temperature_partial",
    "PG.Chem.C84_temperature_violated",
    "PG.Chem.C84_elements"
   ],
   "note": "All parts proved except the last, which is false (C84_temperature_violated): hi[n] in the kernels is h MW/(Ru T), so dTdt (used for T during sub-steps and as omega(0) by the implicit 'strang' integrator) is short by the factor Ru T/MW_n in every term; C84_temperature_partial states exactly what is computed. chem_C2H4_Air_Red22 stores omega(0) = 0 instead, so the implicit integrator never changes the temperature with it."
  },
  {
   "property": "C85",
   "status": "proved",
   "theorems": [
    "PG.Chem.C85_lindemann",
    "PG.Chem.C85_troe"
   ],
   "note": ""
  },
  {
   "property": "C86",
   "status": "proved",
   "theorems": [
    "PG.Halo.C86_one_exchange",
    "PG.Halo.C86_field",
    "PG.Halo.C86_three_suffice"
   ],
   "note": ""
  },
  {
   "property": "C87",
   "status": "partial",
   "theorems": [
    "PG.Halo.C87_face_partial",
    "PG.Halo.C87_box_partial",
    "PG.Halo.C87_thin_violated"
   ],
   "note": "Proved for blocks with at least as many cells across as halo layers (C87_face_partial for every topology, C87_box_partial for periodic boxes incl. edges and corners). False for thinner blocks, which the code accepts: a one-cell-thick periodic direction with two halo layers gets coincident halo planes (C87_thin_violated)."
  },
  {
   "property": "C88",
   "status": "partial",
   "theorems": [
    "PG.BC.C88_accept",
    "PG.BC.C88_types",
    "PG.BC.C88_values",
    "PG.BC.C88_two_pass",
    "PG.BC.C88_isothermal",
    "PG.BC.C88_inlet",
    "PG.BC.C88_massFlux",
    "PG.BC.C88_complete_partial",
    "PG.BC.C88_needs_violated"
   ],
   "note": "Acceptance, values, two-pass equality and the path into the halo cells are proved without restriction; completeness only for families that have values (C88_complete_partial): a family without bcVals, or a missing bcFams.yaml, is accepted for every type and leaves the face without target values (C88_needs_violated), a defect of the code."
  },
  {
   "property": "C89",
   "status": "partial",
   "theorems": [
    "PG.Trace.C89_history_partial",
    "PG.Trace.C89_columns_partial",
    "PG.Trace.C89_once_partial",
    "PG.Trace.C89_import_violated"
   ],
   "note": "The recorder itself meets the property (history, columns, distribution), but a user cannot switch it on: pgCoprocessor imports the module name 'tracePointCoprocesor', which does not exist, so every run with tracing stops at start (C89_import_violated), a defect of the code. The number format %.8e is a parameter that contains no comma or line break; file names of different points are assumed different."
  },
  {
   "property": "C90",
   "status": "partial",
   "theorems": [
    "PG.Trace.C90_line_single",
    "PG.Trace.C90_line",
    "PG.Trace.C90_plane_partial",
    "PG.Trace.C90_plane_violated",
    "PG.Trace.C90_nearest",
    "PG.Trace.C90_rows"
   ],
   "note": "Lines, nearest cells and rows proved without restriction; planes only for edges of length one (C90_plane_partial): createPlane divides the edge vectors by their length, so any other plane misses its corners (C90_plane_violated), a defect of the code. The bounds test ptsInBlkBounds is a parameter here (see C56)."
  },
  {
   "property": "C91",
   "status": "partial",
   "theorems": [
    "PG.Whole.C91_edge_violated",
    "PG.Whole.C91_thin_violated",
    "PG.Whole.C91_decomposition_partial",
    "PG.Whole.C91_two_decompositions_partial",
    "PG.Whole.C91_rank_distribution"
   ],
   "note": "Proved for all splits, rank distributions, orientations, halo depths, the eight integrators and any number of steps, as a simulation between the two multi-block systems; kernels are parameters limited to the cells the code reads (LocalKernels). Partial because the code does depend on the decomposition in two places, both proved: localDtau/invertDQ drop directions in which a block is one cell thick (C91_thin_violated), and mixedScaleModel reads edge halo cells, which one exchange does not fill (C91_edge_violated; with one halo layer it even reads index -1). scalarDissipation, which reads (i+1,j,k) in every direction, is outside LocalKernels too. EosFromQ is exact for cpg; tpg starts its Newton iteration from the old temperature, so there the claim holds up to the iteration's tolerance (C22)."
  },
  {
   "property": "C92",
   "status": "partial",
   "theorems": [
    "PG.Dual.C92_positive",
    "PG.Dual.C92_finite_partial",
    "PG.Dual.C92_single_cell_violated",
    "PG.Dual.C92_viscous",
    "PG.Dual.C92_convective_partial",
    "PG.Dual.C92_convective_aligned",
    "PG.Dual.C92_convective_violated",
    "PG.Dual.C92_frame_violated",
    "PG.Dual.C92_scaling"
   ],
   "note": "Positivity, viscous limit, scaling and finiteness (unless the block is a single cell) proved. Violated: the convective number reaches sqrt(3)/2 instead of 1/2 because uI is the root of the sum of squares of n_i*u_i instead of |n.u| (C92_convective_violated, bound sqrt(3)/2 proved sharp); hence the step depends on the coordinate frame (C92_frame_violated); single-cell block gives infinity (C92_single_cell_violated)."
  },
  {
   "property": "C93",
   "status": "partial",
   "theorems": [
    "PG.Whole.C93_same_face",
    "PG.Whole.C93_balance",
    "PG.Whole.C93_closed",
    "PG.Whole.C93_run",
    "PG.Whole.C93_rk1_budget",
    "PG.Whole.C93_grid_fits",
    "PG.Whole.C93_hybrid_violated",
    "PG.Whole.C93_solver_partial",
    "PG.Whole.C93_case_partial"
   ],
   "note": "Proved: what two connected blocks compute for their common face is the same number with opposite sign, for arbitrary multi-block topologies, orientations, rank distributions and grids, from the node coordinates unifySolverGrid makes (C93_grid_fits) through the metrics (C93_same_face), halo exchange, consistify and RHS (C93_balance) to whole runs of all explicit integrators (C93_run; C93_solver_partial/C93_case_partial with the actual flux kernels, diffusive fluxes and applyFluxes). Violated (C93_hybrid_violated, a complete two-block case whose mass grows although it is closed): with blended schemes the sensor components are exchanged in the neighbour's axis order, so at a connection between different axes the two blocks blend differently. Also outside the proved part: hllc/muscl schemes where index directions are opposite (not antisymmetric, C27), scalarDissipation (C27), dualTime (conserves only at convergence), Smagorinsky with warped cells (volume by one diagonal is not the same in another block's numbering), sponge with periodic connections, rotational periodicity."
  },
  {
   "property": "C94",
   "status": "partial",
   "theorems": [
    "PG.Gen.C94_three_parameter_troe_violated",
    "PG.Gen.C94_no_net_change_violated",
    "PG.Gen.C94_negative_factor_violated",
    "PG.Gen.C94_orders_violated",
    "PG.Gen.C94_source_partial",
    "PG.Gen.C94_produces",
    "PG.Gen.C94_refuses",
    "PG.Gen.C94_conserves"
   ],
   "note": "Proved for mechanisms whose rate laws are elementary, with positive pre-exponential factors, non-negative coefficients and efficiencies (C94_source_partial), and without the elementary assumption for conservation (C94_conserves) and refusal of other types (C94_refuses). Violated: reaction orders given in the mechanism file are silently ignored (C94_orders_violated); a negative pre-exponential factor ends up inside log() (C94_negative_factor_violated; NaN in floating point); three-parameter Troe reactions, for which Cantera hands over three coefficients, and reactions without net change make the tool fail with IndexError (C94_three_parameter_troe_violated, C94_no_net_change_violated). Text is modelled as C++ tokens with a recursive-descent reader as part of the specification; decimal printing of doubles is taken as exact; the fixed text around the reactions is that of the kernels modelled for C81-C85. The reference pressure is the 101325 Pa of the text; a mechanism file with another reference pressure is not looked at."
  },
  {
   "property": "C95",
   "status": "partial",
   "theorems": [
    "PG.Config.C95_round_trip",
    "PG.Config.C95_plain_number_partial",
    "PG.Config.C95_time_step",
    "PG.Config.C95_notation_violated"
   ],
   "note": "Round trip proved for every file that is accepted (C95_round_trip; the YAML library's dump/load pair is a parameter assumed inverse on the documents written). Numbers in plain notation (digits, optional fraction with a dot, exponent only with a dot and a signed exponent) are read as the number (C95_plain_number_partial, model of the YAML 1.1 number patterns of PyYAML). Violated for other notations (C95_notation_violated): 1e-3 is read as text; only dt is passed through float(), so the same notation for maxDt is accepted by the validation and the run stops with TypeError in the first step."
  },
  {
   "property": "C96",
   "status": "partial",
   "theorems": [
    "PG.Config.C96_values",
    "PG.Config.C96_missing",
    "PG.Config.C96_search",
    "PG.Config.C96_names",
    "PG.Config.C96_empty_value_violated",
    "PG.Config.C96_notation_violated"
   ],
   "note": "C96_values, C96_missing, C96_search, C96_names proved without restriction. Violated: a property name without value (YAML null) is taken as the user's value and becomes not-a-number although the library has it (C96_empty_value_violated); a number YAML reads as text (1e-5) is converted when another species comes first but makes the table a plain list, hence AttributeError, if its species is the first (C96_notation_violated)."
  },
  {
   "property": "C97",
   "status": "partial",
   "theorems": [
    "PG.Util.Channel.C97_wall_normal_partial",
    "PG.Util.Channel.C97_growth_partial",
    "PG.Util.Channel.C97_ends",
    "PG.Util.Channel.C97_height_violated",
    "PG.Util.Channel.C97_units_violated",
    "PG.Util.Channel.C97_resolution_violated",
    "PG.Util.Channel.C97_buffer_violated"
   ],
   "note": "Monotonicity, both ends, first step, symmetry (C97_wall_normal_partial), ratios inside and between buffer and log layer (C97_growth_partial) and termination (C97_ends) proved for all inputs that leave room for two core points. Violated: with less room the core is empty or a single point and the top is missing (C97_height_violated: channel of height 0.76 instead of 2); boundary layers use yHeight in metres although the template says units of delta (C97_units_violated, for every such input); the core spacing is always larger than dYplusCore because nCore counts points instead of cells (C97_resolution_violated, for every input; nx and nz have the same slip); ptsWithGR multiplies by stop instead of stop-start, so the buffer layer is stretched to end at 35 instead of 30 and its first step is 1.2 times too long (C97_buffer_violated). Reals instead of doubles; the x and z directions are those of multiBlockCube (C41-C43)."
  },
  {
   "property": "C98",
   "status": "partial",
   "theorems": [
    "PG.Util.GridPro.C98_faces_partial",
    "PG.Util.GridPro.C98_coordinates",
    "PG.Util.GridPro.C98_binary",
    "PG.Util.GridPro.C98_periodic",
    "PG.Util.GridPro.C98_pair",
    "PG.Util.GridPro.C98_unverified_violated",
    "PG.Util.GridPro.C98_strip_violated",
    "PG.Util.GridPro.C98_periodic_family_violated",
    "PG.Util.GridPro.C98_face_data"
   ],
   "note": "Faces proved for all meshes whose labels are clean, i.e. user names do not begin or end with one of the characters p, d, c, : (C98_faces_partial); coordinates for ASCII and binary files (C98_coordinates, C98_binary); the type chosen for a periodic face always belongs to the shift that carries its centre onto its partner's (C98_periodic), and a pair one span apart becomes Low and High (C98_pair). Violated: strip('pdc:') removes characters, not the prefix, so family dinlet silently becomes inlet (C98_strip_violated); every periodic face gets the first periodic family of the file (C98_periodic_family_violated, for every file); the result of verify is ignored, so a rejected grid is written (C98_unverified_violated). A property file without a 2D table makes the tool loop for ever (modelled as failure). int() and line splitting are parameters of the model; reals instead of doubles."
  },
  {
   "property": "C99",
   "status": "partial",
   "theorems": [
    "PG.Util.Icem.C99_topology_partial",
    "PG.Util.Icem.C99_both_sides",
    "PG.Util.Icem.C99_coordinates",
    "PG.Util.Icem.C99_dimensions",
    "PG.Util.Icem.C99_periodic_violated",
    "PG.Util.Icem.C99_types_violated",
    "PG.Util.Icem.C99_unverified_violated"
   ],
   "note": "C99_topology_partial: for every file of a mesh without periodic faces whose labels have one of the six types the tool knows, every face comes out right; C99_both_sides: the two sides of a connection agree with neighborNface and neighborOrientation. Reading of the format assumed (Records): each record lists its own directions in corresponding order, each with its own outward normal; that is the convention under which the sign rule of the code is right. C99_coordinates, C99_dimensions: tns3dmb.dat. Violated: every file with a periodic section (C99_periodic_violated: bcType 'b1' does not exist), every file with one of seven external types such as supersonicInlet (C99_types_violated: the tool's own list has six), unverified grids are written (C99_unverified_violated). Not modelled: the mbi format (it never sets ni, nj, nk, so writeGrid would get extent 0). Text splitting and number parsing are parameters."
  },
  {
   "property": "C100",
   "status": "proved",
   "theorems": [
    "PG.Par.C100_schedule_independent",
    "PG.Par.C100_terminates",
    "PG.Par.C100_applyFlux",
    "PG.Par.C100_shared_write_differs",
    "PG.Par.C100_cfl",
    "PG.Par.C100_nan",
    "PG.Par.C100_residual"
   ],
   "note": "The footprint of each of the 107 kernels is a table generated from the C++ text (tools/mkfootprint.py) and is trusted as such; a work item is any sequence of reads and writes within the footprint. C100_schedule_independent, C100_terminates: every interleaving ends, in the memory of the sequential loop. C100_applyFlux gives one body access by access. C100_shared_write_differs shows the ownership condition is needed. Reductions: C100_cfl, C100_nan, C100_residual (the sum in exact arithmetic). Sequentially consistent memory (the kernels are race free); scratch handed out by UniqueToken is private to a running work item (stale contents: C77)."
  },
  {
   "property": "C101",
   "status": "partial",
   "theorems": [
    "PG.Par.C101_residual",
    "PG.Par.C101_max_on_rank",
    "PG.Par.C101_max_violated"
   ],
   "note": "The printed L2 residual is proved (C101_residual). The maximum norm is right on one rank (C101_max_on_rank) but reduced over ranks with MPI.MIN (dualTime.py:99), so over several ranks it is not the largest change (C101_max_violated): a defect, harmless today because the row is not printed."
  },
  {
   "property": "C102",
   "status": "partial",
   "theorems": [
    "PG.Chem.Red22.C102_drains",
    "PG.Chem.Red22.C102_fuel_only_violated",
    "PG.Chem.Red22.C102_cell_partial",
    "PG.Chem.Red22.C102_quasi_steady_partial",
    "PG.Chem.Red22.C102_unique",
    "PG.Chem.Red22.C102_elements_partial",
    "PG.Chem.Red22.C102_mass_partial"
   ],
   "note": "Proved for every mixture in which the radical pool can empty, in particular whenever at least one of H2, O2, OH, H2O, CH3, CH4, CO, CO2 is present (C102_drains, C102_cell_partial). False for the remaining mixtures: in pure ethylene (or ethylene in nitrogen) nothing consumes CH, the first divisor is zero (C102_fuel_only_violated), every radical becomes not-a-number and the kernel silently sets all sources to zero although ethylene decomposition has a positive rate."
  },
  {
   "property": "C103",
   "status": "proved",
   "theorems": [
    "PG.Chem.Red22.C103_concentrations",
    "PG.Chem.Red22.C103_third_body",
    "PG.Chem.Red22.C103_lindemann",
    "PG.Chem.Red22.C103_troe",
    "PG.Chem.Red22.C103_sources",
    "PG.Chem.Red22.C103_mass_action",
    "PG.Chem.Red22.C103_equilibrium",
    "PG.Chem.Red22.C103_absent_not_consumed"
   ],
   "note": "EG[] is any positive table: the NASA polynomials behind it (lines 162-411) are not modelled. The six directions set to zero are exempt, so those six reactions are one-way."
  },
  {
   "property": "C104",
   "status": "partial",
   "theorems": [
    "PG.Trans.KT.C104_symmetric",
    "PG.Trans.KT.C104_pairs_partial",
    "PG.Trans.KT.C104_order_iff",
    "PG.Trans.KT.C104_order_violated",
    "PG.Trans.KT.C104_viscosity",
    "PG.Trans.KT.C104_diffusion",
    "PG.Trans.KT.C104_fint",
    "PG.Trans.KT.C104_geometry",
    "PG.Trans.KT.C104_conductivity_partial",
    "PG.Trans.KT.C104_cpg_violated",
    "PG.Trans.KT.C104_monatomic",
    "PG.Trans.KT.C104_conductivity_positive"
   ],
   "note": "Everything holds except two points. (1) The induction correction is lost when the polar species is listed after the nonpolar one: the loop reads r_dipole[kp,kp], which is still zero then (kineticTheoryPoly.py:121), so pair parameters depend on the order of the species list (C104_order_iff, C104_order_violated; C104_pairs_partial for the other pairs). (2) With constant-cp thermodynamics cp/R is formed as cp0*T/(Ru*MW) instead of cp0*MW/Ru (line 19), so the conductivity is right only at T = MW^2 (C104_cpg_violated; C104_conductivity_partial for NASA7). The splines of the collision integrals are parameters, assumed positive."
  },
  {
   "property": "C105",
   "status": "proved",
   "theorems": [
    "PG.Trans.KT.C105_unique",
    "PG.Trans.KT.C105_samples",
    "PG.Trans.KT.C105_rows",
    "PG.Trans.KT.C105_exact",
    "PG.Trans.KT.C105_mixture"
   ],
   "note": "np.polyfit is any function that minimises the weighted sum of squares it is documented to minimise (existence and uniqueness of the minimiser are proved). C105_mixture is on clean accumulators and away from pure species, where C77 holds."
  },
  {
   "property": "C106",
   "status": "partial",
   "theorems": [
    "PG.IO.C106_restart",
    "PG.IO.C106_update",
    "PG.IO.C106_run",
    "PG.IO.C106_run_array",
    "PG.IO.C106_array_partial",
    "PG.IO.C106_time_violated",
    "PG.IO.C106_grid",
    "PG.IO.C106_coordinates"
   ],
   "note": "Violated for the time of arrays written outside a run: arbitraryMetaData hands nrt=0, tme=0.0 to its parent (C106_time_violated); everything else about that file is C106_array_partial. C106_coordinates: the coordinates are found when the grid was written with the same lumping and number of halo layers, in the directory gridPath names; C106_grid: the grid's own xmf file. Species must not be called Velocity."
  },
  {
   "property": "C107",
   "status": "partial",
   "theorems": [
    "PG.Mem.C107_run_partial",
    "PG.Mem.C107_state",
    "PG.Mem.C107_serial_partial",
    "PG.Mem.C107_kernel_writes",
    "PG.Mem.C107_kernel_reads",
    "PG.Mem.C107_strang_violated",
    "PG.Mem.C107_serial_violated"
   ],
   "note": "C107_run_partial covers whole runs with every integrator but strang, for which the claim is false (C107_strang_violated): its chemistry reads and writes the host arrays without updateHostView/updateDeviceView, so on a device build chemistry never reaches the solution. The serial writers writeRestart and writeArbitraryArray accept solver blocks but never update the host (C107_serial_violated); after a call of updateHostView they are right (C107_serial_partial). C107_kernel_writes and C107_kernel_reads check the assumed inputs and outputs of kernels against the listing of src/compute used for C100. Which of the extra arrays exist is assumed to match the configuration; Catalyst's first data set, replaced before it is used, is not modelled."
  },
  {
   "property": "C108",
   "status": "partial",
   "theorems": [
    "PG.IO.C108_overwrite_violated",
    "PG.IO.C108_mixed_violated",
    "PG.IO.C108_levels_violated",
    "PG.IO.C108_missing_level_violated",
    "PG.IO.C108_numbered_partial",
    "PG.IO.C108_resume_partial",
    "PG.IO.C108_progress",
    "PG.IO.C108_all_done_partial"
   ],
   "note": "Proved for numbered restart files (animateRestart: true) and iteration numbers below 99999999, the number of the emergency restart (C108_resume_partial, C108_numbered_partial, C108_all_done_partial); deadlock freedom without restriction (C108_progress). Without numbers the claim is false: the only restart is overwritten in place, so a kill during the second write leaves none (lumped, C108_overwrite_violated), a silent mixture of two iterations (one file per block, C108_mixed_violated), or solution and older level of different iterations (dual time, C108_levels_violated). C108_missing_level_violated: a numbered dual time restart killed between its two halves is accepted without its older level. A closed file is taken to be on disk (no fsync is modelled); the ranks' collective calls are the Allreduce of each step and NaN check and the opening and closing of lumped files."
  },
  {
   "property": "C109",
   "status": "partial",
   "theorems": [
    "PG.Whole.C109_inlet_time_violated",
    "PG.Whole.C109_round_trip_violated",
    "PG.Whole.C109_cpg_partial",
    "PG.Whole.C109_restarts_partial"
   ],
   "note": "Proved for boundary conditions that are steady and compute their halo cells from interior cells, equations of state that convert conserved variables without memory (cpg; the tpg iteration starts from the old temperature), and states whose primitives determine the conserved variables at every stop (C109_restarts_partial). For the calorically perfect gas with any number of species the last two hypotheses reduce to: density, pressure, temperature positive, stored mass fractions not negative and summing to at most one (C109_cpg_partial). Numbers are reals and the files hold them exactly (the writers can be told to store single precision, C45). Without these hypotheses the claim is false: the stage time is not in the restart and boundary conditions are evaluated at time 0 on resuming (C109_inlet_time_violated); a dual time state with mass fractions summing to more than one comes back rescaled (C109_round_trip_violated)."
  },
  {
   "property": "C110",
   "status": "partial",
   "theorems": [
    "PG.Whole.C110_rigid_motion_partial",
    "PG.Whole.C110_quarter_turns",
    "PG.Whole.C110_muscl_violated",
    "PG.Whole.C110_alphaDamping_violated",
    "PG.Whole.C110_speed_violated"
   ],
   "note": "C110_rigid_motion_partial: any rotation and translation, the eight schemes named, with diffusion off or the plain diffusive flux (bound, but multiBlock/__init__.py:122 always selects alphaDamping, so for configured viscous runs only quarter turns are covered); explicit integrators with given time steps. C110_quarter_turns: rotations permuting the axes, every advective scheme but scalarDissipation and both diffusive fluxes. Equations of state cpg, tpg and cubic, every boundary condition, sponge, pressure sensors, Smagorinsky, second and fourth order gradients are the models of C22-C25, C34, C78; transport and chemistry are arbitrary functions of the scalars. False otherwise: C110_muscl_violated, C110_alphaDamping_violated, C110_speed_violated (pseudo time step and CFL). Not covered: mixed scale subgrid model, dual time stepping, rounding."
  },
  {
   "property": "C111",
   "status": "partial",
   "theorems": [
    "PG.Comm.Job.C111_same_collectives",
    "PG.Comm.Job.C111_no_deadlock_partial",
    "PG.Comm.Job.C111_completes_partial",
    "PG.Comm.Job.C111_messages",
    "PG.Comm.Job.C111_exception_violated",
    "PG.Comm.Job.C111_mixed_restart_violated"
   ],
   "note": "Progress, termination, equality of the collective calls and matching of messages are proved for the whole run (input, set-up, every integrator, files, NaN checks, emergency output) when no rank raises and all ranks start from the same iteration number. C111_exception_violated: a rank that raises leaves the others waiting for ever (unless the mpi4py runner aborts the job). C111_mixed_restart_violated: with one restart file per block, files of different iterations make ranks disagree on the collective calls and the run hangs. stepCalls_logged checks the sequence of communicating calls against the model of the integrators."
  },
  {
   "property": "C112",
   "status": "partial",
   "theorems": [
    "PG.Interp.C112_utility_violated",
    "PG.Interp.C112_values_partial",
    "PG.Interp.C112_exact",
    "PG.Interp.C112_outside",
    "PG.Interp.C112_listing_violated",
    "PG.Interp.C112_mixed_lump_violated",
    "PG.Interp.C112_reads_partial"
   ],
   "note": "The utility as committed can never succeed (C112_utility_violated): the arrays q of the target blocks are never allocated (interpolate.py never calls initRestartArrays on mbTo), so the first assignment in blocksToBlock raises TypeError, for every input with at least one target block. With that one call added (init = true in the model), C112_values_partial states the whole claim from the files read to reading the written restart back, for all grids, data and interpolants; C112_reads_partial shows that what the writers leave is what is read; C112_exact, C112_outside the reproduction of data and the refusal. Two further defects remain even then: an animated restart is found or not depending on the order of os.listdir (C112_listing_violated), and a lumped grid with an unlumped solution is refused (C112_mixed_lump_violated)."
  },
  {
   "property": "C113",
   "status": "partial",
   "theorems": [
    "PG.Safe.C113_exact_partial",
    "PG.Safe.C113_files",
    "PG.Safe.C113_program_partial",
    "PG.Safe.C113_mechanism_violated",
    "PG.Safe.C113_split_violated",
    "PG.Safe.C113_missing_file_violated",
    "PG.Safe.C113_three_layers_violated",
    "PG.Safe.Src.C113_source_faces",
    "PG.Safe.Src.C113_source",
    "PG.Safe.Src.C113_source_complete"
   ],
   "note": "C113_exact_partial: for every configuration that starts and every block, all accesses of all launches are legal exactly when each face holds the data its boundary type reads, the chemistry mechanism has no more species than the case, and strang is used with chemistry. None of the three is checked at start: C113_mechanism_violated (a kernel of nm species on arrays of ns < nm components), C113_split_violated, C113_missing_file_violated (no bcFams.yaml, or C113_files: a family without bcVals). C113_files and C113_program_partial connect this to what readBcs leaves on the faces. C113_three_layers_violated: the halo loops are written for at most two layers. Footprints (index boxes, offsets, component ranges, extents) are transcribed from the kernels, and C113_source / C113_source_faces prove the same of the accesses that tools/mksource.py extracts from the text of the 65 cell and face kernels and the 34 boundary kernels (Safe/Table.lean); C113_source_complete: every function a run calls is in the table. Kernel-private scratch arrays, the species tables and the metrics set-up are not included."
  },
  {
   "property": "C114",
   "status": "partial",
   "theorems": [
    "PG.Util.Load.C114_total_partial",
    "PG.Util.Load.C114_total_violated",
    "PG.Util.Load.C114_load_partial",
    "PG.Util.Load.C114_load_violated"
   ],
   "note": "C114_total_partial: the count is right exactly for grids of fewer than 2^31 cells (32-bit counters), for every reduction order; C114_total_violated: negative from 2^31 to 2^32 - 1. C114_load_partial under the same bound per rank; C114_load_violated: a rank of 2^31 cells beside a small one is reported as the slowest with a negative efficiency. The mean is exact instead of rounded."
  },
  {
   "property": "C115",
   "status": "partial",
   "theorems": [
    "PG.Text.C115_muscl2rusanov_partial",
    "PG.Text.C115_muscl2hllc_partial",
    "PG.Text.C115_KEEP",
    "PG.Text.C115_KEEPpe",
    "PG.Text.C115_KEPaEC",
    "PG.Text.C115_centralDifference",
    "PG.Text.C115_rusanov",
    "PG.Text.C115_hllc",
    "PG.Text.C115_scalarDissipation_partial",
    "PG.Text.C115_scalarDissipation_violated",
    "PG.Text.C115_fourthOrderKEEP"
   ],
   "note": "About definitions that tools/mktext.py generates from the kernel text statement by statement (Text/Flux.lean): each loop leaves the formula of Flux/Model.lean, in the three directions, for all block contents. Complete for KEEP, KEEPpe, KEPaEC, centralDifference, rusanov, hllc, fourthOrderKEEP. _partial for the MUSCL schemes: where neighbouring values differ (the limiter divides by their difference; IEEE division by zero is in Flux/Model but not in the translation). scalarDissipation: C115_scalarDissipation_violated, the j and k loops read the cell (i+1,j,k). Doubles are reals."
  },
  {
   "property": "C116",
   "status": "proved",
   "theorems": [
    "PG.Text.StageP.C116_rk2s1",
    "PG.Text.StageP.C116_rk2s2",
    "PG.Text.StageP.C116_rk3s1",
    "PG.Text.StageP.C116_rk3s2",
    "PG.Text.StageP.C116_rk3s3",
    "PG.Text.StageP.C116_rk34s1",
    "PG.Text.StageP.C116_rk34s2",
    "PG.Text.StageP.C116_rk34s3",
    "PG.Text.StageP.C116_rk34s4",
    "PG.Text.StageP.C116_rk4s1",
    "PG.Text.StageP.C116_rk4s2",
    "PG.Text.StageP.C116_rk4s3",
    "PG.Text.StageP.C116_rk4s4",
    "PG.Text.StageP.C116_corrector",
    "PG.Text.StageP.C116_dQdt",
    "PG.Text.StageP.C116_DTrk3s1",
    "PG.Text.StageP.C116_DTrk3s2",
    "PG.Text.StageP.C116_DTrk3s3"
   ],
   "note": "About iterations that tools/mktext2.py generates from the kernel text (Text/Stage.lean); the translation fails on an access outside the own index or a range other than the interior. Every sequential order of the iterations; real parallel schedules are C100. The stages of Time/Model.lean, on which the claims about the integrators rest, are thereby tied to the text. dtau, which has no component index in the code, is read through the same index."
  },
  {
   "property": "C117",
   "status": "proved",
   "theorems": [
    "PG.Text.C117_diffusiveFlux",
    "PG.Text.C117_alphaDampingFlux",
    "PG.Text.C117_nonvacuous"
   ],
   "note": "About definitions that tools/mktext.py generates from the kernel text (Text/Diff.lean); a species loop becomes a fold over its carried values. Each loop leaves the flux of Diff/Model.lean, on which the claims about diffusion rest, in the three directions, for all block contents and any number of species. Doubles are reals (0.5 exact, division by zero 0 on both sides)."
  },
  {
   "property": "C118",
   "status": "proved",
   "theorems": [
    "PG.Text.CellP.C118_applyFlux",
    "PG.Text.CellP.C118_applyDissipationFlux",
    "PG.Text.CellP.C118_applyHybridFlux",
    "PG.Text.CellP.C118_dq2FD",
    "PG.Text.CellP.C118_dq4FD",
    "PG.Text.CellP.C118_jamesonPressure",
    "PG.Text.CellP.C118_vanAlbadaPressure",
    "PG.Text.CellP.C118_vanLeer",
    "PG.Text.CellP.C118_viscousSponge"
   ],
   "note": "About ranges and iterations that tools/mktext3.py generates from the kernel text (Text/Cell.lean); the translation fails on a store at another index than the own. The formulas are the kernels of FV/Model, Mesh/Model and Sensor/Model, on which the claims about conservation, gradients and sensors rest. Sensors: where the division is defined (Sensor.phi gives a value); a NaN or infinity is not described. Sequential orders; real parallel schedules are C100. Doubles are reals."
  },
  {
   "property": "C119",
   "status": "proved",
   "theorems": [
    "PG.Text.ThermoP.C119_prims",
    "PG.Text.ThermoP.C119_cons",
    "PG.Text.ThermoP.C119_local"
   ],
   "note": "About one iteration of each of the two loops of cpg.cpp, which tools/mktext4.py generates from the text (Text/Thermo.lean); the translation fails on a statement it does not know. The formulas are cpgPrims and cpgCons of Thermo/Model, on which C22-C24, C71 and the other gas claims rest; any contents of the arrays and of the local array, physical or not. At least one species. Not covered: the cell range chosen per face (range.hpp), the tpg and cubic kernels. Doubles are reals, and x/0 = 0."
  }
 ]
}
