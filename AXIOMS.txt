'PG.Topo.C01_neighborOrientation_inverse' depends on axioms: [propext, Quot.sound]
'PG.Topo.C01_neighborOrientation_involutive' depends on axioms: [propext, Quot.sound]
'PG.Topo.C01_neighborNface' depends on axioms: [propext, Quot.sound]
'PG.Halo.C02_cell_exchange' depends on axioms: [propext, Classical.choice, Quot.sound]
'PG.Halo.C02_source_interior_iff' depends on axioms: [propext, Classical.choice, Quot.sound]
'PG.Halo.C03_node_exchange' depends on axioms: [propext, Classical.choice, Quot.sound]
'PG.Halo.C04_first_layer_exchange' depends on axioms: [propext, Classical.choice, Quot.sound]
'PG.Halo.C05_only_halos_change' depends on axioms: [propext, Classical.choice, Quot.sound]
'PG.Halo.C05_interior_unchanged' depends on axioms: [propext, Classical.choice, Quot.sound]
'PG.Halo.C06_tag_injective' depends on axioms: [propext, Classical.choice, Quot.sound]
'PG.Halo.C06_receive_matched' depends on axioms: [propext, Classical.choice, Quot.sound]
'PG.Comm.C07_no_deadlock' depends on axioms: [propext, Classical.choice, Quot.sound]
'PG.Comm.C07_terminates' depends on axioms: [propext, Classical.choice, Quot.sound]
'PG.Comm.C07_stuck_is_finished' depends on axioms: [propext, Classical.choice, Quot.sound]
'PG.Comm.C07_lockstep' depends on axioms: [propext, Classical.choice, Quot.sound]
'PG.Halo.C08_buffer_shapes_match' depends on axioms: [propext, Classical.choice, Quot.sound]
'PG.FV.C09_conservation' depends on axioms: [propext, Classical.choice, Quot.sound]
'PG.FV.C09_halo_untouched' depends on axioms: [propext, Classical.choice, Quot.sound]
'PG.FV.C10_hybrid_is_blend' depends on axioms: [propext, Classical.choice, Quot.sound]
'PG.FV.C10_hybrid_conservation' depends on axioms: [propext, Classical.choice, Quot.sound]
'PG.FV.C10_switch_extremes' depends on axioms: [propext, Classical.choice, Quot.sound]
'PG.FV.C10_dissipation_conservation' depends on axioms: [propext, Classical.choice, Quot.sound]
'PG.FV.C10_weights_unit' depends on axioms: [propext, Classical.choice, Quot.sound]
'PG.Mesh.C11_closed_cell' depends on axioms: [propext, Classical.choice, Quot.sound]
'PG.Mesh.C11_area_is_quad' depends on axioms: [propext, Classical.choice, Quot.sound]
'PG.Mesh.C11_shared_face' depends on axioms: [propext, Classical.choice, Quot.sound]
'PG.Flux.C12_freestream' depends on axioms: [propext, Classical.choice, Quot.sound]
'PG.Flux.C12_freestream_KEPaEC' depends on axioms: [propext, Classical.choice, Quot.sound]
'PG.Flux.C12_freestream_hybrid' depends on axioms: [propext, Classical.choice, Quot.sound]
'PG.Flux.C12_freestream_dissipation' depends on axioms: [propext, Classical.choice, Quot.sound]
'PG.Flux.C12_hllc_partial' depends on axioms: [propext, Classical.choice, Quot.sound]
'PG.Flux.C12_hllc_violated' depends on axioms: [propext, Classical.choice, Quot.sound]
'PG.Mesh.C13_area_times_normal' depends on axioms: [propext, Classical.choice, Quot.sound]
'PG.Mesh.C13_unit_normal' depends on axioms: [propext, Classical.choice, Quot.sound]
'PG.Mesh.C13_normal_le_one' depends on axioms: [propext, Classical.choice, Quot.sound]
'PG.Mesh.C13_volume_is_hex_volume' depends on axioms: [propext, Classical.choice, Quot.sound]
'PG.Mesh.C13_parallelepiped' depends on axioms: [propext, Classical.choice, Quot.sound]
'PG.Mesh.C14_metrics_dual' depends on axioms: [propext, Classical.choice, Quot.sound]
'PG.Mesh.C14_affine_inverse' depends on axioms: [propext, Classical.choice, Quot.sound]
'PG.HaloGen.C15_affine' depends on axioms: [propext, Classical.choice, Quot.sound]
'PG.HaloGen.C15_nodes_kept' depends on axioms: [propext, Classical.choice, Quot.sound]
'PG.HaloGen.C15_mirror' depends on axioms: [propext, Classical.choice, Quot.sound]
'PG.Time.C16_counters_partial' depends on axioms: [propext, Classical.choice, Quot.sound]
'PG.Time.C16_strang_violated' depends on axioms: [propext, Classical.choice, Quot.sound]
'PG.Time.C17_tableau_orders' depends on axioms: [propext, Classical.choice, Quot.sound]
'PG.Time.C17_is_runge_kutta' depends on axioms: [propext, Classical.choice, Quot.sound]
'PG.Time.C17_linear' depends on axioms: [propext, Classical.choice, Quot.sound]
'PG.Time.C17_quadrature_partial' depends on axioms: [propext, Classical.choice, Quot.sound]
'PG.Time.C17_maccormack_time_violated' depends on axioms: [propext, Classical.choice, Quot.sound]
'PG.Time.C18_ssp' depends on axioms: [propext, Classical.choice, Quot.sound]
'PG.Time.C19_steady' depends on axioms: [propext, Classical.choice, Quot.sound]
'PG.Time.C20_history' depends on axioms: [propext, Classical.choice, Quot.sound]
'PG.Time.C20_restart' depends on axioms: [propext, Classical.choice, Quot.sound]
'PG.Time.C20_fallback' depends on axioms: [propext, Classical.choice, Quot.sound]
'PG.Run.C21_variable' depends on axioms: [propext, Classical.choice, Quot.sound]
'PG.Run.C21_fixed' depends on axioms: [propext, Classical.choice, Quot.sound]
'PG.Run.C21_distribution' depends on axioms: [propext, Classical.choice, Quot.sound]
'PG.Run.C21_blocks_moved' depends on axioms: [propext, Classical.choice, Quot.sound]
'PG.Run.C21_unresolved' depends on axioms: [propext, Classical.choice, Quot.sound]
'PG.Thermo.C22_prims_cons_prims' depends on axioms: [propext, Classical.choice, Quot.sound]
'PG.Thermo.C22_cons_prims_cons' depends on axioms: [propext, Classical.choice, Quot.sound]
'PG.Thermo.C22_cleaned' depends on axioms: [propext, Classical.choice, Quot.sound]
'PG.Thermo.C23_prims' depends on axioms: [propext, Classical.choice, Quot.sound]
'PG.Thermo.C23_cons' depends on axioms: [propext, Classical.choice, Quot.sound]
'PG.Thermo.C23_prims_stale_violated' depends on axioms: [propext, Classical.choice, Quot.sound]
'PG.Thermo.C24_prims' depends on axioms: [propext, Classical.choice, Quot.sound]
'PG.Thermo.C24_cons' depends on axioms: [propext, Classical.choice, Quot.sound]
'PG.Thermo.C25_search' depends on axioms: [propext, Classical.choice, Quot.sound]
'PG.Thermo.C25_roundtrip' depends on axioms: [propext, Classical.choice, Quot.sound]
'PG.Thermo.C25_newton_derivative' depends on axioms: [propext, Classical.choice, Quot.sound]
'PG.Thermo.C25_accuracy' depends on axioms: [propext, Classical.choice, Quot.sound]
'PG.Flux.C26_consistent' depends on axioms: [propext, Classical.choice, Quot.sound]
'PG.Flux.C26_hllc_partial' depends on axioms: [propext, Classical.choice, Quot.sound]
'PG.Flux.C26_hllc_violated' depends on axioms: [propext, Classical.choice, Quot.sound]
'PG.Flux.C26_scalarDissipation_uniform' depends on axioms: [propext, Classical.choice, Quot.sound]
'PG.Flux.C27_antisymmetric' depends on axioms: [propext, Classical.choice, Quot.sound]
'PG.Flux.C27_hllc_partial' depends on axioms: [propext, Classical.choice, Quot.sound]
'PG.Flux.C27_hllc_violated' depends on axioms: [propext, Classical.choice, Quot.sound]
'PG.Flux.C27_muscl_violated' depends on axioms: [propext, Classical.choice, Quot.sound]
'PG.Flux.C27_scalarDissipation_partial' depends on axioms: [propext, Classical.choice, Quot.sound]
'PG.Flux.C27_scalarDissipation_violated' depends on axioms: [propext, Classical.choice, Quot.sound]
'PG.Flux.C28_supersonic_right' depends on axioms: [propext, Classical.choice, Quot.sound]
'PG.Flux.C28_supersonic_left' depends on axioms: [propext, Classical.choice, Quot.sound]
'PG.Flux.C28_contact' depends on axioms: [propext, Classical.choice, Quot.sound]
'PG.Flux.C28_ausm_supersonic_right' depends on axioms: [propext, Classical.choice, Quot.sound]
'PG.Flux.C28_ausm_supersonic_left' depends on axioms: [propext, Classical.choice, Quot.sound]
'PG.Flux.C29_muscl_speed' depends on axioms: [propext, Classical.choice, Quot.sound]
'PG.Flux.C29_rusanov_partial' depends on axioms: [propext, Classical.choice, Quot.sound]
'PG.Flux.C29_rusanov_violated' depends on axioms: [propext, Classical.choice, Quot.sound]
'PG.Sensor.C30_range' depends on axioms: [propext, Classical.choice, Quot.sound]
'PG.Sensor.C30_uniform' depends on axioms: [propext, Classical.choice, Quot.sound]
'PG.Sensor.C30_axes' depends on axioms: [propext, Classical.choice, Quot.sound]
'PG.Sensor.C30_mirror_partial' depends on axioms: [propext, Classical.choice, Quot.sound]
'PG.Sensor.C30_albada_violated' depends on axioms: [propext, Classical.choice, Quot.sound]
'PG.Flux.C31_between_partial' depends on axioms: [propext, Classical.choice, Quot.sound]
'PG.Flux.C31_extremum_partial' depends on axioms: [propext, Classical.choice, Quot.sound]
'PG.Flux.C31_second_order' depends on axioms: [propext, Classical.choice, Quot.sound]
'PG.Flux.C31_pressure_violated' depends on axioms: [propext, Classical.choice, Quot.sound]
'PG.BC.C32_mirror' depends on axioms: [propext, Classical.choice, Quot.sound]
'PG.BC.C32_no_slip' depends on axioms: [propext, Classical.choice, Quot.sound]
'PG.BC.C32_moving' depends on axioms: [propext, Classical.choice, Quot.sound]
'PG.BC.C32_slip_pre' depends on axioms: [propext, Classical.choice, Quot.sound]
'PG.BC.C32_wall_gradients' depends on axioms: [propext, Classical.choice, Quot.sound]
'PG.BC.C32_no_mass_KEEP_partial' depends on axioms: [propext, Classical.choice, Quot.sound]
'PG.BC.C32_no_mass_adiabatic_partial' depends on axioms: [propext, Classical.choice, Quot.sound]
'PG.BC.C32_isothermal_violated' depends on axioms: [propext, Classical.choice, Quot.sound]
'PG.BC.C32_hllc_supersonic_violated' depends on axioms: [propext, Classical.choice, Quot.sound]
'PG.BC.C32_fourth_order_violated' depends on axioms: [propext, Classical.choice, Quot.sound]
'PG.BC.C33_rotation_partial' depends on axioms: [propext, Classical.choice, Quot.sound]
'PG.BC.C33_nonunit_violated' depends on axioms: [propext, Classical.choice, Quot.sound]
'PG.BC.C33_halo_partial' depends on axioms: [propext, Classical.choice, Quot.sound]
'PG.BC.C33_scalar_gradient_partial' depends on axioms: [propext, Classical.choice, Quot.sound]
'PG.BC.C33_gradient_violated' depends on axioms: [propext, Classical.choice, Quot.sound]
'PG.BC.C34_euler' depends on axioms: [propext, Classical.choice, Quot.sound]
'PG.BC.C34_periodic' depends on axioms: [propext, Classical.choice, Quot.sound]
'PG.BC.C34_massFlux' depends on axioms: [propext, Classical.choice, Quot.sound]
'PG.BC.C34_pre' depends on axioms: [propext, Classical.choice, Quot.sound]
'PG.BC.C34_post' depends on axioms: [propext, Classical.choice, Quot.sound]
'PG.BC.C34_interior_untouched' depends on axioms: [propext, Classical.choice, Quot.sound]
'PG.BC.C34_in_bounds' depends on axioms: [propext, Classical.choice, Quot.sound]
'PG.BC.C34_depth_limit' depends on axioms: [propext, Classical.choice, Quot.sound]
'PG.Config.C35_start_exact' depends on axioms: [propext, Classical.choice, Quot.sound]
'PG.Config.C35_solver' depends on axioms: [propext, Classical.choice, Quot.sound]
'PG.Config.C35_tables_partial' depends on axioms: [propext, Classical.choice, Quot.sound]
'PG.Config.C35_violated' depends on axioms: [propext, Classical.choice, Quot.sound]
'PG.Config.C35_switch_values' depends on axioms: [propext, Quot.sound]
'PG.Config.C35_integrator' depends on axioms: [propext, Classical.choice, Quot.sound]
'PG.Config.C36_assign' depends on axioms: [propext, Quot.sound]
'PG.Config.C36_new_section' depends on axioms: [propext]
'PG.Config.C36_history_partial' depends on axioms: [propext, Classical.choice, Quot.sound]
'PG.Config.C36_read_file' depends on axioms: [propext, Classical.choice, Quot.sound]
'PG.Config.C36_violated' depends on axioms: [propext, Classical.choice, Quot.sound]
'PG.Config.C36_set_up_can_read' depends on axioms: [propext, Classical.choice, Quot.sound]
'PG.Config.C37_layers' depends on axioms: [propext, Classical.choice, Quot.sound]
'PG.Config.C37_unknown' depends on axioms: [propext, Classical.choice, Quot.sound]
'PG.Config.C37_fluxes' depends on axioms: [propext, Classical.choice, Quot.sound]
'PG.Config.C37_subgrid' depends on axioms: [propext, Classical.choice, Quot.sound]
'PG.Config.C37_one_layer_too_few' depends on axioms: [propext, Classical.choice, Quot.sound]
'PG.Setup.C38_commRank' depends on axioms: [propext, Classical.choice, Quot.sound]
'PG.Setup.C38_ownership_partial' depends on axioms: [propext, Classical.choice, Quot.sound]
'PG.Setup.C38_violated' depends on axioms: [propext, Quot.sound]
'PG.Setup.C38_balanced' depends on axioms: [propext, Classical.choice, Quot.sound]
'PG.Setup.C38_default' depends on axioms: [propext, Classical.choice, Quot.sound]
'PG.Setup.C39_roundtrip' depends on axioms: [propext, Classical.choice, Quot.sound]
'PG.Setup.C39_comment' depends on axioms: [propext, Classical.choice, Quot.sound]
'PG.Setup.C40_selfcheck' depends on axioms: [propext, Classical.choice, Quot.sound]
'PG.Setup.C40_partition' depends on axioms: [propext, Classical.choice, Quot.sound]
'PG.Setup.C40_limit_partial' depends on axioms: [propext, Classical.choice, Quot.sound]
'PG.Setup.C40_limit_violated' depends on axioms: [propext, Classical.choice, Quot.sound]
'PG.Setup.C40_load' depends on axioms: [propext, Classical.choice, Quot.sound]
'PG.Setup.C40_numProcs' depends on axioms: [propext, Classical.choice, Quot.sound]
'PG.Setup.C40_numProcs_least' depends on axioms: [propext, Classical.choice, Quot.sound]
'PG.Grid.C41_reciprocal' depends on axioms: [propext, Classical.choice, Quot.sound]
'PG.Grid.C42_numbering' depends on axioms: [propext, Classical.choice, Quot.sound]
'PG.Grid.C42_tiling' depends on axioms: [propext, Classical.choice, Quot.sound]
'PG.Grid.C42_partition' depends on axioms: [propext, Classical.choice, Quot.sound]
'PG.Grid.C43_span_partial' depends on axioms: [propext, Classical.choice, Quot.sound]
'PG.Grid.C43_violated' depends on axioms: [propext, Classical.choice, Quot.sound]
'PG.Util.C44_box' depends on axioms: [propext, Classical.choice, Quot.sound]
'PG.Util.C44_cells_patches_valid' depends on axioms: [propext, Classical.choice, Quot.sound]
'PG.Util.C44_path' depends on axioms: [propext, Classical.choice, Quot.sound]
'PG.Util.C44_cuts_align' depends on axioms: [propext, Classical.choice, Quot.sound]
'PG.Util.C44_path_terminates' depends on axioms: [propext, Classical.choice, Quot.sound]
'PG.Util.C44_indices' depends on axioms: [propext, Classical.choice, Quot.sound]
'PG.Util.C44_size' depends on axioms: [propext, Classical.choice, Quot.sound]
'PG.Util.C44_size_terminates' depends on axioms: [propext, Classical.choice, Quot.sound]
'PG.IO.C45_roundtrip_partial' depends on axioms: [propext, Classical.choice, Quot.sound]
'PG.IO.C45_halo' depends on axioms: [propext, Classical.choice, Quot.sound]
'PG.IO.C45_last_species' depends on axioms: [propext, Classical.choice, Quot.sound]
'PG.IO.C45_missing' depends on axioms: [propext, Classical.choice, Quot.sound]
'PG.IO.C45_withHalo_violated' depends on axioms: [propext, Classical.choice, Quot.sound]
'PG.IO.C46_roundtrip' depends on axioms: [propext, Classical.choice, Quot.sound]
'PG.IO.Conn.C47_roundtrip' depends on axioms: [propext, Classical.choice, Quot.sound]
'PG.IO.Conn.C47_valid' depends on axioms: [propext, Classical.choice, Quot.sound]
'PG.IO.Conn.C47_unquoted_refused' depends on axioms: [propext, Classical.choice, Quot.sound]
'PG.IO.C48_table' depends on axioms: [propext, Classical.choice, Quot.sound]
'PG.IO.C48_parallel_file' depends on axioms: [propext, Classical.choice, Quot.sound]
'PG.IO.C49_distinct_partial' depends on axioms: [propext, Classical.choice, Quot.sound]
'PG.IO.C49_collision_violated' depends on axioms: [propext, Classical.choice, Quot.sound]
'PG.IO.C49_read_names' depends on axioms: [propext, Classical.choice, Quot.sound]
'PG.IO.C49_xmf' depends on axioms: [propext, Classical.choice, Quot.sound]
'PG.Run.C50_steps' depends on axioms: [propext, Classical.choice, Quot.sound]
'PG.Run.C50_schedule' depends on axioms: [propext, Classical.choice, Quot.sound]
'PG.Run.C50_abort' depends on axioms: [propext, Classical.choice, Quot.sound]
'PG.Run.C50_nothing_after' depends on axioms: [propext, Classical.choice, Quot.sound]
'PG.Run.C50_bad_restart_violated' does not depend on any axioms
'PG.Run.C51_check' depends on axioms: [propext, Classical.choice, Quot.sound]
'PG.Run.C51_no_wrap' depends on axioms: [propext, Classical.choice, Quot.sound]
'PG.Run.C52_agree' depends on axioms: [propext, Classical.choice, Quot.sound]
'PG.Run.C52_read_back' depends on axioms: [propext, Classical.choice, Quot.sound]
'PG.Run.C52_stage_time_violated' depends on axioms: [propext, Classical.choice, Quot.sound]
'PG.Setup.C53_getBlock_partial' depends on axioms: [propext, Quot.sound]
'PG.Setup.C53_getBlock_complete' depends on axioms: [propext, Classical.choice, Quot.sound]
'PG.Setup.C53_getBlock_violated' depends on axioms: [propext]
'PG.Setup.C53_append' depends on axioms: [propext, Classical.choice, Quot.sound]
'PG.Setup.C53_append_history' depends on axioms: [propext, Classical.choice, Quot.sound]
'PG.Setup.C53_append_numbering' depends on axioms: [propext, Classical.choice, Quot.sound]
'PG.Setup.C54_verify_partial' depends on axioms: [propext, Classical.choice, Quot.sound]
'PG.Setup.C54_normalize' depends on axioms: [propext, Classical.choice, Quot.sound]
'PG.Setup.C54_report_violated' depends on axioms: [propext, Classical.choice, Quot.sound]
'PG.Interp.C55_no_new_extrema' depends on axioms: [propext, Classical.choice, Quot.sound]
'PG.Interp.C55_uniform' depends on axioms: [propext, Classical.choice, Quot.sound]
'PG.Interp.C56_verbose' depends on axioms: [propext, Classical.choice, Quot.sound]
'PG.Interp.C56_normal' depends on axioms: [propext, Classical.choice, Quot.sound]
'PG.Interp.C56_empty' depends on axioms: [propext, Classical.choice, Quot.sound]
'PG.Interp.C56_hull_parallelepiped' depends on axioms: [propext, Classical.choice, Quot.sound]
'PG.Interp.C56_hull_corners' depends on axioms: [propext, Classical.choice, Quot.sound]
'PG.Sensor.C57_sponge_partial' depends on axioms: [propext, Classical.choice, Quot.sound]
'PG.Sensor.C57_violated' depends on axioms: [propext, Classical.choice, Quot.sound]
'PG.Sensor.C57_viscosity' depends on axioms: [propext, Classical.choice, Quot.sound]
'PG.Util.C58_ring_partial' depends on axioms: [propext, Classical.choice, Quot.sound]
'PG.Util.C58_copy_rotated' depends on axioms: [propext, Classical.choice, Quot.sound]
'PG.Util.C58_nodes_partial' depends on axioms: [propext, Classical.choice, Quot.sound]
'PG.Util.C58_one_block_wide_violated' depends on axioms: [propext, Classical.choice, Quot.sound]
'PG.Util.C58_translation_lost_violated' depends on axioms: [propext, Classical.choice, Quot.sound]
'PG.Util.C58_axis_violated' depends on axioms: [propext, Classical.choice, Quot.sound]
'PG.Util.C59_verify_iff_partial' depends on axioms: [propext, Classical.choice, Quot.sound]
'PG.Util.C59_stagnation_violated' depends on axioms: [propext, Classical.choice, Quot.sound]
'PG.Util.C59_reciprocal' depends on axioms: [propext, Classical.choice, Quot.sound]
'PG.Util.C59_reciprocity_violated' depends on axioms: [propext, Classical.choice, Quot.sound]
'PG.Flux.C60_kinetic_energy_identity' depends on axioms: [propext, Classical.choice, Quot.sound]
'PG.Flux.C60_members' depends on axioms: [propext, Classical.choice, Quot.sound]
'PG.Flux.C60_pressure_equilibrium' depends on axioms: [propext, Classical.choice, Quot.sound]
'PG.Diff.C61_rhs_uniform' depends on axioms: [propext, Classical.choice, Quot.sound]
'PG.Diff.C61_hot_cell_cools' depends on axioms: [propext, Classical.choice, Quot.sound]
'PG.Diff.C61_uniform_zero' depends on axioms: [propext, Classical.choice, Quot.sound]
'PG.Diff.C61_no_mass' depends on axioms: [propext, Classical.choice, Quot.sound]
'PG.Diff.C61_fick' depends on axioms: [propext, Classical.choice, Quot.sound]
'PG.Diff.C61_species_sum' depends on axioms: [propext, Classical.choice, Quot.sound]
'PG.Diff.C61_enthalpy_partial' depends on axioms: [propext, Classical.choice, Quot.sound]
'PG.Diff.C61_newton' depends on axioms: [propext, Classical.choice, Quot.sound]
'PG.Diff.C61_stress' depends on axioms: [propext, Classical.choice, Quot.sound]
'PG.Diff.C61_rigid' depends on axioms: [propext, Classical.choice, Quot.sound]
'PG.Diff.C61_work_partial' depends on axioms: [propext, Classical.choice, Quot.sound]
'PG.Diff.C61_work_violated' depends on axioms: [propext, Classical.choice, Quot.sound]
'PG.Diff.C61_galilean_violated' depends on axioms: [propext, Classical.choice, Quot.sound]
'PG.Diff.C61_fourier' depends on axioms: [propext, Classical.choice, Quot.sound]
'PG.Diff.C61_clamp_violated' depends on axioms: [propext, Classical.choice, Quot.sound]
'PG.Mesh.C62_linear_exact' depends on axioms: [propext, Classical.choice, Quot.sound]
'PG.Mesh.C62_constant' depends on axioms: [propext, Classical.choice, Quot.sound]
'PG.Time.C63_boundary_time_rk1_partial' depends on axioms: [propext, Classical.choice, Quot.sound]
'PG.Time.C63_boundary_time_violated' depends on axioms: [propext, Classical.choice, Quot.sound]
'PG.Dual.C64_solve' depends on axioms: [propext, Classical.choice, Quot.sound]
'PG.Dual.C64_unique' depends on axioms: [propext, Classical.choice, Quot.sound]
'PG.Dual.C64_cell' depends on axioms: [propext, Classical.choice, Quot.sound]
'PG.Dual.C64_refVel' depends on axioms: [propext, Classical.choice, Quot.sound]
'PG.Dual.C64_refVel_jump_violated' depends on axioms: [propext, Classical.choice, Quot.sound]
'PG.Thermo.C65_eos_partial' depends on axioms: [propext, Classical.choice, Quot.sound]
'PG.Thermo.C65_nan_violated' depends on axioms: [propext, Classical.choice, Quot.sound]
'PG.Thermo.C65_moles_violated' depends on axioms: [propext, Classical.choice, Quot.sound]
'PG.Thermo.C66_roundtrip' depends on axioms: [propext, Classical.choice, Quot.sound]
'PG.Thermo.C67_density_branch' depends on axioms: [propext, Classical.choice, Quot.sound]
'PG.Thermo.C67_cp_branch' depends on axioms: [propext, Classical.choice, Quot.sound]
'PG.Thermo.C67_attraction' depends on axioms: [propext, Classical.choice, Quot.sound]
'PG.Thermo.C67_Astar' depends on axioms: [propext, Classical.choice, Quot.sound]
'PG.Thermo.C67_root_derivative' depends on axioms: [propext, Classical.choice, Quot.sound]
'PG.Thermo.C67_density' depends on axioms: [propext, Classical.choice, Quot.sound]
'PG.Thermo.C67_gamma' depends on axioms: [propext, Classical.choice, Quot.sound]
'PG.Thermo.C67_cp' depends on axioms: [propext, Classical.choice, Quot.sound]
'PG.Run.C68_normal_speed_partial' depends on axioms: [propext, Classical.choice, Quot.sound]
'PG.Run.C68_violated' depends on axioms: [propext, Classical.choice, Quot.sound]
'PG.Run.C68_true_cfl_partial' depends on axioms: [propext, Classical.choice, Quot.sound]
'PG.Run.C68_true_cfl_violated' depends on axioms: [propext, Classical.choice, Quot.sound]
'PG.Time.C69_bdf2_exact' depends on axioms: [propext, Classical.choice, Quot.sound]
'PG.Time.C69_dQdt_interior_only' depends on axioms: [propext, Classical.choice, Quot.sound]
'PG.Time.C69_fixed_partial' depends on axioms: [propext, Classical.choice, Quot.sound]
'PG.Time.C69_converged_partial' depends on axioms: [propext, Classical.choice, Quot.sound]
'PG.Time.C69_time_violated' depends on axioms: [propext, Classical.choice, Quot.sound]
'PG.Dual.C70_jacobian' depends on axioms: [propext, Classical.choice, Quot.sound]
'PG.Thermo.C71_cpg_prims' depends on axioms: [propext, Classical.choice, Quot.sound]
'PG.Thermo.C71_cpg_cons' depends on axioms: [propext, Classical.choice, Quot.sound]
'PG.Thermo.C71_tpg_prims' depends on axioms: [propext, Classical.choice, Quot.sound]
'PG.Thermo.C71_cubic_prims' depends on axioms: [propext, Classical.choice, Quot.sound]
'PG.BC.C72_massFlux_state' depends on axioms: [propext, Classical.choice, Quot.sound]
'PG.BC.C72_massFlux_KEEP_partial' depends on axioms: [propext, Classical.choice, Quot.sound]
'PG.BC.C72_rusanov_violated' depends on axioms: [propext, Classical.choice, Quot.sound]
'PG.BC.C72_prescribed' depends on axioms: [propext, Classical.choice, Quot.sound]
'PG.BC.C72_species' depends on axioms: [propext, Classical.choice, Quot.sound]
'PG.BC.C73_stagnation_partial' depends on axioms: [propext, Classical.choice, Quot.sound]
'PG.BC.C73_fixed_point' depends on axioms: [propext, Classical.choice, Quot.sound]
'PG.BC.C73_jk_faces_violated' depends on axioms: [propext, Classical.choice, Quot.sound]
'PG.BC.C73_high_face_violated' depends on axioms: [propext, Classical.choice, Quot.sound]
'PG.BC.C74_pressureExit' depends on axioms: [propext, Classical.choice, Quot.sound]
'PG.BC.C74_superExit_partial' depends on axioms: [propext, Classical.choice, Quot.sound]
'PG.BC.C74_species' depends on axioms: [propext, Classical.choice, Quot.sound]
'PG.BC.C74_superExit_violated' depends on axioms: [propext, Classical.choice, Quot.sound]
'PG.BC.C75_spline_partial' depends on axioms: [propext, Classical.choice, Quot.sound]
'PG.BC.C75_periodic' depends on axioms: [propext, Classical.choice, Quot.sound]
'PG.BC.C75_frame' depends on axioms: [propext, Classical.choice, Quot.sound]
'PG.BC.C75_last_row_violated' depends on axioms: [propext, Classical.choice, Quot.sound]
'PG.BC.C75_profile' depends on axioms: [propext, Classical.choice, Quot.sound]
'PG.BC.C75_fill' depends on axioms: [propext, Classical.choice, Quot.sound]
'PG.Diff.C76_linear_exact' depends on axioms: [propext, Classical.choice, Quot.sound]
'PG.Diff.C76_reversal' depends on axioms: [propext, Classical.choice, Quot.sound]
'PG.Diff.C76_damps_jumps' depends on axioms: [propext, Classical.choice, Quot.sound]
'PG.Diff.C76_two_point_partial' depends on axioms: [propext, Classical.choice, Quot.sound]
'PG.Diff.C76_frame_violated' depends on axioms: [propext, Classical.choice, Quot.sound]
'PG.Trans.C77_chung' depends on axioms: [propext, Classical.choice, Quot.sound]
'PG.Trans.C77_pure_violated' depends on axioms: [propext, Classical.choice, Quot.sound]
'PG.Trans.C77_constantProps' depends on axioms: [propext, Classical.choice, Quot.sound]
'PG.Trans.C77_kinetic_partial' depends on axioms: [propext, Classical.choice, Quot.sound]
'PG.Trans.C77_unityLewis_partial' depends on axioms: [propext, Classical.choice, Quot.sound]
'PG.Trans.C77_accumulation_violated' depends on axioms: [propext, Classical.choice, Quot.sound]
'PG.Trans.C78_unityLewis_violated' depends on axioms: [propext, Classical.choice, Quot.sound]
'PG.Trans.C78_chung_kappa' depends on axioms: [propext, Classical.choice, Quot.sound]
'PG.Trans.C78_chung_mu_partial' depends on axioms: [propext, Classical.choice, Quot.sound]
'PG.Trans.C78_chung_mu_violated' depends on axioms: [propext, Classical.choice, Quot.sound]
'PG.Trans.C78_wilke' depends on axioms: [propext, Classical.choice, Quot.sound]
'PG.Trans.C78_moleFrac' depends on axioms: [propext, Classical.choice, Quot.sound]
'PG.Trans.C78_kappa_bounds' depends on axioms: [propext, Classical.choice, Quot.sound]
'PG.Trans.C78_mu_bounds' depends on axioms: [propext, Classical.choice, Quot.sound]
'PG.Trans.C78_pure' depends on axioms: [propext, Classical.choice, Quot.sound]
'PG.Trans.C78_unit_lewis' depends on axioms: [propext, Classical.choice, Quot.sound]
'PG.Trans.C78_packed_index' depends on axioms: [propext, Classical.choice, Quot.sound]
'PG.Trans.C78_diffusion' depends on axioms: [propext, Classical.choice, Quot.sound]
'PG.Subgrid.C79_smagorinsky' depends on axioms: [propext, Classical.choice, Quot.sound]
'PG.Subgrid.C79_mixedScale' depends on axioms: [propext, Classical.choice, Quot.sound]
'PG.Subgrid.C79_added' depends on axioms: [propext, Classical.choice, Quot.sound]
'PG.Subgrid.C79_dissipative' depends on axioms: [propext, Classical.choice, Quot.sound]
'PG.Subgrid.C79_rigid' depends on axioms: [propext, Classical.choice, Quot.sound]
'PG.Subgrid.C79_mixed_zero' depends on axioms: [propext, Classical.choice, Quot.sound]
'PG.Subgrid.C79_galilean' depends on axioms: [propext, Classical.choice, Quot.sound]
'PG.Subgrid.C79_rotation' depends on axioms: [propext, Classical.choice, Quot.sound]
'PG.Subgrid.C79_covers_diffusion' depends on axioms: [propext, Classical.choice, Quot.sound]
'PG.Subgrid.C79_once' depends on axioms: [propext, Classical.choice, Quot.sound]
'PG.Grid.C80_cylindrical_partial' depends on axioms: [propext, Classical.choice, Quot.sound]
'PG.Grid.C80_closed_partial' depends on axioms: [propext, Classical.choice, Quot.sound]
'PG.Grid.C80_connections' depends on axioms: [propext, Classical.choice, Quot.sound]
'PG.Grid.C80_axial_violated' depends on axioms: [propext, Classical.choice, Quot.sound]
'PG.Chem.C81_elements' depends on axioms: [propext, Classical.choice, Quot.sound]
'PG.Chem.C81_mass' depends on axioms: [propext, Classical.choice, Quot.sound]
'PG.Chem.C81_inert' depends on axioms: [propext, Classical.choice, Quot.sound]
'PG.Chem.C82_sources' depends on axioms: [propext, Classical.choice, Quot.sound]
'PG.Chem.C82_equilibrium_constant' depends on axioms: [propext, Classical.choice, Quot.sound]
'PG.Chem.C82_second_law' depends on axioms: [propext, Classical.choice, Quot.sound]
'PG.Chem.C82_irreversible' depends on axioms: [propext, Classical.choice, Quot.sound]
'PG.Chem.C82_gibbs_decreases' depends on axioms: [propext, Classical.choice, Quot.sound]
'PG.Chem.C82_equilibrium' depends on axioms: [propext, Classical.choice, Quot.sound]
'PG.Chem.C83_absent_not_consumed' depends on axioms: [propext, Classical.choice, Quot.sound]
'PG.Chem.C83_short_step' depends on axioms: [propext, Classical.choice, Quot.sound]
'PG.Chem.C84_rates_on_simplex' depends on axioms: [propext, Classical.choice, Quot.sound]
'PG.Chem.C84_lands' depends on axioms: [propext, Classical.choice, Quot.sound]
'PG.Chem.C84_one_step' depends on axioms: [propext, Classical.choice, Quot.sound]
'PG.Chem.C84_plain' depends on axioms: [propext, Classical.choice, Quot.sound]
'PG.Chem.C84_frozen' depends on axioms: [propext, Classical.choice, Quot.sound]
'PG.Chem.C84_sum_one' depends on axioms: [propext, Classical.choice, Quot.sound]
'PG.Chem.C84_invariant' depends on axioms: [propext, Classical.choice, Quot.sound]
'PG.Chem.C84_short_step' depends on axioms: [propext, Classical.choice, Quot.sound]
'PG.Chem.C84_temperature_partial' depends on axioms: [propext, Classical.choice, Quot.sound]
'PG.Chem.C84_temperature_violated' depends on axioms: [propext, Classical.choice, Quot.sound]
'PG.Chem.C84_elements' depends on axioms: [propext, Classical.choice, Quot.sound]
'PG.Chem.C85_lindemann' depends on axioms: [propext, Classical.choice, Quot.sound]
'PG.Chem.C85_troe' depends on axioms: [propext, Classical.choice, Quot.sound]
'PG.Halo.C86_one_exchange' depends on axioms: [propext, Classical.choice, Quot.sound]
'PG.Halo.C86_field' depends on axioms: [propext, Classical.choice, Quot.sound]
'PG.Halo.C86_three_suffice' depends on axioms: [propext, Classical.choice, Quot.sound]
'PG.Halo.C87_face_partial' depends on axioms: [propext, Classical.choice, Quot.sound]
'PG.Halo.C87_box_partial' depends on axioms: [propext, Classical.choice, Quot.sound]
'PG.Halo.C87_thin_violated' depends on axioms: [propext, Classical.choice, Quot.sound]
'PG.BC.C88_accept' depends on axioms: [propext, Classical.choice, Quot.sound]
'PG.BC.C88_types' depends on axioms: [propext, Classical.choice, Quot.sound]
'PG.BC.C88_values' depends on axioms: [propext, Classical.choice, Quot.sound]
'PG.BC.C88_two_pass' depends on axioms: [propext, Classical.choice, Quot.sound]
'PG.BC.C88_isothermal' depends on axioms: [propext, Classical.choice, Quot.sound]
'PG.BC.C88_inlet' depends on axioms: [propext, Classical.choice, Quot.sound]
'PG.BC.C88_massFlux' depends on axioms: [propext, Classical.choice, Quot.sound]
'PG.BC.C88_complete_partial' depends on axioms: [propext, Classical.choice, Quot.sound]
'PG.BC.C88_needs_violated' depends on axioms: [propext, Classical.choice, Quot.sound]
'PG.Trace.C89_history_partial' depends on axioms: [propext, Classical.choice, Quot.sound]
'PG.Trace.C89_columns_partial' depends on axioms: [propext, Classical.choice, Quot.sound]
'PG.Trace.C89_once_partial' depends on axioms: [propext, Classical.choice, Quot.sound]
'PG.Trace.C89_import_violated' depends on axioms: [propext, Classical.choice, Quot.sound]
'PG.Trace.C90_line_single' depends on axioms: [propext, Classical.choice, Quot.sound]
'PG.Trace.C90_line' depends on axioms: [propext, Classical.choice, Quot.sound]
'PG.Trace.C90_plane_partial' depends on axioms: [propext, Classical.choice, Quot.sound]
'PG.Trace.C90_plane_violated' depends on axioms: [propext, Classical.choice, Quot.sound]
'PG.Trace.C90_nearest' depends on axioms: [propext, Classical.choice, Quot.sound]
'PG.Trace.C90_rows' depends on axioms: [propext, Classical.choice, Quot.sound]
'PG.Whole.C91_edge_violated' depends on axioms: [propext, Classical.choice, Quot.sound]
'PG.Whole.C91_thin_violated' depends on axioms: [propext, Classical.choice, Quot.sound]
'PG.Whole.C91_decomposition_partial' depends on axioms: [propext, Classical.choice, Quot.sound]
'PG.Whole.C91_two_decompositions_partial' depends on axioms: [propext, Classical.choice, Quot.sound]
'PG.Whole.C91_rank_distribution' depends on axioms: [propext, Classical.choice, Quot.sound]
'PG.Dual.C92_positive' depends on axioms: [propext, Classical.choice, Quot.sound]
'PG.Dual.C92_finite_partial' depends on axioms: [propext, Classical.choice, Quot.sound]
'PG.Dual.C92_single_cell_violated' depends on axioms: [propext, Classical.choice, Quot.sound]
'PG.Dual.C92_viscous' depends on axioms: [propext, Classical.choice, Quot.sound]
'PG.Dual.C92_convective_partial' depends on axioms: [propext, Classical.choice, Quot.sound]
'PG.Dual.C92_convective_aligned' depends on axioms: [propext, Classical.choice, Quot.sound]
'PG.Dual.C92_convective_violated' depends on axioms: [propext, Classical.choice, Quot.sound]
'PG.Dual.C92_frame_violated' depends on axioms: [propext, Classical.choice, Quot.sound]
'PG.Dual.C92_scaling' depends on axioms: [propext, Classical.choice, Quot.sound]
'PG.Whole.C93_same_face' depends on axioms: [propext, Classical.choice, Quot.sound]
'PG.Whole.C93_balance' depends on axioms: [propext, Classical.choice, Quot.sound]
'PG.Whole.C93_closed' depends on axioms: [propext, Classical.choice, Quot.sound]
'PG.Whole.C93_run' depends on axioms: [propext, Classical.choice, Quot.sound]
'PG.Whole.C93_rk1_budget' depends on axioms: [propext, Classical.choice, Quot.sound]
'PG.Whole.C93_grid_fits' depends on axioms: [propext, Classical.choice, Quot.sound]
'PG.Whole.C93_hybrid_violated' depends on axioms: [propext, Classical.choice, Quot.sound]
'PG.Whole.C93_solver_partial' depends on axioms: [propext, Classical.choice, Quot.sound]
'PG.Whole.C93_case_partial' depends on axioms: [propext, Classical.choice, Quot.sound]
'PG.Gen.C94_three_parameter_troe_violated' depends on axioms: [propext, Classical.choice, Quot.sound]
'PG.Gen.C94_no_net_change_violated' depends on axioms: [propext, Classical.choice, Quot.sound]
'PG.Gen.C94_negative_factor_violated' depends on axioms: [propext, Classical.choice, Quot.sound]
'PG.Gen.C94_orders_violated' depends on axioms: [propext, Classical.choice, Quot.sound]
'PG.Gen.C94_source_partial' depends on axioms: [propext, Classical.choice, Quot.sound]
'PG.Gen.C94_produces' depends on axioms: [propext, Classical.choice, Quot.sound]
'PG.Gen.C94_refuses' depends on axioms: [propext, Classical.choice, Quot.sound]
'PG.Gen.C94_conserves' depends on axioms: [propext, Classical.choice, Quot.sound]
'PG.Config.C95_round_trip' depends on axioms: [propext, Classical.choice, Quot.sound]
'PG.Config.C95_plain_number_partial' depends on axioms: [propext, Classical.choice, Quot.sound]
'PG.Config.C95_time_step' depends on axioms: [propext, Classical.choice, Quot.sound]
'PG.Config.C95_notation_violated' depends on axioms: [propext, Classical.choice, Quot.sound]
'PG.Config.C96_values' depends on axioms: [propext, Classical.choice, Quot.sound]
'PG.Config.C96_missing' depends on axioms: [propext, Classical.choice, Quot.sound]
'PG.Config.C96_search' depends on axioms: [propext, Classical.choice, Quot.sound]
'PG.Config.C96_names' depends on axioms: [propext, Quot.sound]
'PG.Config.C96_empty_value_violated' depends on axioms: [propext, Classical.choice, Quot.sound]
'PG.Config.C96_notation_violated' depends on axioms: [propext, Classical.choice, Quot.sound]
'PG.Util.Channel.C97_wall_normal_partial' depends on axioms: [propext, Classical.choice, Quot.sound]
'PG.Util.Channel.C97_growth_partial' depends on axioms: [propext, Classical.choice, Quot.sound]
'PG.Util.Channel.C97_ends' depends on axioms: [propext, Classical.choice, Quot.sound]
'PG.Util.Channel.C97_height_violated' depends on axioms: [propext, Classical.choice, Quot.sound]
'PG.Util.Channel.C97_units_violated' depends on axioms: [propext, Classical.choice, Quot.sound]
'PG.Util.Channel.C97_resolution_violated' depends on axioms: [propext, Classical.choice, Quot.sound]
'PG.Util.Channel.C97_buffer_violated' depends on axioms: [propext, Classical.choice, Quot.sound]
'PG.Util.GridPro.C98_faces_partial' depends on axioms: [propext, Classical.choice, Quot.sound]
'PG.Util.GridPro.C98_coordinates' depends on axioms: [propext, Classical.choice, Quot.sound]
'PG.Util.GridPro.C98_binary' depends on axioms: [propext, Classical.choice, Quot.sound]
'PG.Util.GridPro.C98_periodic' depends on axioms: [propext, Classical.choice, Quot.sound]
'PG.Util.GridPro.C98_pair' depends on axioms: [propext, Classical.choice, Quot.sound]
'PG.Util.GridPro.C98_unverified_violated' depends on axioms: [propext, Classical.choice, Quot.sound]
'PG.Util.GridPro.C98_strip_violated' depends on axioms: [propext, Classical.choice, Quot.sound]
'PG.Util.GridPro.C98_periodic_family_violated' depends on axioms: [propext, Classical.choice, Quot.sound]
'PG.Util.GridPro.C98_face_data' depends on axioms: [propext, Classical.choice, Quot.sound]
'PG.Util.Icem.C99_topology_partial' depends on axioms: [propext, Classical.choice, Quot.sound]
'PG.Util.Icem.C99_both_sides' depends on axioms: [propext, Classical.choice, Quot.sound]
'PG.Util.Icem.C99_coordinates' depends on axioms: [propext, Classical.choice, Quot.sound]
'PG.Util.Icem.C99_dimensions' depends on axioms: [propext, Classical.choice, Quot.sound]
'PG.Util.Icem.C99_periodic_violated' depends on axioms: [propext, Classical.choice, Quot.sound]
'PG.Util.Icem.C99_types_violated' depends on axioms: [propext, Classical.choice, Quot.sound]
'PG.Util.Icem.C99_unverified_violated' depends on axioms: [propext, Classical.choice, Quot.sound]
'PG.Par.C100_schedule_independent' depends on axioms: [propext, Classical.choice, Quot.sound]
'PG.Par.C100_terminates' depends on axioms: [propext, Classical.choice, Quot.sound]
'PG.Par.C100_applyFlux' depends on axioms: [propext, Classical.choice, Quot.sound]
'PG.Par.C100_shared_write_differs' depends on axioms: [propext, Classical.choice, Quot.sound]
'PG.Par.C100_cfl' depends on axioms: [propext, Classical.choice, Quot.sound]
'PG.Par.C100_nan' depends on axioms: [propext, Classical.choice, Quot.sound]
'PG.Par.C100_residual' depends on axioms: [propext, Classical.choice, Quot.sound]
'PG.Par.C101_residual' depends on axioms: [propext, Classical.choice, Quot.sound]
'PG.Par.C101_max_on_rank' depends on axioms: [propext, Classical.choice, Quot.sound]
'PG.Par.C101_max_violated' depends on axioms: [propext, Classical.choice, Quot.sound]
'PG.Chem.Red22.C102_drains' depends on axioms: [propext, Classical.choice, Quot.sound]
'PG.Chem.Red22.C102_fuel_only_violated' depends on axioms: [propext, Classical.choice, Quot.sound]
'PG.Chem.Red22.C102_cell_partial' depends on axioms: [propext, Classical.choice, Quot.sound]
'PG.Chem.Red22.C102_quasi_steady_partial' depends on axioms: [propext, Classical.choice, Quot.sound]
'PG.Chem.Red22.C102_unique' depends on axioms: [propext, Classical.choice, Quot.sound]
'PG.Chem.Red22.C102_elements_partial' depends on axioms: [propext, Classical.choice, Quot.sound]
'PG.Chem.Red22.C102_mass_partial' depends on axioms: [propext, Classical.choice, Quot.sound]
'PG.Chem.Red22.C103_concentrations' depends on axioms: [propext, Classical.choice, Quot.sound]
'PG.Chem.Red22.C103_third_body' depends on axioms: [propext, Classical.choice, Quot.sound]
'PG.Chem.Red22.C103_lindemann' depends on axioms: [propext, Classical.choice, Quot.sound]
'PG.Chem.Red22.C103_troe' depends on axioms: [propext, Classical.choice, Quot.sound]
'PG.Chem.Red22.C103_sources' depends on axioms: [propext, Classical.choice, Quot.sound]
'PG.Chem.Red22.C103_mass_action' depends on axioms: [propext, Classical.choice, Quot.sound]
'PG.Chem.Red22.C103_equilibrium' depends on axioms: [propext, Classical.choice, Quot.sound]
'PG.Chem.Red22.C103_absent_not_consumed' depends on axioms: [propext, Classical.choice, Quot.sound]
'PG.Trans.KT.C104_symmetric' depends on axioms: [propext, Classical.choice, Quot.sound]
'PG.Trans.KT.C104_pairs_partial' depends on axioms: [propext, Classical.choice, Quot.sound]
'PG.Trans.KT.C104_order_iff' depends on axioms: [propext, Classical.choice, Quot.sound]
'PG.Trans.KT.C104_order_violated' depends on axioms: [propext, Classical.choice, Quot.sound]
'PG.Trans.KT.C104_viscosity' depends on axioms: [propext, Classical.choice, Quot.sound]
'PG.Trans.KT.C104_diffusion' depends on axioms: [propext, Classical.choice, Quot.sound]
'PG.Trans.KT.C104_fint' depends on axioms: [propext, Classical.choice, Quot.sound]
'PG.Trans.KT.C104_geometry' depends on axioms: [propext, Classical.choice, Quot.sound]
'PG.Trans.KT.C104_conductivity_partial' depends on axioms: [propext, Classical.choice, Quot.sound]
'PG.Trans.KT.C104_cpg_violated' depends on axioms: [propext, Classical.choice, Quot.sound]
'PG.Trans.KT.C104_monatomic' depends on axioms: [propext, Classical.choice, Quot.sound]
'PG.Trans.KT.C104_conductivity_positive' depends on axioms: [propext, Classical.choice, Quot.sound]
'PG.Trans.KT.C105_unique' depends on axioms: [propext, Classical.choice, Quot.sound]
'PG.Trans.KT.C105_samples' depends on axioms: [propext, Classical.choice, Quot.sound]
'PG.Trans.KT.C105_rows' depends on axioms: [propext, Classical.choice, Quot.sound]
'PG.Trans.KT.C105_exact' depends on axioms: [propext, Classical.choice, Quot.sound]
'PG.Trans.KT.C105_mixture' depends on axioms: [propext, Classical.choice, Quot.sound]
'PG.IO.C106_restart' depends on axioms: [propext, Classical.choice, Quot.sound]
'PG.IO.C106_update' depends on axioms: [propext, Classical.choice, Quot.sound]
'PG.IO.C106_run' depends on axioms: [propext, Classical.choice, Quot.sound]
'PG.IO.C106_run_array' depends on axioms: [propext, Classical.choice, Quot.sound]
'PG.IO.C106_array_partial' depends on axioms: [propext, Classical.choice, Quot.sound]
'PG.IO.C106_time_violated' depends on axioms: [propext, Classical.choice, Quot.sound]
'PG.IO.C106_grid' depends on axioms: [propext, Classical.choice, Quot.sound]
'PG.IO.C106_coordinates' depends on axioms: [propext, Classical.choice, Quot.sound]
'PG.Mem.C107_run_partial' depends on axioms: [propext, Classical.choice, Quot.sound]
'PG.Mem.C107_state' depends on axioms: [propext, Classical.choice, Quot.sound]
'PG.Mem.C107_serial_partial' depends on axioms: [propext, Classical.choice, Quot.sound]
'PG.Mem.C107_kernel_writes' depends on axioms: [propext]
'PG.Mem.C107_kernel_reads' depends on axioms: [propext]
'PG.Mem.C107_strang_violated' depends on axioms: [propext, Classical.choice, Quot.sound]
'PG.Mem.C107_serial_violated' depends on axioms: [propext, Classical.choice, Quot.sound]
'PG.IO.C108_overwrite_violated' depends on axioms: [propext, Classical.choice, Quot.sound]
'PG.IO.C108_mixed_violated' depends on axioms: [propext, Classical.choice, Quot.sound]
'PG.IO.C108_levels_violated' depends on axioms: [propext, Classical.choice, Quot.sound]
'PG.IO.C108_missing_level_violated' depends on axioms: [propext, Classical.choice, Quot.sound]
'PG.IO.C108_numbered_partial' depends on axioms: [propext, Classical.choice, Quot.sound]
'PG.IO.C108_resume_partial' depends on axioms: [propext, Classical.choice, Quot.sound]
'PG.IO.C108_progress' depends on axioms: [propext, Classical.choice, Quot.sound]
'PG.IO.C108_all_done_partial' depends on axioms: [propext, Classical.choice, Quot.sound]
'PG.Whole.C109_inlet_time_violated' depends on axioms: [propext, Classical.choice, Quot.sound]
'PG.Whole.C109_round_trip_violated' depends on axioms: [propext, Classical.choice, Quot.sound]
'PG.Whole.C109_cpg_partial' depends on axioms: [propext, Classical.choice, Quot.sound]
'PG.Whole.C109_restarts_partial' depends on axioms: [propext, Classical.choice, Quot.sound]
'PG.Whole.C110_rigid_motion_partial' depends on axioms: [propext, Classical.choice, Quot.sound]
'PG.Whole.C110_quarter_turns' depends on axioms: [propext, Classical.choice, Quot.sound]
'PG.Whole.C110_muscl_violated' depends on axioms: [propext, Classical.choice, Quot.sound]
'PG.Whole.C110_alphaDamping_violated' depends on axioms: [propext, Classical.choice, Quot.sound]
'PG.Whole.C110_speed_violated' depends on axioms: [propext, Classical.choice, Quot.sound]
'PG.Comm.Job.C111_same_collectives' depends on axioms: [propext, Classical.choice, Quot.sound]
'PG.Comm.Job.C111_no_deadlock_partial' depends on axioms: [propext, Classical.choice, Quot.sound]
'PG.Comm.Job.C111_completes_partial' depends on axioms: [propext, Classical.choice, Quot.sound]
'PG.Comm.Job.C111_messages' depends on axioms: [propext, Classical.choice, Quot.sound]
'PG.Comm.Job.C111_exception_violated' depends on axioms: [propext, Classical.choice, Quot.sound]
'PG.Comm.Job.C111_mixed_restart_violated' depends on axioms: [propext, Classical.choice, Quot.sound]
'PG.Interp.C112_utility_violated' depends on axioms: [propext, Classical.choice, Quot.sound]
'PG.Interp.C112_values_partial' depends on axioms: [propext, Classical.choice, Quot.sound]
'PG.Interp.C112_exact' depends on axioms: [propext, Classical.choice, Quot.sound]
'PG.Interp.C112_outside' depends on axioms: [propext, Classical.choice, Quot.sound]
'PG.Interp.C112_listing_violated' depends on axioms: [propext, Classical.choice, Quot.sound]
'PG.Interp.C112_mixed_lump_violated' depends on axioms: [propext, Classical.choice, Quot.sound]
'PG.Interp.C112_reads_partial' depends on axioms: [propext, Classical.choice, Quot.sound]
'PG.Safe.C113_exact_partial' depends on axioms: [propext, Classical.choice, Quot.sound]
'PG.Safe.C113_files' depends on axioms: [propext, Classical.choice, Quot.sound]
'PG.Safe.C113_program_partial' depends on axioms: [propext, Classical.choice, Quot.sound]
'PG.Safe.C113_mechanism_violated' depends on axioms: [propext, Classical.choice, Quot.sound]
'PG.Safe.C113_split_violated' depends on axioms: [propext, Classical.choice, Quot.sound]
'PG.Safe.C113_missing_file_violated' depends on axioms: [propext, Classical.choice, Quot.sound]
'PG.Safe.C113_three_layers_violated' depends on axioms: [propext, Classical.choice, Quot.sound]
'PG.Safe.Src.C113_source_faces' depends on axioms: [propext, Classical.choice, Quot.sound]
'PG.Safe.Src.C113_source' depends on axioms: [propext, Classical.choice, Quot.sound]
'PG.Safe.Src.C113_source_complete' depends on axioms: [propext, Classical.choice, Quot.sound]
'PG.Util.Load.C114_total_partial' depends on axioms: [propext, Classical.choice, Quot.sound]
'PG.Util.Load.C114_total_violated' depends on axioms: [propext, Quot.sound]
'PG.Util.Load.C114_load_partial' depends on axioms: [propext, Classical.choice, Quot.sound]
'PG.Util.Load.C114_load_violated' depends on axioms: [propext, Classical.choice, Quot.sound]
'PG.Text.C115_muscl2rusanov_partial' depends on axioms: [propext, Classical.choice, Quot.sound]
'PG.Text.C115_muscl2hllc_partial' depends on axioms: [propext, Classical.choice, Quot.sound]
'PG.Text.C115_KEEP' depends on axioms: [propext, Classical.choice, Quot.sound]
'PG.Text.C115_KEEPpe' depends on axioms: [propext, Classical.choice, Quot.sound]
'PG.Text.C115_KEPaEC' depends on axioms: [propext, Classical.choice, Quot.sound]
'PG.Text.C115_centralDifference' depends on axioms: [propext, Classical.choice, Quot.sound]
'PG.Text.C115_rusanov' depends on axioms: [propext, Classical.choice, Quot.sound]
'PG.Text.C115_hllc' depends on axioms: [propext, Classical.choice, Quot.sound]
'PG.Text.C115_scalarDissipation_partial' depends on axioms: [propext, Classical.choice, Quot.sound]
'PG.Text.C115_scalarDissipation_violated' depends on axioms: [propext, Classical.choice, Quot.sound]
'PG.Text.C115_fourthOrderKEEP' depends on axioms: [propext, Classical.choice, Quot.sound]
'PG.Text.StageP.C116_rk2s1' depends on axioms: [propext, Classical.choice, Quot.sound]
'PG.Text.StageP.C116_rk2s2' depends on axioms: [propext, Classical.choice, Quot.sound]
'PG.Text.StageP.C116_rk3s1' depends on axioms: [propext, Classical.choice, Quot.sound]
'PG.Text.StageP.C116_rk3s2' depends on axioms: [propext, Classical.choice, Quot.sound]
'PG.Text.StageP.C116_rk3s3' depends on axioms: [propext, Classical.choice, Quot.sound]
'PG.Text.StageP.C116_rk34s1' depends on axioms: [propext, Classical.choice, Quot.sound]
'PG.Text.StageP.C116_rk34s2' depends on axioms: [propext, Classical.choice, Quot.sound]
'PG.Text.StageP.C116_rk34s3' depends on axioms: [propext, Classical.choice, Quot.sound]
'PG.Text.StageP.C116_rk34s4' depends on axioms: [propext, Classical.choice, Quot.sound]
'PG.Text.StageP.C116_rk4s1' depends on axioms: [propext, Classical.choice, Quot.sound]
'PG.Text.StageP.C116_rk4s2' depends on axioms: [propext, Classical.choice, Quot.sound]
'PG.Text.StageP.C116_rk4s3' depends on axioms: [propext, Classical.choice, Quot.sound]
'PG.Text.StageP.C116_rk4s4' depends on axioms: [propext, Classical.choice, Quot.sound]
'PG.Text.StageP.C116_corrector' depends on axioms: [propext, Classical.choice, Quot.sound]
'PG.Text.StageP.C116_dQdt' depends on axioms: [propext, Classical.choice, Quot.sound]
'PG.Text.StageP.C116_DTrk3s1' depends on axioms: [propext, Classical.choice, Quot.sound]
'PG.Text.StageP.C116_DTrk3s2' depends on axioms: [propext, Classical.choice, Quot.sound]
'PG.Text.StageP.C116_DTrk3s3' depends on axioms: [propext, Classical.choice, Quot.sound]
'PG.Text.C117_diffusiveFlux' depends on axioms: [propext, Classical.choice, Quot.sound]
'PG.Text.C117_alphaDampingFlux' depends on axioms: [propext, Classical.choice, Quot.sound]
'PG.Text.C117_nonvacuous' depends on axioms: [propext, Classical.choice, Quot.sound]
'PG.Text.CellP.C118_applyFlux' depends on axioms: [propext, Classical.choice, Quot.sound]
'PG.Text.CellP.C118_applyDissipationFlux' depends on axioms: [propext, Classical.choice, Quot.sound]
'PG.Text.CellP.C118_applyHybridFlux' depends on axioms: [propext, Classical.choice, Quot.sound]
'PG.Text.CellP.C118_dq2FD' depends on axioms: [propext, Classical.choice, Quot.sound]
'PG.Text.CellP.C118_dq4FD' depends on axioms: [propext, Classical.choice, Quot.sound]
'PG.Text.CellP.C118_jamesonPressure' depends on axioms: [propext, Classical.choice, Quot.sound]
'PG.Text.CellP.C118_vanAlbadaPressure' depends on axioms: [propext, Classical.choice, Quot.sound]
'PG.Text.CellP.C118_vanLeer' depends on axioms: [propext, Classical.choice, Quot.sound]
'PG.Text.CellP.C118_viscousSponge' depends on axioms: [propext, Classical.choice, Quot.sound]
'PG.Text.ThermoP.C119_prims' depends on axioms: [propext, Classical.choice, Quot.sound]
'PG.Text.ThermoP.C119_cons' depends on axioms: [propext, Classical.choice, Quot.sound]
'PG.Text.ThermoP.C119_local' depends on axioms: [propext, Classical.choice, Quot.sound] 