{
"Hydrax.ad_forward_exact": [
"propext",
"Classical.choice",
"Quot.sound"
],
"Hydrax.ad_grad_exact": [
"propext",
"Classical.choice",
"Quot.sound"
],
"Hydrax.ad_max_tie": [
"propext",
"Classical.choice",
"Quot.sound"
],
"Hydrax.ad_reverse_transpose": [
"propext",
"Classical.choice",
"Quot.sound"
],
"Hydrax.affine_energy_grows": [
"propext",
"Classical.choice",
"Quot.sound"
],
"Hydrax.affine_field_reproduced": [
"propext",
"Classical.choice",
"Quot.sound"
],
"Hydrax.affine_gradient_reproduced": [
"propext",
"Classical.choice",
"Quot.sound"
],
"Hydrax.aflip_affine_motion_kept": [
"propext",
"Classical.choice",
"Quot.sound"
],
"Hydrax.aflip_affine_roundtrip_partial": [
"propext",
"Classical.choice",
"Quot.sound"
],
"Hydrax.aflip_affine_swapped": [
"propext",
"Classical.choice",
"Quot.sound"
],
"Hydrax.aflip_alpha_blend": [
"propext",
"Classical.choice",
"Quot.sound"
],
"Hydrax.aflip_call_domain": [
"propext",
"Classical.choice",
"Quot.sound"
],
"Hydrax.aflip_call_split_partial": [
"propext",
"Classical.choice",
"Quot.sound"
],
"Hydrax.aflip_deformation_follows": [
"propext",
"Classical.choice",
"Quot.sound"
],
"Hydrax.aflip_displacement_fails": [
"propext",
"Classical.choice",
"Quot.sound"
],
"Hydrax.aflip_dynamic_split_fails": [
"propext",
"Classical.choice",
"Quot.sound"
],
"Hydrax.aflip_fall_fails": [
"propext",
"Classical.choice",
"Quot.sound"
],
"Hydrax.aflip_fall_step": [
"propext",
"Classical.choice",
"Quot.sound"
],
"Hydrax.aflip_first_step_energy": [
"propext",
"Classical.choice",
"Quot.sound"
],
"Hydrax.aflip_free_fall_partial": [
"propext",
"Classical.choice",
"Quot.sound"
],
"Hydrax.aflip_g2p_angular_fails": [
"propext",
"Classical.choice",
"Quot.sound"
],
"Hydrax.aflip_g2p_angular_partial": [
"propext",
"Classical.choice",
"Quot.sound"
],
"Hydrax.aflip_galilean_partial": [
"propext",
"Classical.choice",
"Quot.sound"
],
"Hydrax.aflip_galilean_run_partial": [
"propext",
"Classical.choice",
"Quot.sound"
],
"Hydrax.aflip_given_force_ignored": [
"propext",
"Classical.choice",
"Quot.sound"
],
"Hydrax.aflip_index_error": [
"propext",
"Classical.choice",
"Quot.sound"
],
"Hydrax.aflip_limit_not_galilean": [
"propext",
"Classical.choice",
"Quot.sound"
],
"Hydrax.aflip_mass_unit_counterexample": [
"propext",
"Classical.choice",
"Quot.sound"
],
"Hydrax.aflip_momentum_fails_dynamic": [
"propext",
"Classical.choice",
"Quot.sound"
],
"Hydrax.aflip_momentum_fails_limit": [
"propext",
"Classical.choice",
"Quot.sound"
],
"Hydrax.aflip_p2g_angular_momentum": [
"propext",
"Classical.choice",
"Quot.sound"
],
"Hydrax.aflip_p2g_conserves": [
"propext",
"Classical.choice",
"Quot.sound"
],
"Hydrax.aflip_point_damping_ignored": [
"propext",
"Classical.choice",
"Quot.sound"
],
"Hydrax.aflip_point_force_impulse_partial": [
"propext",
"Classical.choice",
"Quot.sound"
],
"Hydrax.aflip_run_domain": [
"propext",
"Classical.choice",
"Quot.sound"
],
"Hydrax.aflip_run_local": [
"propext",
"Classical.choice",
"Quot.sound"
],
"Hydrax.aflip_run_split_laws_partial": [
"propext",
"Classical.choice",
"Quot.sound"
],
"Hydrax.aflip_run_split_partial": [
"propext",
"Classical.choice",
"Quot.sound"
],
"Hydrax.aflip_run_symmetric": [
"propext",
"Classical.choice",
"Quot.sound"
],
"Hydrax.aflip_shared_grid_partial": [
"propext",
"Classical.choice",
"Quot.sound"
],
"Hydrax.aflip_speed_limit_partial": [
"propext",
"Classical.choice",
"Quot.sound"
],
"Hydrax.aflip_spin_gradient": [
"propext",
"Classical.choice",
"Quot.sound"
],
"Hydrax.aflip_split_partial": [
"propext",
"Classical.choice",
"Quot.sound"
],
"Hydrax.aflip_step_balance": [
"propext",
"Classical.choice",
"Quot.sound"
],
"Hydrax.aflip_step_energy_partial": [
"propext",
"Classical.choice",
"Quot.sound"
],
"Hydrax.aflip_step_local": [
"propext",
"Classical.choice",
"Quot.sound"
],
"Hydrax.aflip_step_momentum_partial": [
"propext",
"Classical.choice",
"Quot.sound"
],
"Hydrax.aflip_stored": [
"propext",
"Classical.choice",
"Quot.sound"
],
"Hydrax.aflip_symmetric": [
"propext",
"Classical.choice",
"Quot.sound"
],
"Hydrax.aflip_symmetric_stays": [
"propext",
"Classical.choice",
"Quot.sound"
],
"Hydrax.aflip_velocity_gradient": [
"propext",
"Classical.choice",
"Quot.sound"
],
"Hydrax.aflip_whole_cells": [
"propext",
"Classical.choice",
"Quot.sound"
],
"Hydrax.aflip_whole_cells_run": [
"propext",
"Classical.choice",
"Quot.sound"
],
"Hydrax.aligned_in_order": [
"propext",
"Quot.sound"
],
"Hydrax.aligned_single_grid": [
"propext"
],
"Hydrax.alike_dp": [
"propext",
"Classical.choice",
"Quot.sound"
],
"Hydrax.alike_elastic": [
"propext",
"Classical.choice",
"Quot.sound"
],
"Hydrax.alike_fluid": [
"propext",
"Classical.choice",
"Quot.sound"
],
"Hydrax.alike_mcc": [
"propext",
"Classical.choice",
"Quot.sound"
],
"Hydrax.alike_muI": [
"propext",
"Classical.choice",
"Quot.sound"
],
"Hydrax.baseSdf_sym": [
"propext",
"Classical.choice",
"Quot.sound"
],
"Hydrax.base_moves": [
"propext",
"Classical.choice",
"Quot.sound"
],
"Hydrax.boxProg_eval": [
"propext",
"Classical.choice",
"Quot.sound"
],
"Hydrax.box_normal": [
"propext",
"Classical.choice",
"Quot.sound"
],
"Hydrax.box_signed_distance": [
"propext",
"Classical.choice",
"Quot.sound"
],
"Hydrax.box_tame": [
"propext",
"Classical.choice",
"Quot.sound"
],
"Hydrax.box_unit_counterexample": [
"propext",
"Classical.choice",
"Quot.sound"
],
"Hydrax.box_units_partial": [
"propext",
"Classical.choice",
"Quot.sound"
],
"Hydrax.box_wall_holds": [
"propext",
"Classical.choice",
"Quot.sound"
],
"Hydrax.box_wall_run": [
"propext",
"Classical.choice",
"Quot.sound"
],
"Hydrax.box_wall_tight": [
"propext",
"Classical.choice",
"Quot.sound"
],
"Hydrax.build_keeps_states": [
"propext",
"Classical.choice",
"Quot.sound"
],
"Hydrax.build_single": [
"propext",
"Classical.choice",
"Quot.sound"
],
"Hydrax.calib_N_frozen": [
"propext",
"Classical.choice",
"Quot.sound"
],
"Hydrax.calib_best_N": [
"propext",
"Classical.choice",
"Quot.sound"
],
"Hydrax.calib_bounds": [
"propext",
"Quot.sound"
],
"Hydrax.calib_grad_N": [
"propext",
"Classical.choice",
"Quot.sound"
],
"Hydrax.calib_kernel_N": [
"propext",
"Classical.choice",
"Quot.sound"
],
"Hydrax.calib_loss_N": [
"propext",
"Classical.choice",
"Quot.sound"
],
"Hydrax.calib_material": [
"propext",
"Classical.choice",
"Quot.sound"
],
"Hydrax.calib_report_N": [
"propext",
"Classical.choice",
"Quot.sound"
],
"Hydrax.calib_report_fails": [
"propext",
"Classical.choice",
"Quot.sound"
],
"Hydrax.calib_report_partial": [
"propext",
"Quot.sound"
],
"Hydrax.calib_runs": [
"propext",
"Classical.choice",
"Quot.sound"
],
"Hydrax.calib_volume_below_one": [
"propext",
"Classical.choice",
"Quot.sound"
],
"Hydrax.call_continuous_partial": [
"propext",
"Classical.choice",
"Quot.sound"
],
"Hydrax.call_domain": [
"propext",
"Classical.choice",
"Quot.sound"
],
"Hydrax.call_upright": [
"propext",
"Classical.choice",
"Quot.sound"
],
"Hydrax.capsuleProg_eval": [
"propext",
"Classical.choice",
"Quot.sound"
],
"Hydrax.capsule_signed_distance": [
"propext",
"Classical.choice",
"Quot.sound"
],
"Hydrax.capsule_tame": [
"propext",
"Classical.choice",
"Quot.sound"
],
"Hydrax.capsule_units_partial": [
"propext",
"Classical.choice",
"Quot.sound"
],
"Hydrax.circle_inside": [
"propext",
"Classical.choice",
"Quot.sound"
],
"Hydrax.circle_volume": [
"propext",
"Classical.choice",
"Quot.sound"
],
"Hydrax.clockRounded_id": [
"propext",
"Classical.choice",
"Quot.sound"
],
"Hydrax.clock_bounded": [
"propext",
"Classical.choice",
"Quot.sound"
],
"Hydrax.clock_error_partial": [
"propext",
"Classical.choice",
"Quot.sound"
],
"Hydrax.clock_exact": [
"propext",
"Classical.choice",
"Quot.sound"
],
"Hydrax.clock_exact_partial": [
"propext",
"Classical.choice",
"Quot.sound"
],
"Hydrax.clock_monotone_partial": [
"propext",
"Classical.choice",
"Quot.sound"
],
"Hydrax.clock_not_faithful": [
"propext",
"Classical.choice",
"Quot.sound"
],
"Hydrax.cloud_nan": [
"propext",
"Classical.choice",
"Quot.sound"
],
"Hydrax.cloud_radius_volume": [
"propext",
"Classical.choice",
"Quot.sound"
],
"Hydrax.cloud_smooth_false_inside": [
"propext",
"Classical.choice",
"Quot.sound"
],
"Hydrax.cloud_smooth_partial": [
"propext",
"Classical.choice",
"Quot.sound"
],
"Hydrax.cloud_union": [
"propext",
"Classical.choice",
"Quot.sound"
],
"Hydrax.collapse_exceeds": [
"propext",
"Classical.choice",
"Quot.sound"
],
"Hydrax.collapse_needs_params": [
"propext",
"Quot.sound"
],
"Hydrax.collideNode_outside": [
"propext",
"Classical.choice",
"Quot.sound"
],
"Hydrax.collide_nan": [
"propext",
"Classical.choice",
"Quot.sound"
],
"Hydrax.collide_number": [
"propext",
"Classical.choice",
"Quot.sound"
],
"Hydrax.collider_attached_partial": [
"propext",
"Classical.choice",
"Quot.sound"
],
"Hydrax.collider_default_obstacle": [
"propext",
"Classical.choice",
"Quot.sound"
],
"Hydrax.collider_depth_ignored": [
"propext",
"Classical.choice",
"Quot.sound"
],
"Hydrax.collider_friction_ignored": [
"propext",
"Classical.choice",
"Quot.sound"
],
"Hydrax.collider_gap_ignored": [
"propext",
"Classical.choice",
"Quot.sound"
],
"Hydrax.colours_default_partial": [
"propext",
"Classical.choice",
"Quot.sound"
],
"Hydrax.colours_flat": [
"propext",
"Classical.choice",
"Quot.sound"
],
"Hydrax.colours_given": [
"propext",
"Classical.choice",
"Quot.sound"
],
"Hydrax.colours_ignore_sense": [
"propext",
"Classical.choice",
"Quot.sound"
],
"Hydrax.colours_limits": [
"propext",
"Classical.choice",
"Quot.sound"
],
"Hydrax.colours_outside": [
"propext",
"Classical.choice",
"Quot.sound"
],
"Hydrax.column_layout": [
"propext",
"Classical.choice",
"Quot.sound"
],
"Hydrax.column_mass": [
"propext",
"Classical.choice",
"Quot.sound"
],
"Hydrax.column_mass_doubled": [
"propext",
"Classical.choice",
"Quot.sound"
],
"Hydrax.column_mass_partial": [
"propext",
"Classical.choice",
"Quot.sound"
],
"Hydrax.column_stress_wrong_axis": [
"propext",
"Classical.choice",
"Quot.sound"
],
"Hydrax.column_tiles": [
"propext",
"Classical.choice",
"Quot.sound"
],
"Hydrax.composite_nan": [
"propext",
"Classical.choice",
"Quot.sound"
],
"Hydrax.composite_tame": [
"propext",
"Classical.choice",
"Quot.sound"
],
"Hydrax.composite_union": [
"propext",
"Classical.choice",
"Quot.sound"
],
"Hydrax.cone_coulomb": [
"propext",
"Classical.choice",
"Quot.sound"
],
"Hydrax.contact_call_continuous_partial": [
"propext",
"Classical.choice",
"Quot.sound"
],
"Hydrax.contact_friction": [
"propext",
"Classical.choice",
"Quot.sound"
],
"Hydrax.contact_momentum_fails": [
"propext",
"Classical.choice",
"Quot.sound"
],
"Hydrax.contact_momentum_partial": [
"propext",
"Classical.choice",
"Quot.sound"
],
"Hydrax.contact_nan": [
"propext",
"Classical.choice",
"Quot.sound"
],
"Hydrax.contact_no_penetration": [
"propext",
"Classical.choice",
"Quot.sound"
],
"Hydrax.contact_number": [
"propext",
"Classical.choice",
"Quot.sound"
],
"Hydrax.contact_penetration_bound": [
"propext",
"Classical.choice",
"Quot.sound"
],
"Hydrax.contact_rigid_actor": [
"propext",
"Classical.choice",
"Quot.sound"
],
"Hydrax.contact_run_continuous_partial": [
"propext",
"Classical.choice",
"Quot.sound"
],
"Hydrax.corner_leak": [
"propext",
"Classical.choice",
"Quot.sound"
],
"Hydrax.corner_prefers_axis": [
"propext",
"Classical.choice",
"Quot.sound"
],
"Hydrax.coulomb_run_partial": [
"propext",
"Classical.choice",
"Quot.sound"
],
"Hydrax.cpic_mask_one": [
"propext",
"Classical.choice",
"Quot.sound"
],
"Hydrax.crash_loses_step": [
"propext",
"Classical.choice",
"Quot.sound"
],
"Hydrax.crash_other_steps": [
"propext",
"Classical.choice",
"Quot.sound"
],
"Hydrax.crash_same_step": [
"propext",
"Classical.choice",
"Quot.sound"
],
"Hydrax.create_consistent": [
"propext",
"Quot.sound"
],
"Hydrax.create_density_inexact": [
"propext",
"Classical.choice",
"Quot.sound"
],
"Hydrax.create_density_partial": [
"propext",
"Classical.choice",
"Quot.sound"
],
"Hydrax.create_keeps_given": [
"propext",
"Classical.choice",
"Quot.sound"
],
"Hydrax.criticalPressure_line": [
"propext",
"Classical.choice",
"Quot.sound"
],
"Hydrax.criticalStress_triaxial": [
"propext",
"Classical.choice",
"Quot.sound"
],
"Hydrax.crossed_couplings_wrong": [
"propext",
"Classical.choice",
"Quot.sound"
],
"Hydrax.cubicDBasis_right_deriv": [
"propext",
"Classical.choice",
"Quot.sound"
],
"Hydrax.cubic_types_nonneg": [
"propext",
"Classical.choice",
"Quot.sound"
],
"Hydrax.cubic_wall_grad_fails": [
"propext",
"Classical.choice",
"Quot.sound"
],
"Hydrax.cubic_wall_grad_partial": [
"propext",
"Classical.choice",
"Quot.sound"
],
"Hydrax.cubic_wall_linear": [
"propext",
"Classical.choice",
"Quot.sound"
],
"Hydrax.cubic_wall_plane_fails": [
"propext",
"Classical.choice",
"Quot.sound"
],
"Hydrax.cubic_wall_unity": [
"propext",
"Classical.choice",
"Quot.sound"
],
"Hydrax.cubic_wall_unused": [
"propext",
"Classical.choice",
"Quot.sound"
],
"Hydrax.cut_window_matters": [
"propext",
"Classical.choice",
"Quot.sound"
],
"Hydrax.cutoff_jumps": [
"propext",
"Classical.choice",
"Quot.sound"
],
"Hydrax.cylinderProg_eval": [
"propext",
"Classical.choice",
"Quot.sound"
],
"Hydrax.cylinder_signed_distance": [
"propext",
"Classical.choice",
"Quot.sound"
],
"Hydrax.cylinder_tame": [
"propext",
"Classical.choice",
"Quot.sound"
],
"Hydrax.cylinder_units_partial": [
"propext",
"Classical.choice",
"Quot.sound"
],
"Hydrax.damp_component": [
"propext",
"Classical.choice",
"Quot.sound"
],
"Hydrax.damped_node": [
"propext",
"Classical.choice",
"Quot.sound"
],
"Hydrax.damping_body": [
"propext",
"Classical.choice",
"Quot.sound"
],
"Hydrax.damping_body_hook": [
"propext",
"Classical.choice",
"Quot.sound"
],
"Hydrax.damping_box_energy_partial": [
"propext",
"Classical.choice",
"Quot.sound"
],
"Hydrax.damping_gives_energy": [
"propext",
"Classical.choice",
"Quot.sound"
],
"Hydrax.damping_grid": [
"propext",
"Classical.choice",
"Quot.sound"
],
"Hydrax.damping_grid_hook": [
"propext",
"Classical.choice",
"Quot.sound"
],
"Hydrax.damping_jumps": [
"propext",
"Classical.choice",
"Quot.sound"
],
"Hydrax.damping_run_energy_partial": [
"propext",
"Classical.choice",
"Quot.sound"
],
"Hydrax.damping_state_shifted": [
"propext",
"Classical.choice",
"Quot.sound"
],
"Hydrax.damping_step_energy_partial": [
"propext",
"Classical.choice",
"Quot.sound"
],
"Hydrax.dataset_drained_lateral": [
"propext",
"Classical.choice",
"Quot.sound"
],
"Hydrax.dataset_strain_shifted": [
"propext",
"Classical.choice",
"Quot.sound"
],
"Hydrax.dataset_undrained_volume": [
"propext",
"Classical.choice",
"Quot.sound"
],
"Hydrax.dataset_withN": [
"propext",
"Classical.choice",
"Quot.sound"
],
"Hydrax.default_clock_stops": [
"propext",
"Classical.choice",
"Quot.sound"
],
"Hydrax.default_volume_3d": [
"propext",
"Classical.choice",
"Quot.sound"
],
"Hydrax.density_mass": [
"propext",
"Classical.choice",
"Quot.sound"
],
"Hydrax.density_ratio": [
"propext",
"Classical.choice",
"Quot.sound"
],
"Hydrax.density_split": [
"propext",
"Classical.choice",
"Quot.sound"
],
"Hydrax.dented_fall_fails": [
"propext",
"Classical.choice",
"Quot.sound"
],
"Hydrax.deriv_unit": [
"propext",
"Classical.choice",
"Quot.sound"
],
"Hydrax.documented_load_fails": [
"propext",
"Classical.choice",
"Quot.sound"
],
"Hydrax.domainSdf_sym_partial": [
"propext",
"Classical.choice",
"Quot.sound"
],
"Hydrax.domain_box_contains_grid": [
"propext",
"Classical.choice",
"Quot.sound"
],
"Hydrax.domain_contact": [
"propext",
"Classical.choice",
"Quot.sound"
],
"Hydrax.domain_create": [
"propext",
"Quot.sound"
],
"Hydrax.domain_units": [
"propext",
"Classical.choice",
"Quot.sound"
],
"Hydrax.domain_walls": [
"propext",
"Classical.choice",
"Quot.sound"
],
"Hydrax.dotGamma_grad_nan": [
"propext",
"Classical.choice",
"Quot.sound"
],
"Hydrax.dpLaw_point": [
"propext",
"Classical.choice",
"Quot.sound"
],
"Hydrax.dpSqrt_tame": [
"propext",
"Classical.choice",
"Quot.sound"
],
"Hydrax.dpUpdate_symm": [
"propext",
"Classical.choice",
"Quot.sound"
],
"Hydrax.dp_admissible_fails": [
"propext",
"Classical.choice",
"Quot.sound"
],
"Hydrax.dp_admissible_partial": [
"propext",
"Classical.choice",
"Quot.sound"
],
"Hydrax.dp_admissible_run_partial": [
"propext",
"Classical.choice",
"Quot.sound"
],
"Hydrax.dp_apex_decreases": [
"propext",
"Classical.choice",
"Quot.sound"
],
"Hydrax.dp_backwards": [
"propext",
"Classical.choice",
"Quot.sound"
],
"Hydrax.dp_carried_partial": [
"propext",
"Classical.choice",
"Quot.sound"
],
"Hydrax.dp_cone_residual": [
"propext",
"Classical.choice",
"Quot.sound"
],
"Hydrax.dp_continuous_partial": [
"propext",
"Classical.choice",
"Quot.sound"
],
"Hydrax.dp_coulomb_partial": [
"propext",
"Classical.choice",
"Quot.sound"
],
"Hydrax.dp_dilatant_fails": [
"propext",
"Classical.choice",
"Quot.sound"
],
"Hydrax.dp_dilatant_inadmissible": [
"propext",
"Classical.choice",
"Quot.sound"
],
"Hydrax.dp_elastic_cycle": [
"propext",
"Classical.choice",
"Quot.sound"
],
"Hydrax.dp_failure_partial": [
"propext",
"Classical.choice",
"Quot.sound"
],
"Hydrax.dp_jumps_at_separation": [
"propext",
"Classical.choice",
"Quot.sound"
],
"Hydrax.dp_jumps_dilatant": [
"propext",
"Classical.choice",
"Quot.sound"
],
"Hydrax.dp_jumps_hardening": [
"propext",
"Classical.choice",
"Quot.sound"
],
"Hydrax.dp_path_dissipates_partial": [
"propext",
"Classical.choice",
"Quot.sound"
],
"Hydrax.dp_plastic_strain_jumps": [
"propext",
"Classical.choice",
"Quot.sound"
],
"Hydrax.dp_plastic_strain_monotone_fails": [
"propext",
"Classical.choice",
"Quot.sound"
],
"Hydrax.dp_plastic_strain_monotone_partial": [
"propext",
"Classical.choice",
"Quot.sound"
],
"Hydrax.dp_shear_scaled": [
"propext",
"Classical.choice",
"Quot.sound"
],
"Hydrax.dp_spin_step": [
"propext",
"Classical.choice",
"Quot.sound"
],
"Hydrax.dp_spin_yields": [
"propext",
"Classical.choice",
"Quot.sound"
],
"Hydrax.dp_split_fails": [
"propext",
"Classical.choice",
"Quot.sound"
],
"Hydrax.dp_split_partial": [
"propext",
"Classical.choice",
"Quot.sound"
],
"Hydrax.dp_step_dissipates_partial": [
"propext",
"Classical.choice",
"Quot.sound"
],
"Hydrax.dp_stress_strain_consistent": [
"propext",
"Classical.choice",
"Quot.sound"
],
"Hydrax.dp_tension_gains": [
"propext",
"Classical.choice",
"Quot.sound"
],
"Hydrax.dp_unit_counterexample": [
"propext",
"Classical.choice",
"Quot.sound"
],
"Hydrax.dp_units_partial": [
"propext",
"Classical.choice",
"Quot.sound"
],
"Hydrax.drained_critical_partial": [
"propext",
"Classical.choice",
"Quot.sound"
],
"Hydrax.drained_dp_compression_step": [
"propext",
"Classical.choice",
"Quot.sound"
],
"Hydrax.drained_dp_control_partial": [
"propext",
"Classical.choice",
"Quot.sound"
],
"Hydrax.drained_dp_step_partial": [
"propext",
"Classical.choice",
"Quot.sound"
],
"Hydrax.drained_elastic_control": [
"propext",
"Classical.choice",
"Quot.sound"
],
"Hydrax.drained_elastic_step": [
"propext",
"Classical.choice",
"Quot.sound"
],
"Hydrax.drained_fluid_step": [
"propext",
"Classical.choice",
"Quot.sound"
],
"Hydrax.drained_muI_misses": [
"propext",
"Classical.choice",
"Quot.sound"
],
"Hydrax.drained_step_exists": [
"propext",
"Classical.choice",
"Quot.sound"
],
"Hydrax.drained_step_keeps": [
"propext",
"Classical.choice",
"Quot.sound"
],
"Hydrax.drained_test_exists": [
"propext",
"Classical.choice",
"Quot.sound"
],
"Hydrax.drawn_edge_meets_surface": [
"propext",
"Classical.choice",
"Quot.sound"
],
"Hydrax.drawn_size_ignores_compression": [
"propext",
"Classical.choice",
"Quot.sound"
],
"Hydrax.drawn_size_partial": [
"propext",
"Classical.choice",
"Quot.sound"
],
"Hydrax.drawn_together": [
"propext",
"Classical.choice",
"Quot.sound"
],
"Hydrax.drawn_vertex_near_surface": [
"propext",
"Classical.choice",
"Quot.sound"
],
"Hydrax.drift_error_partial": [
"propext",
"Classical.choice",
"Quot.sound"
],
"Hydrax.drift_not_faithful": [
"propext",
"Classical.choice",
"Quot.sound"
],
"Hydrax.driver_density_partial": [
"propext",
"Classical.choice",
"Quot.sound"
],
"Hydrax.driver_mcc_line_run": [
"propext",
"Classical.choice",
"Quot.sound"
],
"Hydrax.driver_mcc_line_step": [
"propext",
"Classical.choice",
"Quot.sound"
],
"Hydrax.driver_stress_lags": [
"propext",
"Classical.choice",
"Quot.sound"
],
"Hydrax.dry_return_not_unique": [
"propext",
"Classical.choice",
"Quot.sound"
],
"Hydrax.dtCrit_bound": [
"propext",
"Classical.choice",
"Quot.sound"
],
"Hydrax.dt_crit_cfl": [
"propext",
"Classical.choice",
"Quot.sound"
],
"Hydrax.elasticLaw_point": [
"propext",
"Classical.choice",
"Quot.sound"
],
"Hydrax.elasticStress_symm": [
"propext",
"Classical.choice",
"Quot.sound"
],
"Hydrax.elastic_closed_cycle": [
"propext",
"Classical.choice",
"Quot.sound"
],
"Hydrax.elastic_continuous": [
"propext",
"Classical.choice",
"Quot.sound"
],
"Hydrax.elastic_cycle_work": [
"propext",
"Classical.choice",
"Quot.sound"
],
"Hydrax.elastic_dt_crit": [
"propext",
"Classical.choice",
"Quot.sound"
],
"Hydrax.elastic_holdsAtRest": [
"propext",
"Classical.choice",
"Quot.sound"
],
"Hydrax.elastic_law_units": [
"propext",
"Classical.choice",
"Quot.sound"
],
"Hydrax.elastic_not_carried": [
"propext",
"Classical.choice",
"Quot.sound"
],
"Hydrax.elastic_order_independent": [
"propext",
"Classical.choice",
"Quot.sound"
],
"Hydrax.elastic_pressure": [
"propext",
"Classical.choice",
"Quot.sound"
],
"Hydrax.elastic_spin_irrelevant": [
"propext",
"Classical.choice",
"Quot.sound"
],
"Hydrax.elastic_spin_keeps": [
"propext",
"Classical.choice",
"Quot.sound"
],
"Hydrax.elastic_step_determines_partial": [
"propext",
"Classical.choice",
"Quot.sound"
],
"Hydrax.elastic_total_strain": [
"propext",
"Classical.choice",
"Quot.sound"
],
"Hydrax.elastic_work_nonneg": [
"propext",
"Classical.choice",
"Quot.sound"
],
"Hydrax.element_fluid_lag": [
"propext",
"Classical.choice",
"Quot.sound"
],
"Hydrax.element_lags": [
"propext",
"Classical.choice",
"Quot.sound"
],
"Hydrax.element_predicts_elastic": [
"propext",
"Classical.choice",
"Quot.sound"
],
"Hydrax.element_predicts_run_partial": [
"propext",
"Classical.choice",
"Quot.sound"
],
"Hydrax.eps_v_volume": [
"propext",
"Classical.choice",
"Quot.sound"
],
"Hydrax.exClayDrained_limit": [
"propext",
"Classical.choice",
"Quot.sound"
],
"Hydrax.fall_step": [
"propext",
"Classical.choice",
"Quot.sound"
],
"Hydrax.figI_low_pressure": [
"propext",
"Classical.choice",
"Quot.sound"
],
"Hydrax.figI_missed": [
"propext",
"Classical.choice",
"Quot.sound"
],
"Hydrax.figI_steady_partial": [
"propext",
"Classical.choice",
"Quot.sound"
],
"Hydrax.fig_arrow_friction": [
"propext",
"Classical.choice",
"Quot.sound"
],
"Hydrax.fig_arrow_normal": [
"propext",
"Classical.choice",
"Quot.sound"
],
"Hydrax.fig_initial": [
"propext",
"Classical.choice",
"Quot.sound"
],
"Hydrax.fig_iss_limits": [
"propext",
"Classical.choice",
"Quot.sound"
],
"Hydrax.fig_lines": [
"propext",
"Classical.choice",
"Quot.sound"
],
"Hydrax.fig_segments": [
"propext",
"Classical.choice",
"Quot.sound"
],
"Hydrax.fig_surfaces": [
"propext",
"Classical.choice",
"Quot.sound"
],
"Hydrax.float_size_exact_partial": [
"propext",
"Classical.choice",
"Quot.sound"
],
"Hydrax.float_size_gains_node": [
"propext",
"Classical.choice",
"Quot.sound"
],
"Hydrax.float_size_loses_node": [
"propext",
"Classical.choice",
"Quot.sound"
],
"Hydrax.float_size_within_one_partial": [
"propext",
"Classical.choice",
"Quot.sound"
],
"Hydrax.floor_box": [
"propext",
"Classical.choice",
"Quot.sound"
],
"Hydrax.floor_distance_partial": [
"propext",
"Classical.choice",
"Quot.sound"
],
"Hydrax.floor_friction_bounds": [
"propext",
"Classical.choice",
"Quot.sound"
],
"Hydrax.floor_height_bounds": [
"propext",
"Classical.choice",
"Quot.sound"
],
"Hydrax.floor_leak": [
"propext",
"Classical.choice",
"Quot.sound"
],
"Hydrax.floor_not_distance": [
"propext",
"Classical.choice",
"Quot.sound"
],
"Hydrax.floor_not_galilean": [
"propext",
"Classical.choice",
"Quot.sound"
],
"Hydrax.floor_sign": [
"propext",
"Classical.choice",
"Quot.sound"
],
"Hydrax.floor_step": [
"propext",
"Classical.choice",
"Quot.sound"
],
"Hydrax.flow_exists": [
"propext",
"Classical.choice",
"Quot.sound"
],
"Hydrax.fluidLaw_pressure": [
"propext",
"Classical.choice",
"Quot.sound"
],
"Hydrax.fluidStress_symm": [
"propext",
"Classical.choice",
"Quot.sound"
],
"Hydrax.fluid_continuous": [
"propext",
"Classical.choice",
"Quot.sound"
],
"Hydrax.fluid_eos_roundtrip": [
"propext",
"Classical.choice",
"Quot.sound"
],
"Hydrax.fluid_feels_rate": [
"propext",
"Classical.choice",
"Quot.sound"
],
"Hydrax.fluid_law_units": [
"propext",
"Classical.choice",
"Quot.sound"
],
"Hydrax.fluid_pressure_partial": [
"propext",
"Classical.choice",
"Quot.sound"
],
"Hydrax.fluid_pressure_sign_wrong": [
"propext",
"Classical.choice",
"Quot.sound"
],
"Hydrax.fluid_rate": [
"propext",
"Classical.choice",
"Quot.sound"
],
"Hydrax.force_state_partial": [
"propext",
"Classical.choice",
"Quot.sound"
],
"Hydrax.force_state_shifted": [
"propext",
"Classical.choice",
"Quot.sound"
],
"Hydrax.foreign_solver_differs": [
"propext",
"Classical.choice",
"Quot.sound"
],
"Hydrax.free_fall": [
"propext",
"Classical.choice",
"Quot.sound"
],
"Hydrax.free_fall_parabola": [
"propext",
"Classical.choice",
"Quot.sound"
],
"Hydrax.friction_jumps": [
"propext",
"Classical.choice",
"Quot.sound"
],
"Hydrax.friction_unit_counterexample": [
"propext",
"Classical.choice",
"Quot.sound"
],
"Hydrax.g2p_renumber": [
"propext",
"Classical.choice",
"Quot.sound"
],
"Hydrax.galilean_run_partial": [
"propext",
"Classical.choice",
"Quot.sound"
],
"Hydrax.gather_fails": [
"propext",
"Classical.choice",
"Quot.sound"
],
"Hydrax.gather_intended_partial": [
"propext",
"Classical.choice",
"Quot.sound"
],
"Hydrax.generate_modes_fail": [
"propext",
"Quot.sound"
],
"Hydrax.generated_inside": [
"propext",
"Quot.sound"
],
"Hydrax.gentle_slope_runs_away": [
"propext",
"Classical.choice",
"Quot.sound"
],
"Hydrax.getJ2_value": [
"propext",
"Classical.choice",
"Quot.sound"
],
"Hydrax.ghost_irrelevant": [
"propext",
"Classical.choice",
"Quot.sound"
],
"Hydrax.given_force_ignored": [
"propext",
"Classical.choice",
"Quot.sound"
],
"Hydrax.gradient_error": [
"propext",
"Classical.choice",
"Quot.sound"
],
"Hydrax.gradient_not_improved": [
"propext",
"Classical.choice",
"Quot.sound"
],
"Hydrax.gravity_after_collider_fails": [
"propext",
"Quot.sound"
],
"Hydrax.gravity_uses_other_state": [
"propext",
"Quot.sound"
],
"Hydrax.grid_contact_never_runs": [
"propext",
"Classical.choice",
"Quot.sound"
],
"Hydrax.grid_used": [
"propext",
"Classical.choice",
"Quot.sound"
],
"Hydrax.grid_used_partial": [
"propext",
"Classical.choice",
"Quot.sound"
],
"Hydrax.handles_stay_valid": [
"propext",
"Classical.choice",
"Quot.sound"
],
"Hydrax.hencky_log_strain": [
"propext",
"Classical.choice",
"Quot.sound"
],
"Hydrax.hencky_objective": [
"propext",
"Classical.choice",
"Quot.sound"
],
"Hydrax.hencky_trace": [
"propext",
"Classical.choice",
"Quot.sound"
],
"Hydrax.hollow_cylinder_height_ignored": [
"propext",
"Classical.choice",
"Quot.sound"
],
"Hydrax.ieee_forward": [
"propext",
"Classical.choice",
"Quot.sound"
],
"Hydrax.ieee_reverse": [
"propext",
"Classical.choice",
"Quot.sound"
],
"Hydrax.inactive_body_unchanged": [
"propext",
"Classical.choice",
"Quot.sound"
],
"Hydrax.integrateQuat_euler": [
"propext",
"Classical.choice",
"Quot.sound"
],
"Hydrax.internal_force_power": [
"propext",
"Classical.choice",
"Quot.sound"
],
"Hydrax.internal_forces_self_equilibrated": [
"propext",
"Classical.choice",
"Quot.sound"
],
"Hydrax.interpolation_error": [
"propext",
"Classical.choice",
"Quot.sound"
],
"Hydrax.interpolation_error_exact": [
"propext",
"Classical.choice",
"Quot.sound"
],
"Hydrax.inv2_inverse": [
"propext",
"Classical.choice",
"Quot.sound"
],
"Hydrax.inv3_inverse": [
"propext",
"Classical.choice",
"Quot.sound"
],
"Hydrax.invariants_rotated": [
"propext",
"Classical.choice",
"Quot.sound"
],
"Hydrax.iso_fit_recovers": [
"propext",
"Classical.choice",
"Quot.sound"
],
"Hydrax.iso_units": [
"propext",
"Classical.choice",
"Quot.sound"
],
"Hydrax.jacfwd_exact": [
"propext",
"Classical.choice",
"Quot.sound"
],
"Hydrax.jaumann_backwards": [
"propext",
"Classical.choice",
"Quot.sound"
],
"Hydrax.jaumann_symm": [
"propext",
"Classical.choice",
"Quot.sound"
],
"Hydrax.ke_boost": [
"propext",
"Classical.choice",
"Quot.sound"
],
"Hydrax.ke_zero_iff": [
"propext",
"Classical.choice",
"Quot.sound"
],
"Hydrax.large_step_inverts": [
"propext",
"Classical.choice",
"Quot.sound"
],
"Hydrax.lateral_search_newton": [
"propext",
"Classical.choice",
"Quot.sound"
],
"Hydrax.lateral_search_stuck": [
"propext",
"Classical.choice",
"Quot.sound"
],
"Hydrax.law_used_partial": [
"propext",
"Classical.choice",
"Quot.sound"
],
"Hydrax.laws_isotropic": [
"propext",
"Classical.choice",
"Quot.sound"
],
"Hydrax.layer_stress": [
"propext",
"Classical.choice",
"Quot.sound"
],
"Hydrax.libLaw_carried": [
"propext",
"Classical.choice",
"Quot.sound"
],
"Hydrax.libLaw_point": [
"propext",
"Classical.choice",
"Quot.sound"
],
"Hydrax.libLaw_symm": [
"propext",
"Classical.choice",
"Quot.sound"
],
"Hydrax.library_obstacles_energy_partial": [
"propext",
"Classical.choice",
"Quot.sound"
],
"Hydrax.linear_flag_ignored": [
"propext",
"Classical.choice",
"Quot.sound"
],
"Hydrax.linear_force_jumps": [
"propext",
"Classical.choice",
"Quot.sound"
],
"Hydrax.linear_gradient_wrong_on_grid_line": [
"propext",
"Classical.choice",
"Quot.sound"
],
"Hydrax.linear_step_untamed": [
"propext",
"Classical.choice",
"Quot.sound"
],
"Hydrax.linear_update_partial": [
"propext",
"Classical.choice",
"Quot.sound"
],
"Hydrax.lithostatic_invariants": [
"propext",
"Classical.choice",
"Quot.sound"
],
"Hydrax.lithostatic_overconsolidated_wrong": [
"propext",
"Classical.choice",
"Quot.sound"
],
"Hydrax.lithostatic_slope_wrong": [
"propext",
"Classical.choice",
"Quot.sound"
],
"Hydrax.lithostatic_stress_partial": [
"propext",
"Classical.choice",
"Quot.sound"
],
"Hydrax.load_foreign_solver": [
"propext",
"Classical.choice",
"Quot.sound"
],
"Hydrax.load_last_saved": [
"propext",
"Classical.choice",
"Quot.sound"
],
"Hydrax.load_unsaved": [
"propext",
"Classical.choice",
"Quot.sound"
],
"Hydrax.localProg2_eval": [
"propext",
"Classical.choice",
"Quot.sound"
],
"Hydrax.localProg3_eval": [
"propext",
"Classical.choice",
"Quot.sound"
],
"Hydrax.logStrain_unique": [
"propext",
"Classical.choice",
"Quot.sound"
],
"Hydrax.london_replay_partial": [
"propext",
"Classical.choice",
"Quot.sound"
],
"Hydrax.london_strain": [
"propext",
"Classical.choice",
"Quot.sound"
],
"Hydrax.london_unloading_lost": [
"propext",
"Classical.choice",
"Quot.sound"
],
"Hydrax.loop_interval_partial": [
"propext",
"Classical.choice",
"Quot.sound"
],
"Hydrax.loop_misses_end": [
"propext",
"Classical.choice",
"Quot.sound"
],
"Hydrax.loop_records": [
"propext",
"Quot.sound"
],
"Hydrax.mass_empty_iff": [
"propext",
"Classical.choice",
"Quot.sound"
],
"Hydrax.mass_order_matters": [
"propext",
"Classical.choice",
"Quot.sound"
],
"Hydrax.mass_orders_agree": [
"propext",
"Classical.choice",
"Quot.sound"
],
"Hydrax.mass_scatter_faithful": [
"propext",
"Classical.choice",
"Quot.sound"
],
"Hydrax.mass_scatter_single": [
"propext",
"Classical.choice",
"Quot.sound"
],
"Hydrax.mass_unit_counterexample": [
"propext",
"Classical.choice",
"Quot.sound"
],
"Hydrax.mass_volume0_invariant": [
"propext",
"Classical.choice",
"Quot.sound"
],
"Hydrax.mccGrad_deriv": [
"propext",
"Classical.choice",
"Quot.sound"
],
"Hydrax.mccLaw_point": [
"propext",
"Classical.choice",
"Quot.sound"
],
"Hydrax.mccProg_eval": [
"propext",
"Classical.choice",
"Quot.sound"
],
"Hydrax.mccUpdate_symm": [
"propext",
"Classical.choice",
"Quot.sound"
],
"Hydrax.mcc_carried_partial": [
"propext",
"Classical.choice",
"Quot.sound"
],
"Hydrax.mcc_continuous_at_yield_partial": [
"propext",
"Classical.choice",
"Quot.sound"
],
"Hydrax.mcc_continuous_partial": [
"propext",
"Classical.choice",
"Quot.sound"
],
"Hydrax.mcc_converged_solution": [
"propext",
"Classical.choice",
"Quot.sound"
],
"Hydrax.mcc_critical_line": [
"propext",
"Classical.choice",
"Quot.sound"
],
"Hydrax.mcc_critical_near_partial": [
"propext",
"Classical.choice",
"Quot.sound"
],
"Hydrax.mcc_critical_state_partial": [
"propext",
"Classical.choice",
"Quot.sound"
],
"Hydrax.mcc_cycle_gains": [
"propext",
"Classical.choice",
"Quot.sound"
],
"Hydrax.mcc_density_roundtrip": [
"propext",
"Classical.choice",
"Quot.sound"
],
"Hydrax.mcc_disconnected": [
"propext",
"Classical.choice",
"Quot.sound"
],
"Hydrax.mcc_drained_critical_partial": [
"propext",
"Classical.choice",
"Quot.sound"
],
"Hydrax.mcc_elastic_inside_partial": [
"propext",
"Classical.choice",
"Quot.sound"
],
"Hydrax.mcc_elastic_strain_fails": [
"propext",
"Classical.choice",
"Quot.sound"
],
"Hydrax.mcc_elastic_strain_partial": [
"propext",
"Classical.choice",
"Quot.sound"
],
"Hydrax.mcc_energy_unbounded": [
"propext",
"Classical.choice",
"Quot.sound"
],
"Hydrax.mcc_isochoric_cycle_partial": [
"propext",
"Classical.choice",
"Quot.sound"
],
"Hydrax.mcc_jacfwd_exact": [
"propext",
"Classical.choice",
"Quot.sound"
],
"Hydrax.mcc_jacfwd_number": [
"propext",
"Classical.choice",
"Quot.sound"
],
"Hydrax.mcc_jumps_at_separation": [
"propext",
"Classical.choice",
"Quot.sound"
],
"Hydrax.mcc_jumps_at_yield": [
"propext",
"Classical.choice",
"Quot.sound"
],
"Hydrax.mcc_line_run_partial": [
"propext",
"Classical.choice",
"Quot.sound"
],
"Hydrax.mcc_line_step": [
"propext",
"Classical.choice",
"Quot.sound"
],
"Hydrax.mcc_newton_ad_reaches_partial": [
"propext",
"Classical.choice",
"Quot.sound"
],
"Hydrax.mcc_newton_converges": [
"propext",
"Classical.choice",
"Quot.sound"
],
"Hydrax.mcc_newton_pc_error": [
"propext",
"Classical.choice",
"Quot.sound"
],
"Hydrax.mcc_newton_reaches_partial": [
"propext",
"Classical.choice",
"Quot.sound"
],
"Hydrax.mcc_no_tension_partial": [
"propext",
"Classical.choice",
"Quot.sound"
],
"Hydrax.mcc_ocr_admissible_partial": [
"propext",
"Classical.choice",
"Quot.sound"
],
"Hydrax.mcc_ocr_density_roundtrip": [
"propext",
"Classical.choice",
"Quot.sound"
],
"Hydrax.mcc_ocr_inside_moved": [
"propext",
"Classical.choice",
"Quot.sound"
],
"Hydrax.mcc_pc_ge_one": [
"propext",
"Classical.choice",
"Quot.sound"
],
"Hydrax.mcc_pc_pos": [
"propext",
"Classical.choice",
"Quot.sound"
],
"Hydrax.mcc_pc_pos_run": [
"propext",
"Classical.choice",
"Quot.sound"
],
"Hydrax.mcc_reconnection_fails": [
"propext",
"Classical.choice",
"Quot.sound"
],
"Hydrax.mcc_residuals_tame": [
"propext",
"Classical.choice",
"Quot.sound"
],
"Hydrax.mcc_residuals_zero_iff": [
"propext",
"Classical.choice",
"Quot.sound"
],
"Hydrax.mcc_return_dissipates": [
"propext",
"Classical.choice",
"Quot.sound"
],
"Hydrax.mcc_return_map": [
"propext",
"Classical.choice",
"Quot.sound"
],
"Hydrax.mcc_return_shrinks": [
"propext",
"Classical.choice",
"Quot.sound"
],
"Hydrax.mcc_return_solvable": [
"propext",
"Classical.choice",
"Quot.sound"
],
"Hydrax.mcc_soft_clay_missed": [
"propext",
"Classical.choice",
"Quot.sound"
],
"Hydrax.mcc_spin_step": [
"propext",
"Classical.choice",
"Quot.sound"
],
"Hydrax.mcc_spin_yields": [
"propext",
"Classical.choice",
"Quot.sound"
],
"Hydrax.mcc_split_partial": [
"propext",
"Classical.choice",
"Quot.sound"
],
"Hydrax.mcc_state_without_ref_fails": [
"propext",
"Classical.choice",
"Quot.sound"
],
"Hydrax.mcc_stress_roundtrip": [
"propext",
"Classical.choice",
"Quot.sound"
],
"Hydrax.mcc_unit_counterexample": [
"propext",
"Classical.choice",
"Quot.sound"
],
"Hydrax.mcc_units_partial": [
"propext",
"Classical.choice",
"Quot.sound"
],
"Hydrax.mcc_volume_drift": [
"propext",
"Classical.choice",
"Quot.sound"
],
"Hydrax.moment_order_matters": [
"propext",
"Classical.choice",
"Quot.sound"
],
"Hydrax.momentum_cutoff_needed": [
"propext",
"Classical.choice",
"Quot.sound"
],
"Hydrax.muIStress_symm": [
"propext",
"Classical.choice",
"Quot.sound"
],
"Hydrax.muI_continuous_partial": [
"propext",
"Classical.choice",
"Quot.sound"
],
"Hydrax.muI_create_roundtrip": [
"propext",
"Classical.choice",
"Quot.sound"
],
"Hydrax.muI_dissipative": [
"propext",
"Classical.choice",
"Quot.sound"
],
"Hydrax.muI_friction_bound_partial": [
"propext",
"Classical.choice",
"Quot.sound"
],
"Hydrax.muI_friction_law_fails": [
"propext",
"Classical.choice",
"Quot.sound"
],
"Hydrax.muI_friction_law_half": [
"propext",
"Classical.choice",
"Quot.sound"
],
"Hydrax.muI_in_cone": [
"propext",
"Classical.choice",
"Quot.sound"
],
"Hydrax.muI_jumps": [
"propext",
"Classical.choice",
"Quot.sound"
],
"Hydrax.muI_lateral_range": [
"propext",
"Classical.choice",
"Quot.sound"
],
"Hydrax.muI_law_units": [
"propext",
"Classical.choice",
"Quot.sound"
],
"Hydrax.muI_pressure": [
"propext",
"Classical.choice",
"Quot.sound"
],
"Hydrax.muI_rate": [
"propext",
"Classical.choice",
"Quot.sound"
],
"Hydrax.muI_shear_stress": [
"propext",
"Classical.choice",
"Quot.sound"
],
"Hydrax.nan_spreads": [
"propext",
"Classical.choice",
"Quot.sound"
],
"Hydrax.near_point_matters": [
"propext",
"Classical.choice",
"Quot.sound"
],
"Hydrax.nearest_exists": [
"propext",
"Classical.choice",
"Quot.sound"
],
"Hydrax.newton_affine": [
"propext",
"Classical.choice",
"Quot.sound"
],
"Hydrax.newton_basin": [
"propext",
"Classical.choice",
"Quot.sound"
],
"Hydrax.nodal_forces_moment": [
"propext",
"Classical.choice",
"Quot.sound"
],
"Hydrax.nodal_forces_sum": [
"propext",
"Classical.choice",
"Quot.sound"
],
"Hydrax.node_index_in_range": [
"propext",
"Classical.choice",
"Quot.sound"
],
"Hydrax.node_index_no_alias": [
"propext",
"Classical.choice",
"Quot.sound"
],
"Hydrax.node_index_position": [
"propext",
"Classical.choice",
"Quot.sound"
],
"Hydrax.node_lost": [
"propext",
"Classical.choice",
"Quot.sound"
],
"Hydrax.node_speed_bounded": [
"propext",
"Classical.choice",
"Quot.sound"
],
"Hydrax.normal_nearest": [
"propext",
"Classical.choice",
"Quot.sound"
],
"Hydrax.normal_number": [
"propext",
"Classical.choice",
"Quot.sound"
],
"Hydrax.obstacle_run_energy_partial": [
"propext",
"Classical.choice",
"Quot.sound"
],
"Hydrax.obstacle_step_energy_partial": [
"propext",
"Classical.choice",
"Quot.sound"
],
"Hydrax.obstacles_slow_down": [
"propext",
"Classical.choice",
"Quot.sound"
],
"Hydrax.one_viewer": [
"propext",
"Classical.choice",
"Quot.sound"
],
"Hydrax.open_recorder": [
"propext"
],
"Hydrax.outside_point_no_effect": [
"propext",
"Classical.choice",
"Quot.sound"
],
"Hydrax.outside_slots_inactive": [
"propext",
"Classical.choice",
"Quot.sound"
],
"Hydrax.p2g_angular_momentum": [
"propext",
"Classical.choice",
"Quot.sound"
],
"Hydrax.p2g_conserves": [
"propext",
"Classical.choice",
"Quot.sound"
],
"Hydrax.p2g_kinetic_energy": [
"propext",
"Classical.choice",
"Quot.sound"
],
"Hydrax.p2g_renumber": [
"propext",
"Classical.choice",
"Quot.sound"
],
"Hydrax.p_constant_drifts": [
"propext",
"Classical.choice",
"Quot.sound"
],
"Hydrax.p_constant_no_control": [
"propext",
"Classical.choice",
"Quot.sound"
],
"Hydrax.p_constant_run": [
"propext",
"Classical.choice",
"Quot.sound"
],
"Hydrax.padding_complete_partial": [
"propext",
"Classical.choice",
"Quot.sound"
],
"Hydrax.padding_one_quadratic_commensurate_partial": [
"propext",
"Classical.choice",
"Quot.sound"
],
"Hydrax.padding_one_quadratic_incomplete": [
"propext",
"Classical.choice",
"Quot.sound"
],
"Hydrax.part_of_cell_matters": [
"propext",
"Classical.choice",
"Quot.sound"
],
"Hydrax.particle_damping_idle": [
"propext",
"Classical.choice",
"Quot.sound"
],
"Hydrax.patch_block_step": [
"propext",
"Classical.choice",
"Quot.sound"
],
"Hydrax.patch_equilibrium_partial": [
"propext",
"Classical.choice",
"Quot.sound"
],
"Hydrax.patch_force": [
"propext",
"Classical.choice",
"Quot.sound"
],
"Hydrax.patch_node": [
"propext",
"Classical.choice",
"Quot.sound"
],
"Hydrax.patch_run_partial": [
"propext",
"Classical.choice",
"Quot.sound"
],
"Hydrax.patch_step": [
"propext",
"Classical.choice",
"Quot.sound"
],
"Hydrax.phiFromL_conserves_solid": [
"propext",
"Classical.choice",
"Quot.sound"
],
"Hydrax.phi_e_range": [
"propext",
"Classical.choice",
"Quot.sound"
],
"Hydrax.phi_e_roundtrip": [
"propext",
"Classical.choice",
"Quot.sound"
],
"Hydrax.phi_from_bulk_density_partial": [
"propext",
"Classical.choice",
"Quot.sound"
],
"Hydrax.phi_from_bulk_density_wrong": [
"propext",
"Classical.choice",
"Quot.sound"
],
"Hydrax.pic_g2p_kinetic_energy": [
"propext",
"Classical.choice",
"Quot.sound"
],
"Hydrax.pic_step_kinetic_energy": [
"propext",
"Classical.choice",
"Quot.sound"
],
"Hydrax.pipeProg_eval": [
"propext",
"Classical.choice",
"Quot.sound"
],
"Hydrax.pipe_axis_nan": [
"propext",
"Classical.choice",
"Quot.sound"
],
"Hydrax.pipe_point_lost": [
"propext",
"Classical.choice",
"Quot.sound"
],
"Hydrax.pipe_tame": [
"propext",
"Classical.choice",
"Quot.sound"
],
"Hydrax.planar_obstacle_units": [
"propext",
"Classical.choice",
"Quot.sound"
],
"Hydrax.planeProg_eval": [
"propext",
"Classical.choice",
"Quot.sound"
],
"Hydrax.plane_le_J2": [
"propext",
"Classical.choice",
"Quot.sound"
],
"Hydrax.plane_normal": [
"propext",
"Classical.choice",
"Quot.sound"
],
"Hydrax.plane_reset_det_zero": [
"propext",
"Classical.choice",
"Quot.sound"
],
"Hydrax.plane_rides": [
"propext",
"Classical.choice",
"Quot.sound"
],
"Hydrax.plane_sameLook": [
"propext",
"Classical.choice",
"Quot.sound"
],
"Hydrax.plane_signed_distance": [
"propext",
"Classical.choice",
"Quot.sound"
],
"Hydrax.plane_strain_g2p": [
"propext",
"Classical.choice",
"Quot.sound"
],
"Hydrax.plane_strain_run": [
"propext",
"Classical.choice",
"Quot.sound"
],
"Hydrax.plane_tame": [
"propext",
"Classical.choice",
"Quot.sound"
],
"Hydrax.plastic_step_determines_partial": [
"propext",
"Classical.choice",
"Quot.sound"
],
"Hydrax.point_force_impulse_partial": [
"propext",
"Classical.choice",
"Quot.sound"
],
"Hydrax.point_invariants": [
"propext",
"Classical.choice",
"Quot.sound"
],
"Hydrax.point_lost": [
"propext",
"Classical.choice",
"Quot.sound"
],
"Hydrax.point_number": [
"propext",
"Classical.choice",
"Quot.sound"
],
"Hydrax.point_properties_missing": [
"propext",
"Classical.choice",
"Quot.sound"
],
"Hydrax.points_per_cell_ignored": [
"propext",
"Quot.sound"
],
"Hydrax.posed2_tame": [
"propext",
"Classical.choice",
"Quot.sound"
],
"Hydrax.posed3_tame": [
"propext",
"Classical.choice",
"Quot.sound"
],
"Hydrax.prescribed_axial_strain": [
"propext",
"Classical.choice",
"Quot.sound"
],
"Hydrax.ptsPerDim_least": [
"propext",
"Classical.choice",
"Quot.sound"
],
"Hydrax.pushed_points_move": [
"propext",
"Classical.choice",
"Quot.sound"
],
"Hydrax.qProg_eval": [
"propext",
"Classical.choice",
"Quot.sound"
],
"Hydrax.qSafe_forward": [
"propext",
"Classical.choice",
"Quot.sound"
],
"Hydrax.qSafe_grad_nan": [
"propext",
"Classical.choice",
"Quot.sound"
],
"Hydrax.qVm_value": [
"propext",
"Classical.choice",
"Quot.sound"
],
"Hydrax.q_grad_nan": [
"propext",
"Classical.choice",
"Quot.sound"
],
"Hydrax.q_tame": [
"propext",
"Classical.choice",
"Quot.sound"
],
"Hydrax.quatRotate_eq": [
"propext",
"Classical.choice",
"Quot.sound"
],
"Hydrax.quatRotate_inv": [
"propext",
"Classical.choice",
"Quot.sound"
],
"Hydrax.quatRotate_mul": [
"propext",
"Classical.choice",
"Quot.sound"
],
"Hydrax.quatRotate_not_rigid": [
"propext",
"Classical.choice",
"Quot.sound"
],
"Hydrax.quatRotate_rigid": [
"propext",
"Classical.choice",
"Quot.sound"
],
"Hydrax.quat_norm_bounded": [
"propext",
"Classical.choice",
"Quot.sound"
],
"Hydrax.record_duration": [
"propext",
"Classical.choice",
"Quot.sound"
],
"Hydrax.recorded_rates": [
"propext",
"Classical.choice",
"Quot.sound"
],
"Hydrax.regular_cells_partial": [
"propext",
"Classical.choice",
"Quot.sound"
],
"Hydrax.regular_leaves_cell": [
"propext",
"Classical.choice",
"Quot.sound"
],
"Hydrax.regular_overlaps": [
"propext",
"Classical.choice",
"Quot.sound"
],
"Hydrax.regularised_factor": [
"propext",
"Classical.choice",
"Quot.sound"
],
"Hydrax.remove_shear_partial": [
"propext",
"Classical.choice",
"Quot.sound"
],
"Hydrax.reported_strain_partial": [
"propext",
"Classical.choice",
"Quot.sound"
],
"Hydrax.reported_strain_scalar_wrong": [
"propext",
"Classical.choice",
"Quot.sound"
],
"Hydrax.reported_strain_stride_wrong": [
"propext",
"Classical.choice",
"Quot.sound"
],
"Hydrax.reported_strains": [
"propext",
"Classical.choice",
"Quot.sound"
],
"Hydrax.rerun_mesh_normals_partial": [
"propext",
"Classical.choice",
"Quot.sound"
],
"Hydrax.rerun_mesh_normals_wrong": [
"propext",
"Classical.choice",
"Quot.sound"
],
"Hydrax.reset_det_fails": [
"propext",
"Classical.choice",
"Quot.sound"
],
"Hydrax.reset_twice_fails": [
"propext",
"Classical.choice",
"Quot.sound"
],
"Hydrax.rest_tamed_partial": [
"propext",
"Classical.choice",
"Quot.sound"
],
"Hydrax.resting_wall_work": [
"propext",
"Classical.choice",
"Quot.sound"
],
"Hydrax.resume_run_partial": [
"propext",
"Classical.choice",
"Quot.sound"
],
"Hydrax.return_exists": [
"propext",
"Classical.choice",
"Quot.sound"
],
"Hydrax.return_unique": [
"propext",
"Classical.choice",
"Quot.sound"
],
"Hydrax.rigid_motion2": [
"propext",
"Classical.choice",
"Quot.sound"
],
"Hydrax.rigid_motion3": [
"propext",
"Classical.choice",
"Quot.sound"
],
"Hydrax.ringProg_eval": [
"propext",
"Classical.choice",
"Quot.sound"
],
"Hydrax.ring_centre_nan": [
"propext",
"Classical.choice",
"Quot.sound"
],
"Hydrax.ring_no_hole_wrong": [
"propext",
"Classical.choice",
"Quot.sound"
],
"Hydrax.ring_point_lost": [
"propext",
"Classical.choice",
"Quot.sound"
],
"Hydrax.ring_signed_distance": [
"propext",
"Classical.choice",
"Quot.sound"
],
"Hydrax.ring_tame": [
"propext",
"Classical.choice",
"Quot.sound"
],
"Hydrax.rnd64_err": [
"propext",
"Classical.choice",
"Quot.sound"
],
"Hydrax.rnd64_exact": [
"propext",
"Classical.choice",
"Quot.sound"
],
"Hydrax.rootOps_path": [
"propext",
"Classical.choice",
"Quot.sound"
],
"Hydrax.rot2_rigid": [
"propext",
"Classical.choice",
"Quot.sound"
],
"Hydrax.run_boxes": [
"propext",
"Classical.choice",
"Quot.sound"
],
"Hydrax.run_continuous_partial": [
"propext",
"Classical.choice",
"Quot.sound"
],
"Hydrax.run_domain": [
"propext",
"Classical.choice",
"Quot.sound"
],
"Hydrax.run_ignores_tilt": [
"propext",
"Quot.sound"
],
"Hydrax.run_length_time_units_partial": [
"propext",
"Classical.choice",
"Quot.sound"
],
"Hydrax.run_local": [
"propext",
"Classical.choice",
"Quot.sound"
],
"Hydrax.run_stable_partial": [
"propext",
"Classical.choice",
"Quot.sound"
],
"Hydrax.run_units_partial": [
"propext",
"Classical.choice",
"Quot.sound"
],
"Hydrax.run_upright": [
"propext",
"Classical.choice",
"Quot.sound"
],
"Hydrax.run_uses_params_partial": [
"propext",
"Quot.sound"
],
"Hydrax.run_withN": [
"propext",
"Classical.choice",
"Quot.sound"
],
"Hydrax.safeInvProg_eval": [
"propext",
"Classical.choice",
"Quot.sound"
],
"Hydrax.safeInv_tame": [
"propext",
"Classical.choice",
"Quot.sound"
],
"Hydrax.safeInv_value": [
"propext",
"Classical.choice",
"Quot.sound"
],
"Hydrax.safeNorm_tame": [
"propext",
"Classical.choice",
"Quot.sound"
],
"Hydrax.safe_inv_clipped": [
"propext",
"Classical.choice",
"Quot.sound"
],
"Hydrax.safe_inv_exact_code": [
"propext",
"Classical.choice",
"Quot.sound"
],
"Hydrax.sameLattice_create": [
"propext",
"Classical.choice",
"Quot.sound"
],
"Hydrax.sample_backwards": [
"propext",
"Classical.choice",
"Quot.sound"
],
"Hydrax.sample_covers_partial": [
"propext",
"Classical.choice",
"Quot.sound"
],
"Hydrax.sample_misses_end": [
"propext",
"Classical.choice",
"Quot.sound"
],
"Hydrax.sample_misses_flat_top": [
"propext",
"Classical.choice",
"Quot.sound"
],
"Hydrax.save_mode_ignored": [
"propext"
],
"Hydrax.save_mode_partial": [
"propext",
"Quot.sound"
],
"Hydrax.saved_close_partial": [
"propext",
"Classical.choice",
"Quot.sound"
],
"Hydrax.saved_lost": [
"propext",
"Classical.choice",
"Quot.sound"
],
"Hydrax.saved_solver_static": [
"propext",
"Classical.choice",
"Quot.sound"
],
"Hydrax.saved_stress_kPa": [
"propext",
"Classical.choice",
"Quot.sound"
],
"Hydrax.scatter_constant": [
"propext",
"Classical.choice",
"Quot.sound"
],
"Hydrax.scatter_range": [
"propext",
"Classical.choice",
"Quot.sound"
],
"Hydrax.scatter_total": [
"propext",
"Classical.choice",
"Quot.sound"
],
"Hydrax.scatter_weighted_mean": [
"propext",
"Classical.choice",
"Quot.sound"
],
"Hydrax.sdf_collider_hook": [
"propext",
"Classical.choice",
"Quot.sound"
],
"Hydrax.sdf_paired_partial": [
"propext",
"Classical.choice",
"Quot.sound"
],
"Hydrax.sdf_subset_wrong": [
"propext",
"Classical.choice",
"Quot.sound"
],
"Hydrax.second_grid_fails": [
"propext",
"Classical.choice",
"Quot.sound"
],
"Hydrax.second_moment_constant": [
"propext",
"Classical.choice",
"Quot.sound"
],
"Hydrax.second_moment_linear_not_constant": [
"propext",
"Classical.choice",
"Quot.sound"
],
"Hydrax.shared_grid_energy_fails": [
"propext",
"Classical.choice",
"Quot.sound"
],
"Hydrax.shared_grid_force_fails": [
"propext",
"Classical.choice",
"Quot.sound"
],
"Hydrax.shared_grid_force_last": [
"propext",
"Classical.choice",
"Quot.sound"
],
"Hydrax.shared_grid_partial": [
"propext",
"Classical.choice",
"Quot.sound"
],
"Hydrax.sharpness_irrelevant": [
"propext",
"Classical.choice",
"Quot.sound"
],
"Hydrax.shearStrainVm_value": [
"propext",
"Classical.choice",
"Quot.sound"
],
"Hydrax.shearVm_tame": [
"propext",
"Classical.choice",
"Quot.sound"
],
"Hydrax.shear_strain_rate_value": [
"propext",
"Classical.choice",
"Quot.sound"
],
"Hydrax.short_step_partial": [
"propext",
"Classical.choice",
"Quot.sound"
],
"Hydrax.signedDist_axisLipschitz": [
"propext",
"Classical.choice",
"Quot.sound"
],
"Hydrax.signedDist_union": [
"propext",
"Classical.choice",
"Quot.sound"
],
"Hydrax.signed_scatter_faithful": [
"propext",
"Classical.choice",
"Quot.sound"
],
"Hydrax.silo_node_lost": [
"propext",
"Classical.choice",
"Quot.sound"
],
"Hydrax.simulation_resumes_partial": [
"propext",
"Classical.choice",
"Quot.sound"
],
"Hydrax.single_point_obstacle_fails": [
"propext",
"Classical.choice",
"Quot.sound"
],
"Hydrax.single_point_second_call_fails": [
"propext",
"Classical.choice",
"Quot.sound"
],
"Hydrax.sip_label": [
"propext",
"Classical.choice",
"Quot.sound"
],
"Hydrax.sip_length": [
"propext",
"Classical.choice",
"Quot.sound"
],
"Hydrax.sip_reported_wrong": [
"propext",
"Classical.choice",
"Quot.sound"
],
"Hydrax.sip_strain": [
"propext",
"Classical.choice",
"Quot.sound"
],
"Hydrax.sip_strain_missed": [
"propext",
"Classical.choice",
"Quot.sound"
],
"Hydrax.slab_after": [
"propext",
"Classical.choice",
"Quot.sound"
],
"Hydrax.slab_clay_run_partial": [
"propext",
"Classical.choice",
"Quot.sound"
],
"Hydrax.slab_clay_step": [
"propext",
"Classical.choice",
"Quot.sound"
],
"Hydrax.slab_elastic_run_partial": [
"propext",
"Classical.choice",
"Quot.sound"
],
"Hydrax.slab_elastic_step": [
"propext",
"Classical.choice",
"Quot.sound"
],
"Hydrax.slab_fluid_run_partial": [
"propext",
"Classical.choice",
"Quot.sound"
],
"Hydrax.slab_fluid_step": [
"propext",
"Classical.choice",
"Quot.sound"
],
"Hydrax.slab_g2p": [
"propext",
"Classical.choice",
"Quot.sound"
],
"Hydrax.slab_gravity": [
"propext",
"Classical.choice",
"Quot.sound"
],
"Hydrax.slab_integrate": [
"propext",
"Classical.choice",
"Quot.sound"
],
"Hydrax.slab_p2g": [
"propext",
"Classical.choice",
"Quot.sound"
],
"Hydrax.slab_reset_differs": [
"propext",
"Classical.choice",
"Quot.sound"
],
"Hydrax.slab_sand_run_partial": [
"propext",
"Classical.choice",
"Quot.sound"
],
"Hydrax.slab_sand_step": [
"propext",
"Classical.choice",
"Quot.sound"
],
"Hydrax.slab_sand_thickness": [
"propext",
"Classical.choice",
"Quot.sound"
],
"Hydrax.slab_step": [
"propext",
"Classical.choice",
"Quot.sound"
],
"Hydrax.slope_creep_partial": [
"propext",
"Classical.choice",
"Quot.sound"
],
"Hydrax.slope_fails": [
"propext",
"Classical.choice",
"Quot.sound"
],
"Hydrax.slope_flows": [
"propext",
"Classical.choice",
"Quot.sound"
],
"Hydrax.slope_held": [
"propext",
"Classical.choice",
"Quot.sound"
],
"Hydrax.slope_steady_partial": [
"propext",
"Classical.choice",
"Quot.sound"
],
"Hydrax.slow_point_stuck": [
"propext",
"Classical.choice",
"Quot.sound"
],
"Hydrax.slow_strain_lost": [
"propext",
"Classical.choice",
"Quot.sound"
],
"Hydrax.smallStep_sharp": [
"propext",
"Classical.choice",
"Quot.sound"
],
"Hydrax.smooth_of_gradient": [
"propext",
"Classical.choice",
"Quot.sound"
],
"Hydrax.solids_rate_free": [
"propext",
"Classical.choice",
"Quot.sound"
],
"Hydrax.solver_state_partial": [
"propext",
"Classical.choice",
"Quot.sound"
],
"Hydrax.solver_stress_current": [
"propext",
"Classical.choice",
"Quot.sound"
],
"Hydrax.spatial_obstacle_units": [
"propext",
"Classical.choice",
"Quot.sound"
],
"Hydrax.spectral_equal_wavelengths": [
"propext",
"Classical.choice",
"Quot.sound"
],
"Hydrax.spectral_power_law": [
"propext",
"Classical.choice",
"Quot.sound"
],
"Hydrax.spectral_roughness": [
"propext",
"Classical.choice",
"Quot.sound"
],
"Hydrax.spectral_wavelengths": [
"propext",
"Classical.choice",
"Quot.sound"
],
"Hydrax.sphereProg_eval": [
"propext",
"Classical.choice",
"Quot.sound"
],
"Hydrax.sphereSdf_sym": [
"propext",
"Classical.choice",
"Quot.sound"
],
"Hydrax.sphere_centre_nan": [
"propext",
"Classical.choice",
"Quot.sound"
],
"Hydrax.sphere_normal": [
"propext",
"Classical.choice",
"Quot.sound"
],
"Hydrax.sphere_normal_code": [
"propext",
"Classical.choice",
"Quot.sound"
],
"Hydrax.sphere_signed_distance": [
"propext",
"Classical.choice",
"Quot.sound"
],
"Hydrax.sphere_tame": [
"propext",
"Classical.choice",
"Quot.sound"
],
"Hydrax.spin_J2_grows": [
"propext",
"Classical.choice",
"Quot.sound"
],
"Hydrax.spin_pressure_partial": [
"propext",
"Classical.choice",
"Quot.sound"
],
"Hydrax.star_signed_distance": [
"propext",
"Classical.choice",
"Quot.sound"
],
"Hydrax.stateName_injective": [
"propext",
"Classical.choice",
"Quot.sound"
],
"Hydrax.steady_drained_faster": [
"propext",
"Classical.choice",
"Quot.sound"
],
"Hydrax.steady_drained_unique": [
"propext",
"Classical.choice",
"Quot.sound"
],
"Hydrax.steady_drawn": [
"propext",
"Classical.choice",
"Quot.sound"
],
"Hydrax.steady_undrained_faster": [
"propext",
"Classical.choice",
"Quot.sound"
],
"Hydrax.steady_undrained_unique": [
"propext",
"Classical.choice",
"Quot.sound"
],
"Hydrax.steady_unique": [
"propext",
"Classical.choice",
"Quot.sound"
],
"Hydrax.steeper_slopes_stand": [
"propext",
"Classical.choice",
"Quot.sound"
],
"Hydrax.step_count_exact": [
"propext",
"Classical.choice",
"Quot.sound"
],
"Hydrax.step_count_loses_step": [
"propext",
"Classical.choice",
"Quot.sound"
],
"Hydrax.step_count_within_one_partial": [
"propext",
"Classical.choice",
"Quot.sound"
],
"Hydrax.step_error": [
"propext",
"Classical.choice",
"Quot.sound"
],
"Hydrax.step_local": [
"propext",
"Classical.choice",
"Quot.sound"
],
"Hydrax.step_renumber": [
"propext",
"Classical.choice",
"Quot.sound"
],
"Hydrax.step_tamed_partial": [
"propext",
"Classical.choice",
"Quot.sound"
],
"Hydrax.step_units_partial": [
"propext",
"Classical.choice",
"Quot.sound"
],
"Hydrax.steps_not_time": [
"propext",
"Classical.choice",
"Quot.sound"
],
"Hydrax.store_lost": [
"propext",
"Classical.choice",
"Quot.sound"
],
"Hydrax.store_overwritten": [
"propext",
"Classical.choice",
"Quot.sound"
],
"Hydrax.strain_not_faithful": [
"propext",
"Classical.choice",
"Quot.sound"
],
"Hydrax.strain_rate_stretch": [
"propext",
"Classical.choice",
"Quot.sound"
],
"Hydrax.stress_split": [
"propext",
"Classical.choice",
"Quot.sound"
],
"Hydrax.stress_split_unique": [
"propext",
"Classical.choice",
"Quot.sound"
],
"Hydrax.stress_symmetric_run": [
"propext",
"Classical.choice",
"Quot.sound"
],
"Hydrax.stretchRounded_id": [
"propext",
"Classical.choice",
"Quot.sound"
],
"Hydrax.stretch_error_partial": [
"propext",
"Classical.choice",
"Quot.sound"
],
"Hydrax.stride_not_dividing": [
"propext",
"Classical.choice",
"Quot.sound"
],
"Hydrax.stride_subsamples": [
"propext",
"Classical.choice",
"Quot.sound"
],
"Hydrax.study_depends": [
"propext",
"Classical.choice",
"Quot.sound"
],
"Hydrax.study_friction": [
"propext",
"Classical.choice",
"Quot.sound"
],
"Hydrax.study_friction_cut": [
"propext",
"Classical.choice",
"Quot.sound"
],
"Hydrax.study_friction_half": [
"propext",
"Classical.choice",
"Quot.sound"
],
"Hydrax.study_friction_not_ramped": [
"propext",
"Classical.choice",
"Quot.sound"
],
"Hydrax.study_geometry": [
"propext",
"Classical.choice",
"Quot.sound"
],
"Hydrax.study_key_lost": [
"propext"
],
"Hydrax.study_level": [
"propext",
"Classical.choice",
"Quot.sound"
],
"Hydrax.study_sample": [
"propext",
"Classical.choice",
"Quot.sound"
],
"Hydrax.study_stress_level": [
"propext",
"Classical.choice",
"Quot.sound"
],
"Hydrax.study_stress_partial": [
"propext",
"Classical.choice",
"Quot.sound"
],
"Hydrax.study_tilt": [
"propext",
"Classical.choice",
"Quot.sound"
],
"Hydrax.study_varies_tilt": [
"propext",
"Classical.choice",
"Quot.sound"
],
"Hydrax.surface_velocity2": [
"propext",
"Classical.choice",
"Quot.sound"
],
"Hydrax.surface_velocity2_update": [
"propext",
"Classical.choice",
"Quot.sound"
],
"Hydrax.surface_velocity3": [
"propext",
"Classical.choice",
"Quot.sound"
],
"Hydrax.symmetric_scene_stays": [
"propext",
"Classical.choice",
"Quot.sound"
],
"Hydrax.table_affine": [
"propext",
"Classical.choice",
"Quot.sound"
],
"Hydrax.table_between": [
"propext",
"Classical.choice",
"Quot.sound"
],
"Hydrax.table_box_contains": [
"propext",
"Classical.choice",
"Quot.sound"
],
"Hydrax.table_box_fails": [
"propext",
"Classical.choice",
"Quot.sound"
],
"Hydrax.table_outside": [
"propext",
"Classical.choice",
"Quot.sound"
],
"Hydrax.table_scale": [
"propext",
"Classical.choice",
"Quot.sound"
],
"Hydrax.tau_value": [
"propext",
"Classical.choice",
"Quot.sound"
],
"Hydrax.test_rate_free": [
"propext",
"Classical.choice",
"Quot.sound"
],
"Hydrax.tilt_gravity": [
"propext",
"Classical.choice",
"Quot.sound"
],
"Hydrax.torusProg_eval": [
"propext",
"Classical.choice",
"Quot.sound"
],
"Hydrax.torus_core_nan": [
"propext",
"Classical.choice",
"Quot.sound"
],
"Hydrax.torus_signed_distance": [
"propext",
"Classical.choice",
"Quot.sound"
],
"Hydrax.torus_tame": [
"propext",
"Classical.choice",
"Quot.sound"
],
"Hydrax.traj_last_partial": [
"propext",
"Quot.sound"
],
"Hydrax.traj_records": [
"propext",
"Quot.sound"
],
"Hydrax.traj_times": [
"propext",
"Classical.choice",
"Quot.sound"
],
"Hydrax.traj_uses_params": [
"propext",
"Quot.sound"
],
"Hydrax.triaxial_roundtrip": [
"propext",
"Classical.choice",
"Quot.sound"
],
"Hydrax.trx_envelope_shown": [
"propext",
"Classical.choice",
"Quot.sound"
],
"Hydrax.trx_lines_shown": [
"propext",
"Classical.choice",
"Quot.sound"
],
"Hydrax.trx_panels_agree": [
"propext",
"Classical.choice",
"Quot.sound"
],
"Hydrax.trx_reading": [
"propext",
"Classical.choice",
"Quot.sound"
],
"Hydrax.trx_run_reading": [
"propext",
"Classical.choice",
"Quot.sound"
],
"Hydrax.trx_sl_counterexample": [
"propext",
"Classical.choice",
"Quot.sound"
],
"Hydrax.trx_sl_end_partial": [
"propext",
"Classical.choice",
"Quot.sound"
],
"Hydrax.trx_sl_repaired": [
"propext",
"Classical.choice",
"Quot.sound"
],
"Hydrax.trx_sl_value": [
"propext",
"Classical.choice",
"Quot.sound"
],
"Hydrax.trx_sl_wrong": [
"propext",
"Classical.choice",
"Quot.sound"
],
"Hydrax.two_obstacles_give_energy": [
"propext",
"Classical.choice",
"Quot.sound"
],
"Hydrax.two_steps_not_galilean": [
"propext",
"Classical.choice",
"Quot.sound"
],
"Hydrax.uepiProg_eval": [
"propext",
"Classical.choice",
"Quot.sound"
],
"Hydrax.uepi_admissible_run": [
"propext",
"Classical.choice",
"Quot.sound"
],
"Hydrax.uepi_admissible_step": [
"propext",
"Classical.choice",
"Quot.sound"
],
"Hydrax.uepi_between": [
"propext",
"Classical.choice",
"Quot.sound"
],
"Hydrax.uepi_contracting_unique": [
"propext",
"Classical.choice",
"Quot.sound"
],
"Hydrax.uepi_cycle_gains": [
"propext",
"Classical.choice",
"Quot.sound"
],
"Hydrax.uepi_dry_not_unique": [
"propext",
"Classical.choice",
"Quot.sound"
],
"Hydrax.uepi_elastic_inside": [
"propext",
"Classical.choice",
"Quot.sound"
],
"Hydrax.uepi_flows": [
"propext",
"Classical.choice",
"Quot.sound"
],
"Hydrax.uepi_gamma_N": [
"propext",
"Classical.choice",
"Quot.sound"
],
"Hydrax.uepi_helpers": [
"propext",
"Classical.choice",
"Quot.sound"
],
"Hydrax.uepi_init_partial": [
"propext",
"Classical.choice",
"Quot.sound"
],
"Hydrax.uepi_init_q_fails": [
"propext",
"Classical.choice",
"Quot.sound"
],
"Hydrax.uepi_isotropic_inside": [
"propext",
"Classical.choice",
"Quot.sound"
],
"Hydrax.uepi_iys_fails": [
"propext",
"Classical.choice",
"Quot.sound"
],
"Hydrax.uepi_iys_partial": [
"propext",
"Classical.choice",
"Quot.sound"
],
"Hydrax.uepi_jacfwd_exact": [
"propext",
"Classical.choice",
"Quot.sound"
],
"Hydrax.uepi_keeps_steady": [
"propext",
"Classical.choice",
"Quot.sound"
],
"Hydrax.uepi_line_elastic": [
"propext",
"Classical.choice",
"Quot.sound"
],
"Hydrax.uepi_line_lost": [
"propext",
"Classical.choice",
"Quot.sound"
],
"Hydrax.uepi_line_run_partial": [
"propext",
"Classical.choice",
"Quot.sound"
],
"Hydrax.uepi_line_yield": [
"propext",
"Classical.choice",
"Quot.sound"
],
"Hydrax.uepi_lines": [
"propext",
"Classical.choice",
"Quot.sound"
],
"Hydrax.uepi_newton_converges": [
"propext",
"Classical.choice",
"Quot.sound"
],
"Hydrax.uepi_not_associated": [
"propext",
"Classical.choice",
"Quot.sound"
],
"Hydrax.uepi_rate": [
"propext",
"Classical.choice",
"Quot.sound"
],
"Hydrax.uepi_return_dissipates": [
"propext",
"Classical.choice",
"Quot.sound"
],
"Hydrax.uepi_return_map": [
"propext",
"Classical.choice",
"Quot.sound"
],
"Hydrax.uepi_solvable": [
"propext",
"Classical.choice",
"Quot.sound"
],
"Hydrax.uepi_steady_iff": [
"propext",
"Classical.choice",
"Quot.sound"
],
"Hydrax.uepi_steady_volume": [
"propext",
"Classical.choice",
"Quot.sound"
],
"Hydrax.uepi_step_exists_partial": [
"propext",
"Classical.choice",
"Quot.sound"
],
"Hydrax.uepi_strengthening": [
"propext",
"Classical.choice",
"Quot.sound"
],
"Hydrax.uepi_surface": [
"propext",
"Classical.choice",
"Quot.sound"
],
"Hydrax.uepi_update_steady": [
"propext",
"Classical.choice",
"Quot.sound"
],
"Hydrax.uepi_wet_contracts": [
"propext",
"Classical.choice",
"Quot.sound"
],
"Hydrax.uepi_wet_determined": [
"propext",
"Classical.choice",
"Quot.sound"
],
"Hydrax.uepi_wet_unique": [
"propext",
"Classical.choice",
"Quot.sound"
],
"Hydrax.uncoupled_body_exact": [
"propext",
"Classical.choice",
"Quot.sound"
],
"Hydrax.undrained_critical_partial": [
"propext",
"Classical.choice",
"Quot.sound"
],
"Hydrax.undrained_failure_partial": [
"propext",
"Classical.choice",
"Quot.sound"
],
"Hydrax.undrained_near_partial": [
"propext",
"Classical.choice",
"Quot.sound"
],
"Hydrax.undrained_path": [
"propext",
"Classical.choice",
"Quot.sound"
],
"Hydrax.undrained_volume_constant": [
"propext",
"Classical.choice",
"Quot.sound"
],
"Hydrax.unknown_scheme": [
"propext",
"Quot.sound"
],
"Hydrax.unseen_decays": [
"propext",
"Classical.choice",
"Quot.sound"
],
"Hydrax.unseen_step": [
"propext",
"Classical.choice",
"Quot.sound"
],
"Hydrax.updates_value": [
"propext",
"Classical.choice",
"Quot.sound"
],
"Hydrax.usl_alpha_blend": [
"propext",
"Classical.choice",
"Quot.sound"
],
"Hydrax.usl_alpha_partial": [
"propext",
"Classical.choice",
"Quot.sound"
],
"Hydrax.usl_alpha_reversed": [
"propext",
"Classical.choice",
"Quot.sound"
],
"Hydrax.usl_deformation_follows_partial": [
"propext",
"Classical.choice",
"Quot.sound"
],
"Hydrax.usl_deformation_wrong": [
"propext",
"Classical.choice",
"Quot.sound"
],
"Hydrax.usl_galilean_partial": [
"propext",
"Classical.choice",
"Quot.sound"
],
"Hydrax.usl_given_force_ignored": [
"propext",
"Classical.choice",
"Quot.sound"
],
"Hydrax.usl_grid_angular_momentum": [
"propext",
"Classical.choice",
"Quot.sound"
],
"Hydrax.usl_no_new_extremes": [
"propext",
"Classical.choice",
"Quot.sound"
],
"Hydrax.usl_point_damping_ignored": [
"propext",
"Classical.choice",
"Quot.sound"
],
"Hydrax.usl_run_energy_partial": [
"propext",
"Classical.choice",
"Quot.sound"
],
"Hydrax.usl_run_momentum": [
"propext",
"Classical.choice",
"Quot.sound"
],
"Hydrax.usl_run_no_new_extremes": [
"propext",
"Classical.choice",
"Quot.sound"
],
"Hydrax.usl_run_split": [
"propext",
"Classical.choice",
"Quot.sound"
],
"Hydrax.usl_run_split_laws_partial": [
"propext",
"Classical.choice",
"Quot.sound"
],
"Hydrax.usl_run_symmetric": [
"propext",
"Classical.choice",
"Quot.sound"
],
"Hydrax.usl_run_translation": [
"propext",
"Classical.choice",
"Quot.sound"
],
"Hydrax.usl_run_weight": [
"propext",
"Classical.choice",
"Quot.sound"
],
"Hydrax.usl_spin_gradient": [
"propext",
"Classical.choice",
"Quot.sound"
],
"Hydrax.usl_split": [
"propext",
"Classical.choice",
"Quot.sound"
],
"Hydrax.usl_step_energy_partial": [
"propext",
"Classical.choice",
"Quot.sound"
],
"Hydrax.usl_step_energy_stressfree": [
"propext",
"Classical.choice",
"Quot.sound"
],
"Hydrax.usl_step_kinetic_energy": [
"propext",
"Classical.choice",
"Quot.sound"
],
"Hydrax.usl_step_momentum": [
"propext",
"Classical.choice",
"Quot.sound"
],
"Hydrax.usl_step_translation": [
"propext",
"Classical.choice",
"Quot.sound"
],
"Hydrax.usl_strain_rate_partial": [
"propext",
"Classical.choice",
"Quot.sound"
],
"Hydrax.usl_symmetric": [
"propext",
"Classical.choice",
"Quot.sound"
],
"Hydrax.usl_velocity_gradient_transposed": [
"propext",
"Classical.choice",
"Quot.sound"
],
"Hydrax.usl_velocity_gradient_wrong": [
"propext",
"Classical.choice",
"Quot.sound"
],
"Hydrax.volume_array_shape_partial": [
"propext",
"Classical.choice",
"Quot.sound"
],
"Hydrax.volume_invariant_fails": [
"propext",
"Classical.choice",
"Quot.sound"
],
"Hydrax.volume_invariant_partial": [
"propext",
"Classical.choice",
"Quot.sound"
],
"Hydrax.vtk_calls_fail": [
"propext",
"Classical.choice",
"Quot.sound"
],
"Hydrax.vtk_default_step_overwrites": [
"propext",
"Classical.choice",
"Quot.sound"
],
"Hydrax.vtk_faces_read": [
"propext",
"Classical.choice",
"Quot.sound"
],
"Hydrax.vtk_files": [
"propext",
"Classical.choice",
"Quot.sound"
],
"Hydrax.vtk_lines_partition": [
"propext",
"Quot.sound"
],
"Hydrax.vtk_mesh_normals": [
"propext",
"Classical.choice",
"Quot.sound"
],
"Hydrax.vtk_particles_content": [
"propext",
"Classical.choice",
"Quot.sound"
],
"Hydrax.vtk_series_kept": [
"propext",
"Classical.choice",
"Quot.sound"
],
"Hydrax.wall_holds": [
"propext",
"Classical.choice",
"Quot.sound"
],
"Hydrax.wall_holds_run": [
"propext",
"Classical.choice",
"Quot.sound"
],
"Hydrax.wall_tight": [
"propext",
"Classical.choice",
"Quot.sound"
],
"Hydrax.wall_tight_run": [
"propext",
"Classical.choice",
"Quot.sound"
],
"Hydrax.walls_break_symmetry": [
"propext",
"Classical.choice",
"Quot.sound"
],
"Hydrax.walls_signed_distance": [
"propext",
"Classical.choice",
"Quot.sound"
],
"Hydrax.weight_gradient_is_derivative": [
"propext",
"Classical.choice",
"Quot.sound"
],
"Hydrax.weight_gradients_sum_zero": [
"propext",
"Classical.choice",
"Quot.sound"
],
"Hydrax.weights_are_bsplines": [
"propext",
"Classical.choice",
"Quot.sound"
],
"Hydrax.weights_partition_of_unity": [
"propext",
"Classical.choice",
"Quot.sound"
],
"Hydrax.whole_cells": [
"propext",
"Classical.choice",
"Quot.sound"
],
"Hydrax.whole_cells_run": [
"propext",
"Classical.choice",
"Quot.sound"
],
"Hydrax.wide_cone_no_angle": [
"propext",
"Classical.choice",
"Quot.sound"
],
"Hydrax.zero_step": [
"propext",
"Classical.choice",
"Quot.sound"
],
"Hydrax.fluid_create_fails": [],
"Hydrax.traj_drops_steps": []
}
