CLAIMS = [
 ("C01", "proved", "weights_partition_of_unity", "all three kernels, any dimension"),
 ("C02", "proved", "weights_are_bsplines weight_gradient_is_derivative weight_gradients_sum_zero",
  "weights identified with cardinal B-splines of the scaled offset; derivative via HasDerivAt of the total nodal weight"),
 ("C03", "proved", "affine_field_reproduced affine_gradient_reproduced linear_gradient_wrong_on_grid_line",
  "the last theorem shows the grid-line hypothesis of the linear kernel is necessary"),
 ("C04", "proved", "second_moment_constant second_moment_linear_not_constant", ""),
 ("C05", "proved", "node_index_in_range node_index_no_alias node_index_position", ""),
 ("C06", "proved", "outside_slots_inactive outside_point_no_effect", ""),
 ("C07", "partial", "padding_complete_partial padding_one_quadratic_commensurate_partial padding_one_quadratic_incomplete",
  "documented padding 1 for the quadratic kernel is refuted; holds with padding 2, or padding 1 when the box is a whole number of cells"),
 ("C08", "proved", "p2g_conserves aflip_p2g_conserves", ""),
 ("C09", "proved", "internal_forces_self_equilibrated nodal_forces_sum internal_force_power", ""),
 ("C14", "partial", "usl_velocity_gradient_transposed usl_strain_rate_partial aflip_velocity_gradient usl_velocity_gradient_wrong",
  "USL stores the transpose, refuted by usl_velocity_gradient_wrong; the symmetric part is right; AFLIP stores the true gradient"),
 ("C20", "proved", "p2g_kinetic_energy pic_g2p_kinetic_energy pic_step_kinetic_energy usl_step_kinetic_energy usl_step_energy_stressfree", "usl_step_kinetic_energy is the whole call for any number of bodies and grids; usl_step_energy_stressfree adds every blend and gravity"),
 ("C22", "proved", "p2g_renumber g2p_renumber step_renumber", ""),
 ("C15", "proved", "mass_volume0_invariant", "all solvers, forces and laws of the package, any number of bodies and steps"),
 ("C16", "partial", "volume_invariant_partial plane_reset_det_zero volume_invariant_fails",
  "false in 2D for laws with requires_F_reset=True (det F becomes 0); proved in 3D and for laws without reset"),
 ("C17", "proved", "plane_strain_g2p plane_strain_run", "F[2,2]=1 is stated after G2P; a later F reset sets it to 0"),
 ("C18", "proved", "clock_exact", ""),
 ("C19", "proved", "inactive_body_unchanged uncoupled_body_exact",
  "scratch arrays L and force of a body named in a skipped coupling are cleared by the reset stage"),
 ("C55", "partial", "aflip_stored aflip_affine_roundtrip_partial aflip_affine_swapped aflip_index_error",
  "the state is read at s_idx and written at p_idx; refuted when these differ"),
 ("C63", "proved", "cpic_mask_one ghost_irrelevant sharpness_irrelevant", ""),
 ("C66", "partial", "volume_array_shape_partial single_point_second_call_fails single_point_obstacle_fails",
  "refuted for bodies of one point: the second call always fails, with obstacles (USL) even the first"),
 ("C30", "proved", "elastic_total_strain elastic_order_independent elastic_closed_cycle elastic_spin_irrelevant elastic_pressure elasticLaw_point", ""),
 ("C31", "proved", "stress_symmetric_run libLaw_symm jaumann_symm elasticStress_symm fluidStress_symm muIStress_symm dpUpdate_symm mccUpdate_symm",
  "whole scenes, any number of steps, all five laws"),
 ("C62", "proved", "elastic_dt_crit dtCrit_bound", ""),
 ("C32", "partial", "dp_admissible_partial dp_admissible_run_partial muI_in_cone dp_cone_residual dp_dilatant_inadmissible dp_admissible_fails",
  "proved for mu_1_hat=0 with inactive apex regularisation, for single updates and (H=0) for all points over runs of scenes with Drucker-Prager and mu(I) bodies; refuted for mu_1_hat>0 (sign of the volumetric correction)"),
 ("C33", "proved", "dp_stress_strain_consistent dpLaw_point", ""),
 ("C34", "partial", "dp_plastic_strain_monotone_partial dp_apex_decreases dp_plastic_strain_monotone_fails",
  "refuted for the apex return, which strictly decreases eps_p_acc"),
 ("C35", "partial", "muI_pressure muI_dissipative muI_shear_stress muI_friction_bound_partial muI_friction_law_half muI_friction_law_fails",
  "pressure, dissipation and bound hold; the shear stress is half of mu(I) p"),
 ("C36", "partial", "fluid_pressure_partial fluid_pressure_sign_wrong fluidLaw_pressure fluid_create_fails",
  "the sign of the pressure is wrong in the compression-positive convention used everywhere else"),
 ("C37", "proved", "fluid_eos_roundtrip muI_create_roundtrip mcc_ocr_density_roundtrip mcc_stress_roundtrip mcc_density_roundtrip mcc_state_without_ref_fails",
  "two of the Cam-Clay constructors leave stress_ref_stack=None, so the law cannot be run from them (last theorem)"),
 ("C38", "partial", "mcc_ocr_admissible_partial mcc_ocr_inside_moved",
  "every stress with q given is projected, also from the inside"),
 ("C39", "partial", "mcc_pc_pos mcc_pc_pos_run mcc_elastic_inside_partial mcc_return_shrinks mcc_disconnected mcc_pc_ge_one mccLaw_point mcc_reconnection_fails",
  "all parts proved except the elastic one for points whose previous mean stress is below p_min_calc, where it is refuted"),
 ("C40", "partial", "mcc_no_tension_partial mcc_reconnection_fails",
  "refuted for points reconnecting from zero stress"),
 ("C41", "partial", "remove_shear_partial reset_det_fails reset_twice_fails store_lost store_overwritten",
  "3D determinant and idempotence proved; 2D determinant and F_store refuted"),
 ("C24", "proved", "contact_no_penetration contact_penetration_bound sdf_collider_hook",
  "node and hook level; the second theorem covers normals shorter than one as produced by get_normal"),
 ("C25", "proved", "contact_friction contact_penetration_bound sdf_collider_hook", "node and hook level"),
 ("C26", "proved", "collideNode_outside sdf_collider_hook", ""),
 ("C28", "proved", "damp_component damping_grid damping_body damping_grid_hook damping_body_hook particle_damping_idle", "component, grid, body and hook level"),
 ("C29", "partial", "contact_momentum_partial contact_momentum_fails contact_rigid_actor grid_contact_never_runs",
  "momentum conserved up to the 1e-12 regularisation only; the solver can never complete a step with this force"),
 ("C67", "proved", "collider_gap_ignored collider_depth_ignored",
  "shows that the documented margin `gap` has no effect"),
 ("C10", "proved", "usl_step_momentum momentum_cutoff_needed",
  "bodies in their boxes, one active coupling per body; the second theorem shows the cutoff hypothesis is necessary"),
 ("C12", "proved", "usl_run_momentum usl_run_weight", "side conditions required at every state along the run, as in the statement"),
 ("C13", "proved", "usl_step_translation usl_run_translation", "for every law that leaves a stress-free undeformed body at rest"),
 ("C11", "partial", "aflip_step_balance aflip_step_momentum_partial aflip_momentum_fails_limit aflip_momentum_fails_dynamic",
  "proved for a constant blend below the speed limit, with an exact formula for the loss above it; refuted for the default dynamic blend and for the limit"),
 ("C21", "partial", "aflip_speed_limit_partial aflip_displacement_fails",
  "speed bound proved; displacement bound refuted, positions are advanced with the unlimited velocity"),
 ("C23", "partial", "shared_grid_partial aflip_shared_grid_partial shared_grid_force_last shared_grid_force_fails",
  "mass and momentum are additive; the nodal force is overwritten by the last coupling"),
 ("C42", "proved", "stress_split stress_split_unique getJ2_value invariants_rotated qVm_value tau_value triaxial_roundtrip shearStrainVm_value", ""),
 ("C43", "partial", "phi_e_roundtrip phi_e_range phiFromL_conserves_solid phi_from_bulk_density_wrong phi_from_bulk_density_partial",
  "the bulk-density conversions are refuted for all positive densities"),
 ("C44", "proved", "safeInv_value inv2_inverse inv3_inverse regularised_factor", ""),
 ("C45", "proved", "quatRotate_eq quatRotate_rigid quatRotate_mul quatRotate_inv rot2_rigid quatRotate_not_rigid",
  "unit quaternions; the last theorem shows that unit length is needed"),
 ("C46", "proved", "sphere_signed_distance plane_signed_distance box_signed_distance", ""),
 ("C47", "proved", "composite_union", ""),
 ("C48", "proved", "rigid_motion2 rigid_motion3 updates_value quat_norm_bounded integrateQuat_euler", "3D rigid motion for unit quaternions"),
 ("C49", "proved", "surface_velocity2 surface_velocity2_update surface_velocity3 integrateQuat_euler", ""),
 ("C50", "proved", "domain_walls domain_create domain_contact", ""),
 ("C68", "partial", "capsule_signed_distance cylinder_signed_distance torus_signed_distance ring_signed_distance walls_signed_distance hollow_cylinder_height_ignored ring_no_hole_wrong",
  "refuted for the 3D hollow cylinder, whose height is never used, and for the planar ring with inner radius 0; the ring and the planar walls are exact otherwise"),
 ("C51", "partial", "generated_inside regular_cells_partial regular_leaves_cell regular_overlaps generate_modes_fail ptsPerDim_least",
  "all points are inside the shape; the regular spacing holds for unit cells and is refuted for other cell sizes"),
 ("C56", "proved", "stateName_injective load_last_saved load_unsaved", ""),
 ("C57", "proved", "crash_other_steps", ""),
 ("C58", "proved", "open_recorder", ""),
 ("C70", "proved", "crash_same_step crash_loses_step", "writes reach the disk leaf by leaf; a partly written leaf is not modelled"),
 ("C59", "proved", "stride_subsamples stride_not_dividing", ""),
 ("C60", "proved", "undrained_volume_constant prescribed_axial_strain recorded_rates", "expm is the matrix exponential over the reals"),
 ("C64", "partial", "scatter_weighted_mean scatter_range scatter_constant scatter_total gather_fails gather_intended_partial",
  "scatter_to_grid is proved; gather_from_grid always raises AttributeError, its intended formula is proved to interpolate"),
 ("C65", "partial", "create_consistent create_keeps_given create_density_partial create_density_inexact default_volume_3d points_per_cell_ignored",
  "mass and volumes are consistent; the density differs by a factor V/(V+1e-16), the default volume is wrong in 3D and points_per_cell is ignored"),
 ("C69", "partial", "reported_strain_partial reported_strain_scalar_wrong reported_strain_stride_wrong",
  "holds for array time steps with stride 1; refuted for scalar input and for larger strides"),
 ("C71", "partial", "linear_update_partial linear_flag_ignored",
  "the parameter of step works; the attribute of the driver is never read"),
 ("C27", "partial", "collider_attached_partial collider_friction_ignored collider_default_obstacle",
  "obstacle, grids and gap take effect; the friction argument is refuted, it is ignored for every value"),
 ("C52", "proved", "handles_stay_valid", ""),
 ("C53", "partial", "force_state_shifted damping_state_shifted force_state_partial gravity_after_collider_fails gravity_uses_other_state",
  "holds for forces added before the first collider; refuted after a collider, where the stored index is too large by the number of colliders"),
 ("C54", "partial", "grid_used grid_used_partial law_used_partial sdf_paired_partial solver_state_partial sdf_subset_wrong crossed_couplings_wrong second_grid_fails aligned_single_grid aligned_in_order",
  "holds for couplings aligned with the registries and for the default obstacle list; refuted for crossed couplings, a single body on a later grid, and obstacle subsets"),
 ("C72", "proved", "build_keeps_states build_single unknown_scheme", ""),
 ("C61", "partial", "float_size_exact_partial float_size_within_one_partial float_size_loses_node float_size_gains_node rnd64_err rnd64_exact",
  "exact for boxes and cell sizes on a common binary lattice, never off by more than one; refuted for cell size 0.1; unbounded exponent"),
 ("C73", "partial", "aflip_deformation_follows usl_deformation_follows_partial usl_deformation_wrong",
  "holds for the ASFLIP solver; for USL only for symmetric velocity gradients, refuted in simple shear"),
 ("C74", "partial", "usl_alpha_blend usl_alpha_partial usl_alpha_reversed aflip_alpha_blend",
  "the code blends with the ends swapped: alpha = 0 is PIC and alpha = 1 is FLIP"),
 ("C75", "proved", "star_signed_distance", "arctan2, round, sin, cos of the reals"),
 ("C76", "partial", "cloud_union cloud_radius_volume cloud_smooth_partial cloud_smooth_false_inside signedDist_union",
  "holds for smooth_k <= 1e-3 (in the plane the balls are larger by 1e-12 pi); with smoothing, which is the default, the error is at most log(n)/smooth_k and points outside all balls are reported inside"),
 ("C77", "partial", "table_between table_affine table_outside table_scale table_box_contains table_box_fails",
  "all proved, except that the reported box contains the obstacle only if the outer faces of the table lie outside of the thickened solid; refuted otherwise"),
 ("C78", "proved", "hencky_log_strain logStrain_unique hencky_objective hencky_trace eps_v_volume reported_strains", "the decomposition is any function returning singular value decompositions"),
 ("C79", "partial", "lithostatic_invariants lithostatic_stress_partial lithostatic_overconsolidated_wrong lithostatic_slope_wrong",
  "the invariants are right; the rebuilt stress is right on level ground with k0 <= 1 and wrong for k0 > 1 or under a slope"),
 ("C80", "partial", "density_mass density_ratio ke_zero_iff ke_boost point_invariants strain_rate_stretch shear_strain_rate_value point_properties_missing",
  "KE_density_stack and q_p_stack build an exception without raising it and return None"),
 ("C81", "proved", "p2g_angular_momentum aflip_p2g_angular_momentum nodal_forces_moment usl_grid_angular_momentum",
  "any kernel for USL and for the forces (linear kernel off grid lines); quadratic and cubic kernel for the ASFLIP transfer, whose inertia tensor is only constant for those"),
 ("C82", "partial", "aflip_g2p_angular_partial aflip_affine_motion_kept aflip_g2p_angular_fails",
  "proved for affine nodal velocity fields; the default update stores the MLS gradient, for which angular momentum is not preserved in general"),
 ("C83", "proved", "normal_nearest nearest_exists sphere_normal plane_normal box_normal",
  "jax.grad is assumed to return the gradient where there is one; the sphere theorem also covers its surface"),
 ("C84", "proved", "mcc_return_map mcc_return_dissipates mccGrad_deriv",
  "the residuals left by the ten damped Newton steps are those of C125; trial shear stresses below 1e-6 are treated as 1e-6"),
 ("C85", "partial", "mcc_line_step mcc_line_run_partial driver_mcc_line_step driver_mcc_line_run mcc_critical_line mcc_volume_drift",
  "holds for the recorded volume of every triaxial element test; in the solver it holds for the specific volume that follows the logarithmic strain, elastic or plastic, converged or not; the volume the solver computes falls below the lines with every isotropic increment"),
 ("C86", "partial", "mcc_elastic_strain_partial mcc_elastic_strain_fails",
  "yielding steps store the secant strain (p - p0)/K(p), elastic steps the accumulated increments; refuted after one elastic step"),
 ("C87", "partial", "solver_stress_current driver_density_partial driver_stress_lags",
  "holds for both solvers; the element-test driver gives the law the volume before the step, so its stress belongs to the previous density"),
 ("C88", "partial", "newton_affine drained_elastic_step drained_elastic_control drained_fluid_step drained_dp_step_partial drained_dp_compression_step drained_dp_control_partial muI_lateral_range drained_muI_misses p_constant_no_control p_constant_run p_constant_drifts",
  "proved for linear elasticity (both controls, any length), for the lateral stress of the fluid, and for compression tests of any length of Drucker-Prager material without dilatancy and hardening, elastic or yielding (two Newton iterations or more, steps above the smallest resolved shear stress, a derivative that takes one of the slopes at a corner); refuted for mu(I): with is_p_constant=True no lateral rate can change the mean stress of the step, and the lateral stress stays within mu_d/(2 sqrt 3) of the pressure of the equation of state, whatever the lateral rate; not proved for Cam-Clay and for dilatant or hardening Drucker-Prager material"),
 ("C89", "partial", "cubic_wall_unity cubic_wall_linear cubic_types_nonneg cubicDBasis_right_deriv cubic_wall_grad_partial cubic_wall_grad_fails cubic_wall_unused cubic_wall_plane_fails",
  "weights proved in one dimension; gradients proved except on the right wall, where they sum to minus the inverse cell size; refuted in the plane, where one node type selects the splines of both axes; the solver never selects the boundary splines, so at a wall without padding the weights sum to 5/6"),
 ("C90", "proved", "laws_isotropic",
  "Newton and Jacobian iterations of Cam-Clay act on the invariants and are covered; exact arithmetic"),
 ("C91", "partial", "usl_symmetric usl_run_symmetric aflip_symmetric aflip_run_symmetric baseSdf_sym sphereSdf_sym domainSdf_sym_partial corner_prefers_axis",
  "proved for both solvers and every scene whose obstacles follow the axes (ASFLIP: each body owns the solver state with its number), which holds for all obstacles of the base class (any gradient operator that prefers no axis) and for balls; for domain walls proved where one wall is closest and refuted at places equally far from two walls, where the first wall in the list wins"),
 ("C92", "partial", "symmetric_scene_stays aflip_symmetric_stays walls_break_symmetry",
  "follows from C91; refuted for domain walls: two points moving along the diagonal into the corner of a frictionless square leave it with different velocity components"),
 ("C93", "partial", "spin_pressure_partial spin_J2_grows dp_spin_step mcc_spin_step dp_carried_partial mcc_carried_partial usl_spin_gradient aflip_spin_gradient jaumann_backwards dp_backwards elastic_spin_keeps elastic_not_carried dp_spin_yields mcc_spin_yields",
  "pressure is kept; Drucker-Prager and Cam-Clay stresses turn with the material to first order with the gradient the USL solver supplies; refuted: J2 grows in every step so that pure rotation ends in yielding whatever the strength, linear elastic stress does not turn at all, and with the gradient of the ASFLIP solver the stress turns the wrong way"),
 ("C94", "partial", "usl_galilean_partial galilean_run_partial aflip_galilean_partial aflip_galilean_run_partial aflip_limit_not_galilean libLaw_carried plane_sameLook plane_rides floor_not_galilean two_steps_not_galilean",
  "proved for one step with any laws of the package, gravity, and obstacles that look the same after their motion over the step (none at all, or a plane moved along itself); refuted for a floor moving towards or away from the grid rows, since the obstacle is moved before the points, and over two steps, since the places of the points relative to the grid differ; for an observer moving a whole number of cells per step it is proved over runs of any length. ASFLIP: the same for points below the speed limit of the solver for both observers; refuted for every scene when the observer is faster than twice the limit"),
 ("C95", "partial", "sample_covers_partial sample_misses_end sample_backwards sample_misses_flat_top",
  "holds for boxes with start + end >= 0 on every axis, up to the last step; refuted for boxes below the origin (a strip is missing, or all samples lie outside) and for flat boxes (the top is missing)"),
 ("C96", "partial", "drawn_vertex_near_surface drawn_edge_meets_surface signedDist_axisLipschitz vtk_mesh_normals vtk_faces_read rerun_mesh_normals_partial rerun_mesh_normals_wrong",
  "vertices and VTK normals are proved; the normals logged to Rerun have two components exchanged"),
 ("C97", "partial", "drawn_together domain_box_contains_grid drawn_size_partial drawn_size_ignores_compression",
  "map and box proved; the size is that of the initial, not of the current volume"),
 ("C98", "partial", "colours_default_partial colours_limits colours_outside colours_flat colours_ignore_sense colours_given",
  "holds without limits for a spread of at least 1e-6; refuted for given limits (no clipping) and for data on a small scale"),
 ("C99", "partial", "vtk_files vtk_series_kept vtk_particles_content vtk_lines_partition vtk_default_step_overwrites vtk_calls_fail",
  "proved for calls with distinct labels and steps; without a step every call overwrites the last one, and log_sdf without a step fails"),
 ("C100", "partial", "one_viewer save_mode_partial save_mode_ignored",
  "at most one window is proved; mode save does nothing for the first visualiser of a process"),
 ("C101", "partial", "uepi_strengthening uepi_surface uepi_iys_partial uepi_iys_fails uepi_lines uepi_gamma_N",
  "limits, steady state, lines and the first two forms of the surface are proved; the third form agrees up to a constant of 1e-12 in a denominator and is refuted exactly"),
 ("C102", "partial", "uepi_line_run_partial uepi_line_yield uepi_line_elastic uepi_steady_volume uepi_line_lost",
  "proved for steps that yield and for elastic steps from rest; an elastic step after flow sets the inertial number to 1e-22 without changing the volume's offset, and the state leaves its line"),
 ("C103", "partial", "uepi_return_map uepi_return_dissipates uepi_helpers uepi_not_associated",
  "all equations are proved up to the residuals Newton's method leaves; the plastic strain is normal to the surface at rest, not to the inertial surface returned to"),
 ("C104", "proved", "uepi_admissible_step uepi_admissible_run uepi_elastic_inside", ""),
 ("C105", "partial", "uepi_init_partial uepi_init_q_fails",
  "proved for everything but the shear stress, which is ignored"),
 ("C106", "proved", "spectral_roughness spectral_wavelengths spectral_power_law spectral_equal_wavelengths",
  "with equal wave lengths, outside the quantifier, the floor is rougher by the root of the number of harmonics"),
 ("C107", "partial", "floor_distance_partial floor_height_bounds floor_sign floor_friction_bounds floor_box floor_step floor_not_distance",
  "the vertical distance is returned, proved to lie between the distance and sqrt(1 + slope^2) times it; refuted as the distance itself; the floor has a step at x_max"),
 ("C108", "partial", "column_mass_partial column_tiles column_layout column_mass column_mass_doubled column_stress_wrong_axis circle_volume circle_inside",
  "layout and discs proved; the column of the scripts is twice too heavy, and in the plane the stress along gravity is the horizontal one"),
 ("C109", "partial", "step_count_exact step_count_within_one_partial step_count_loses_step loop_records loop_interval_partial loop_misses_end traj_records traj_last_partial traj_drops_steps traj_times",
  "number of steps right or one less (refuted for 2.0/1e-5 of collapse.py); the plain loop records one step late and misses the end; the trajectory drops steps left over"),
 ("C110", "partial", "traj_uses_params run_uses_params_partial run_ignores_tilt collapse_needs_params tilt_gravity",
  "proved for run_with_trajectory with parameters; run ignores the tilt, and both fail without parameters"),
 ("C111", "partial", "calib_bounds calib_report_partial calib_report_fails calib_material calib_volume_below_one",
  "bounds proved; the reported loss is that of the population before the last update; the bounds admit specific volumes below one"),
 ("C112", "partial", "saved_close_partial saved_stress_kPa saved_lost",
  "proved within the range of half precision; stresses come back in kPa, small volumes as zero and large stresses as infinity"),
 ("C113", "partial", "clockRounded_id clock_error_partial clock_exact_partial clock_monotone_partial clock_bounded clock_not_faithful default_clock_stops",
  "error bound and exact cases proved; the time never passes 2^p dt, so in single precision with the default time step the clock stops at 32768 s"),
 ("C114", "partial", "drift_error_partial slow_point_stuck drift_not_faithful",
  "error bound proved; a point with an increment below half the spacing of numbers never moves"),
 ("C115", "partial", "stretchRounded_id stretch_error_partial slow_strain_lost strain_not_faithful",
  "error bound proved; strain increments below 2^-(p+2) per step are lost altogether"),
 ("C116", "proved", "usl_no_new_extremes usl_run_no_new_extremes", "for the solver USLSolver"),
 ("C117", "proved", "call_upright run_upright smallStep_sharp large_step_inverts",
  "the bound is sharp; beyond it the solver returns negative volumes without an error. For laws that reset the deformation in three dimensions only, with an exact cube root"),
 ("C118", "partial", "wall_holds wall_holds_run wall_tight wall_tight_run box_wall_holds box_wall_run box_wall_tight corner_leak floor_leak",
  "true with the linear kernel away from edges and corners; with the wider kernels the point may sink by up to (reach - 1) cells plus one step. In corners points leak because a node answers to one wall only"),
 ("C119", "proved", "step_local aflip_step_local run_local aflip_run_local near_point_matters",
  "two calls on scenes that agree on a set of points agree afterwards on every point of the set out of reach of the others; sets may shrink from step to step. A point within reach does matter"),
 ("C120", "partial", "box_units_partial capsule_units_partial cylinder_units_partial box_unit_counterexample step_units_partial run_units_partial run_length_time_units_partial elastic_law_units fluid_law_units muI_law_units dp_units_partial mcc_units_partial domain_units planar_obstacle_units spatial_obstacle_units mass_unit_counterexample friction_unit_counterexample dp_unit_counterexample mcc_unit_counterexample aflip_mass_unit_counterexample",
  "true for units of length and time with elastic, fluid and mu(I) laws and smooth obstacles, for units of mass as long as no nodal mass crosses the cutoffs; Drucker-Prager and Cam-Clay away from their floors. False in general: mass cutoffs 1e-12 and 1e-14, friction below 1e-12, J2 floor 1e-12, pressure floor 1 in Cam-Clay, 1e-9 in ASFLIP, and 1e-12 in the distances to boxes, capsules and cylinders, which convert up to 1e-6 (cylinders 2e-6) of the larger unit only"),
 ("C121", "partial", "fall_step free_fall free_fall_parabola aflip_fall_step aflip_free_fall_partial aflip_fall_fails",
  "true for USL with the exact displacement of the scheme; for ASFLIP (constant or dynamic blend, affine matrices zero at the start) as long as the body is below the speed limit. False for ASFLIP at the limit of half a cell per step: the body stops accelerating"),
 ("C122", "partial", "mass_scatter_faithful mass_scatter_single mass_orders_agree mass_empty_iff signed_scatter_faithful node_speed_bounded mass_order_matters moment_order_matters",
  "true up to rounding: relative error of masses (k+2) 2^-23 for k contributions in single precision, emptiness and sign exact, nodal speed bounded, signed sums accurate relative to the sum of sizes. False bit by bit: single precision gives different masses, and a resting or a moving node, in different orders. Overflow and underflow not modelled; weights are taken as the given floats"),
 ("C123", "partial", "usl_step_energy_stressfree usl_step_energy_partial usl_run_energy_partial shared_grid_energy_fails",
  "proved for bodies on grids of their own, and for bodies without stress on shared grids; refuted for two bodies under stress on one grid, since the internal force of the second replaces that of the first"),
 ("C124", "partial", "return_exists return_unique mcc_residuals_zero_iff mcc_return_solvable mcc_converged_solution dry_return_not_unique",
  "existence for every yielding step; uniqueness proved on the wet side and refuted on the dry side (three solutions of one step)"),
 ("C125", "partial", "mcc_newton_converges uepi_newton_converges newton_basin mcc_newton_reaches_partial mcc_newton_ad_reaches_partial mcc_newton_pc_error mcc_soft_clay_missed",
  "mcc_newton_converges and uepi_newton_converges hold for any residuals with a regular zero; for Cam-Clay the neighbourhood exists around every solution on the wet side with pressure above and preconsolidation pressure at least one unit and without stiffness limits; its size is not given, so that the start of the loop need not lie within it; refuted for preconsolidation pressures below one unit, which the loop excludes"),
 ("C126", "partial", "flow_exists uepi_solvable uepi_step_exists_partial uepi_between uepi_flows uepi_isotropic_inside uepi_contracting_unique uepi_wet_contracts uepi_wet_unique uepi_wet_determined uepi_dry_not_unique",
  "the residuals have a zero for every yielding step (uepi_solvable); the zero is an exact step of the law only for trial shear stresses of at least 1e-6, which the code puts in place of smaller ones: refuted for isotropic steps, which end inside of the surface and get an inertial number; unique among contracting solutions, hence for every step whose trial pressure is not below the shifted hardening pressure; refuted for dilating material, a step of which has two solutions with different shear stresses"),
 ("C127", "partial", "sip_strain sip_length sip_strain_missed sip_reported_wrong sip_label record_duration london_strain london_replay_partial london_unloading_lost dataset_drained_lateral dataset_undrained_volume dataset_strain_shifted",
  "holds for the printed rate, for records without unloading and for the volume of undrained samples; refuted for the strain reached by a numerical test (one n-th is missing, and the reported strains are too large by n/(n-1)), for records with unloading, for drained samples (mean stress is held) and for the strain column of the data set"),
 ("C128", "partial", "study_sample study_level study_friction_half study_geometry study_friction study_depends study_tilt study_varies_tilt study_friction_not_ramped study_friction_cut study_stress_partial study_stress_level study_key_lost",
  "holds for the floors of the three modes and for independence of the parameters that are not named; refuted: every mode also varies the tilt, friction is not ramped and is cut off where the spread exceeds the base, tilted runs start from the stress of the level template, and the stored key is the high word of the seed"),
 ("C129", "partial", "patch_force patch_node patch_step patch_block_step patch_run_partial patch_equilibrium_partial elastic_holdsAtRest dented_fall_fails",
  "holds for lattice arrangements (for the linear kernel and varying stress or velocity: off the grid lines); refuted for irregular arrangements: one point out of place makes a uniform pressure push it"),
 ("C130", "partial", "element_predicts_run_partial element_predicts_elastic libLaw_point alike_elastic alike_fluid alike_muI alike_dp alike_mcc element_fluid_lag element_lags",
  "holds for the elastic law along every history; for Drucker-Prager and Cam-Clay as long as no step crosses the density at which they become cohesionless; for the fluid and mu(I) laws for steps at constant volume; refuted for them under compression: the driver updates the volume after the law, the solver before it, so the element test lags by one step"),
 ("C131", "partial", "uepi_steady_iff uepi_update_steady uepi_keeps_steady steady_unique steady_undrained_unique steady_drained_unique steady_undrained_faster steady_drained_faster steady_drawn figI_steady_partial figI_low_pressure figI_missed",
  "refuted for the inertial number of the figure: it is always larger than that of the law, above the reference pressure by at most that of a shear rate of 1e-8, below it by the factor sqrt(p_ref/p); so the states end below the drawn line. That tests approach the steady state is not proved"),
 ("C132", "proved", "fig_surfaces fig_initial fig_arrow_normal fig_arrow_friction fig_lines fig_segments fig_iss_limits iso_units iso_fit_recovers",
  "curves as functions of the pressure; colours, limits of the axes and sampling are not modelled; curve_fit is taken to return a minimiser of the misfit with N >= 0"),
 ("C133", "partial", "mcc_critical_state_partial undrained_critical_partial mcc_critical_near_partial undrained_near_partial undrained_path criticalPressure_line criticalStress_triaxial rootOps_path",
  "proved when the Newton loops of the yielding steps end at a root of their residuals, as they can for all steps (rootOps_path), and, with residuals left over, up to any tolerance if the residuals stay below a bound that does not depend on how the derivatives are computed; that ten damped iterations reach the bound is not proved. The pressures p_min_calc and 2e-6/M must not be above the critical pressure"),
 ("C134", "partial", "resume_run_partial simulation_resumes_partial load_foreign_solver saved_solver_static foreign_solver_differs documented_load_fails",
  "proved when the skeletons have the static fields of the solver; these are not saved, although save_solver claims to save the grid: a skeleton with another alpha or another cell size is accepted and the simulation goes on differently. Opening the recorder before loading, as in the usage notes, deletes the saved states"),
 ("C135", "partial", "dp_failure_partial undrained_failure_partial dp_dilatant_fails dp_shear_scaled",
  "proved for mu_1_hat = 0, with hardening allowed for the limit of the direction; refuted for mu_1_hat > 0: dilatant material loses all of its strength within finitely many steps, because the volumetric correction lowers the pressure (see C32)"),
 ("C136", "partial", "resting_wall_work obstacle_step_energy_partial obstacle_run_energy_partial library_obstacles_energy_partial obstacles_slow_down two_obstacles_give_energy",
  "proved when at most one obstacle acts on each grid (the walls of a box are one obstacle); with two, which are applied one after the other, it fails in an obtuse corner: a body at rest is set in motion uphill. Without gravity and stress any number of obstacles only slow the bodies down"),
 ("C137", "partial", "damped_node damping_step_energy_partial damping_run_energy_partial damping_box_energy_partial damping_gives_energy",
  "proved without obstacles and for any number of obstacles at rest whose normals point along the axes of the grid (floors, walls, the box of the package). Damping acts on each component by itself and does not point against the motion, so it fails on slopes: a body pressed against a slope is thrown back along it with a thousand times its energy. Damping of material points (on_grid = False) has no effect at all (C143)"),
 ("C138", "partial", "mcc_drained_critical_partial drained_critical_partial drained_step_keeps drained_step_exists drained_test_exists exClayDrained_limit",
  "the Newton loops of the law and of the lateral control are assumed to end at roots, the pressure to stay above the floor, the axial stress to stay on the loaded side and the solid to stay connected; for compression from wet states such a run is proved to exist (drained_test_exists), so that nothing but the accuracy of the Newton loops is assumed there. Starting states that are denser than critical are covered by the limit but not by the existence"),
 ("C139", "partial", "aflip_step_energy_partial aflip_first_step_energy affine_energy_grows",
  "proved with two thirds of the new affine energy: kinetic' + 2/3 affine' is at most kinetic + affine, for every step; the step from zero affine matrices does not increase the kinetic energy. The full statement is false: the gather with B-spline gradients (use_mls_update) stores up to 3/2 of the affine energy that the transfer can carry, and in the second free step of two points that move apart both the kinetic energy and the total grow (affine_energy_grows)"),
 ("C140", "partial", "ad_forward_exact ad_reverse_transpose ad_grad_exact jacfwd_exact mccProg_eval mcc_jacfwd_exact mcc_newton_ad_reaches_partial uepiProg_eval uepi_jacfwd_exact ad_max_tie safeInvProg_eval safe_inv_clipped safe_inv_exact_code",
  "proved for the derivative rules of JAX's primitives, which are part of the trusted base. At a tie of maximum (a kink of the stiffness at a positive multiplier) the result is the mean of the two one-sided derivatives (ad_max_tie), and where the derivative of the inverse exceeds the clip the safeguarded one has by design a smaller derivative (safe_inv_clipped)"),
 ("C141", "partial", "ieee_forward ieee_reverse qProg_eval q_tame dpSqrt_tame shearVm_tame safeNorm_tame safeInv_tame mcc_residuals_tame mcc_jacfwd_number nan_spreads q_grad_nan dotGamma_grad_nan qSafe_grad_nan qSafe_forward lateral_search_newton lateral_search_stuck",
  "proved for the measures with a floor or an offset under the root, for the safeguarded inverse and for the Jacobians of the Cam-Clay loop. False for get_q_vm at isotropic stress and for the shear rate of the mu(I) law at rest: their reverse-mode derivatives are NaN, whatever multiplies them (nan_spreads); the masks of the Cam-Clay law protect in forward mode only, so the lateral search of a drained test at isotropic stress with zero axial rate never moves (lateral_search_stuck). Not modelled: rounding, overflow, signed zeros"),
 ("C142", "partial", "normal_number contact_number collide_number point_number box_tame plane_tame capsule_tame cylinder_tame sphere_tame pipe_tame ring_tame torus_tame composite_tame posed2_tame posed3_tame boxProg_eval capsuleProg_eval cylinderProg_eval planeProg_eval sphereProg_eval pipeProg_eval ringProg_eval torusProg_eval localProg2_eval localProg3_eval sphere_normal_code contact_nan collide_nan point_lost node_lost sphere_centre_nan pipe_axis_nan ring_centre_nan torus_core_nan composite_nan cloud_nan pipe_point_lost ring_point_lost silo_node_lost",
  "proved for boxes, half spaces, capsules and cylinders everywhere in any pose, and for spheres, pipes, rings, tori and composites away from the places named next. False at the centre of a sphere or ring, on the axis of a pipe, in the middle of the tube of a torus, at the points of a cloud, and for a composite wherever one part has no normal. Consequences: a point on the axis of a pipe or in the centre of a ring that is its nearest obstacle loses its velocity in one USL step though it touches nothing (the mask multiplies NaN by zero); in a silo of pipe and floor the nodes of the floor on the axis do the same to their neighbours. Not modelled: the star, rounding, overflow"),
 ("C143", "partial", "given_force_ignored usl_given_force_ignored aflip_given_force_ignored usl_point_damping_ignored aflip_point_damping_ignored point_force_impulse_partial aflip_point_force_impulse_partial pushed_points_move",
  "false for both solvers: the forces at the points are cleared at the start of each call, after which no force of the package writes any, so the result of a call is the same for all given forces, and any run with damping of the points is the run without it. What holds is that forces written by a hook of a user before the scatter act with their whole impulse (and are then damped)"),
 ("C144", "partial", "run_withN calib_runs calib_kernel_N calib_loss_N calib_best_N calib_grad_N calib_N_frozen calib_report_N dataset_withN elastic_step_determines_partial plastic_step_determines_partial",
  "false for N: the law reads the specific volume only to compare it with a multiple of N, and the initial specific volume is a multiple of N, so stresses, strains and preconsolidation pressures of every triaxial test are the same for all N. The gradient along N is zero, Adam leaves it, and the N that is reported was drawn at random. The curves of the data generator do not depend on N either. Proved positively: an elastic step determines kap and nu; a yielding step on the wet side determines M and lam, for clays of the same kap and nu and Newton loops that end at a zero of the residuals. That the errors along the whole curve, with loops that may stop early, determine the four parameters together is not proved"),
 ("C145", "partial", "elastic_cycle_work elastic_work_nonneg dp_elastic_cycle mcc_isochoric_cycle_partial mcc_cycle_gains mcc_energy_unbounded uepi_cycle_gains",
  "proved for linear elasticity, for Drucker-Prager without spin and for Cam-Clay at constant volume. False for both clays: their shear modulus follows the pressure at constant Poisson ratio, so that compressing, shearing, expanding and shearing back gives off energy each time around, without bound. Work is measured with the mean of the stresses before and after a step. Fluid and mu(I) law have no elastic path"),
 ("C146", "partial", "dp_step_dissipates_partial dp_path_dissipates_partial dp_tension_gains mcc_return_dissipates uepi_return_dissipates",
  "Drucker-Prager: proved without hardening where the new mean stress is compressive or the material is not dilatant, in every branch; over histories without spin of connected points the work with the stress at the end of each step is at least the gain of elastic energy. False for cohesive dilatant material under tension, since the flow compacts it. For the two clays the single step is proved at the solution of the return map (C84, C103); over histories it is false already for elastic steps (C145)"),
 ("C147", "partial", "usl_split usl_run_split dp_split_partial mcc_split_partial usl_run_split_laws_partial aflip_run_split_laws_partial density_split dp_split_fails aflip_split_partial aflip_call_split_partial aflip_run_split_partial aflip_dynamic_split_fails",
  "proved for every run of the USL solver with elastic, fluid and mu(I) material, all forces and obstacles, for bodies of two points or more (a body of one point fails, C66). Drucker-Prager and Cam-Clay read the density m/(V + 1e-16): their update, and every successful run with them, is proved to be the same as long as the recorded densities of point and parts are on the same side of the density of separation, and refuted at that density. ASFLIP: proved for the transfers, for calls and for runs of any length with constant blending when each body has its own solver state, refuted for dynamic blending, which compares with the mass of the point"),
 ("C148", "partial", "elastic_continuous fluid_continuous muI_continuous_partial muI_jumps dp_continuous_partial dp_jumps_dilatant dp_jumps_hardening dp_plastic_strain_jumps dp_jumps_at_separation mcc_continuous_partial mcc_continuous_at_yield_partial mcc_jumps_at_separation mcc_jumps_at_yield",
  "proved for elastic and fluid material, for Drucker-Prager without dilatancy and hardening at any density, for mu(I) away from the reference density and for Cam-Clay inside the yield surface and, on the wet side, where yielding begins (stress and preconsolidation pressure; pressures above one unit, trial shear stress of at least 1e-6, exact Jacobians, no stiffness limits). Refuted where material separates (mu(I), Drucker-Prager, Cam-Clay), between cone and apex with dilatancy or hardening (sign of the volumetric correction, C32), and at the yield surface of a clay with preconsolidation pressure below one (clamp of its logarithm). Not proved: Cam-Clay far beyond the yield surface, where the ten iterates need not stay on the wet side"),
 ("C149", "partial", "call_continuous_partial run_continuous_partial run_stable_partial contact_call_continuous_partial contact_run_continuous_partial linear_force_jumps cutoff_jumps damping_jumps friction_jumps",
  "proved for the USL solver with quadratic or cubic kernels, one coupling per body, gravity on the grid, and elastic, fluid, mu(I) or Drucker-Prager material (the last without dilatancy and hardening; its accumulated plastic strain may jump and is left out), for any topological space of parameters, at initial states from which no node gets exactly the cutoff mass, no mu(I) point exactly its reference density and no Drucker-Prager point exactly the density of separation. contact_run_continuous_partial: the same with any obstacles, at rest or in prescribed motion, whose collider has the builder's friction of zero, if moreover no node gets exactly the mass below which contact takes it to be at rest; obstacles and time step are then the same for all initial states. Refuted with the linear kernel (force jumps at a node), at the cutoff mass, with damping at zero momentum and with any friction at the tangential speed 1e-12 (friction_jumps). Not covered: Cam-Clay and Drucker-Prager with dilatancy or hardening (their stress jumps, C148), changes of the obstacles, contact between bodies, the ASFLIP solver"),
 ("C150", "proved", "solids_rate_free test_rate_free deriv_unit fluid_rate uepi_rate muI_rate fluid_feels_rate",
  "solids_rate_free: one update of each solid, any factor, over any field; test_rate_free: whole element tests, the same recorded states or the same exception, for every derivative operator that obeys the chain rule for units (deriv_unit: the true derivative does). fluid_rate, uepi_rate, muI_rate: the exact change of parameters that a change of speed amounts to; fluid_feels_rate: a sheared viscous fluid does feel the speed"),
 ("C151", "partial", "zero_step short_step_partial unseen_step unseen_decays steps_not_time",
  "zero_step: a step of length zero changes no position, deformation or volume and blends each velocity with that of the grid (nothing changes for alpha = 1); short_step_partial: results of short steps tend to that, with quadratic or cubic kernels, no node at the cutoff mass, no point where its law jumps, no reset of the deformation. Refuted for alpha < 1: motion that the grid cannot see loses the factor alpha in every step whatever its length (unseen_decays, any number of steps), so that the result depends on the number of steps (steps_not_time). Not covered: obstacles, ASFLIP, convergence of whole runs"),
 ("C152", "partial", "interpolation_error interpolation_error_exact gradient_error smooth_of_gradient step_error gradient_not_improved",
  "interpolation_error: at most M/2 dim v h^2 with v = 1/4 (linear, quadratic) or 1/3 (cubic), exact for |x|^2 with the smooth kernels (interpolation_error_exact); gradient_error: at most M dim reach^2 h; smooth_of_gradient: fields with a Lipschitz gradient are covered; step_error: positions and velocities after a USL step of stress-free bodies, for every arrangement of points. Refuted for the velocity gradients seen by the laws: with few points per cell they do not improve with the grid (gradient_not_improved). Not covered: stressed bodies (C129), several steps"),
 ("C153", "partial", "slope_steady_partial slope_creep_partial slope_flows gentle_slope_runs_away layer_stress",
  "Refuted as stated: with tan(theta) = 0.35 < mu_s = 0.38 no rate carries the layer (gentle_slope_runs_away), because the viscosity multiplies half the shear rate (C35). Proved with both thresholds halved: unique steady rate, growing with the slope, below mu_d/2 and none from there on; below mu_s/2 the rate is at most alpha 2T/sqrt(mu_s^2 - 4T^2); between, it is at least a rate set by the particle size and the root of the pressure"),
 ("C154", "partial", "step_tamed_partial rest_tamed_partial dt_crit_cfl linear_step_untamed",
  "Proved for quadratic and cubic kernels, USL solver, bodies with a grid of their own, no loads: from rest the kinetic energy is at most R and the energy of the strain of the step at most R^2 times the energy of the stresses, R = cfl^2 dim 6 (quadratic) or cfl^2 dim 9 (cubic); in motion with any share eps of the kinetic energy added. dt_crit_cfl: steps up to get_dt_crit meet the condition. Refuted for linear kernels: a point near the edge of a cell gets a strain of more than 10^6 times the energy of its stress in a tenth of the critical step (linear_step_untamed). Not covered: bodies sharing a grid (C123), obstacles, ASFLIP"),
 ("C155", "partial", "dp_coulomb_partial coulomb_run_partial cone_coulomb slope_held slope_fails steeper_slopes_stand wide_cone_no_angle collapse_exceeds plane_le_J2",
  "Proved with the coefficients of the cone divided by sqrt(1 - 4 mu_1^2 / 3): Coulomb's law on every plane for mu_1 < sqrt 3 / 2 and no dilatancy (dilatant material leaves the cone, C32), for single updates and for all points over runs of any scene of such and of mu(I) bodies, and every load up to that line held at rest, so the line is sharp. Refuted with the friction angle: calibrated as in the collapse example, material of every friction angle also stands on steeper slopes (steeper_slopes_stand), and from mu_1 = sqrt 3 / 2 on there is no angle at all (wide_cone_no_angle). Held stresses need a shear stress above the 1e-6 floor of the law"),
 ("C156", "partial", "trx_lines_shown trx_envelope_shown trx_reading trx_panels_agree trx_run_reading trx_sl_end_partial trx_sl_value trx_sl_wrong trx_sl_counterexample trx_sl_repaired",
  "Proved for the normal consolidation line, the critical state line and the envelope, at every pressure, for every state on the lines of the clay, and for all states of a test that are reached through connected states of mean stress at least p_min_calc. Refuted for the swelling line: its left end carries the volume of 10 Pa at the abscissa of 1 kPa, so that the line drawn is three times too steep and right only at its right end (trx_sl_value, trx_sl_wrong); with 1000 in place of 10 it would be right (trx_sl_repaired)"),
 ("C157", "proved", "call_domain aflip_call_domain run_domain aflip_run_domain run_boxes sameLattice_create cut_window_matters",
  "Equality of the results of calls and runs, errors included, for USLSolver and USLAFLIP. The condition on the windows is asked along one of the two runs; run_boxes states it for the boxes and paddings a user gives. cut_window_matters shows that it cannot be dropped: a box that cuts the window of a point silently changes its velocity"),
 ("C158", "proved", "whole_cells whole_cells_run aflip_whole_cells aflip_whole_cells_run base_moves part_of_cell_matters",
  "By C91 the scene can be moved together with its grid, and by C157 the grid can then be put back. base_moves provides the condition on obstacles for every shape with the methods of the base class. part_of_cell_matters: for a quarter of a cell the claim is false"),
 ("C159", "partial", "slab_p2g slab_gravity slab_integrate slab_g2p slab_after slab_step slab_elastic_step slab_elastic_run_partial slab_fluid_step slab_fluid_run_partial slab_sand_step slab_sand_run_partial slab_clay_step slab_clay_run_partial slab_sand_thickness slab_reset_differs",
  "Stage by stage, for one call of USLSolver, and by induction for runs with the linear elastic law, the Newtonian fluid, mu(I), and Drucker-Prager and Cam-Clay at thickness one (their density adds 1e-16 to the volume, which no other thickness scales along; slab_sand_thickness is a body three units thick whose slice separates while it does not). Every step takes two half widths of the kernel and the largest motion across the plane off either face. slab_step holds for every law that only writes the stress, given that it treats points above each other alike. With a reset of the deformation gradient the claim fails (slab_reset_differs). Missing: sand and clay at other thicknesses away from the reference density, several bodies, obstacles, and the USLAFLIP solver"),
]
