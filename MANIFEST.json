{
 "claims": [
  {
   "property": "C01",
   "status": "proved",
   "theorems": [
    "Hydrax.weights_partition_of_unity"
   ],
   "note": "all three kernels, any dimension"
  },
  {
   "property": "C02",
   "status": "proved",
   "theorems": [
    "Hydrax.weights_are_bsplines",
    "Hydrax.weight_gradient_is_derivative",
    "Hydrax.weight_gradients_sum_zero"
   ],
   "note": "weights identified with cardinal B-splines of the scaled offset; derivative via HasDerivAt of the total nodal weight"
  },
  {
   "property": "C03",
   "status": "proved",
   "theorems": [
    "Hydrax.affine_field_reproduced",
    "Hydrax.affine_gradient_reproduced",
    "Hydrax.linear_gradient_wrong_on_grid_line"
   ],
   "note": "the last theorem shows the grid-line hypothesis of the linear kernel is necessary"
  },
  {
   "property": "C04",
   "status": "proved",
   "theorems": [
    "Hydrax.second_moment_constant",
    "Hydrax.second_moment_linear_not_constant"
   ],
   "note": ""
  },
  {
   "property": "C05",
   "status": "proved",
   "theorems": [
    "Hydrax.node_index_in_range",
    "Hydrax.node_index_no_alias",
    "Hydrax.node_index_position"
   ],
   "note": ""
  },
  {
   "property": "C06",
   "status": "proved",
   "theorems": [
    "Hydrax.outside_slots_inactive",
    "Hydrax.outside_point_no_effect"
   ],
   "note": ""
  },
  {
   "property": "C07",
   "status": "partial",
   "theorems": [
    "Hydrax.padding_complete_partial",
    "Hydrax.padding_one_quadratic_commensurate_partial",
    "Hydrax.padding_one_quadratic_incomplete"
   ],
   "note": "documented padding 1 for the quadratic kernel is refuted; holds with padding 2, or padding 1 when the box is a whole number of cells"
  },
  {
   "property": "C08",
   "status": "proved",
   "theorems": [
    "Hydrax.p2g_conserves",
    "Hydrax.aflip_p2g_conserves"
   ],
   "note": ""
  },
  {
   "property": "C09",
   "status": "proved",
   "theorems": [
    "Hydrax.internal_forces_self_equilibrated",
    "Hydrax.nodal_forces_sum",
    "Hydrax.internal_force_power"
   ],
   "note": ""
  },
  {
   "property": "C10",
   "status": "proved",
   "theorems": [
    "Hydrax.usl_step_momentum",
    "Hydrax.momentum_cutoff_needed"
   ],
   "note": "bodies in their boxes, one active coupling per body; the second theorem shows the cutoff hypothesis is necessary"
  },
  {
   "property": "C100",
   "status": "partial",
   "theorems": [
    "Hydrax.one_viewer",
    "Hydrax.save_mode_partial",
    "Hydrax.save_mode_ignored"
   ],
   "note": "at most one window is proved; mode save does nothing for the first visualiser of a process"
  },
  {
   "property": "C101",
   "status": "partial",
   "theorems": [
    "Hydrax.uepi_strengthening",
    "Hydrax.uepi_surface",
    "Hydrax.uepi_iys_partial",
    "Hydrax.uepi_iys_fails",
    "Hydrax.uepi_lines",
    "Hydrax.uepi_gamma_N"
   ],
   "note": "limits, steady state, lines and the first two forms of the surface are proved; the third form agrees up to a constant of 1e-12 in a denominator and is refuted exactly"
  },
  {
   "property": "C102",
   "status": "partial",
   "theorems": [
    "Hydrax.uepi_line_run_partial",
    "Hydrax.uepi_line_yield",
    "Hydrax.uepi_line_elastic",
    "Hydrax.uepi_steady_volume",
    "Hydrax.uepi_line_lost"
   ],
   "note": "proved for steps that yield and for elastic steps from rest; an elastic step after flow sets the inertial number to 1e-22 without changing the volume's offset, and the state leaves its line"
  },
  {
   "property": "C103",
   "status": "partial",
   "theorems": [
    "Hydrax.uepi_return_map",
    "Hydrax.uepi_return_dissipates",
    "Hydrax.uepi_helpers",
    "Hydrax.uepi_not_associated"
   ],
   "note": "all equations are proved up to the residuals Newton's method leaves; the plastic strain is normal to the surface at rest, not to the inertial surface returned to"
  },
  {
   "property": "C104",
   "status": "proved",
   "theorems": [
    "Hydrax.uepi_admissible_step",
    "Hydrax.uepi_admissible_run",
    "Hydrax.uepi_elastic_inside"
   ],
   "note": ""
  },
  {
   "property": "C105",
   "status": "partial",
   "theorems": [
    "Hydrax.uepi_init_partial",
    "Hydrax.uepi_init_q_fails"
   ],
   "note": "proved for everything but the shear stress, which is ignored"
  },
  {
   "property": "C106",
   "status": "proved",
   "theorems": [
    "Hydrax.spectral_roughness",
    "Hydrax.spectral_wavelengths",
    "Hydrax.spectral_power_law",
    "Hydrax.spectral_equal_wavelengths"
   ],
   "note": "with equal wave lengths, outside the quantifier, the floor is rougher by the root of the number of harmonics"
  },
  {
   "property": "C107",
   "status": "partial",
   "theorems": [
    "Hydrax.floor_distance_partial",
    "Hydrax.floor_height_bounds",
    "Hydrax.floor_sign",
    "Hydrax.floor_friction_bounds",
    "Hydrax.floor_box",
    "Hydrax.floor_step",
    "Hydrax.floor_not_distance"
   ],
   "note": "the vertical distance is returned, proved to lie between the distance and sqrt(1 + slope^2) times it; refuted as the distance itself; the floor has a step at x_max"
  },
  {
   "property": "C108",
   "status": "partial",
   "theorems": [
    "Hydrax.column_mass_partial",
    "Hydrax.column_tiles",
    "Hydrax.column_layout",
    "Hydrax.column_mass",
    "Hydrax.column_mass_doubled",
    "Hydrax.column_stress_wrong_axis",
    "Hydrax.circle_volume",
    "Hydrax.circle_inside"
   ],
   "note": "layout and discs proved; the column of the scripts is twice too heavy, and in the plane the stress along gravity is the horizontal one"
  },
  {
   "property": "C109",
   "status": "partial",
   "theorems": [
    "Hydrax.step_count_exact",
    "Hydrax.step_count_within_one_partial",
    "Hydrax.step_count_loses_step",
    "Hydrax.loop_records",
    "Hydrax.loop_interval_partial",
    "Hydrax.loop_misses_end",
    "Hydrax.traj_records",
    "Hydrax.traj_last_partial",
    "Hydrax.traj_drops_steps",
    "Hydrax.traj_times"
   ],
   "note": "number of steps right or one less (refuted for 2.0/1e-5 of collapse.py); the plain loop records one step late and misses the end; the trajectory drops steps left over"
  },
  {
   "property": "C11",
   "status": "partial",
   "theorems": [
    "Hydrax.aflip_step_balance",
    "Hydrax.aflip_step_momentum_partial",
    "Hydrax.aflip_momentum_fails_limit",
    "Hydrax.aflip_momentum_fails_dynamic"
   ],
   "note": "proved for a constant blend below the speed limit, with an exact formula for the loss above it; refuted for the default dynamic blend and for the limit"
  },
  {
   "property": "C110",
   "status": "partial",
   "theorems": [
    "Hydrax.traj_uses_params",
    "Hydrax.run_uses_params_partial",
    "Hydrax.run_ignores_tilt",
    "Hydrax.collapse_needs_params",
    "Hydrax.tilt_gravity"
   ],
   "note": "proved for run_with_trajectory with parameters; run ignores the tilt, and both fail without parameters"
  },
  {
   "property": "C111",
   "status": "partial",
   "theorems": [
    "Hydrax.calib_bounds",
    "Hydrax.calib_report_partial",
    "Hydrax.calib_report_fails",
    "Hydrax.calib_material",
    "Hydrax.calib_volume_below_one"
   ],
   "note": "bounds proved; the reported loss is that of the population before the last update; the bounds admit specific volumes below one"
  },
  {
   "property": "C112",
   "status": "partial",
   "theorems": [
    "Hydrax.saved_close_partial",
    "Hydrax.saved_stress_kPa",
    "Hydrax.saved_lost"
   ],
   "note": "proved within the range of half precision; stresses come back in kPa, small volumes as zero and large stresses as infinity"
  },
  {
   "property": "C113",
   "status": "partial",
   "theorems": [
    "Hydrax.clockRounded_id",
    "Hydrax.clock_error_partial",
    "Hydrax.clock_exact_partial",
    "Hydrax.clock_monotone_partial",
    "Hydrax.clock_bounded",
    "Hydrax.clock_not_faithful",
    "Hydrax.default_clock_stops"
   ],
   "note": "error bound and exact cases proved; the time never passes 2^p dt, so in single precision with the default time step the clock stops at 32768 s"
  },
  {
   "property": "C114",
   "status": "partial",
   "theorems": [
    "Hydrax.drift_error_partial",
    "Hydrax.slow_point_stuck",
    "Hydrax.drift_not_faithful"
   ],
   "note": "error bound proved; a point with an increment below half the spacing of numbers never moves"
  },
  {
   "property": "C115",
   "status": "partial",
   "theorems": [
    "Hydrax.stretchRounded_id",
    "Hydrax.stretch_error_partial",
    "Hydrax.slow_strain_lost",
    "Hydrax.strain_not_faithful"
   ],
   "note": "error bound proved; strain increments below 2^-(p+2) per step are lost altogether"
  },
  {
   "property": "C116",
   "status": "proved",
   "theorems": [
    "Hydrax.usl_no_new_extremes",
    "Hydrax.usl_run_no_new_extremes"
   ],
   "note": "for the solver USLSolver"
  },
  {
   "property": "C117",
   "status": "proved",
   "theorems": [
    "Hydrax.call_upright",
    "Hydrax.run_upright",
    "Hydrax.smallStep_sharp",
    "Hydrax.large_step_inverts"
   ],
   "note": "the bound is sharp; beyond it the solver returns negative volumes without an error. For laws that reset the deformation in three dimensions only, with an exact cube root"
  },
  {
   "property": "C118",
   "status": "partial",
   "theorems": [
    "Hydrax.wall_holds",
    "Hydrax.wall_holds_run",
    "Hydrax.wall_tight",
    "Hydrax.wall_tight_run",
    "Hydrax.box_wall_holds",
    "Hydrax.box_wall_run",
    "Hydrax.box_wall_tight",
    "Hydrax.corner_leak",
    "Hydrax.floor_leak"
   ],
   "note": "true with the linear kernel away from edges and corners; with the wider kernels the point may sink by up to (reach - 1) cells plus one step. In corners points leak because a node answers to one wall only"
  },
  {
   "property": "C119",
   "status": "proved",
   "theorems": [
    "Hydrax.step_local",
    "Hydrax.aflip_step_local",
    "Hydrax.run_local",
    "Hydrax.aflip_run_local",
    "Hydrax.near_point_matters"
   ],
   "note": "two calls on scenes that agree on a set of points agree afterwards on every point of the set out of reach of the others; sets may shrink from step to step. A point within reach does matter"
  },
  {
   "property": "C12",
   "status": "proved",
   "theorems": [
    "Hydrax.usl_run_momentum",
    "Hydrax.usl_run_weight"
   ],
   "note": "side conditions required at every state along the run, as in the statement"
  },
  {
   "property": "C120",
   "status": "partial",
   "theorems": [
    "Hydrax.box_units_partial",
    "Hydrax.capsule_units_partial",
    "Hydrax.cylinder_units_partial",
    "Hydrax.box_unit_counterexample",
    "Hydrax.step_units_partial",
    "Hydrax.run_units_partial",
    "Hydrax.run_length_time_units_partial",
    "Hydrax.elastic_law_units",
    "Hydrax.fluid_law_units",
    "Hydrax.muI_law_units",
    "Hydrax.dp_units_partial",
    "Hydrax.mcc_units_partial",
    "Hydrax.domain_units",
    "Hydrax.planar_obstacle_units",
    "Hydrax.spatial_obstacle_units",
    "Hydrax.mass_unit_counterexample",
    "Hydrax.friction_unit_counterexample",
    "Hydrax.dp_unit_counterexample",
    "Hydrax.mcc_unit_counterexample",
    "Hydrax.aflip_mass_unit_counterexample"
   ],
   "note": "true for units of length and time with elastic, fluid and mu(I) laws and smooth obstacles, for units of mass as long as no nodal mass crosses the cutoffs; Drucker-Prager and Cam-Clay away from their floors. False in general: mass cutoffs 1e-12 and 1e-14, friction below 1e-12, J2 floor 1e-12, pressure floor 1 in Cam-Clay, 1e-9 in ASFLIP, and 1e-12 in the distances to boxes, capsules and cylinders, which convert up to 1e-6 (cylinders 2e-6) of the larger unit only"
  },
  {
   "property": "C121",
   "status": "partial",
   "theorems": [
    "Hydrax.fall_step",
    "Hydrax.free_fall",
    "Hydrax.free_fall_parabola",
    "Hydrax.aflip_fall_step",
    "Hydrax.aflip_free_fall_partial",
    "Hydrax.aflip_fall_fails"
   ],
   "note": "true for USL with the exact displacement of the scheme; for ASFLIP (constant or dynamic blend, affine matrices zero at the start) as long as the body is below the speed limit. False for ASFLIP at the limit of half a cell per step: the body stops accelerating"
  },
  {
   "property": "C122",
   "status": "partial",
   "theorems": [
    "Hydrax.mass_scatter_faithful",
    "Hydrax.mass_scatter_single",
    "Hydrax.mass_orders_agree",
    "Hydrax.mass_empty_iff",
    "Hydrax.signed_scatter_faithful",
    "Hydrax.node_speed_bounded",
    "Hydrax.mass_order_matters",
    "Hydrax.moment_order_matters"
   ],
   "note": "true up to rounding: relative error of masses (k+2) 2^-23 for k contributions in single precision, emptiness and sign exact, nodal speed bounded, signed sums accurate relative to the sum of sizes. False bit by bit: single precision gives different masses, and a resting or a moving node, in different orders. Overflow and underflow not modelled; weights are taken as the given floats"
  },
  {
   "property": "C123",
   "status": "partial",
   "theorems": [
    "Hydrax.usl_step_energy_stressfree",
    "Hydrax.usl_step_energy_partial",
    "Hydrax.usl_run_energy_partial",
    "Hydrax.shared_grid_energy_fails"
   ],
   "note": "proved for bodies on grids of their own, and for bodies without stress on shared grids; refuted for two bodies under stress on one grid, since the internal force of the second replaces that of the first"
  },
  {
   "property": "C124",
   "status": "partial",
   "theorems": [
    "Hydrax.return_exists",
    "Hydrax.return_unique",
    "Hydrax.mcc_residuals_zero_iff",
    "Hydrax.mcc_return_solvable",
    "Hydrax.mcc_converged_solution",
    "Hydrax.dry_return_not_unique"
   ],
   "note": "existence for every yielding step; uniqueness proved on the wet side and refuted on the dry side (three solutions of one step)"
  },
  {
   "property": "C125",
   "status": "partial",
   "theorems": [
    "Hydrax.mcc_newton_converges",
    "Hydrax.uepi_newton_converges",
    "Hydrax.newton_basin",
    "Hydrax.mcc_newton_reaches_partial",
    "Hydrax.mcc_newton_ad_reaches_partial",
    "Hydrax.mcc_newton_pc_error",
    "Hydrax.mcc_soft_clay_missed"
   ],
   "note": "mcc_newton_converges and uepi_newton_converges hold for any residuals with a regular zero; for Cam-Clay the neighbourhood exists around every solution on the wet side with pressure above and preconsolidation pressure at least one unit and without stiffness limits; its size is not given, so that the start of the loop need not lie within it; refuted for preconsolidation pressures below one unit, which the loop excludes"
  },
  {
   "property": "C126",
   "status": "partial",
   "theorems": [
    "Hydrax.flow_exists",
    "Hydrax.uepi_solvable",
    "Hydrax.uepi_step_exists_partial",
    "Hydrax.uepi_between",
    "Hydrax.uepi_flows",
    "Hydrax.uepi_isotropic_inside",
    "Hydrax.uepi_contracting_unique",
    "Hydrax.uepi_wet_contracts",
    "Hydrax.uepi_wet_unique",
    "Hydrax.uepi_wet_determined",
    "Hydrax.uepi_dry_not_unique"
   ],
   "note": "the residuals have a zero for every yielding step (uepi_solvable); the zero is an exact step of the law only for trial shear stresses of at least 1e-6, which the code puts in place of smaller ones: refuted for isotropic steps, which end inside of the surface and get an inertial number; unique among contracting solutions, hence for every step whose trial pressure is not below the shifted hardening pressure; refuted for dilating material, a step of which has two solutions with different shear stresses"
  },
  {
   "property": "C127",
   "status": "partial",
   "theorems": [
    "Hydrax.sip_strain",
    "Hydrax.sip_length",
    "Hydrax.sip_strain_missed",
    "Hydrax.sip_reported_wrong",
    "Hydrax.sip_label",
    "Hydrax.record_duration",
    "Hydrax.london_strain",
    "Hydrax.london_replay_partial",
    "Hydrax.london_unloading_lost",
    "Hydrax.dataset_drained_lateral",
    "Hydrax.dataset_undrained_volume",
    "Hydrax.dataset_strain_shifted"
   ],
   "note": "holds for the printed rate, for records without unloading and for the volume of undrained samples; refuted for the strain reached by a numerical test (one n-th is missing, and the reported strains are too large by n/(n-1)), for records with unloading, for drained samples (mean stress is held) and for the strain column of the data set"
  },
  {
   "property": "C128",
   "status": "partial",
   "theorems": [
    "Hydrax.study_sample",
    "Hydrax.study_level",
    "Hydrax.study_friction_half",
    "Hydrax.study_geometry",
    "Hydrax.study_friction",
    "Hydrax.study_depends",
    "Hydrax.study_tilt",
    "Hydrax.study_varies_tilt",
    "Hydrax.study_friction_not_ramped",
    "Hydrax.study_friction_cut",
    "Hydrax.study_stress_partial",
    "Hydrax.study_stress_level",
    "Hydrax.study_key_lost"
   ],
   "note": "holds for the floors of the three modes and for independence of the parameters that are not named; refuted: every mode also varies the tilt, friction is not ramped and is cut off where the spread exceeds the base, tilted runs start from the stress of the level template, and the stored key is the high word of the seed"
  },
  {
   "property": "C129",
   "status": "partial",
   "theorems": [
    "Hydrax.patch_force",
    "Hydrax.patch_node",
    "Hydrax.patch_step",
    "Hydrax.patch_block_step",
    "Hydrax.patch_run_partial",
    "Hydrax.patch_equilibrium_partial",
    "Hydrax.elastic_holdsAtRest",
    "Hydrax.dented_fall_fails"
   ],
   "note": "holds for lattice arrangements (for the linear kernel and varying stress or velocity: off the grid lines); refuted for irregular arrangements: one point out of place makes a uniform pressure push it"
  },
  {
   "property": "C13",
   "status": "proved",
   "theorems": [
    "Hydrax.usl_step_translation",
    "Hydrax.usl_run_translation"
   ],
   "note": "for every law that leaves a stress-free undeformed body at rest"
  },
  {
   "property": "C130",
   "status": "partial",
   "theorems": [
    "Hydrax.element_predicts_run_partial",
    "Hydrax.element_predicts_elastic",
    "Hydrax.libLaw_point",
    "Hydrax.alike_elastic",
    "Hydrax.alike_fluid",
    "Hydrax.alike_muI",
    "Hydrax.alike_dp",
    "Hydrax.alike_mcc",
    "Hydrax.element_fluid_lag",
    "Hydrax.element_lags"
   ],
   "note": "holds for the elastic law along every history; for Drucker-Prager and Cam-Clay as long as no step crosses the density at which they become cohesionless; for the fluid and mu(I) laws for steps at constant volume; refuted for them under compression: the driver updates the volume after the law, the solver before it, so the element test lags by one step"
  },
  {
   "property": "C131",
   "status": "partial",
   "theorems": [
    "Hydrax.uepi_steady_iff",
    "Hydrax.uepi_update_steady",
    "Hydrax.uepi_keeps_steady",
    "Hydrax.steady_unique",
    "Hydrax.steady_undrained_unique",
    "Hydrax.steady_drained_unique",
    "Hydrax.steady_undrained_faster",
    "Hydrax.steady_drained_faster",
    "Hydrax.steady_drawn",
    "Hydrax.figI_steady_partial",
    "Hydrax.figI_low_pressure",
    "Hydrax.figI_missed"
   ],
   "note": "refuted for the inertial number of the figure: it is always larger than that of the law, above the reference pressure by at most that of a shear rate of 1e-8, below it by the factor sqrt(p_ref/p); so the states end below the drawn line. That tests approach the steady state is not proved"
  },
  {
   "property": "C132",
   "status": "proved",
   "theorems": [
    "Hydrax.fig_surfaces",
    "Hydrax.fig_initial",
    "Hydrax.fig_arrow_normal",
    "Hydrax.fig_arrow_friction",
    "Hydrax.fig_lines",
    "Hydrax.fig_segments",
    "Hydrax.fig_iss_limits",
    "Hydrax.iso_units",
    "Hydrax.iso_fit_recovers"
   ],
   "note": "curves as functions of the pressure; colours, limits of the axes and sampling are not modelled; curve_fit is taken to return a minimiser of the misfit with N >= 0"
  },
  {
   "property": "C133",
   "status": "partial",
   "theorems": [
    "Hydrax.mcc_critical_state_partial",
    "Hydrax.undrained_critical_partial",
    "Hydrax.mcc_critical_near_partial",
    "Hydrax.undrained_near_partial",
    "Hydrax.undrained_path",
    "Hydrax.criticalPressure_line",
    "Hydrax.criticalStress_triaxial",
    "Hydrax.rootOps_path"
   ],
   "note": "proved when the Newton loops of the yielding steps end at a root of their residuals, as they can for all steps (rootOps_path), and, with residuals left over, up to any tolerance if the residuals stay below a bound that does not depend on how the derivatives are computed; that ten damped iterations reach the bound is not proved. The pressures p_min_calc and 2e-6/M must not be above the critical pressure"
  },
  {
   "property": "C134",
   "status": "partial",
   "theorems": [
    "Hydrax.resume_run_partial",
    "Hydrax.simulation_resumes_partial",
    "Hydrax.load_foreign_solver",
    "Hydrax.saved_solver_static",
    "Hydrax.foreign_solver_differs",
    "Hydrax.documented_load_fails"
   ],
   "note": "proved when the skeletons have the static fields of the solver; these are not saved, although save_solver claims to save the grid: a skeleton with another alpha or another cell size is accepted and the simulation goes on differently. Opening the recorder before loading, as in the usage notes, deletes the saved states"
  },
  {
   "property": "C135",
   "status": "partial",
   "theorems": [
    "Hydrax.dp_failure_partial",
    "Hydrax.undrained_failure_partial",
    "Hydrax.dp_dilatant_fails",
    "Hydrax.dp_shear_scaled"
   ],
   "note": "proved for mu_1_hat = 0, with hardening allowed for the limit of the direction; refuted for mu_1_hat > 0: dilatant material loses all of its strength within finitely many steps, because the volumetric correction lowers the pressure (see C32)"
  },
  {
   "property": "C136",
   "status": "partial",
   "theorems": [
    "Hydrax.resting_wall_work",
    "Hydrax.obstacle_step_energy_partial",
    "Hydrax.obstacle_run_energy_partial",
    "Hydrax.library_obstacles_energy_partial",
    "Hydrax.obstacles_slow_down",
    "Hydrax.two_obstacles_give_energy"
   ],
   "note": "proved when at most one obstacle acts on each grid (the walls of a box are one obstacle); with two, which are applied one after the other, it fails in an obtuse corner: a body at rest is set in motion uphill. Without gravity and stress any number of obstacles only slow the bodies down"
  },
  {
   "property": "C137",
   "status": "partial",
   "theorems": [
    "Hydrax.damped_node",
    "Hydrax.damping_step_energy_partial",
    "Hydrax.damping_run_energy_partial",
    "Hydrax.damping_box_energy_partial",
    "Hydrax.damping_gives_energy"
   ],
   "note": "proved without obstacles and for any number of obstacles at rest whose normals point along the axes of the grid (floors, walls, the box of the package). Damping acts on each component by itself and does not point against the motion, so it fails on slopes: a body pressed against a slope is thrown back along it with a thousand times its energy. Damping of material points (on_grid = False) has no effect at all (C143)"
  },
  {
   "property": "C138",
   "status": "partial",
   "theorems": [
    "Hydrax.mcc_drained_critical_partial",
    "Hydrax.drained_critical_partial",
    "Hydrax.drained_step_keeps",
    "Hydrax.drained_step_exists",
    "Hydrax.drained_test_exists",
    "Hydrax.exClayDrained_limit"
   ],
   "note": "the Newton loops of the law and of the lateral control are assumed to end at roots, the pressure to stay above the floor, the axial stress to stay on the loaded side and the solid to stay connected; for compression from wet states such a run is proved to exist (drained_test_exists), so that nothing but the accuracy of the Newton loops is assumed there. Starting states that are denser than critical are covered by the limit but not by the existence"
  },
  {
   "property": "C139",
   "status": "partial",
   "theorems": [
    "Hydrax.aflip_step_energy_partial",
    "Hydrax.aflip_first_step_energy",
    "Hydrax.affine_energy_grows"
   ],
   "note": "proved with two thirds of the new affine energy: kinetic' + 2/3 affine' is at most kinetic + affine, for every step; the step from zero affine matrices does not increase the kinetic energy. The full statement is false: the gather with B-spline gradients (use_mls_update) stores up to 3/2 of the affine energy that the transfer can carry, and in the second free step of two points that move apart both the kinetic energy and the total grow (affine_energy_grows)"
  },
  {
   "property": "C14",
   "status": "partial",
   "theorems": [
    "Hydrax.usl_velocity_gradient_transposed",
    "Hydrax.usl_strain_rate_partial",
    "Hydrax.aflip_velocity_gradient",
    "Hydrax.usl_velocity_gradient_wrong"
   ],
   "note": "USL stores the transpose, refuted by usl_velocity_gradient_wrong; the symmetric part is right; AFLIP stores the true gradient"
  },
  {
   "property": "C140",
   "status": "partial",
   "theorems": [
    "Hydrax.ad_forward_exact",
    "Hydrax.ad_reverse_transpose",
    "Hydrax.ad_grad_exact",
    "Hydrax.jacfwd_exact",
    "Hydrax.mccProg_eval",
    "Hydrax.mcc_jacfwd_exact",
    "Hydrax.mcc_newton_ad_reaches_partial",
    "Hydrax.uepiProg_eval",
    "Hydrax.uepi_jacfwd_exact",
    "Hydrax.ad_max_tie",
    "Hydrax.safeInvProg_eval",
    "Hydrax.safe_inv_clipped",
    "Hydrax.safe_inv_exact_code"
   ],
   "note": "proved for the derivative rules of JAX's primitives, which are part of the trusted base. At a tie of maximum (a kink of the stiffness at a positive multiplier) the result is the mean of the two one-sided derivatives (ad_max_tie), and where the derivative of the inverse exceeds the clip the safeguarded one has by design a smaller derivative (safe_inv_clipped)"
  },
  {
   "property": "C141",
   "status": "partial",
   "theorems": [
    "Hydrax.ieee_forward",
    "Hydrax.ieee_reverse",
    "Hydrax.qProg_eval",
    "Hydrax.q_tame",
    "Hydrax.dpSqrt_tame",
    "Hydrax.shearVm_tame",
    "Hydrax.safeNorm_tame",
    "Hydrax.safeInv_tame",
    "Hydrax.mcc_residuals_tame",
    "Hydrax.mcc_jacfwd_number",
    "Hydrax.nan_spreads",
    "Hydrax.q_grad_nan",
    "Hydrax.dotGamma_grad_nan",
    "Hydrax.qSafe_grad_nan",
    "Hydrax.qSafe_forward",
    "Hydrax.lateral_search_newton",
    "Hydrax.lateral_search_stuck"
   ],
   "note": "proved for the measures with a floor or an offset under the root, for the safeguarded inverse and for the Jacobians of the Cam-Clay loop. False for get_q_vm at isotropic stress and for the shear rate of the mu(I) law at rest: their reverse-mode derivatives are NaN, whatever multiplies them (nan_spreads); the masks of the Cam-Clay law protect in forward mode only, so the lateral search of a drained test at isotropic stress with zero axial rate never moves (lateral_search_stuck). Not modelled: rounding, overflow, signed zeros"
  },
  {
   "property": "C142",
   "status": "partial",
   "theorems": [
    "Hydrax.normal_number",
    "Hydrax.contact_number",
    "Hydrax.collide_number",
    "Hydrax.point_number",
    "Hydrax.box_tame",
    "Hydrax.plane_tame",
    "Hydrax.capsule_tame",
    "Hydrax.cylinder_tame",
    "Hydrax.sphere_tame",
    "Hydrax.pipe_tame",
    "Hydrax.ring_tame",
    "Hydrax.torus_tame",
    "Hydrax.composite_tame",
    "Hydrax.posed2_tame",
    "Hydrax.posed3_tame",
    "Hydrax.boxProg_eval",
    "Hydrax.capsuleProg_eval",
    "Hydrax.cylinderProg_eval",
    "Hydrax.planeProg_eval",
    "Hydrax.sphereProg_eval",
    "Hydrax.pipeProg_eval",
    "Hydrax.ringProg_eval",
    "Hydrax.torusProg_eval",
    "Hydrax.localProg2_eval",
    "Hydrax.localProg3_eval",
    "Hydrax.sphere_normal_code",
    "Hydrax.contact_nan",
    "Hydrax.collide_nan",
    "Hydrax.point_lost",
    "Hydrax.node_lost",
    "Hydrax.sphere_centre_nan",
    "Hydrax.pipe_axis_nan",
    "Hydrax.ring_centre_nan",
    "Hydrax.torus_core_nan",
    "Hydrax.composite_nan",
    "Hydrax.cloud_nan",
    "Hydrax.pipe_point_lost",
    "Hydrax.ring_point_lost",
    "Hydrax.silo_node_lost"
   ],
   "note": "proved for boxes, half spaces, capsules and cylinders everywhere in any pose, and for spheres, pipes, rings, tori and composites away from the places named next. False at the centre of a sphere or ring, on the axis of a pipe, in the middle of the tube of a torus, at the points of a cloud, and for a composite wherever one part has no normal. Consequences: a point on the axis of a pipe or in the centre of a ring that is its nearest obstacle loses its velocity in one USL step though it touches nothing (the mask multiplies NaN by zero); in a silo of pipe and floor the nodes of the floor on the axis do the same to their neighbours. Not modelled: the star, rounding, overflow"
  },
  {
   "property": "C143",
   "status": "partial",
   "theorems": [
    "Hydrax.given_force_ignored",
    "Hydrax.usl_given_force_ignored",
    "Hydrax.aflip_given_force_ignored",
    "Hydrax.usl_point_damping_ignored",
    "Hydrax.aflip_point_damping_ignored",
    "Hydrax.point_force_impulse_partial",
    "Hydrax.aflip_point_force_impulse_partial",
    "Hydrax.pushed_points_move"
   ],
   "note": "false for both solvers: the forces at the points are cleared at the start of each call, after which no force of the package writes any, so the result of a call is the same for all given forces, and any run with damping of the points is the run without it. What holds is that forces written by a hook of a user before the scatter act with their whole impulse (and are then damped)"
  },
  {
   "property": "C144",
   "status": "partial",
   "theorems": [
    "Hydrax.run_withN",
    "Hydrax.calib_runs",
    "Hydrax.calib_kernel_N",
    "Hydrax.calib_loss_N",
    "Hydrax.calib_best_N",
    "Hydrax.calib_grad_N",
    "Hydrax.calib_N_frozen",
    "Hydrax.calib_report_N",
    "Hydrax.dataset_withN",
    "Hydrax.elastic_step_determines_partial",
    "Hydrax.plastic_step_determines_partial"
   ],
   "note": "false for N: the law reads the specific volume only to compare it with a multiple of N, and the initial specific volume is a multiple of N, so stresses, strains and preconsolidation pressures of every triaxial test are the same for all N. The gradient along N is zero, Adam leaves it, and the N that is reported was drawn at random. The curves of the data generator do not depend on N either. Proved positively: an elastic step determines kap and nu; a yielding step on the wet side determines M and lam, for clays of the same kap and nu and Newton loops that end at a zero of the residuals. That the errors along the whole curve, with loops that may stop early, determine the four parameters together is not proved"
  },
  {
   "property": "C145",
   "status": "partial",
   "theorems": [
    "Hydrax.elastic_cycle_work",
    "Hydrax.elastic_work_nonneg",
    "Hydrax.dp_elastic_cycle",
    "Hydrax.mcc_isochoric_cycle_partial",
    "Hydrax.mcc_cycle_gains",
    "Hydrax.mcc_energy_unbounded",
    "Hydrax.uepi_cycle_gains"
   ],
   "note": "proved for linear elasticity, for Drucker-Prager without spin and for Cam-Clay at constant volume. False for both clays: their shear modulus follows the pressure at constant Poisson ratio, so that compressing, shearing, expanding and shearing back gives off energy each time around, without bound. Work is measured with the mean of the stresses before and after a step. Fluid and mu(I) law have no elastic path"
  },
  {
   "property": "C146",
   "status": "partial",
   "theorems": [
    "Hydrax.dp_step_dissipates_partial",
    "Hydrax.dp_path_dissipates_partial",
    "Hydrax.dp_tension_gains",
    "Hydrax.mcc_return_dissipates",
    "Hydrax.uepi_return_dissipates"
   ],
   "note": "Drucker-Prager: proved without hardening where the new mean stress is compressive or the material is not dilatant, in every branch; over histories without spin of connected points the work with the stress at the end of each step is at least the gain of elastic energy. False for cohesive dilatant material under tension, since the flow compacts it. For the two clays the single step is proved at the solution of the return map (C84, C103); over histories it is false already for elastic steps (C145)"
  },
  {
   "property": "C147",
   "status": "partial",
   "theorems": [
    "Hydrax.usl_split",
    "Hydrax.usl_run_split",
    "Hydrax.dp_split_partial",
    "Hydrax.mcc_split_partial",
    "Hydrax.usl_run_split_laws_partial",
    "Hydrax.aflip_run_split_laws_partial",
    "Hydrax.density_split",
    "Hydrax.dp_split_fails",
    "Hydrax.aflip_split_partial",
    "Hydrax.aflip_call_split_partial",
    "Hydrax.aflip_run_split_partial",
    "Hydrax.aflip_dynamic_split_fails"
   ],
   "note": "proved for every run of the USL solver with elastic, fluid and mu(I) material, all forces and obstacles, for bodies of two points or more (a body of one point fails, C66). Drucker-Prager and Cam-Clay read the density m/(V + 1e-16): their update, and every successful run with them, is proved to be the same as long as the recorded densities of point and parts are on the same side of the density of separation, and refuted at that density. ASFLIP: proved for the transfers, for calls and for runs of any length with constant blending when each body has its own solver state, refuted for dynamic blending, which compares with the mass of the point"
  },
  {
   "property": "C148",
   "status": "partial",
   "theorems": [
    "Hydrax.elastic_continuous",
    "Hydrax.fluid_continuous",
    "Hydrax.muI_continuous_partial",
    "Hydrax.muI_jumps",
    "Hydrax.dp_continuous_partial",
    "Hydrax.dp_jumps_dilatant",
    "Hydrax.dp_jumps_hardening",
    "Hydrax.dp_plastic_strain_jumps",
    "Hydrax.dp_jumps_at_separation",
    "Hydrax.mcc_continuous_partial",
    "Hydrax.mcc_continuous_at_yield_partial",
    "Hydrax.mcc_jumps_at_separation",
    "Hydrax.mcc_jumps_at_yield"
   ],
   "note": "proved for elastic and fluid material, for Drucker-Prager without dilatancy and hardening at any density, for mu(I) away from the reference density and for Cam-Clay inside the yield surface and, on the wet side, where yielding begins (stress and preconsolidation pressure; pressures above one unit, trial shear stress of at least 1e-6, exact Jacobians, no stiffness limits). Refuted where material separates (mu(I), Drucker-Prager, Cam-Clay), between cone and apex with dilatancy or hardening (sign of the volumetric correction, C32), and at the yield surface of a clay with preconsolidation pressure below one (clamp of its logarithm). Not proved: Cam-Clay far beyond the yield surface, where the ten iterates need not stay on the wet side"
  },
  {
   "property": "C149",
   "status": "partial",
   "theorems": [
    "Hydrax.call_continuous_partial",
    "Hydrax.run_continuous_partial",
    "Hydrax.run_stable_partial",
    "Hydrax.contact_call_continuous_partial",
    "Hydrax.contact_run_continuous_partial",
    "Hydrax.linear_force_jumps",
    "Hydrax.cutoff_jumps",
    "Hydrax.damping_jumps",
    "Hydrax.friction_jumps"
   ],
   "note": "proved for the USL solver with quadratic or cubic kernels, one coupling per body, gravity on the grid, and elastic, fluid, mu(I) or Drucker-Prager material (the last without dilatancy and hardening; its accumulated plastic strain may jump and is left out), for any topological space of parameters, at initial states from which no node gets exactly the cutoff mass, no mu(I) point exactly its reference density and no Drucker-Prager point exactly the density of separation. contact_run_continuous_partial: the same with any obstacles, at rest or in prescribed motion, whose collider has the builder's friction of zero, if moreover no node gets exactly the mass below which contact takes it to be at rest; obstacles and time step are then the same for all initial states. Refuted with the linear kernel (force jumps at a node), at the cutoff mass, with damping at zero momentum and with any friction at the tangential speed 1e-12 (friction_jumps). Not covered: Cam-Clay and Drucker-Prager with dilatancy or hardening (their stress jumps, C148), changes of the obstacles, contact between bodies, the ASFLIP solver"
  },
  {
   "property": "C15",
   "status": "proved",
   "theorems": [
    "Hydrax.mass_volume0_invariant"
   ],
   "note": "all solvers, forces and laws of the package, any number of bodies and steps"
  },
  {
   "property": "C150",
   "status": "proved",
   "theorems": [
    "Hydrax.solids_rate_free",
    "Hydrax.test_rate_free",
    "Hydrax.deriv_unit",
    "Hydrax.fluid_rate",
    "Hydrax.uepi_rate",
    "Hydrax.muI_rate",
    "Hydrax.fluid_feels_rate"
   ],
   "note": "solids_rate_free: one update of each solid, any factor, over any field; test_rate_free: whole element tests, the same recorded states or the same exception, for every derivative operator that obeys the chain rule for units (deriv_unit: the true derivative does). fluid_rate, uepi_rate, muI_rate: the exact change of parameters that a change of speed amounts to; fluid_feels_rate: a sheared viscous fluid does feel the speed"
  },
  {
   "property": "C151",
   "status": "partial",
   "theorems": [
    "Hydrax.zero_step",
    "Hydrax.short_step_partial",
    "Hydrax.unseen_step",
    "Hydrax.unseen_decays",
    "Hydrax.steps_not_time"
   ],
   "note": "zero_step: a step of length zero changes no position, deformation or volume and blends each velocity with that of the grid (nothing changes for alpha = 1); short_step_partial: results of short steps tend to that, with quadratic or cubic kernels, no node at the cutoff mass, no point where its law jumps, no reset of the deformation. Refuted for alpha < 1: motion that the grid cannot see loses the factor alpha in every step whatever its length (unseen_decays, any number of steps), so that the result depends on the number of steps (steps_not_time). Not covered: obstacles, ASFLIP, convergence of whole runs"
  },
  {
   "property": "C152",
   "status": "partial",
   "theorems": [
    "Hydrax.interpolation_error",
    "Hydrax.interpolation_error_exact",
    "Hydrax.gradient_error",
    "Hydrax.smooth_of_gradient",
    "Hydrax.step_error",
    "Hydrax.gradient_not_improved"
   ],
   "note": "interpolation_error: at most M/2 dim v h^2 with v = 1/4 (linear, quadratic) or 1/3 (cubic), exact for |x|^2 with the smooth kernels (interpolation_error_exact); gradient_error: at most M dim reach^2 h; smooth_of_gradient: fields with a Lipschitz gradient are covered; step_error: positions and velocities after a USL step of stress-free bodies, for every arrangement of points. Refuted for the velocity gradients seen by the laws: with few points per cell they do not improve with the grid (gradient_not_improved). Not covered: stressed bodies (C129), several steps"
  },
  {
   "property": "C153",
   "status": "partial",
   "theorems": [
    "Hydrax.slope_steady_partial",
    "Hydrax.slope_creep_partial",
    "Hydrax.slope_flows",
    "Hydrax.gentle_slope_runs_away",
    "Hydrax.layer_stress"
   ],
   "note": "Refuted as stated: with tan(theta) = 0.35 < mu_s = 0.38 no rate carries the layer (gentle_slope_runs_away), because the viscosity multiplies half the shear rate (C35). Proved with both thresholds halved: unique steady rate, growing with the slope, below mu_d/2 and none from there on; below mu_s/2 the rate is at most alpha 2T/sqrt(mu_s^2 - 4T^2); between, it is at least a rate set by the particle size and the root of the pressure"
  },
  {
   "property": "C154",
   "status": "partial",
   "theorems": [
    "Hydrax.step_tamed_partial",
    "Hydrax.rest_tamed_partial",
    "Hydrax.dt_crit_cfl",
    "Hydrax.linear_step_untamed"
   ],
   "note": "Proved for quadratic and cubic kernels, USL solver, bodies with a grid of their own, no loads: from rest the kinetic energy is at most R and the energy of the strain of the step at most R^2 times the energy of the stresses, R = cfl^2 dim 6 (quadratic) or cfl^2 dim 9 (cubic); in motion with any share eps of the kinetic energy added. dt_crit_cfl: steps up to get_dt_crit meet the condition. Refuted for linear kernels: a point near the edge of a cell gets a strain of more than 10^6 times the energy of its stress in a tenth of the critical step (linear_step_untamed). Not covered: bodies sharing a grid (C123), obstacles, ASFLIP"
  },
  {
   "property": "C155",
   "status": "partial",
   "theorems": [
    "Hydrax.dp_coulomb_partial",
    "Hydrax.coulomb_run_partial",
    "Hydrax.cone_coulomb",
    "Hydrax.slope_held",
    "Hydrax.slope_fails",
    "Hydrax.steeper_slopes_stand",
    "Hydrax.wide_cone_no_angle",
    "Hydrax.collapse_exceeds",
    "Hydrax.plane_le_J2"
   ],
   "note": "Proved with the coefficients of the cone divided by sqrt(1 - 4 mu_1^2 / 3): Coulomb's law on every plane for mu_1 < sqrt 3 / 2 and no dilatancy (dilatant material leaves the cone, C32), for single updates and for all points over runs of any scene of such and of mu(I) bodies, and every load up to that line held at rest, so the line is sharp. Refuted with the friction angle: calibrated as in the collapse example, material of every friction angle also stands on steeper slopes (steeper_slopes_stand), and from mu_1 = sqrt 3 / 2 on there is no angle at all (wide_cone_no_angle). Held stresses need a shear stress above the 1e-6 floor of the law"
  },
  {
   "property": "C156",
   "status": "partial",
   "theorems": [
    "Hydrax.trx_lines_shown",
    "Hydrax.trx_envelope_shown",
    "Hydrax.trx_reading",
    "Hydrax.trx_panels_agree",
    "Hydrax.trx_run_reading",
    "Hydrax.trx_sl_end_partial",
    "Hydrax.trx_sl_value",
    "Hydrax.trx_sl_wrong",
    "Hydrax.trx_sl_counterexample",
    "Hydrax.trx_sl_repaired"
   ],
   "note": "Proved for the normal consolidation line, the critical state line and the envelope, at every pressure, for every state on the lines of the clay, and for all states of a test that are reached through connected states of mean stress at least p_min_calc. Refuted for the swelling line: its left end carries the volume of 10 Pa at the abscissa of 1 kPa, so that the line drawn is three times too steep and right only at its right end (trx_sl_value, trx_sl_wrong); with 1000 in place of 10 it would be right (trx_sl_repaired)"
  },
  {
   "property": "C157",
   "status": "proved",
   "theorems": [
    "Hydrax.call_domain",
    "Hydrax.aflip_call_domain",
    "Hydrax.run_domain",
    "Hydrax.aflip_run_domain",
    "Hydrax.run_boxes",
    "Hydrax.sameLattice_create",
    "Hydrax.cut_window_matters"
   ],
   "note": "Equality of the results of calls and runs, errors included, for USLSolver and USLAFLIP. The condition on the windows is asked along one of the two runs; run_boxes states it for the boxes and paddings a user gives. cut_window_matters shows that it cannot be dropped: a box that cuts the window of a point silently changes its velocity"
  },
  {
   "property": "C158",
   "status": "proved",
   "theorems": [
    "Hydrax.whole_cells",
    "Hydrax.whole_cells_run",
    "Hydrax.aflip_whole_cells",
    "Hydrax.aflip_whole_cells_run",
    "Hydrax.base_moves",
    "Hydrax.part_of_cell_matters"
   ],
   "note": "By C91 the scene can be moved together with its grid, and by C157 the grid can then be put back. base_moves provides the condition on obstacles for every shape with the methods of the base class. part_of_cell_matters: for a quarter of a cell the claim is false"
  },
  {
   "property": "C159",
   "status": "partial",
   "theorems": [
    "Hydrax.slab_p2g",
    "Hydrax.slab_gravity",
    "Hydrax.slab_integrate",
    "Hydrax.slab_g2p",
    "Hydrax.slab_after",
    "Hydrax.slab_step",
    "Hydrax.slab_elastic_step",
    "Hydrax.slab_elastic_run_partial",
    "Hydrax.slab_fluid_step",
    "Hydrax.slab_fluid_run_partial",
    "Hydrax.slab_sand_step",
    "Hydrax.slab_sand_run_partial",
    "Hydrax.slab_clay_step",
    "Hydrax.slab_clay_run_partial",
    "Hydrax.slab_sand_thickness",
    "Hydrax.slab_reset_differs"
   ],
   "note": "Stage by stage, for one call of USLSolver, and by induction for runs with the linear elastic law, the Newtonian fluid, mu(I), and Drucker-Prager and Cam-Clay at thickness one (their density adds 1e-16 to the volume, which no other thickness scales along; slab_sand_thickness is a body three units thick whose slice separates while it does not). Every step takes two half widths of the kernel and the largest motion across the plane off either face. slab_step holds for every law that only writes the stress, given that it treats points above each other alike. With a reset of the deformation gradient the claim fails (slab_reset_differs). Missing: sand and clay at other thicknesses away from the reference density, several bodies, obstacles, and the USLAFLIP solver"
  },
  {
   "property": "C16",
   "status": "partial",
   "theorems": [
    "Hydrax.volume_invariant_partial",
    "Hydrax.plane_reset_det_zero",
    "Hydrax.volume_invariant_fails"
   ],
   "note": "false in 2D for laws with requires_F_reset=True (det F becomes 0); proved in 3D and for laws without reset"
  },
  {
   "property": "C17",
   "status": "proved",
   "theorems": [
    "Hydrax.plane_strain_g2p",
    "Hydrax.plane_strain_run"
   ],
   "note": "F[2,2]=1 is stated after G2P; a later F reset sets it to 0"
  },
  {
   "property": "C18",
   "status": "proved",
   "theorems": [
    "Hydrax.clock_exact"
   ],
   "note": ""
  },
  {
   "property": "C19",
   "status": "proved",
   "theorems": [
    "Hydrax.inactive_body_unchanged",
    "Hydrax.uncoupled_body_exact"
   ],
   "note": "scratch arrays L and force of a body named in a skipped coupling are cleared by the reset stage"
  },
  {
   "property": "C20",
   "status": "proved",
   "theorems": [
    "Hydrax.p2g_kinetic_energy",
    "Hydrax.pic_g2p_kinetic_energy",
    "Hydrax.pic_step_kinetic_energy",
    "Hydrax.usl_step_kinetic_energy",
    "Hydrax.usl_step_energy_stressfree"
   ],
   "note": "usl_step_kinetic_energy is the whole call for any number of bodies and grids; usl_step_energy_stressfree adds every blend and gravity"
  },
  {
   "property": "C21",
   "status": "partial",
   "theorems": [
    "Hydrax.aflip_speed_limit_partial",
    "Hydrax.aflip_displacement_fails"
   ],
   "note": "speed bound proved; displacement bound refuted, positions are advanced with the unlimited velocity"
  },
  {
   "property": "C22",
   "status": "proved",
   "theorems": [
    "Hydrax.p2g_renumber",
    "Hydrax.g2p_renumber",
    "Hydrax.step_renumber"
   ],
   "note": ""
  },
  {
   "property": "C23",
   "status": "partial",
   "theorems": [
    "Hydrax.shared_grid_partial",
    "Hydrax.aflip_shared_grid_partial",
    "Hydrax.shared_grid_force_last",
    "Hydrax.shared_grid_force_fails"
   ],
   "note": "mass and momentum are additive; the nodal force is overwritten by the last coupling"
  },
  {
   "property": "C24",
   "status": "proved",
   "theorems": [
    "Hydrax.contact_no_penetration",
    "Hydrax.contact_penetration_bound",
    "Hydrax.sdf_collider_hook"
   ],
   "note": "node and hook level; the second theorem covers normals shorter than one as produced by get_normal"
  },
  {
   "property": "C25",
   "status": "proved",
   "theorems": [
    "Hydrax.contact_friction",
    "Hydrax.contact_penetration_bound",
    "Hydrax.sdf_collider_hook"
   ],
   "note": "node and hook level"
  },
  {
   "property": "C26",
   "status": "proved",
   "theorems": [
    "Hydrax.collideNode_outside",
    "Hydrax.sdf_collider_hook"
   ],
   "note": ""
  },
  {
   "property": "C27",
   "status": "partial",
   "theorems": [
    "Hydrax.collider_attached_partial",
    "Hydrax.collider_friction_ignored",
    "Hydrax.collider_default_obstacle"
   ],
   "note": "obstacle, grids and gap take effect; the friction argument is refuted, it is ignored for every value"
  },
  {
   "property": "C28",
   "status": "proved",
   "theorems": [
    "Hydrax.damp_component",
    "Hydrax.damping_grid",
    "Hydrax.damping_body",
    "Hydrax.damping_grid_hook",
    "Hydrax.damping_body_hook",
    "Hydrax.particle_damping_idle"
   ],
   "note": "component, grid, body and hook level"
  },
  {
   "property": "C29",
   "status": "partial",
   "theorems": [
    "Hydrax.contact_momentum_partial",
    "Hydrax.contact_momentum_fails",
    "Hydrax.contact_rigid_actor",
    "Hydrax.grid_contact_never_runs"
   ],
   "note": "momentum conserved up to the 1e-12 regularisation only; the solver can never complete a step with this force"
  },
  {
   "property": "C30",
   "status": "proved",
   "theorems": [
    "Hydrax.elastic_total_strain",
    "Hydrax.elastic_order_independent",
    "Hydrax.elastic_closed_cycle",
    "Hydrax.elastic_spin_irrelevant",
    "Hydrax.elastic_pressure",
    "Hydrax.elasticLaw_point"
   ],
   "note": ""
  },
  {
   "property": "C31",
   "status": "proved",
   "theorems": [
    "Hydrax.stress_symmetric_run",
    "Hydrax.libLaw_symm",
    "Hydrax.jaumann_symm",
    "Hydrax.elasticStress_symm",
    "Hydrax.fluidStress_symm",
    "Hydrax.muIStress_symm",
    "Hydrax.dpUpdate_symm",
    "Hydrax.mccUpdate_symm"
   ],
   "note": "whole scenes, any number of steps, all five laws"
  },
  {
   "property": "C32",
   "status": "partial",
   "theorems": [
    "Hydrax.dp_admissible_partial",
    "Hydrax.dp_admissible_run_partial",
    "Hydrax.muI_in_cone",
    "Hydrax.dp_cone_residual",
    "Hydrax.dp_dilatant_inadmissible",
    "Hydrax.dp_admissible_fails"
   ],
   "note": "proved for mu_1_hat=0 with inactive apex regularisation, for single updates and (H=0) for all points over runs of scenes with Drucker-Prager and mu(I) bodies; refuted for mu_1_hat>0 (sign of the volumetric correction)"
  },
  {
   "property": "C33",
   "status": "proved",
   "theorems": [
    "Hydrax.dp_stress_strain_consistent",
    "Hydrax.dpLaw_point"
   ],
   "note": ""
  },
  {
   "property": "C34",
   "status": "partial",
   "theorems": [
    "Hydrax.dp_plastic_strain_monotone_partial",
    "Hydrax.dp_apex_decreases",
    "Hydrax.dp_plastic_strain_monotone_fails"
   ],
   "note": "refuted for the apex return, which strictly decreases eps_p_acc"
  },
  {
   "property": "C35",
   "status": "partial",
   "theorems": [
    "Hydrax.muI_pressure",
    "Hydrax.muI_dissipative",
    "Hydrax.muI_shear_stress",
    "Hydrax.muI_friction_bound_partial",
    "Hydrax.muI_friction_law_half",
    "Hydrax.muI_friction_law_fails"
   ],
   "note": "pressure, dissipation and bound hold; the shear stress is half of mu(I) p"
  },
  {
   "property": "C36",
   "status": "partial",
   "theorems": [
    "Hydrax.fluid_pressure_partial",
    "Hydrax.fluid_pressure_sign_wrong",
    "Hydrax.fluidLaw_pressure",
    "Hydrax.fluid_create_fails"
   ],
   "note": "the sign of the pressure is wrong in the compression-positive convention used everywhere else"
  },
  {
   "property": "C37",
   "status": "proved",
   "theorems": [
    "Hydrax.fluid_eos_roundtrip",
    "Hydrax.muI_create_roundtrip",
    "Hydrax.mcc_ocr_density_roundtrip",
    "Hydrax.mcc_stress_roundtrip",
    "Hydrax.mcc_density_roundtrip",
    "Hydrax.mcc_state_without_ref_fails"
   ],
   "note": "two of the Cam-Clay constructors leave stress_ref_stack=None, so the law cannot be run from them (last theorem)"
  },
  {
   "property": "C38",
   "status": "partial",
   "theorems": [
    "Hydrax.mcc_ocr_admissible_partial",
    "Hydrax.mcc_ocr_inside_moved"
   ],
   "note": "every stress with q given is projected, also from the inside"
  },
  {
   "property": "C39",
   "status": "partial",
   "theorems": [
    "Hydrax.mcc_pc_pos",
    "Hydrax.mcc_pc_pos_run",
    "Hydrax.mcc_elastic_inside_partial",
    "Hydrax.mcc_return_shrinks",
    "Hydrax.mcc_disconnected",
    "Hydrax.mcc_pc_ge_one",
    "Hydrax.mccLaw_point",
    "Hydrax.mcc_reconnection_fails"
   ],
   "note": "all parts proved except the elastic one for points whose previous mean stress is below p_min_calc, where it is refuted"
  },
  {
   "property": "C40",
   "status": "partial",
   "theorems": [
    "Hydrax.mcc_no_tension_partial",
    "Hydrax.mcc_reconnection_fails"
   ],
   "note": "refuted for points reconnecting from zero stress"
  },
  {
   "property": "C41",
   "status": "partial",
   "theorems": [
    "Hydrax.remove_shear_partial",
    "Hydrax.reset_det_fails",
    "Hydrax.reset_twice_fails",
    "Hydrax.store_lost",
    "Hydrax.store_overwritten"
   ],
   "note": "3D determinant and idempotence proved; 2D determinant and F_store refuted"
  },
  {
   "property": "C42",
   "status": "proved",
   "theorems": [
    "Hydrax.stress_split",
    "Hydrax.stress_split_unique",
    "Hydrax.getJ2_value",
    "Hydrax.invariants_rotated",
    "Hydrax.qVm_value",
    "Hydrax.tau_value",
    "Hydrax.triaxial_roundtrip",
    "Hydrax.shearStrainVm_value"
   ],
   "note": ""
  },
  {
   "property": "C43",
   "status": "partial",
   "theorems": [
    "Hydrax.phi_e_roundtrip",
    "Hydrax.phi_e_range",
    "Hydrax.phiFromL_conserves_solid",
    "Hydrax.phi_from_bulk_density_wrong",
    "Hydrax.phi_from_bulk_density_partial"
   ],
   "note": "the bulk-density conversions are refuted for all positive densities"
  },
  {
   "property": "C44",
   "status": "proved",
   "theorems": [
    "Hydrax.safeInv_value",
    "Hydrax.inv2_inverse",
    "Hydrax.inv3_inverse",
    "Hydrax.regularised_factor"
   ],
   "note": ""
  },
  {
   "property": "C45",
   "status": "proved",
   "theorems": [
    "Hydrax.quatRotate_eq",
    "Hydrax.quatRotate_rigid",
    "Hydrax.quatRotate_mul",
    "Hydrax.quatRotate_inv",
    "Hydrax.rot2_rigid",
    "Hydrax.quatRotate_not_rigid"
   ],
   "note": "unit quaternions; the last theorem shows that unit length is needed"
  },
  {
   "property": "C46",
   "status": "proved",
   "theorems": [
    "Hydrax.sphere_signed_distance",
    "Hydrax.plane_signed_distance",
    "Hydrax.box_signed_distance"
   ],
   "note": ""
  },
  {
   "property": "C47",
   "status": "proved",
   "theorems": [
    "Hydrax.composite_union"
   ],
   "note": ""
  },
  {
   "property": "C48",
   "status": "proved",
   "theorems": [
    "Hydrax.rigid_motion2",
    "Hydrax.rigid_motion3",
    "Hydrax.updates_value",
    "Hydrax.quat_norm_bounded",
    "Hydrax.integrateQuat_euler"
   ],
   "note": "3D rigid motion for unit quaternions"
  },
  {
   "property": "C49",
   "status": "proved",
   "theorems": [
    "Hydrax.surface_velocity2",
    "Hydrax.surface_velocity2_update",
    "Hydrax.surface_velocity3",
    "Hydrax.integrateQuat_euler"
   ],
   "note": ""
  },
  {
   "property": "C50",
   "status": "proved",
   "theorems": [
    "Hydrax.domain_walls",
    "Hydrax.domain_create",
    "Hydrax.domain_contact"
   ],
   "note": ""
  },
  {
   "property": "C51",
   "status": "partial",
   "theorems": [
    "Hydrax.generated_inside",
    "Hydrax.regular_cells_partial",
    "Hydrax.regular_leaves_cell",
    "Hydrax.regular_overlaps",
    "Hydrax.generate_modes_fail",
    "Hydrax.ptsPerDim_least"
   ],
   "note": "all points are inside the shape; the regular spacing holds for unit cells and is refuted for other cell sizes"
  },
  {
   "property": "C52",
   "status": "proved",
   "theorems": [
    "Hydrax.handles_stay_valid"
   ],
   "note": ""
  },
  {
   "property": "C53",
   "status": "partial",
   "theorems": [
    "Hydrax.force_state_shifted",
    "Hydrax.damping_state_shifted",
    "Hydrax.force_state_partial",
    "Hydrax.gravity_after_collider_fails",
    "Hydrax.gravity_uses_other_state"
   ],
   "note": "holds for forces added before the first collider; refuted after a collider, where the stored index is too large by the number of colliders"
  },
  {
   "property": "C54",
   "status": "partial",
   "theorems": [
    "Hydrax.grid_used",
    "Hydrax.grid_used_partial",
    "Hydrax.law_used_partial",
    "Hydrax.sdf_paired_partial",
    "Hydrax.solver_state_partial",
    "Hydrax.sdf_subset_wrong",
    "Hydrax.crossed_couplings_wrong",
    "Hydrax.second_grid_fails",
    "Hydrax.aligned_single_grid",
    "Hydrax.aligned_in_order"
   ],
   "note": "holds for couplings aligned with the registries and for the default obstacle list; refuted for crossed couplings, a single body on a later grid, and obstacle subsets"
  },
  {
   "property": "C55",
   "status": "partial",
   "theorems": [
    "Hydrax.aflip_stored",
    "Hydrax.aflip_affine_roundtrip_partial",
    "Hydrax.aflip_affine_swapped",
    "Hydrax.aflip_index_error"
   ],
   "note": "the state is read at s_idx and written at p_idx; refuted when these differ"
  },
  {
   "property": "C56",
   "status": "proved",
   "theorems": [
    "Hydrax.stateName_injective",
    "Hydrax.load_last_saved",
    "Hydrax.load_unsaved"
   ],
   "note": ""
  },
  {
   "property": "C57",
   "status": "proved",
   "theorems": [
    "Hydrax.crash_other_steps"
   ],
   "note": ""
  },
  {
   "property": "C58",
   "status": "proved",
   "theorems": [
    "Hydrax.open_recorder"
   ],
   "note": ""
  },
  {
   "property": "C59",
   "status": "proved",
   "theorems": [
    "Hydrax.stride_subsamples",
    "Hydrax.stride_not_dividing"
   ],
   "note": ""
  },
  {
   "property": "C60",
   "status": "proved",
   "theorems": [
    "Hydrax.undrained_volume_constant",
    "Hydrax.prescribed_axial_strain",
    "Hydrax.recorded_rates"
   ],
   "note": "expm is the matrix exponential over the reals"
  },
  {
   "property": "C61",
   "status": "partial",
   "theorems": [
    "Hydrax.float_size_exact_partial",
    "Hydrax.float_size_within_one_partial",
    "Hydrax.float_size_loses_node",
    "Hydrax.float_size_gains_node",
    "Hydrax.rnd64_err",
    "Hydrax.rnd64_exact"
   ],
   "note": "exact for boxes and cell sizes on a common binary lattice, never off by more than one; refuted for cell size 0.1; unbounded exponent"
  },
  {
   "property": "C62",
   "status": "proved",
   "theorems": [
    "Hydrax.elastic_dt_crit",
    "Hydrax.dtCrit_bound"
   ],
   "note": ""
  },
  {
   "property": "C63",
   "status": "proved",
   "theorems": [
    "Hydrax.cpic_mask_one",
    "Hydrax.ghost_irrelevant",
    "Hydrax.sharpness_irrelevant"
   ],
   "note": ""
  },
  {
   "property": "C64",
   "status": "partial",
   "theorems": [
    "Hydrax.scatter_weighted_mean",
    "Hydrax.scatter_range",
    "Hydrax.scatter_constant",
    "Hydrax.scatter_total",
    "Hydrax.gather_fails",
    "Hydrax.gather_intended_partial"
   ],
   "note": "scatter_to_grid is proved; gather_from_grid always raises AttributeError, its intended formula is proved to interpolate"
  },
  {
   "property": "C65",
   "status": "partial",
   "theorems": [
    "Hydrax.create_consistent",
    "Hydrax.create_keeps_given",
    "Hydrax.create_density_partial",
    "Hydrax.create_density_inexact",
    "Hydrax.default_volume_3d",
    "Hydrax.points_per_cell_ignored"
   ],
   "note": "mass and volumes are consistent; the density differs by a factor V/(V+1e-16), the default volume is wrong in 3D and points_per_cell is ignored"
  },
  {
   "property": "C66",
   "status": "partial",
   "theorems": [
    "Hydrax.volume_array_shape_partial",
    "Hydrax.single_point_second_call_fails",
    "Hydrax.single_point_obstacle_fails"
   ],
   "note": "refuted for bodies of one point: the second call always fails, with obstacles (USL) even the first"
  },
  {
   "property": "C67",
   "status": "proved",
   "theorems": [
    "Hydrax.collider_gap_ignored",
    "Hydrax.collider_depth_ignored"
   ],
   "note": "shows that the documented margin `gap` has no effect"
  },
  {
   "property": "C68",
   "status": "partial",
   "theorems": [
    "Hydrax.capsule_signed_distance",
    "Hydrax.cylinder_signed_distance",
    "Hydrax.torus_signed_distance",
    "Hydrax.ring_signed_distance",
    "Hydrax.walls_signed_distance",
    "Hydrax.hollow_cylinder_height_ignored",
    "Hydrax.ring_no_hole_wrong"
   ],
   "note": "refuted for the 3D hollow cylinder, whose height is never used, and for the planar ring with inner radius 0; the ring and the planar walls are exact otherwise"
  },
  {
   "property": "C69",
   "status": "partial",
   "theorems": [
    "Hydrax.reported_strain_partial",
    "Hydrax.reported_strain_scalar_wrong",
    "Hydrax.reported_strain_stride_wrong"
   ],
   "note": "holds for array time steps with stride 1; refuted for scalar input and for larger strides"
  },
  {
   "property": "C70",
   "status": "proved",
   "theorems": [
    "Hydrax.crash_same_step",
    "Hydrax.crash_loses_step"
   ],
   "note": "writes reach the disk leaf by leaf; a partly written leaf is not modelled"
  },
  {
   "property": "C71",
   "status": "partial",
   "theorems": [
    "Hydrax.linear_update_partial",
    "Hydrax.linear_flag_ignored"
   ],
   "note": "the parameter of step works; the attribute of the driver is never read"
  },
  {
   "property": "C72",
   "status": "proved",
   "theorems": [
    "Hydrax.build_keeps_states",
    "Hydrax.build_single",
    "Hydrax.unknown_scheme"
   ],
   "note": ""
  },
  {
   "property": "C73",
   "status": "partial",
   "theorems": [
    "Hydrax.aflip_deformation_follows",
    "Hydrax.usl_deformation_follows_partial",
    "Hydrax.usl_deformation_wrong"
   ],
   "note": "holds for the ASFLIP solver; for USL only for symmetric velocity gradients, refuted in simple shear"
  },
  {
   "property": "C74",
   "status": "partial",
   "theorems": [
    "Hydrax.usl_alpha_blend",
    "Hydrax.usl_alpha_partial",
    "Hydrax.usl_alpha_reversed",
    "Hydrax.aflip_alpha_blend"
   ],
   "note": "the code blends with the ends swapped: alpha = 0 is PIC and alpha = 1 is FLIP"
  },
  {
   "property": "C75",
   "status": "proved",
   "theorems": [
    "Hydrax.star_signed_distance"
   ],
   "note": "arctan2, round, sin, cos of the reals"
  },
  {
   "property": "C76",
   "status": "partial",
   "theorems": [
    "Hydrax.cloud_union",
    "Hydrax.cloud_radius_volume",
    "Hydrax.cloud_smooth_partial",
    "Hydrax.cloud_smooth_false_inside",
    "Hydrax.signedDist_union"
   ],
   "note": "holds for smooth_k <= 1e-3 (in the plane the balls are larger by 1e-12 pi); with smoothing, which is the default, the error is at most log(n)/smooth_k and points outside all balls are reported inside"
  },
  {
   "property": "C77",
   "status": "partial",
   "theorems": [
    "Hydrax.table_between",
    "Hydrax.table_affine",
    "Hydrax.table_outside",
    "Hydrax.table_scale",
    "Hydrax.table_box_contains",
    "Hydrax.table_box_fails"
   ],
   "note": "all proved, except that the reported box contains the obstacle only if the outer faces of the table lie outside of the thickened solid; refuted otherwise"
  },
  {
   "property": "C78",
   "status": "proved",
   "theorems": [
    "Hydrax.hencky_log_strain",
    "Hydrax.logStrain_unique",
    "Hydrax.hencky_objective",
    "Hydrax.hencky_trace",
    "Hydrax.eps_v_volume",
    "Hydrax.reported_strains"
   ],
   "note": "the decomposition is any function returning singular value decompositions"
  },
  {
   "property": "C79",
   "status": "partial",
   "theorems": [
    "Hydrax.lithostatic_invariants",
    "Hydrax.lithostatic_stress_partial",
    "Hydrax.lithostatic_overconsolidated_wrong",
    "Hydrax.lithostatic_slope_wrong"
   ],
   "note": "the invariants are right; the rebuilt stress is right on level ground with k0 <= 1 and wrong for k0 > 1 or under a slope"
  },
  {
   "property": "C80",
   "status": "partial",
   "theorems": [
    "Hydrax.density_mass",
    "Hydrax.density_ratio",
    "Hydrax.ke_zero_iff",
    "Hydrax.ke_boost",
    "Hydrax.point_invariants",
    "Hydrax.strain_rate_stretch",
    "Hydrax.shear_strain_rate_value",
    "Hydrax.point_properties_missing"
   ],
   "note": "KE_density_stack and q_p_stack build an exception without raising it and return None"
  },
  {
   "property": "C81",
   "status": "proved",
   "theorems": [
    "Hydrax.p2g_angular_momentum",
    "Hydrax.aflip_p2g_angular_momentum",
    "Hydrax.nodal_forces_moment",
    "Hydrax.usl_grid_angular_momentum"
   ],
   "note": "any kernel for USL and for the forces (linear kernel off grid lines); quadratic and cubic kernel for the ASFLIP transfer, whose inertia tensor is only constant for those"
  },
  {
   "property": "C82",
   "status": "partial",
   "theorems": [
    "Hydrax.aflip_g2p_angular_partial",
    "Hydrax.aflip_affine_motion_kept",
    "Hydrax.aflip_g2p_angular_fails"
   ],
   "note": "proved for affine nodal velocity fields; the default update stores the MLS gradient, for which angular momentum is not preserved in general"
  },
  {
   "property": "C83",
   "status": "proved",
   "theorems": [
    "Hydrax.normal_nearest",
    "Hydrax.nearest_exists",
    "Hydrax.sphere_normal",
    "Hydrax.plane_normal",
    "Hydrax.box_normal"
   ],
   "note": "jax.grad is assumed to return the gradient where there is one; the sphere theorem also covers its surface"
  },
  {
   "property": "C84",
   "status": "proved",
   "theorems": [
    "Hydrax.mcc_return_map",
    "Hydrax.mcc_return_dissipates",
    "Hydrax.mccGrad_deriv"
   ],
   "note": "the residuals left by the ten damped Newton steps are those of C125; trial shear stresses below 1e-6 are treated as 1e-6"
  },
  {
   "property": "C85",
   "status": "partial",
   "theorems": [
    "Hydrax.mcc_line_step",
    "Hydrax.mcc_line_run_partial",
    "Hydrax.driver_mcc_line_step",
    "Hydrax.driver_mcc_line_run",
    "Hydrax.mcc_critical_line",
    "Hydrax.mcc_volume_drift"
   ],
   "note": "holds for the recorded volume of every triaxial element test; in the solver it holds for the specific volume that follows the logarithmic strain, elastic or plastic, converged or not; the volume the solver computes falls below the lines with every isotropic increment"
  },
  {
   "property": "C86",
   "status": "partial",
   "theorems": [
    "Hydrax.mcc_elastic_strain_partial",
    "Hydrax.mcc_elastic_strain_fails"
   ],
   "note": "yielding steps store the secant strain (p - p0)/K(p), elastic steps the accumulated increments; refuted after one elastic step"
  },
  {
   "property": "C87",
   "status": "partial",
   "theorems": [
    "Hydrax.solver_stress_current",
    "Hydrax.driver_density_partial",
    "Hydrax.driver_stress_lags"
   ],
   "note": "holds for both solvers; the element-test driver gives the law the volume before the step, so its stress belongs to the previous density"
  },
  {
   "property": "C88",
   "status": "partial",
   "theorems": [
    "Hydrax.newton_affine",
    "Hydrax.drained_elastic_step",
    "Hydrax.drained_elastic_control",
    "Hydrax.drained_fluid_step",
    "Hydrax.drained_dp_step_partial",
    "Hydrax.drained_dp_compression_step",
    "Hydrax.drained_dp_control_partial",
    "Hydrax.muI_lateral_range",
    "Hydrax.drained_muI_misses",
    "Hydrax.p_constant_no_control",
    "Hydrax.p_constant_run",
    "Hydrax.p_constant_drifts"
   ],
   "note": "proved for linear elasticity (both controls, any length), for the lateral stress of the fluid, and for compression tests of any length of Drucker-Prager material without dilatancy and hardening, elastic or yielding (two Newton iterations or more, steps above the smallest resolved shear stress, a derivative that takes one of the slopes at a corner); refuted for mu(I): with is_p_constant=True no lateral rate can change the mean stress of the step, and the lateral stress stays within mu_d/(2 sqrt 3) of the pressure of the equation of state, whatever the lateral rate; not proved for Cam-Clay and for dilatant or hardening Drucker-Prager material"
  },
  {
   "property": "C89",
   "status": "partial",
   "theorems": [
    "Hydrax.cubic_wall_unity",
    "Hydrax.cubic_wall_linear",
    "Hydrax.cubic_types_nonneg",
    "Hydrax.cubicDBasis_right_deriv",
    "Hydrax.cubic_wall_grad_partial",
    "Hydrax.cubic_wall_grad_fails",
    "Hydrax.cubic_wall_unused",
    "Hydrax.cubic_wall_plane_fails"
   ],
   "note": "weights proved in one dimension; gradients proved except on the right wall, where they sum to minus the inverse cell size; refuted in the plane, where one node type selects the splines of both axes; the solver never selects the boundary splines, so at a wall without padding the weights sum to 5/6"
  },
  {
   "property": "C90",
   "status": "proved",
   "theorems": [
    "Hydrax.laws_isotropic"
   ],
   "note": "Newton and Jacobian iterations of Cam-Clay act on the invariants and are covered; exact arithmetic"
  },
  {
   "property": "C91",
   "status": "partial",
   "theorems": [
    "Hydrax.usl_symmetric",
    "Hydrax.usl_run_symmetric",
    "Hydrax.aflip_symmetric",
    "Hydrax.aflip_run_symmetric",
    "Hydrax.baseSdf_sym",
    "Hydrax.sphereSdf_sym",
    "Hydrax.domainSdf_sym_partial",
    "Hydrax.corner_prefers_axis"
   ],
   "note": "proved for both solvers and every scene whose obstacles follow the axes (ASFLIP: each body owns the solver state with its number), which holds for all obstacles of the base class (any gradient operator that prefers no axis) and for balls; for domain walls proved where one wall is closest and refuted at places equally far from two walls, where the first wall in the list wins"
  },
  {
   "property": "C92",
   "status": "partial",
   "theorems": [
    "Hydrax.symmetric_scene_stays",
    "Hydrax.aflip_symmetric_stays",
    "Hydrax.walls_break_symmetry"
   ],
   "note": "follows from C91; refuted for domain walls: two points moving along the diagonal into the corner of a frictionless square leave it with different velocity components"
  },
  {
   "property": "C93",
   "status": "partial",
   "theorems": [
    "Hydrax.spin_pressure_partial",
    "Hydrax.spin_J2_grows",
    "Hydrax.dp_spin_step",
    "Hydrax.mcc_spin_step",
    "Hydrax.dp_carried_partial",
    "Hydrax.mcc_carried_partial",
    "Hydrax.usl_spin_gradient",
    "Hydrax.aflip_spin_gradient",
    "Hydrax.jaumann_backwards",
    "Hydrax.dp_backwards",
    "Hydrax.elastic_spin_keeps",
    "Hydrax.elastic_not_carried",
    "Hydrax.dp_spin_yields",
    "Hydrax.mcc_spin_yields"
   ],
   "note": "pressure is kept; Drucker-Prager and Cam-Clay stresses turn with the material to first order with the gradient the USL solver supplies; refuted: J2 grows in every step so that pure rotation ends in yielding whatever the strength, linear elastic stress does not turn at all, and with the gradient of the ASFLIP solver the stress turns the wrong way"
  },
  {
   "property": "C94",
   "status": "partial",
   "theorems": [
    "Hydrax.usl_galilean_partial",
    "Hydrax.galilean_run_partial",
    "Hydrax.aflip_galilean_partial",
    "Hydrax.aflip_galilean_run_partial",
    "Hydrax.aflip_limit_not_galilean",
    "Hydrax.libLaw_carried",
    "Hydrax.plane_sameLook",
    "Hydrax.plane_rides",
    "Hydrax.floor_not_galilean",
    "Hydrax.two_steps_not_galilean"
   ],
   "note": "proved for one step with any laws of the package, gravity, and obstacles that look the same after their motion over the step (none at all, or a plane moved along itself); refuted for a floor moving towards or away from the grid rows, since the obstacle is moved before the points, and over two steps, since the places of the points relative to the grid differ; for an observer moving a whole number of cells per step it is proved over runs of any length. ASFLIP: the same for points below the speed limit of the solver for both observers; refuted for every scene when the observer is faster than twice the limit"
  },
  {
   "property": "C95",
   "status": "partial",
   "theorems": [
    "Hydrax.sample_covers_partial",
    "Hydrax.sample_misses_end",
    "Hydrax.sample_backwards",
    "Hydrax.sample_misses_flat_top"
   ],
   "note": "holds for boxes with start + end >= 0 on every axis, up to the last step; refuted for boxes below the origin (a strip is missing, or all samples lie outside) and for flat boxes (the top is missing)"
  },
  {
   "property": "C96",
   "status": "partial",
   "theorems": [
    "Hydrax.drawn_vertex_near_surface",
    "Hydrax.drawn_edge_meets_surface",
    "Hydrax.signedDist_axisLipschitz",
    "Hydrax.vtk_mesh_normals",
    "Hydrax.vtk_faces_read",
    "Hydrax.rerun_mesh_normals_partial",
    "Hydrax.rerun_mesh_normals_wrong"
   ],
   "note": "vertices and VTK normals are proved; the normals logged to Rerun have two components exchanged"
  },
  {
   "property": "C97",
   "status": "partial",
   "theorems": [
    "Hydrax.drawn_together",
    "Hydrax.domain_box_contains_grid",
    "Hydrax.drawn_size_partial",
    "Hydrax.drawn_size_ignores_compression"
   ],
   "note": "map and box proved; the size is that of the initial, not of the current volume"
  },
  {
   "property": "C98",
   "status": "partial",
   "theorems": [
    "Hydrax.colours_default_partial",
    "Hydrax.colours_limits",
    "Hydrax.colours_outside",
    "Hydrax.colours_flat",
    "Hydrax.colours_ignore_sense",
    "Hydrax.colours_given"
   ],
   "note": "holds without limits for a spread of at least 1e-6; refuted for given limits (no clipping) and for data on a small scale"
  },
  {
   "property": "C99",
   "status": "partial",
   "theorems": [
    "Hydrax.vtk_files",
    "Hydrax.vtk_series_kept",
    "Hydrax.vtk_particles_content",
    "Hydrax.vtk_lines_partition",
    "Hydrax.vtk_default_step_overwrites",
    "Hydrax.vtk_calls_fail"
   ],
   "note": "proved for calls with distinct labels and steps; without a step every call overwrites the last one, and log_sdf without a step fails"
  }
 ]
}
