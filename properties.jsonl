{"id": "C01", "title": "Interpolation weights are a partition of unity inside the user's box", "statement": "For every material point lying in the box that was passed to GridDomain.create (padding at least 2), the interpolation weights produced by ShapeFunctionMapping.compute for that point are all non-negative and sum to exactly 1, for the linear, quadratic and cubic kernel, in 2D and 3D.", "quantifier": "every kernel, dimension 2 and 3, every grid origin/extent/cell size, every point of the box", "why_tests_cant": "a test evaluates the weights at finitely many points; the claim is about a continuum of positions including all the cell-boundary ties of the half-open branches", "anchors": ["hydraxmpm/shapefunctions/linear.py:vmap_linear_shapefunction", "hydraxmpm/shapefunctions/quadratic.py:vmap_quadratic_shapefunction", "hydraxmpm/shapefunctions/cubic.py:vmap_cubic_shapefunction", "hydraxmpm/shapefunctions/mapping.py:ShapeFunctionMapping.compute", "hydraxmpm/grid/grid.py:GridDomain.create"]}
{"id": "C02", "title": "Weight gradients are the derivatives of the weights and sum to zero", "statement": "For every point the gradient reported for each stencil node is the true spatial partial derivative of the reported weight with respect to the point's position (quadratic and cubic kernels everywhere, linear kernel off the nodes), and the gradients of one point sum to the zero vector.", "quantifier": "every kernel, dimension, cell size and point position (linear: positions not on a grid line)", "why_tests_cant": "a finite-difference test only samples; a wrong branch condition or sign on a measure-zero set or a single branch is missed", "anchors": ["hydraxmpm/shapefunctions/linear.py:vmap_linear_shapefunction", "hydraxmpm/shapefunctions/quadratic.py:vmap_quadratic_shapefunction", "hydraxmpm/shapefunctions/cubic.py:vmap_cubic_shapefunction", "hydraxmpm/shapefunctions/mapping.py:ShapeFunctionMapping.compute"]}
{"id": "C03", "title": "Interpolation reproduces linear fields and their gradient exactly", "statement": "For a point in the box, sum_i N_i x_i equals the point position and sum_i x_i (x) grad N_i equals the identity (for the linear kernel the gradient part needs the point not to sit on a grid line). Hence any affine nodal field is interpolated with its exact value and gradient.", "quantifier": "every kernel, dimension, grid and position in the box; every affine field", "why_tests_cant": "needs all positions and all fields; finitely many sampled positions cannot establish an identity of piecewise polynomials", "anchors": ["hydraxmpm/shapefunctions/linear.py:vmap_linear_shapefunction", "hydraxmpm/shapefunctions/quadratic.py:vmap_quadratic_shapefunction", "hydraxmpm/shapefunctions/cubic.py:vmap_cubic_shapefunction", "hydraxmpm/shapefunctions/mapping.py:ShapeFunctionMapping.compute"]}
{"id": "C04", "title": "The affine (APIC) inertia tensor is the constant h^2/4 (quadratic) or h^2/3 (cubic)", "statement": "sum_i N_i (x_i-x)_a (x_i-x)_b equals delta_ab h^2/4 for the quadratic kernel and delta_ab h^2/3 for the cubic kernel at every position in the box, which is the constant the APIC branch of the solver divides by; for the linear kernel no constant works.", "quantifier": "every position in the box, every grid, dimension 2 and 3", "why_tests_cant": "the tensor being position independent is a statement about all positions", "anchors": ["hydraxmpm/shapefunctions/linear.py:vmap_linear_shapefunction", "hydraxmpm/shapefunctions/quadratic.py:vmap_quadratic_shapefunction", "hydraxmpm/shapefunctions/cubic.py:vmap_cubic_shapefunction", "hydraxmpm/shapefunctions/mapping.py:ShapeFunctionMapping.compute", "hydraxmpm/solvers/usl_asflip.py:USLAFLIP._g2p"]}
{"id": "C05", "title": "Scatter indices are always in range, never collide within a stencil, and agree with the node coordinates", "statement": "For every set of point positions, even far outside the grid, every node index produced by ShapeFunctionMapping.compute is a valid flat index of the grid; two different in-grid stencil nodes of one point never share an index; and the row of GridDomain.position_stack with that index is exactly the lattice point whose offset to the particle is reported in rel_dist.", "quantifier": "every grid, every real position, every stencil slot", "why_tests_cant": "an out-of-range or aliased index shows up only for special positions and grid shapes, and JAX silently drops or clamps it", "anchors": ["hydraxmpm/shapefunctions/mapping.py:ShapeFunctionMapping.compute", "hydraxmpm/grid/grid.py:GridDomain.position_mesh", "hydraxmpm/grid/grid.py:GridDomain.num_cells"]}
{"id": "C06", "title": "Points outside the grid never disturb it", "statement": "A stencil slot whose lattice point lies outside the grid has weight 0 and gradient 0, so a material point whose whole stencil is off the grid changes no grid mass, momentum or force, although its index was clamped onto a border node.", "quantifier": "every grid, every position, every particle data", "why_tests_cant": "clip-mode indexing makes the error invisible unless precisely the border nodes are inspected for the right positions", "anchors": ["hydraxmpm/shapefunctions/mapping.py:ShapeFunctionMapping.compute", "hydraxmpm/solvers/usl.py:USLSolver._p2g"]}
{"id": "C07", "title": "Padding guarantees complete stencils", "statement": "With padding p, GridDomain.create yields a grid such that every point of the user's box has its complete stencil inside the grid. Documented requirement: p=1 for linear/quadratic, p=2 for cubic.", "quantifier": "all boxes, cell sizes, paddings, points of the box, kernels", "why_tests_cant": "whether the last stencil node exists depends on the fractional part of extent/cell_size; tests use commensurate boxes", "anchors": ["hydraxmpm/grid/grid.py:GridDomain.create", "hydraxmpm/common/builder.py:SimBuilder.add_grid", "hydraxmpm/shapefunctions/mapping.py:ShapeFunctionMapping.compute"]}
{"id": "C08", "title": "Particle-to-grid transfer conserves mass and linear momentum", "statement": "After P2G, the sum of nodal masses equals the sum of the masses of the points inside the box and the sum of nodal momenta equals the sum of their momenta, for the plain and for the affine (AFLIP) transfer with any stored affine matrices.", "quantifier": "any number of points, any positions in the box, any masses, velocities, affine matrices, kernels", "why_tests_cant": "conservation is an identity over all configurations; tests check one two-particle configuration", "anchors": ["hydraxmpm/solvers/usl.py:USLSolver._p2g", "hydraxmpm/solvers/usl_asflip.py:USLAFLIP._p2g", "hydraxmpm/shapefunctions/mapping.py:ShapeFunctionMapping.compute"]}
{"id": "C09", "title": "Internal forces are self-equilibrated and do the work of the stress", "statement": "The nodal forces generated from particle stresses sum to zero for any stresses and volumes, and for any nodal velocity field their total power equals sum_p V_p sigma_p : (grad v)_p with grad v interpolated by the same gradients (compression-positive sign).", "quantifier": "any number of points, any stresses, volumes, positions in the box, any nodal velocity field", "why_tests_cant": "an identity over all stress states and fields", "anchors": ["hydraxmpm/solvers/usl.py:USLSolver._p2g", "hydraxmpm/solvers/usl_asflip.py:USLAFLIP._p2g"]}
{"id": "C10", "title": "A USL step changes total linear momentum exactly by the applied impulse", "statement": "In one step of USLSolver for a body inside its box, total particle momentum after the step equals momentum before plus dt times total nodal external force (zero without forces, dt*M*g with gravity), for every alpha (any PIC/FLIP blend), provided no touched node carries a mass at or below the solver's mass cutoff.", "quantifier": "every body state, alpha, dt, stress field, gravity, kernel; the hypothesis about the cutoff is necessary", "why_tests_cant": "tests run a few steps of one scene with a tolerance; the cutoff-related loss is hidden in the tolerance", "anchors": ["hydraxmpm/solvers/usl.py:USLSolver.__call__", "hydraxmpm/solvers/usl.py:USLSolver._p2g", "hydraxmpm/solvers/usl.py:USLSolver._integrate_grid", "hydraxmpm/solvers/usl.py:USLSolver._g2p", "hydraxmpm/forces/gravity.py:Gravity.apply_grid_forces"]}
{"id": "C11", "title": "An AFLIP step conserves linear momentum", "statement": "In one step of the ASFLIP solver total particle momentum changes exactly by the applied impulse.", "quantifier": "every body state, solver parameters, dt", "why_tests_cant": "depends on whether the per-particle dynamic blending and the speed clamp are active, which tests do not isolate", "anchors": ["hydraxmpm/solvers/usl_asflip.py:USLAFLIP._p2g", "hydraxmpm/solvers/usl_asflip.py:USLAFLIP._g2p"]}
{"id": "C12", "title": "n steps of gravity give n*dt*M*g of momentum", "statement": "Over any number of steps under a constant gravity without obstacles total momentum is P0 + n*dt*M*g as long as the body stays in the box and no sub-cutoff node occurs.", "quantifier": "every number of steps, every initial state satisfying the side conditions along the run", "why_tests_cant": "induction over run length; tests run one fixed length", "anchors": ["hydraxmpm/solvers/usl.py:USLSolver.__call__", "hydraxmpm/forces/gravity.py:Gravity"]}
{"id": "C13", "title": "Rigid translation is preserved exactly", "statement": "If all points of a stress-free body in its box have the same velocity u and no forces act, then after any number of USL steps every point still has velocity u, its velocity gradient is zero, F and volume are unchanged and it has moved by n*dt*u (while it remains in the box with no sub-cutoff node).", "quantifier": "every body, u, alpha, dt, kernel, number of steps", "why_tests_cant": "universal over bodies and run lengths", "anchors": ["hydraxmpm/solvers/usl.py:USLSolver._p2g", "hydraxmpm/solvers/usl.py:USLSolver._g2p"]}
{"id": "C14", "title": "The velocity gradient seen by the material law is the true velocity gradient", "statement": "If the nodal velocities form an affine field v(x)=A x+b, the L stored on each point after a step is minus A (compression-positive convention), with L[i,j] = -dv_i/dx_j, for both solvers.", "quantifier": "every affine field A, b, every point position in the box, kernels", "why_tests_cant": "tests that use diagonal or symmetric gradients cannot tell L from its transpose", "anchors": ["hydraxmpm/solvers/usl.py:USLSolver._g2p", "hydraxmpm/solvers/usl_asflip.py:USLAFLIP._g2p"]}
{"id": "C15", "title": "Particle mass, reference volume and particle count never change", "statement": "Whatever the forces, obstacles, laws and settings, after any number of solver steps each material point set has the same number of points, the same mass_stack and the same volume0_stack.", "quantifier": "every reachable world state, any number of steps, any combination of forces, colliders, laws, couplings", "why_tests_cant": "an invariant over all histories", "anchors": ["hydraxmpm/solvers/usl.py:USLSolver.__call__", "hydraxmpm/solvers/usl_asflip.py:USLAFLIP"]}
{"id": "C16", "title": "volume = det(F) * volume0 after every step", "statement": "After every step of every run, each deformable point satisfies volume_stack = det(F_stack) * volume0_stack.", "quantifier": "all reachable states after at least one step", "why_tests_cant": "history invariant; it depends on the interaction of g2p and the shear-removal of the law", "anchors": ["hydraxmpm/solvers/usl.py:USLSolver._g2p", "hydraxmpm/constitutive_laws/constitutive_law.py:ConstitutiveLaw.remove_accumulated_shear"]}
{"id": "C17", "title": "2D runs stay in plane strain", "statement": "In a 2D simulation after the grid-to-particle update L[2,2]=0, F[2,2]=1, and if F initially has no out-of-plane shear it never gets any (F is block diagonal) for any number of steps.", "quantifier": "all 2D states, any number of steps, any nodal velocities", "why_tests_cant": "history invariant", "anchors": ["hydraxmpm/solvers/usl.py:USLSolver._g2p", "hydraxmpm/solvers/usl_asflip.py:USLAFLIP._g2p"]}
{"id": "C18", "title": "The clock counts steps exactly", "statement": "After n successful steps step = step0+n and time = time0+n*dt, dt unchanged.", "quantifier": "every n and every scene", "why_tests_cant": "induction over n", "anchors": ["hydraxmpm/solvers/usl.py:USLSolver.__call__"]}
{"id": "C19", "title": "Rigid and uncoupled bodies are not touched by the material-point update", "statement": "A material point set that is not referenced by a coupling with skip_mpm_logic=False keeps position, velocity and all other arrays through P2G/G2P/constitutive updates, for any number of steps.", "quantifier": "every coupling table, any number of steps", "why_tests_cant": "quantifies over all coupling tables and histories", "anchors": ["hydraxmpm/solvers/usl.py:USLSolver.__call__", "hydraxmpm/common/builder.py:SimBuilder.couple"]}
{"id": "C20", "title": "PIC transfer never creates kinetic energy", "statement": "Kinetic energy on the grid after P2G is at most that of the points, and the PIC-interpolated point velocities have at most the kinetic energy of the grid; so a force-free stress-free USL step with alpha=0 never increases kinetic energy.", "quantifier": "any bodies, velocities, positions", "why_tests_cant": "an inequality over all states (Jensen)", "anchors": ["hydraxmpm/solvers/usl.py:USLSolver._p2g", "hydraxmpm/solvers/usl.py:USLSolver._g2p"]}
{"id": "C21", "title": "AFLIP limits what a particle can do in a step", "statement": "With a CFL limit c>0 set, after any AFLIP step every point's speed is at most c*h/dt, and no point moves by more than c cells in a step ('prevent particles crossing >50% of a cell').", "quantifier": "all states, settings, dt", "why_tests_cant": "an inequality for all states; the violating case needs fast nodal velocities", "anchors": ["hydraxmpm/solvers/usl_asflip.py:USLAFLIP._g2p"]}
{"id": "C22", "title": "Results do not depend on particle numbering", "statement": "Renumbering the points of a body permutes the per-point results of a USL step and leaves the nodal fields unchanged.", "quantifier": "every permutation, every body", "why_tests_cant": "n! permutations for every n", "anchors": ["hydraxmpm/solvers/usl.py:USLSolver._p2g", "hydraxmpm/solvers/usl.py:USLSolver._g2p", "hydraxmpm/shapefunctions/mapping.py:ShapeFunctionMapping.compute"]}
{"id": "C23", "title": "Bodies sharing a grid act on it additively", "statement": "When several couplings use the same grid, nodal mass, momentum and force after P2G are the sums of the contributions of all the bodies, independent of coupling order.", "quantifier": "any number of couplings on one grid, any bodies", "why_tests_cant": "needs multi-body scenes with external or internal forces on all bodies", "anchors": ["hydraxmpm/solvers/usl.py:USLSolver._p2g", "hydraxmpm/solvers/usl_asflip.py:USLAFLIP._p2g"]}
{"id": "C24", "title": "Contact never lets material penetrate further", "statement": "After the SDF collider acted on a node inside the obstacle (unit normal), the node's velocity relative to the wall has a non-negative normal component; a separating node (non-negative normal relative velocity) is left exactly unchanged.", "quantifier": "every nodal velocity, wall velocity, unit normal, friction >= 0, dimension", "why_tests_cant": "continuum of inputs", "anchors": ["hydraxmpm/forces/sdf_collider.py:apply_frictional_contact", "hydraxmpm/forces/sdf_collider.py:SDFCollider._collide_node"]}
{"id": "C25", "title": "Wall friction obeys Coulomb's law and is dissipative", "statement": "The tangential velocity change imposed by the collider is at most mu times the normal velocity change, the tangential velocity is scaled by a factor in [0,1] (never reversed), and the speed relative to the wall never increases.", "quantifier": "every velocity, wall velocity, unit normal, friction >= 0", "why_tests_cant": "continuum of inputs", "anchors": ["hydraxmpm/forces/sdf_collider.py:apply_frictional_contact"]}
{"id": "C26", "title": "Colliders act only inside their obstacle", "statement": "A node at positive (offset) distance from the obstacle keeps its momentum exactly if its mass exceeds 1e-14, whatever the normal, wall velocity and friction.", "quantifier": "every grid state and obstacle", "why_tests_cant": "universal over node states", "anchors": ["hydraxmpm/forces/sdf_collider.py:SDFCollider.apply_grid_moments"]}
{"id": "C27", "title": "Collider settings given to the builder take effect", "statement": "SimBuilder.add_sdf_collider(friction=mu) produces a collider that uses mu as its friction coefficient, attached to the obstacle and grids requested.", "quantifier": "every argument combination and builder history", "why_tests_cant": "requires comparing builders over all values; the existing scenes never look at the coefficient", "anchors": ["hydraxmpm/common/builder.py:SimBuilder.add_sdf_collider", "hydraxmpm/forces/sdf_collider.py:SDFCollider.__init__"]}
{"id": "C28", "title": "Cundall damping removes energy and never reverses a force", "statement": "For coefficient 0<=a<=1, the damped nodal force has the same sign as the undamped one componentwise with magnitude between (1-a) and (1+a) times, and the power of the added force against the nodal velocity is never positive.", "quantifier": "every nodal force, mass, momentum, coefficient in [0,1]", "why_tests_cant": "continuum of inputs", "anchors": ["hydraxmpm/forces/damping.py:Damping.apply_grid_forces", "hydraxmpm/forces/damping.py:Damping.apply_pre_p2g"]}
{"id": "C29", "title": "Grid-to-grid contact exchanges momentum without creating any", "statement": "The two-body contact response leaves the sum of the two nodal momenta unchanged and removes the approaching normal relative velocity of the receiver.", "quantifier": "every pair of nodal states, unit normal", "why_tests_cant": "continuum of inputs; the module cannot currently be called at all", "anchors": ["hydraxmpm/forces/gridcontact.py:GridContact._solve_node_collision", "hydraxmpm/forces/gridcontact.py:GridContact.apply_grid_moments"]}
{"id": "C30", "title": "Linear elastic stress depends only on total strain", "statement": "After any sequence of updates with velocity gradients L_k and steps dt_k the linear elastic stress equals the initial stress plus the isotropic Hooke law applied to the total strain sum_k dt_k sym(L_k); so it is independent of the order of the increments, a closed strain cycle returns to the initial stress, spin leaves it unchanged and the pressure change is K times the total volumetric strain.", "quantifier": "every sequence of increments, every E, nu with nu not in {-1, 1/2}", "why_tests_cant": "quantifies over all strain paths", "anchors": ["hydraxmpm/constitutive_laws/linearelastic.py:LinearElasticLaw._update_stress", "hydraxmpm/constitutive_laws/linearelastic.py:LinearElasticLaw.update"]}
{"id": "C31", "title": "Stress stays symmetric", "statement": "If a point's stress (and elastic strain) is symmetric, then it is symmetric after any number of updates of the linear elastic, Newtonian, mu(I), Drucker-Prager or modified Cam-Clay law, for any velocity gradients.", "quantifier": "every law, parameters, state, number of updates", "why_tests_cant": "invariant over all histories", "anchors": ["hydraxmpm/constitutive_laws/linearelastic.py", "hydraxmpm/constitutive_laws/newtonfluid.py", "hydraxmpm/constitutive_laws/mu_i_rheology.py", "hydraxmpm/constitutive_laws/druckerprager.py", "hydraxmpm/constitutive_laws/modifiedcamclay.py"]}
{"id": "C32", "title": "Drucker-Prager stress is admissible after every update", "statement": "After an update the Drucker-Prager yield function at the returned stress and returned hardening state is at most zero.", "quantifier": "every strain increment, elastic strain, parameters (including dilatancy mu_1_hat)", "why_tests_cant": "continuum of inputs; the failing case needs non-zero dilatancy and a plastic step", "anchors": ["hydraxmpm/constitutive_laws/druckerprager.py:DruckerPrager._update_stress"]}
{"id": "C33", "title": "Drucker-Prager stress and stored elastic strain agree", "statement": "For every connected update, in the elastic, cone and apex branch, the returned stress equals 2G dev(eps_e) + (K tr(eps_e)+p_0) I with the returned elastic strain; a disconnected point (density below rho_0) gets zero stress.", "quantifier": "every input, every branch", "why_tests_cant": "all branches and inputs", "anchors": ["hydraxmpm/constitutive_laws/druckerprager.py:DruckerPrager._update_stress"]}
{"id": "C34", "title": "Drucker-Prager accumulated plastic strain never decreases", "statement": "eps_p_acc returned by an update is at least the previous one.", "quantifier": "every input, every branch", "why_tests_cant": "monotonicity over all histories; the violation needs an apex return", "anchors": ["hydraxmpm/constitutive_laws/druckerprager.py:DruckerPrager._update_stress"]}
{"id": "C35", "title": "mu(I) rheology is pressure-positive, cohesionless, dissipative and friction-bounded", "statement": "The mu(I) law returns mean stress max(p_eos, p_min) >= 0 for a point above its reference density and zero stress otherwise; shear power is never negative; the equivalent shear stress is bounded by mu_d times pressure and (documented friction law) equals mu(I) p up to regularisation.", "quantifier": "every density, strain rate and parameters in the physical range", "why_tests_cant": "continuum of inputs", "anchors": ["hydraxmpm/constitutive_laws/mu_i_rheology.py:MuI_LC._update_stress"]}
{"id": "C36", "title": "A compressed Newtonian fluid pushes back and viscosity dissipates", "statement": "For a fluid point with positive equation-of-state pressure the pressure_stack seen by the user equals that pressure, it is zero for an expanded point, and the viscous power is non-negative.", "quantifier": "every density, strain rate, parameters", "why_tests_cant": "continuum; sign convention errors are invisible in tests that only check shapes", "anchors": ["hydraxmpm/constitutive_laws/newtonfluid.py:NewtonFluid._update_stress", "hydraxmpm/material_points/material_points.py:MaterialPointState.pressure_stack"]}
{"id": "C37", "title": "Initial densities and stresses are consistent with the law", "statement": "The fluid, mu(I) and Cam-Clay state constructors return density/stress pairs that the law's own equations map to each other (equation of state at the returned density gives the requested pressure; Cam-Clay states satisfy the yield/compression-line relations used in construction).", "quantifier": "every admissible pressure, density, OCR and parameters", "why_tests_cant": "round trip over all inputs", "anchors": ["hydraxmpm/constitutive_laws/newtonfluid.py:NewtonFluid.create_state_from_density", "hydraxmpm/constitutive_laws/mu_i_rheology.py:MuI_LC", "hydraxmpm/constitutive_laws/modifiedcamclay.py:ModifiedCamClay.create_state_from_ocr"]}
{"id": "C38", "title": "Cam-Clay initialisation keeps admissible stresses", "statement": "create_state_from_ocr only moves stresses that lie outside the yield surface: an input (p,q) strictly inside is returned unchanged and the result is never outside.", "quantifier": "every p>0, q, OCR>=1, parameters", "why_tests_cant": "continuum; violating case is any interior point", "anchors": ["hydraxmpm/constitutive_laws/modifiedcamclay.py:ModifiedCamClay.create_state_from_ocr"]}
{"id": "C39", "title": "Cam-Clay update keeps the preconsolidation pressure positive and elastic steps inside the yield surface", "statement": "After any number of updates, whatever the Newton iteration does, p_c stays positive, an elastic step leaves p_c unchanged and returns a stress inside the yield surface, the deviatoric stress is never increased by the return map, and a disconnected point has zero stress and unchanged p_c.", "quantifier": "every history, every Jacobian the automatic differentiation could return", "why_tests_cant": "quantifies over all inputs and over non-converged Newton iterations", "anchors": ["hydraxmpm/constitutive_laws/modifiedcamclay.py:ModifiedCamClay._update_stress"]}
{"id": "C40", "title": "Cam-Clay never produces tension", "statement": "The mean stress returned by a connected Cam-Clay update is non-negative.", "quantifier": "every previous stress with non-negative mean stress, every strain increment", "why_tests_cant": "violation needs previous pressure below the minimum pressure", "anchors": ["hydraxmpm/constitutive_laws/modifiedcamclay.py:ModifiedCamClay._update_stress"]}
{"id": "C41", "title": "Removing accumulated shear keeps the volume and loses nothing else", "statement": "remove_accumulated_shear leaves det(F) unchanged (F with det F>=0), is idempotent, and is a no-op for laws that did not request it; F_store keeps the accumulated deformation gradient.", "quantifier": "every F with non-negative determinant, 2D and 3D", "why_tests_cant": "continuum; the 2D case needs the 3x3 determinant to be looked at", "anchors": ["hydraxmpm/constitutive_laws/constitutive_law.py:ConstitutiveLaw.remove_accumulated_shear"]}
{"id": "C42", "title": "Stress measures decompose and reconstruct correctly", "statement": "Every stress splits as s + p I with trace-free s; q and J2 are non-negative, related by q^2=3 J2, invariant under rotation of the stress; reconstructing a triaxial stress from (p,q) gives back pressure p and q = |q|.", "quantifier": "every 3x3 stress, every rotation, all p, q", "why_tests_cant": "continuum", "anchors": ["hydraxmpm/utils/math_helpers.py:get_pressure", "hydraxmpm/utils/math_helpers.py:get_dev_stress", "hydraxmpm/utils/math_helpers.py:get_J2", "hydraxmpm/utils/math_helpers.py:get_q_vm", "hydraxmpm/utils/math_helpers.py:reconstruct_stress_from_triaxial"]}
{"id": "C43", "title": "Solid-fraction conversions are mutually inverse and match the density definition", "statement": "phi<->void ratio conversions invert each other; phi from bulk density rho_b and grain density rho_s is rho_b/rho_s; the solid fraction update from L conserves solid mass when combined with the linear volume update.", "quantifier": "all admissible phi, e, densities", "why_tests_cant": "continuum", "anchors": ["hydraxmpm/utils/math_helpers.py"]}
{"id": "C44", "title": "Robust small-matrix inversion is an inverse", "statement": "For every 2x2/3x3 matrix with determinant away from zero inv_2x2_robust/inv_3x3_robust times the matrix is the identity up to the explicit regularisation factor det/(det +- 1e-20), and no input divides by zero.", "quantifier": "every matrix", "why_tests_cant": "continuum; a wrong cofactor sign is invisible on symmetric or diagonal samples", "anchors": ["hydraxmpm/utils/math_helpers.py:inv_2x2_robust", "hydraxmpm/utils/math_helpers.py:inv_3x3_robust"]}
{"id": "C45", "title": "Rotation helpers are rigid", "statement": "The 2D rotation helper and rotation by a unit quaternion preserve inner products, the inverse helper undoes them, and composing rotations corresponds to the quaternion product.", "quantifier": "every angle, unit quaternion, vector", "why_tests_cant": "continuum", "anchors": ["hydraxmpm/utils/math_helpers.py:rotation_2d", "hydraxmpm/utils/math_helpers.py:quaternion_rotate"]}
{"id": "C46", "title": "Obstacle primitives report true signed distance", "statement": "For the sphere the reported value is exactly the Euclidean signed distance to the solid (negative inside); for the plane it is that distance times |n|/(|n|+1e-12); for the box it is above it by at most 1e-6.", "quantifier": "every pose, size and query point", "why_tests_cant": "continuum; infimum over the surface cannot be sampled", "anchors": ["hydraxmpm/sdf/sdfcollection.py:SphereSDF", "hydraxmpm/sdf/sdfcollection.py:BoxSDF", "hydraxmpm/sdf/sdfcollection.py:PlaneSDF"]}
{"id": "C47", "title": "Composite obstacles are unions", "statement": "A composite SDF is negative at a point iff at least one of its parts is, it is 1-Lipschitz if the parts are, independent of the order of the parts, and reports the friction of a closest part.", "quantifier": "any list of parts, any query point", "why_tests_cant": "any list length", "anchors": ["hydraxmpm/sdf/sdfcollection.py:CompositeSDF"]}
{"id": "C48", "title": "Moving an obstacle moves its distance field rigidly", "statement": "Translating/rotating an obstacle's state and the query point together leaves the reported distance unchanged; after n kinematic updates with constant velocity the centre is c0+n*dt*v, the 2D angle theta0+n*dt*omega, and the 3D orientation quaternion keeps a norm in [1-1e-12,1] for all time.", "quantifier": "every pose, n, velocities", "why_tests_cant": "induction over n, continuum of poses", "anchors": ["hydraxmpm/sdf/sdfobject.py:SDFObjectBase"]}
{"id": "C49", "title": "Wall velocity is the velocity of the moving obstacle", "statement": "get_velocity at a point fixed to the obstacle equals the time derivative of that point's world position under the obstacle's motion.", "quantifier": "every pose, velocity, spin, point", "why_tests_cant": "derivative statement over a continuum", "anchors": ["hydraxmpm/sdf/sdfobject.py:SDFObjectBase.get_velocity"]}
{"id": "C50", "title": "Domain walls keep material inside the domain box", "statement": "DomainSDF is positive exactly at the points strictly inside its (offset) bounds, 1-Lipschitz, its normal is a unit axis vector pointing to the inside of the closest wall, and the wall friction reported is that of the same wall.", "quantifier": "every bounds, offset, query point", "why_tests_cant": "continuum with ties", "anchors": ["hydraxmpm/sdf/sdfcollection.py:DomainSDF"]}
{"id": "C51", "title": "Generated bodies lie in their shape with the requested resolution", "statement": "Points generated from an SDF all have negative signed distance; in regular mode with ppc points per cell direction, particles are spaced inside their own cell.", "quantifier": "every SDF, cell size, ppc", "why_tests_cant": "universal over shapes and cell sizes; tests use cell_size=1-like scenes", "anchors": ["hydraxmpm/utils/generate_body.py"]}
{"id": "C52", "title": "Builder handles stay valid", "statement": "Every index returned by a SimBuilder add_* call refers, after any further sequence of builder calls, to exactly the object that was added.", "quantifier": "every sequence of builder calls", "why_tests_cant": "all call sequences", "anchors": ["hydraxmpm/common/builder.py:SimBuilder", "hydraxmpm/common/builder.py:Registry"]}
{"id": "C53", "title": "Every force finds its own state", "statement": "After any sequence of builder calls, for every gravity/damping force, force_states at its stored index is the state that was created for it.", "quantifier": "every sequence of builder calls (including colliders and contacts added in between)", "why_tests_cant": "depends on the call order; tests add gravity first", "anchors": ["hydraxmpm/common/builder.py:SimBuilder.add_gravity", "hydraxmpm/common/builder.py:SimBuilder.add_damping", "hydraxmpm/common/builder.py:SimBuilder.add_sdf_collider", "hydraxmpm/common/builder.py:SimBuilder.add_body_contact"]}
{"id": "C54", "title": "The solver uses the grid, law and obstacle that the user coupled", "statement": "For every coupling of a solver made by set_solver, the grid domain, constitutive law and law state used for it at run time are the registered ones, and each obstacle logic is paired with its own obstacle state.", "quantifier": "every builder history and every choice of coupling and obstacle subsets", "why_tests_cant": "index confusion only shows when couplings are not in registration order", "anchors": ["hydraxmpm/common/builder.py:SimBuilder.set_solver", "hydraxmpm/solvers/usl.py:USLSolver._constitutive_update", "hydraxmpm/solvers/usl.py:USLSolver._compute_connectivity"]}
{"id": "C55", "title": "AFLIP reads back the affine matrix it stored", "statement": "The affine matrices used in P2G of a body are those computed for that same body in the previous G2P.", "quantifier": "every coupling table", "why_tests_cant": "needs scenes where particle index and coupling index differ", "anchors": ["hydraxmpm/solvers/usl_asflip.py:USLAFLIP._p2g", "hydraxmpm/solvers/usl_asflip.py:USLAFLIP._g2p"]}
{"id": "C56", "title": "Saved states are retrievable: last write per step wins", "statement": "After any sequence of save_step calls, loading step k returns exactly the last state saved with step k, for every k, and distinct steps never overwrite each other.", "quantifier": "every sequence of saves, every step number", "why_tests_cant": "all histories, unbounded step numbers (beyond five digits)", "anchors": ["hydraxmpm/common/sim_io.py:SimIO.save_step", "hydraxmpm/common/sim_io.py:load_simulation"]}
{"id": "C57", "title": "A crash while saving does not damage other steps", "statement": "If the process dies at any point during save_step for step k, every previously saved step other than k is still loadable with its exact content.", "quantifier": "every history, every crash point", "why_tests_cant": "crash points cannot be enumerated by tests", "anchors": ["hydraxmpm/common/sim_io.py:SimIO.save_step"]}
{"id": "C58", "title": "Opening a recorder on existing output", "statement": "Re-opening a recorder with overwrite=False keeps all earlier states retrievable; with the default settings all earlier content of the directory is deleted.", "quantifier": "every directory content", "why_tests_cant": "universal over contents; destructive default", "anchors": ["hydraxmpm/common/sim_io.py:SimIO.__init__"]}
{"id": "C59", "title": "Output stride of the triaxial driver is pure subsampling", "statement": "For every law and state, the trajectory recorded with stride s is the stride-1 trajectory taken at every s-th step; it has num_steps/s entries, and a stride that does not divide num_steps is an error.", "quantifier": "every law, initial state, number of steps and stride", "why_tests_cant": "any law as a black box, any length", "anchors": ["hydraxmpm/element_tests/triaxial_test.py", "hydraxmpm/element_tests/driver.py"]}
{"id": "C60", "title": "Undrained element tests keep volume constant", "statement": "In an undrained triaxial run det(F) and hence volume keep their initial value for any number of steps under the exponential update; drained runs prescribe exactly the documented strain rates.", "quantifier": "every number of steps, rates, dt", "why_tests_cant": "induction and matrix exponential identity", "anchors": ["hydraxmpm/element_tests/triaxial_test.py", "hydraxmpm/element_tests/driver.py"]}
{"id": "C61", "title": "Grid sizing survives floating-point rounding", "statement": "GridDomain.create yields floor(extent/h + 2*padding)+1 nodes per axis when evaluated in IEEE double precision as it is in exact arithmetic.", "quantifier": "every box and cell size representable in double precision", "why_tests_cant": "requires exact reasoning on rounding for all inputs; violated for cell size 0.1", "anchors": ["hydraxmpm/grid/grid.py:GridDomain.create"]}
{"id": "C62", "title": "Critical time step is positive and conservative", "statement": "get_dt_crit of the elastic law is positive and, for every point, at most alpha*h divided by that point's wave speed plus velocity; doubling the cell size doubles it.", "quantifier": "every non-empty set of points with positive density", "why_tests_cant": "continuum, any number of points", "anchors": ["hydraxmpm/constitutive_laws/linearelastic.py:LinearElasticLaw.get_dt_crit"]}
{"id": "C63", "title": "CPIC masks never cut material off", "statement": "The SDF connectivity correction of the USL solver leaves every interaction active, so the interpolated velocities are those of the plain transfer regardless of obstacles and of sdf sharpness.", "quantifier": "every obstacle set, positions, sharpness", "why_tests_cant": "universal over obstacle geometry", "anchors": ["hydraxmpm/solvers/usl.py:USLSolver._sdf_correction_connectivity", "hydraxmpm/solvers/usl.py:USLSolver._g2p"]}
{"id": "C64", "title": "scatter_to_grid averages", "statement": "With normalisation, the value scattered to a node is a weighted mean of the contributing point values: constants are reproduced and results stay within the range of the data; nodes with negligible weight get zero. gather_from_grid interpolates it back.", "quantifier": "any data, points, masses", "why_tests_cant": "continuum", "anchors": ["hydraxmpm/shapefunctions/mapping.py:ShapeFunctionMapping.scatter_to_grid", "hydraxmpm/shapefunctions/mapping.py:ShapeFunctionMapping.gather_from_grid"]}
{"id": "C65", "title": "Default material points are consistent", "statement": "MaterialPointState.create without explicit mass or volume gives mass = density*volume, reference volume equal to volume, and a density_stack equal to the requested density; the default volume is cell_size^dim / points-per-cell; arrays given explicitly are stored unchanged.", "quantifier": "every argument combination", "why_tests_cant": "argument combinations x continuum", "anchors": ["hydraxmpm/material_points/material_points.py:MaterialPointState.create"]}
{"id": "C66", "title": "Bodies of any size can be stepped again", "statement": "A solver step leaves the volume array of a body with one entry per point, so that the next step can gather from it, for every number of points.", "quantifier": "every scene, number of points and number of steps", "why_tests_cant": "shape errors appear only for particular sizes, after the first step", "anchors": ["hydraxmpm/solvers/usl.py:USLSolver._g2p", "hydraxmpm/solvers/usl.py:USLSolver._p2g"]}
{"id": "C67", "title": "The collider acts by velocity projection only", "statement": "The collision response of SDFCollider depends on the signed distance only through its sign, and neither on the time step nor on the `gap` setting: no position-based push-out velocity is ever injected (so the documented margin of safety has no effect).", "quantifier": "every node state, distance, time step and gap", "why_tests_cant": "absence of any influence is a statement about all inputs", "anchors": ["hydraxmpm/forces/sdf_collider.py:SDFCollider._collide_node", "hydraxmpm/forces/sdf_collider.py:apply_frictional_contact"]}
{"id": "C68", "title": "Round obstacle primitives report true signed distance", "statement": "CapsuleSDF, CylinderSDF and TorusSDF report the Euclidean signed distance of the capsule, cylinder and torus of the given dimensions to within 2e-6, and HollowCylinderSDF that of a pipe of the given height and radii.", "quantifier": "every pose, size and query point", "why_tests_cant": "continuum; infimum over the surface cannot be sampled", "anchors": ["hydraxmpm/sdf/sdfcollection.py:CapsuleSDF", "hydraxmpm/sdf/sdfcollection.py:CylinderSDF", "hydraxmpm/sdf/sdfcollection.py:TorusSDF", "hydraxmpm/sdf/sdfcollection.py:HollowCylinderSDF"]}
{"id": "C69", "title": "Axial strains reported by the triaxial test belong to the recorded states", "statement": "Entry k of TriaxialTest.axial_strain_stack is the axial strain reached in entry k of the recorded trajectory, that is the sum of rate*dt over the first (k+1)*stride steps.", "quantifier": "every rate, time step, number of steps and stride, scalar or array input", "why_tests_cant": "a plot of one test looks plausible with shifted strains; the relation is for all strides and step counts", "anchors": ["hydraxmpm/element_tests/triaxial_test.py:TriaxialTest.axial_strain_stack", "hydraxmpm/element_tests/triaxial_test.py:TriaxialTest.run"]}
{"id": "C70", "title": "An interrupted save is never read back as a wrong state", "statement": "If the process dies at any point during save_step for step k, loading step k afterwards gives the state saved before, the new state, or an error, never a mixture of the two.", "quantifier": "every directory content, state and crash point", "why_tests_cant": "crash points cannot be enumerated in a test run", "anchors": ["hydraxmpm/common/sim_io.py:SimIO.save_step", "hydraxmpm/common/sim_io.py:load_simulation"]}
{"id": "C71", "title": "The element driver honours is_F_linear_approx", "statement": "ElementTestDriver(is_F_linear_approx=True) updates F with I - L dt, otherwise with the matrix exponential.", "quantifier": "every law, state, velocity gradient and time step", "why_tests_cant": "the two updates agree to first order, so tests with small strain increments cannot tell them apart", "anchors": ["hydraxmpm/element_tests/driver.py:ElementTestDriver.step"]}
{"id": "C72", "title": "build returns what was registered", "statement": "SimBuilder.build returns a state holding every registered body, law and obstacle state at the index returned by its add_* call together with the requested clock, and a single solver exactly if set_solver was called once; an unknown scheme is never accepted.", "quantifier": "every sequence of builder calls", "why_tests_cant": "all call sequences", "anchors": ["hydraxmpm/common/builder.py:SimBuilder.build", "hydraxmpm/common/builder.py:SimBuilder.set_solver"]}
{"id": "C73", "title": "The deformation gradient follows the motion of the points", "statement": "If the nodal velocities form an affine field and F carries a material vector X to the distance x_q - x_p of two points, then after the grid-to-particle update the new F carries X to the new distance of the two points (USL and ASFLIP).", "quantifier": "all affine fields, positions, deformation gradients, kernels, dt", "why_tests_cant": "relates two separately computed outputs (F and positions) for all fields; the tests only look at F = I", "anchors": ["hydraxmpm/solvers/usl.py:USLSolver._g2p", "hydraxmpm/solvers/usl_asflip.py:USLAFLIP._g2p"]}
{"id": "C74", "title": "alpha blends FLIP and PIC as documented", "statement": "In a USL or ASFLIP step each point moves with the interpolated grid velocity, and its new velocity is the blend (1-alpha)*FLIP + alpha*PIC (docstrings: 0.0 = FLIP, 1.0 = PIC).", "quantifier": "all scenes of stress-free bodies under gravity, all alpha", "why_tests_cant": "a wrong orientation of the blend is invisible unless both ends are compared with their definitions", "anchors": ["hydraxmpm/solvers/usl.py:USLSolver._g2p"]}
{"id": "C75", "title": "The star obstacle reports the signed distance to a star", "statement": "StarSDF.signed_distance_local is the signed Euclidean distance (negative inside) to the star polygon with the given number of points and outer and inner radius.", "quantifier": "every number of points, all admissible radii, every query position", "why_tests_cant": "needs all positions in all folded sectors; a wrong fold is exact on the symmetry axes that tests use", "anchors": ["hydraxmpm/sdf/sdfcollection.py:StarSDF.signed_distance_local"]}
{"id": "C76", "title": "A point cloud obstacle is the union of the balls of its points", "statement": "MaterialPointCloudSDF gives every point a ball of its reference volume and reports a point as inside exactly if it is in one of the balls, with the true distance outside.", "quantifier": "every cloud, every volume, every smooth_k, every query position", "why_tests_cant": "the error of the smoothing grows with the number of points near the query, so small clouds look right", "anchors": ["hydraxmpm/sdf/sdfcollection.py:MaterialPointCloudSDF.signed_distance"]}
{"id": "C77", "title": "A tabulated obstacle interpolates its table", "statement": "GridSDF stays within the range of its table, reproduces tables of linear functions inside the box up to the 1e-12 regularisation, takes the value of the closest point of the box outside of it, scale and thickness scale and grow the obstacle, and the box it reports contains the obstacle.", "quantifier": "every table, box, scale, thickness and query position", "why_tests_cant": "all tables and positions, including the clamped ones", "anchors": ["hydraxmpm/sdf/gridsdf.py:GridSDF.signed_distance_local"]}
{"id": "C78", "title": "Reported strains are logarithmic strains of the motion", "statement": "eps_stack is the symmetric tensor e with exp(-2e) = F F^T (compression positive), independent of which singular value decomposition the library returns; it rotates with the body, ignores rotations of the reference, and eps_v_stack is log(volume0/volume).", "quantifier": "every deformation gradient that compresses no direction by more than 1e-12, every singular value decomposition of it", "why_tests_cant": "decompositions are not unique (signs, repeated singular values), so no finite set of samples shows independence", "anchors": ["hydraxmpm/utils/math_helpers.py:get_hencky_strain", "hydraxmpm/material_points/material_points.py:MaterialPointState.eps_v_stack"]}
{"id": "C79", "title": "Lithostatic preconditioning gives the stress under a slope", "statement": "precondition_from_lithostatic returns the invariants of the stress carrying the ground above, and reconstruct_stress_from_triaxial rebuilds that stress from them.", "quantifier": "all densities, depths, slopes and lateral stress ratios", "why_tests_cant": "q is stored without sign and direction, which cannot be seen for the k0 < 1 and level ground that examples use", "anchors": ["hydraxmpm/utils/math_helpers.py:precondition_from_lithostatic", "hydraxmpm/utils/math_helpers.py:reconstruct_stress_from_triaxial"]}
{"id": "C80", "title": "Derived quantities of material points mean what they say", "statement": "Density times volume is the mass up to the 1e-16 regularisation, pressure_stack and q_stack are the invariants of the stress, KE_stack is the kinetic energy of the point, and every documented property returns a value.", "quantifier": "every state", "why_tests_cant": "all states", "anchors": ["hydraxmpm/material_points/material_points.py:MaterialPointState"]}
{"id": "C81", "title": "Transfer to the grid and nodal forces keep the balance of angular momentum", "statement": "The angular momentum of the nodes after P2G is that of the points (with the spin of the affine matrices for ASFLIP); internal forces of symmetric stresses exert no moment, so transfer, gravity and integration change the angular momentum exactly by dt times the moment of gravity and of the point forces.", "quantifier": "every body in the box, every mass, velocity, symmetric stress, force, kernel, cell size, dimension", "why_tests_cant": "a balance over all nodes that depends on the kernels reproducing linear fields; tests compare single nodal values", "anchors": ["hydraxmpm/solvers/usl.py:USLSolver._p2g", "hydraxmpm/solvers/usl_asflip.py:USLAFLIP._p2g"]}
{"id": "C82", "title": "ASFLIP preserves angular momentum", "statement": "usl_asflip.py documents that AFLIP/APIC preserves angular momentum: without FLIP blending and clamping the points have the angular momentum of the nodes after G2P (spin of the affine matrices included), and a rigid rotation survives a step unchanged.", "quantifier": "all nodal velocity fields and point positions", "why_tests_cant": "holds for affine fields, which is what a test would try, but not for general ones", "anchors": ["hydraxmpm/solvers/usl_asflip.py:USLAFLIP._g2p"]}
{"id": "C83", "title": "Contact normals point straight away from the nearest surface point", "statement": "Off the surface, wherever the reported distance is differentiable, get_normal is the unit vector from the nearest surface point of the solid (towards it inside), up to a factor in (0, 1] that comes from the regularised normalisation.", "quantifier": "every obstacle whose reported distance is an increasing function of the signed distance (sphere, plane, box in any pose and dimension among them), every position with a gradient", "why_tests_cant": "a statement about derivatives at a continuum of points", "anchors": ["hydraxmpm/sdf/sdfobject.py:SDFObjectBase.get_normal", "hydraxmpm/sdf/sdfcollection.py:SphereSDF", "hydraxmpm/sdf/sdfcollection.py:BoxSDF", "hydraxmpm/sdf/sdfcollection.py:PlaneSDF"]}
{"id": "C84", "title": "A yielding Cam-Clay step solves the plasticity equations", "statement": "A step whose elastic trial stress lies outside the yield surface returns a state with a non-negative plastic multiplier and a plastic strain increment such that pressure and preconsolidation pressure follow from the elastic and plastic volumetric strain, the deviator is the trial deviator minus 2G times the plastic strain, the flow is associated and the new stress lies on the new yield surface, the last two up to the residuals left by the Newton loop; the plastic work is non-negative at convergence.", "quantifier": "every velocity gradient, previous stress with mean stress at least p_min_calc, parameters, every Jacobian the automatic differentiation could return", "why_tests_cant": "an implicit system on a continuum; tests compare single loading paths", "anchors": ["hydraxmpm/constitutive_laws/modifiedcamclay.py:ModifiedCamClay._update_stress"]}
{"id": "C85", "title": "Cam-Clay states stay on their compression lines", "statement": "As long as a point is connected, its specific volume (grain density over bulk density), mean stress and preconsolidation pressure satisfy v = N (p_ref/p_c)^lambda (p_c/p)^kappa if they do initially.", "quantifier": "every history of connected steps with mean stress at least p_min_calc", "why_tests_cant": "needs induction over arbitrarily long histories, elastic and plastic mixed", "anchors": ["hydraxmpm/constitutive_laws/modifiedcamclay.py:ModifiedCamClay._update_stress", "hydraxmpm/constitutive_laws/modifiedcamclay.py:get_v_sl", "hydraxmpm/solvers/usl.py:USLSolver._g2p"]}
{"id": "C86", "title": "Stored Cam-Clay elastic strain matches the stress", "statement": "After every connected step the stored elastic strain and the stress are related by the same elastic relation, so that plastic strain computed from it does not jump.", "quantifier": "every connected step", "why_tests_cant": "a relation between two outputs in both branches", "anchors": ["hydraxmpm/constitutive_laws/modifiedcamclay.py:ModifiedCamClay._update_stress"]}
{"id": "C87", "title": "The stress of a recorded state belongs to its density", "statement": "After a solver call or an element-test step, the stress of a point of a law with an equation of state (Newtonian fluid, mu(I)) is the law evaluated at the velocity gradient and the density of that same state.", "quantifier": "every scene, law parameter, state and step", "why_tests_cant": "a relation between outputs of every step; a test with an already settled state does not see a lag", "anchors": ["hydraxmpm/element_tests/driver.py:ElementTestDriver.step", "hydraxmpm/solvers/usl.py:USLSolver._constitutive_update", "hydraxmpm/constitutive_laws/mu_i_rheology.py:MuI_LC._update_stress"]}
{"id": "C88", "title": "Drained element tests hold the confining stress", "statement": "In a drained triaxial test the lateral stress (is_p_constant=False) or the mean stress (is_p_constant=True) stays at the confining value, up to the error left by the Newton iterations, in every recorded state.", "quantifier": "every schedule of axial rates and time steps, any number of steps and iterations, the laws of the package", "why_tests_cant": "the error of one step is the start of the next, so the claim needs induction over test length; depends on how the law reacts to the trial rate", "anchors": ["hydraxmpm/element_tests/triaxial_test.py:TriaxialTest.run", "hydraxmpm/element_tests/driver.py:ElementTestDriver.step"]}
{"id": "C89", "title": "Cubic boundary splines complete the spline space at walls", "statement": "With wall nodes of type boundary, their neighbours of the near-boundary types and all others of type middle, the cubic weights are non-negative, sum to one and reproduce the position at every point between the walls, and the gradients reproduce the gradients of constants and of the position.", "quantifier": "every grid length of at least three cells and every position between the walls, walls included", "why_tests_cant": "a continuum of positions and all grid lengths; the cases at the ends of the pieces are easily missed", "anchors": ["hydraxmpm/shapefunctions/cubic.py:vmap_cubic_shapefunction", "hydraxmpm/shapefunctions/mapping.py:ShapeFunctionMapping.compute"]}
{"id": "C90", "title": "Constitutive laws prefer no direction", "statement": "Rotating (or mirroring) the stress, the velocity gradient, the deformation gradient and the stored tensors of a point before the update gives the rotated result of the update: same pressure-like quantities, rotated tensors, same exception.", "quantifier": "every law of the package, every orthogonal matrix, every state and time step", "why_tests_cant": "all rotations and all states; tests load along the axes", "anchors": ["hydraxmpm/constitutive_laws/linearelastic.py:LinearElasticLaw._update_stress", "hydraxmpm/constitutive_laws/newtonfluid.py:NewtonFluid", "hydraxmpm/constitutive_laws/mu_i_rheology.py:MuI_LC._update_stress", "hydraxmpm/constitutive_laws/druckerprager.py:DruckerPrager", "hydraxmpm/constitutive_laws/modifiedcamclay.py:ModifiedCamClay._update_stress"]}
{"id": "C91", "title": "A simulation does not depend on axes, origin and numbering", "statement": "Exchange or reverse axes, move the origin by any amount (grid, bodies, obstacles and forces along with it) and renumber the points of the bodies: every step of the USL solver returns the description, in the new axes, of what it returned before, or raises the same exception.", "quantifier": "every scene made of the bodies, laws, forces and obstacles of the package, both kernels, two and three dimensions, any number of steps", "why_tests_cant": "relates two runs on a continuum of scenes; regression tests fix one orientation, and a mixed-up component or a one-sided floor is invisible in a single orientation", "anchors": ["hydraxmpm/solvers/usl.py:USLSolver", "hydraxmpm/shapefunctions/mapping.py:ShapeFunctionMapping.compute", "hydraxmpm/sdf/sdfobject.py:SDFObjectBase", "hydraxmpm/sdf/sdfcollection.py:DomainSDF.get_normal"]}
{"id": "C92", "title": "Symmetric scenes stay symmetric", "statement": "If a scene equals its mirror image (or its image with axes exchanged) with the points of the bodies paired off, the positions, velocities, stresses and deformation gradients of paired points remain images of each other for the whole simulation.", "quantifier": "every symmetric scene, any number of steps", "why_tests_cant": "needs induction over steps; asymmetry by tie-breaking shows only at particular nodes", "anchors": ["hydraxmpm/solvers/usl.py:USLSolver", "hydraxmpm/sdf/sdfcollection.py:DomainSDF.get_normal"]}
{"id": "C93", "title": "Rigid rotation carries the stress along", "statement": "A point that is only rotated, with no stretching, keeps its stress up to that rotation: after a step the stress is the old stress turned with the material to first order in dt, the shear stress invariant does not change and an elastic state stays elastic.", "quantifier": "the stress-rate laws of the package (linear elastic, Drucker-Prager, Cam-Clay), every spin, stress, strength, time step and number of steps, the velocity gradients of both solvers", "why_tests_cant": "the drift per step is of second order and adds up over arbitrarily many steps; a wrong sign of the spin is invisible without rotation", "anchors": ["hydraxmpm/utils/math_helpers.py:get_jaumann_increment", "hydraxmpm/constitutive_laws/linearelastic.py:LinearElasticLaw._update_stress", "hydraxmpm/constitutive_laws/druckerprager.py:DruckerPrager", "hydraxmpm/constitutive_laws/modifiedcamclay.py:ModifiedCamClay._update_stress", "hydraxmpm/solvers/usl.py:USLSolver._g2p"]}
{"id": "C94", "title": "A moving observer sees the same simulation", "statement": "If the same velocity is added to every body and every obstacle, every step gives the same deformation, stresses and relative velocities; positions are carried along with the added velocity.", "quantifier": "every scene with gravity and obstacles, every added velocity, any number of steps", "why_tests_cant": "relates two runs for a continuum of velocities; tests start from rest", "anchors": ["hydraxmpm/solvers/usl.py:USLSolver", "hydraxmpm/forces/sdf_collider.py:SDFCollider.apply_grid_moments", "hydraxmpm/sdf/sdfobject.py:SDFObjectBase.update_kinematics"]}
{"id": "C95", "title": "The picture of an obstacle covers the domain", "statement": "log_sdf samples the distance on a regular grid with `resolution` points along the longest side that starts at `start` and covers the whole box up to `end`, so that every surface inside the box can be found.", "quantifier": "every box and every resolution", "why_tests_cant": "depends on position of the box relative to the origin and on its aspect ratio", "anchors": ["hydraxmpm/common/rerun.py:RerunVisualizer.log_sdf", "hydraxmpm/common/vtk_io.py:VTKVisualizer.log_sdf"]}
{"id": "C96", "title": "The drawn surface is the obstacle", "statement": "A vertex drawn for an obstacle is within half a sampling step of its surface, and the surface itself crosses the edge on which the vertex lies; the normals stored with the mesh are perpendicular to the drawn surface.", "quantifier": "every signed distance (1-Lipschitz along the axes), every box, resolution and sign change", "why_tests_cant": "continuum of obstacles and poses", "anchors": ["hydraxmpm/common/rerun.py:RerunVisualizer.log_sdf", "hydraxmpm/common/vtk_io.py:VTKVisualizer.log_sdf"]}
{"id": "C97", "title": "Points, obstacles and domain are drawn consistently and to scale", "statement": "Points, contours and the domain box are put into the picture by the same distance-keeping map; the box contains every node of the grid; the disc or ball drawn for a point has its volume.", "quantifier": "every state, grid and scale", "why_tests_cant": "continuum; geometry of pictures is not checked by tests", "anchors": ["hydraxmpm/common/rerun.py:RerunVisualizer.log_material_points", "hydraxmpm/common/rerun.py:RerunVisualizer.log_static_domain", "hydraxmpm/common/vtk_io.py:VTKVisualizer.log_particles", "hydraxmpm/common/vtk_io.py:VTKVisualizer.log_static_domain"]}
{"id": "C98", "title": "Colours are a faithful scale of the data", "statement": "The numbers handed to the colour map lie in [0,1], the least value gets 0 and the greatest 1, and greater values get greater numbers; colours given by the caller are used as they are.", "quantifier": "every data array and limits", "why_tests_cant": "continuum of data", "anchors": ["hydraxmpm/common/rerun.py:RerunVisualizer.log_material_points"]}
{"id": "C99", "title": "Every logged step keeps its own file", "statement": "After any sequence of calls the file of a label and a step holds what the last call for them wrote, with the positions and data of the state; files of other labels and steps are not touched.", "quantifier": "every sequence of calls, labels, steps and states", "why_tests_cant": "needs induction over call sequences and injectivity of names", "anchors": ["hydraxmpm/common/vtk_io.py:VTKVisualizer.log_particles", "hydraxmpm/common/vtk_io.py:VTKVisualizer._save_vtk", "hydraxmpm/common/vtk_io.py:VTKVisualizer.log_sdf"]}
{"id": "C100", "title": "One viewer per process, and recordings are saved when asked for", "statement": "However many visualisers are made, at most one window or server is opened; mode 'save' writes a recording.", "quantifier": "every sequence of constructor calls and modes", "why_tests_cant": "class-level state over call sequences", "anchors": ["hydraxmpm/common/rerun.py:RerunVisualizer.__init__"]}
{"id": "C101", "title": "The unified yield surface joins Cam-Clay and the inertial steady state", "statement": "At rest the unified surface of UEPI_MCC is the Cam-Clay ellipse; at the steady state q = M(I) p it passes through the inertial critical state; strength and volume rise with the inertial number and stay below their limits; the three forms of the surface describe the same states.", "quantifier": "every pressure, shear stress, shift pressure, inertial number and material", "why_tests_cant": "identities between nonlinear functions on a continuum", "anchors": ["projects/unified_elasto_plastic_inertial_mcc/UEPI_MCC.py:get_unified_M", "projects/unified_elasto_plastic_inertial_mcc/UEPI_MCC.py:get_unified_M_2", "projects/unified_elasto_plastic_inertial_mcc/UEPI_MCC.py:get_unified_iys", "projects/unified_elasto_plastic_inertial_mcc/UEPI_MCC.py:get_M_I", "projects/unified_elasto_plastic_inertial_mcc/UEPI_MCC.py:get_unified_isl"]}
{"id": "C102", "title": "Volumes stay on the inertial swelling line", "statement": "Through any loading the specific volume of a UEPI_MCC state stays on the swelling line given by its shift pressure and its inertial number.", "quantifier": "every material, initial state on its line and loading history", "why_tests_cant": "invariant over unbounded histories", "anchors": ["projects/unified_elasto_plastic_inertial_mcc/UEPI_MCC.py:UEPI_MCC._update_stress", "projects/unified_elasto_plastic_inertial_mcc/UEPI_MCC.py:get_unified_isl"]}
{"id": "C103", "title": "A yielding step solves the elasto-plastic-inertial equations", "statement": "When the trial state yields, the new state has elastic stress for the elastic part of the strain, lies on the unified surface at its inertial number, and the plastic strain is normal to that surface; plastic work is not negative.", "quantifier": "every material, state, velocity gradient and time step", "why_tests_cant": "a continuum of nonlinear return maps", "anchors": ["projects/unified_elasto_plastic_inertial_mcc/UEPI_MCC.py:UEPI_MCC.update", "projects/unified_elasto_plastic_inertial_mcc/UEPI_MCC.py:UEPI_MCC._update_stress"]}
{"id": "C104", "title": "UEPI_MCC states stay admissible", "statement": "Through any loading the pressure never becomes tension, the shift pressure stays positive, the inertial number non-negative and the stress symmetric; a step below yield leaves the shift pressure alone.", "quantifier": "every material, initial admissible state and loading history", "why_tests_cant": "invariant over unbounded histories", "anchors": ["projects/unified_elasto_plastic_inertial_mcc/UEPI_MCC.py:UEPI_MCC.update", "projects/unified_elasto_plastic_inertial_mcc/UEPI_MCC.py:UEPI_MCC._update_stress"]}
{"id": "C105", "title": "UEPI_MCC initial states are as requested", "statement": "create_state_from_ocr gives a state with the requested pressure, shear stress and overconsolidation ratio, on its swelling line, with the matching density.", "quantifier": "every pressure, shear stress, ratio and material", "why_tests_cant": "continuum of inputs", "anchors": ["projects/unified_elasto_plastic_inertial_mcc/UEPI_MCC.py:UEPI_MCC.create_state_from_ocr"]}
{"id": "C106", "title": "A generated floor has the requested roughness", "statement": "The root mean square of the height of a SpectralSetup over the half line is rms_height; its wave lengths lie between lambda_min and lambda_max and reach both; amplitudes follow the power law of the Hurst exponent.", "quantifier": "every number of harmonics >= 1, exponent, height, phases and wave lengths 0 < lambda_min < lambda_max", "why_tests_cant": "a limit of integrals; a sample of points cannot show it", "anchors": ["projects/lorentz_collapse/floor.py:SpectralSetup.__init__", "projects/lorentz_collapse/floor.py:SpectralSetup.get_bump_waves"]}
{"id": "C107", "title": "The rough floor is a sound obstacle", "statement": "BumpyFloorSDF returns the signed distance to a continuous floor that stays within the sum of its amplitudes of the base, is flat before the transition, lies in its box, and has positive friction within its range.", "quantifier": "every floor, position and transition", "why_tests_cant": "continuum of floors and positions", "anchors": ["projects/lorentz_collapse/floor.py:BumpyFloorSDF.signed_distance_local", "projects/lorentz_collapse/floor.py:BumpyFloorSDF.get_surface_friction_local", "projects/lorentz_collapse/floor.py:BumpyFloorSDF.get_world_aabb"]}
{"id": "C108", "title": "The scripts build the bodies they describe", "statement": "The column has the mass of its density times its area, its points tile the requested box, and its initial stress carries the weight above; the points of a disc lie in it and stand for their share of it.", "quantifier": "every cell size, density, number of points and size", "why_tests_cant": "sums over any number of points; scripts have no tests", "anchors": ["projects/lorentz_collapse/collapse_setup.py:CollapseSetup.build_template", "projects/collapse/collapse.py:CollapseProcedure.build_template", "projects/two_sphere_impact/two_sphere_impact.py:create_circle"]}
{"id": "C109", "title": "Scripts simulate the requested time and record it at the requested interval", "statement": "The loops make total_time / dt steps and record the state after every whole interval, the final state included.", "quantifier": "every duration, time step, interval and solver", "why_tests_cant": "unbounded loops; rounding of quotients", "anchors": ["projects/lorentz_collapse/collapse_setup.py:CollapseSetup.run", "projects/lorentz_collapse/collapse_setup.py:CollapseSetup.run_with_trajectory", "projects/collapse/collapse.py:CollapseProcedure.run", "projects/two_sphere_impact/two_sphere_impact.py:loop_body"]}
{"id": "C110", "title": "A collapse is simulated with the parameters it is given", "statement": "run and run_with_trajectory simulate the floor, friction and tilt of their parameters, or those of the state if none are given, and change nothing else.", "quantifier": "every state, parameters and solver", "why_tests_cant": "both functions over all parameters", "anchors": ["projects/lorentz_collapse/collapse_setup.py:CollapseSetup.run", "projects/lorentz_collapse/collapse_setup.py:CollapseSetup.run_with_trajectory", "projects/lorentz_collapse/collapse_setup.py:CollapseParams.get_gravity_vector"]}
{"id": "C111", "title": "The calibration reports the best parameters and their loss", "statement": "Every chain stays within the bounds, which hold only sound materials; the reported parameters have the reported loss, and no chain has a smaller one.", "quantifier": "every loss, optimiser, population and number of iterations", "why_tests_cant": "iteration over arbitrary optimisers", "anchors": ["projects/mcc_trx_inverse/mcc_trx_inverse.py:update_step_2d"]}
{"id": "C112", "title": "Saved trajectories give back the state", "statement": "Reading a file of save_compressed_sim gives back the stored numbers to half precision.", "quantifier": "every number", "why_tests_cant": "continuum of numbers over many magnitudes", "anchors": ["projects/lorentz_collapse/save_data.py:save_compressed_sim"]}
{"id": "C113", "title": "The clock keeps time in finite precision", "statement": "With numbers of p bits the recorded time after n steps is n dt up to a small relative error, never decreases and goes on with every step.", "quantifier": "every precision, time step, starting time and number of steps", "why_tests_cant": "rounding over unbounded runs", "anchors": ["hydraxmpm/solvers/usl.py:USLSolver.__call__", "hydraxmpm/solvers/usl_asflip.py:USLAFLIP"]}
{"id": "C114", "title": "Points move with their velocity in finite precision", "statement": "With numbers of p bits a point with constant velocity v is after n steps at x + n dt v up to a small relative error.", "quantifier": "every precision, velocity, time step and number of steps", "why_tests_cant": "rounding over unbounded runs", "anchors": ["hydraxmpm/solvers/usl.py:USLSolver._g2p", "hydraxmpm/solvers/usl_asflip.py:USLAFLIP._g2p"]}
{"id": "C115", "title": "Slow deformation is felt in finite precision", "statement": "With numbers of p bits a point stretched at a constant rate has after n steps the deformation (1 + dt l)^n up to a small relative error.", "quantifier": "every precision, rate, time step and number of steps", "why_tests_cant": "rounding over unbounded runs", "anchors": ["hydraxmpm/solvers/usl.py:USLSolver._g2p", "hydraxmpm/solvers/usl_asflip.py:USLAFLIP._g2p", "hydraxmpm/element_tests/driver.py:ElementTestDriver.step"]}
{"id": "C116", "title": "The solver creates no new extreme velocities", "statement": "In a stress-free scene under gravity every velocity component of every point of a grid stays within the range of that component before the step, shifted by the fall; points move within the same range.", "quantifier": "every scene of USLSolver without obstacles, alpha between 0 and 1, any number of bodies and steps", "why_tests_cant": "all particle configurations and runs", "anchors": ["hydraxmpm/solvers/usl.py:USLSolver._p2g", "hydraxmpm/solvers/usl.py:USLSolver._g2p"]}
{"id": "C117", "title": "Points never turn inside out while the steps are small", "statement": "If in every step each row of dt L has an absolute sum below one, the deformation gradients of all points keep a positive determinant and all volumes stay positive.", "quantifier": "every scene of both solvers with library forces and laws, any number of steps", "why_tests_cant": "all particle configurations and runs", "anchors": ["hydraxmpm/solvers/usl.py:USLSolver._g2p", "hydraxmpm/solvers/usl_asflip.py:USLAFLIP._g2p"]}
{"id": "C118", "title": "Walls hold the points", "statement": "A point inside a box whose walls are DomainSDF planes enforced by SDFCollider stays inside, as long as no node moves more than one cell per step.", "quantifier": "every USL scene with library forces and laws in which the collider acts last, any velocities, stresses and number of steps", "why_tests_cant": "the collider acts on nodes, not on points; whether points pass between them depends on the position relative to the lattice and on the kernel", "anchors": ["hydraxmpm/forces/sdf_collider.py:SDFCollider.apply_grid_moments", "hydraxmpm/sdf/sdfcollection.py:DomainSDF", "hydraxmpm/solvers/usl.py:USLSolver._g2p"]}
{"id": "C119", "title": "Points out of reach do not matter", "statement": "What a step does to a material point (position, velocity, stress, history of its law, affine matrix) depends only on the points closer than the windows of the two kernels reach together (two, three or four cells for the linear, quadratic and cubic kernel), on the obstacles, the forces and the clock: a disturbance spreads by at most that much per step.", "quantifier": "every USL or ASFLIP scene with library forces and laws in which every body has its own law (and, for ASFLIP, the solver state of its own number), any two states that agree near the point, any number of steps", "why_tests_cant": "points interact through shared nodal arrays of the whole domain, including clipped indices of nodes off the grid; a test compares a few scenes only", "anchors": ["hydraxmpm/solvers/usl.py:USLSolver.__call__", "hydraxmpm/solvers/usl_asflip.py:USLAFLIP._g2p", "hydraxmpm/shapefunctions/mapping.py:ShapeFunctionMapping.compute"]}
{"id": "C120", "title": "Units do not matter", "statement": "A scene set up in other units of length, time and mass, with every number of it converted, gives the same simulation converted: the code holds no constant with a dimension.", "quantifier": "every USL scene with library forces, laws and obstacles, any three unit factors and number of steps", "why_tests_cant": "a test compares a few runs in a few units; small constants matter only beyond some size and in some branch", "anchors": ["hydraxmpm/solvers/usl.py:USLSolver", "hydraxmpm/forces/sdf_collider.py:SDFCollider", "hydraxmpm/constitutive_laws/modifiedcamclay.py:ModifiedCamClay", "hydraxmpm/constitutive_laws/newtonfluid.py:NewtonFluid", "hydraxmpm/constitutive_laws/linearelastic.py:LinearElasticLaw", "hydraxmpm/sdf/sdfcollection.py"]}
{"id": "C121", "title": "Free fall", "statement": "A stress-free body that nothing touches falls under gravity like a stone: after the time t its velocity is v + t g, it has moved by t v + t^2 g / 2 up to the error t dt g / 2 of the time stepping, and neither shape, volume, mass nor stress changed. Grid, kernel and blend have no influence.", "quantifier": "all scenes of bodies translating on their grid inside the box, any gravities, kernel, blend and number of steps; USL and ASFLIP", "why_tests_cant": "a test drops one body in one grid with one blend for some steps and allows a tolerance", "anchors": ["hydraxmpm/solvers/usl.py:USLSolver", "hydraxmpm/solvers/usl_asflip.py:USLAFLIP", "hydraxmpm/forces/gravity.py:Gravity"]}
{"id": "C122", "title": "The order of the additions does not matter", "statement": "Adding the contributions of the points to a node gives the same nodal mass, momentum and force whatever the order in which the hardware adds them: empty nodes stay empty, masses never become negative, and results of finite precision stay close to the exact sum, so that no node becomes faster than the points around it.", "quantifier": "all interaction caches, masses and velocities, all orders of addition (any binary tree), any precision", "why_tests_cant": "the order of scattered additions on a GPU is not under control of a test; a run on one machine shows one order", "anchors": ["hydraxmpm/solvers/usl.py:USLSolver", "hydraxmpm/solvers/usl_asflip.py:USLAFLIP"]}
{"id": "C123", "title": "Energy balance of a step", "statement": "Without forces other than gravity the solver creates no energy: kinetic energy after a step plus the work the material absorbs (its stress power with the velocity gradient it is given) is at most the kinetic energy before plus the work of gravity along the drift, for every blend of PIC and FLIP; summed over a run, the kinetic energy gained is at most the work of gravity minus the work absorbed.", "quantifier": "all scenes with gravity, all stresses, laws and blends 0 <= alpha <= 1, any number of bodies, grids and steps", "why_tests_cant": "the balance mixes quantities of particles and nodes in two transfers; tests see one scene, and only long runs show a slow gain of energy", "anchors": ["hydraxmpm/solvers/usl.py:USLSolver"]}
{"id": "C124", "title": "A yielding Cam-Clay step has one solution", "statement": "Whenever the trial stress lies outside of the yield surface the equations that the Cam-Clay update solves (yield condition, flow rule, hardening, hyperelastic pressure) have a solution with a non-negative plastic multiplier, it hardens on the wet side and softens on the dry side, and there is only one, so that a converged update is the update.", "quantifier": "all clays (also with stiffness limits), all stresses with positive pressure, preconsolidation pressures, velocity gradients and steps", "why_tests_cant": "existence and uniqueness range over all pairs of multiplier and strain; a test only sees the pair the iteration ended at", "anchors": ["hydraxmpm/constitutive_laws/modifiedcamclay.py:397-488"]}
{"id": "C125", "title": "The Newton loops converge to the solution", "statement": "The damped and clamped Newton iterations of Cam-Clay and of the UEPI law come closer to the solution of their equations by a fixed factor with every step, with the regularised inverse and the exact Jacobian they use; the preconsolidation pressure after ten steps is that of the solution up to the corresponding error.", "quantifier": "all residuals near a regular zero; all yielding Cam-Clay steps on the wet side", "why_tests_cant": "the rate of convergence is a statement about all starting points near all solutions; tests see the end of single runs", "anchors": ["hydraxmpm/constitutive_laws/modifiedcamclay.py:490-527", "projects/unified_elasto_plastic_inertial_mcc/UEPI_MCC.py:428-456"]}
{"id": "C126", "title": "A yielding elasto-plastic-inertial step has exactly one solution", "statement": "Whenever the trial stress lies outside of the surface at rest the coupled equations of the UEPI law (yield condition at the new inertial number, flow rule, hardening with the change of the inertial number, log-linear elasticity) have a solution with positive multiplier and positive pressures; every solution flows, and its pressure and hardening pressure lie between the trial pressure and the shifted hardening pressure. There is no second solution, so the result does not depend on how the Newton loop went.", "quantifier": "all parameters in range, all states with pressures of at least one unit, velocity gradients and steps", "why_tests_cant": "existence is a statement about all pairs of unknowns; a test only sees the pair the iteration ended at", "anchors": ["projects/unified_elasto_plastic_inertial_mcc/UEPI_MCC.py:324-471"]}
{"id": "C127", "title": "Loading procedures apply what they name", "statement": "A numerical element test compresses its point by the total strain, within the total time and at the rate it prints, and reports the strains the point really has; replaying a measured record gives the point the strains of the record; samples of the data set called drained are sheared at constant lateral stress, those called undrained at constant volume, and each row of a sample pairs a stress with the strain it belongs to.", "quantifier": "all laws, strains, times, numbers of steps, records and Newton outcomes", "why_tests_cant": "a plotted curve that is stretched by one n-th, replays unloading as loading or holds another stress looks plausible; that no law and no record escapes is a statement about all of them", "anchors": ["projects/unified_elasto_plastic_inertial_mcc/sip_setup.py:51-107,121-163", "projects/unified_elasto_plastic_inertial_mcc/results_london_clay_trx.py:50-59", "projects/mcc_trx_inverse/mcc_trx_data_gen.py:67-125", "hydraxmpm/element_tests/triaxial_test.py:TriaxialTest.run"]}
{"id": "C128", "title": "A parameter study varies what it names", "statement": "Every sample of the collapse study lies within the bounds; the mode varying the angle has a level floor of friction one half, the one varying friction a level floor whose friction has the sampled base, spread and wave lengths, the one varying geometry bumps of the sampled roughness and wave lengths with friction one half; no other parameter matters, the points start with the stress that belongs to the tilt, and the stored metadata determine the sample.", "quantifier": "all random numbers, modes, places and parameter vectors within the bounds", "why_tests_cant": "the study is a hundred runs of three seconds each; what a parameter does not influence and what holds over the whole box of parameters cannot be read off them", "anchors": ["projects/lorentz_collapse/collapse_run.py:23-168", "projects/lorentz_collapse/floor.py:137-159", "projects/lorentz_collapse/collapse_setup.py:52-90,389-413"]}
{"id": "C129", "title": "Inside a regularly filled body only the divergence of the stress moves the points", "statement": "Where the points form a lattice with the spacing of the grid, the internal force at a node is minus the volume of a cell times the divergence of the stress, the nodes carry the mass of a cell and an affine velocity field exactly; so under uniform stress the inside of a body falls freely, and a body at rest whose stress carries its weight stays at rest, over any number of steps as far as the rim has not reached it.", "quantifier": "all grids in two and three dimensions, kernels, lattice arrangements with any number of points per cell, masses, volumes, stresses varying linearly, affine velocity fields, gravities, time steps and numbers of steps", "why_tests_cant": "every finite run mixes these errors with those of the rim; that they vanish for every arrangement and kernel, and that they do not for irregular ones, is a statement about sums of kernel gradients", "anchors": ["hydraxmpm/solvers/usl.py:422-737", "hydraxmpm/shapefunctions/mapping.py", "hydraxmpm/forces/gravity.py"]}
{"id": "C130", "title": "An element test predicts the material points of a simulation", "statement": "Whatever happened to a material point of a simulation, an element test of the same law that starts from the same state and is given the velocity gradients and time steps of the point ends with the same stress, law state and volume.", "quantifier": "all scenes with the forces of the package, both solvers, dimensions, laws, points, numbers of steps, histories of the velocity gradient and time steps", "why_tests_cant": "element tests are used to calibrate the laws for simulations; a finite comparison cannot show that the two programs follow the same law along every history, and with laws of the density they do not", "anchors": ["hydraxmpm/element_tests/driver.py", "hydraxmpm/solvers/usl.py:565-772", "hydraxmpm/constitutive_laws/newtonfluid.py", "hydraxmpm/constitutive_laws/linearelastic.py"]}
{"id": "C131", "title": "Element tests of the inertial clay end where the figures say", "statement": "A step of the elasto-plastic-inertial law leaves the state unchanged exactly at the inertial steady state; every pressure and isochoric rate of deformation has exactly one such state, and so have every undrained test and every drained test on a path steeper than the critical state line; faster shearing is stronger. The steady state lies on the lines drawn for it, at the inertial number computed for the figure.", "quantifier": "all parameters, states, rates of deformation, time steps, volumes and confining stresses", "why_tests_cant": "steady states are limits that no finite test reaches; existence and uniqueness are statements about all real pressures; the figure computes its own inertial number, which no test compares with that of the law", "anchors": ["projects/unified_elasto_plastic_inertial_mcc/UEPI_MCC.py:378-471", "projects/unified_elasto_plastic_inertial_mcc/result_trx.py:238-250", "projects/unified_elasto_plastic_inertial_mcc/plotting.py:420-490"]}
{"id": "C132", "title": "The figures of the theory show the law", "statement": "The yield surfaces, arrows of plastic flow, compression, swelling and steady state lines of the theory figures are those of the law: surfaces are its ellipses, arrows are its flow and normal where a right angle is drawn, lines are straight with the given slopes and pass through the marked points, straight segments between two points of a line are the line; data on a compression line calibrate to that line.", "quantifier": "all parameters, pressures, inertial numbers, overconsolidation ratios and data sets with two different pressures", "why_tests_cant": "the figures are looked at, not tested; normality is a statement about derivatives and straightness one about all points of a curve", "anchors": ["projects/unified_elasto_plastic_inertial_mcc/theory_ys_plot.py", "projects/unified_elasto_plastic_inertial_mcc/theory_I_ys_plot.py", "projects/unified_elasto_plastic_inertial_mcc/theory_sl_plot.py", "projects/unified_elasto_plastic_inertial_mcc/theory_iss.py", "projects/unified_elasto_plastic_inertial_mcc/plotting.py:492-570", "projects/unified_elasto_plastic_inertial_mcc/results_london_clay_iso.py:105-135"]}
{"id": "C133", "title": "Undrained tests of Cam-Clay end at the critical state", "statement": "Under sustained shearing at constant volume, from any admissible state, wet or dry, Modified Cam-Clay tends to the critical state: the pressure is the one the critical state line gives for the volume, the preconsolidation pressure is twice that, the deviatoric stress is M times it and points along the shearing. So undrained triaxial tests of the element test module, in compression or extension, end there if they are run for long enough, however many steps are recorded.", "quantifier": "all clay parameters, admissible initial states, directions and rates of shearing and time steps", "why_tests_cant": "the critical state is a limit of infinitely many implicit plastic steps that no finite test reaches; a test shows one path for one size of steps", "anchors": ["hydraxmpm/constitutive_laws/modifiedcamclay.py:345-565", "hydraxmpm/element_tests/triaxial_test.py:37-168", "hydraxmpm/element_tests/driver.py:12-47"]}
{"id": "C134", "title": "A saved simulation can be continued", "statement": "A process that records its run may die at any moment, also in the middle of a save. A second process that opens the recorder with overwrite=False, loads the solver and the last complete step with load_simulation and goes on ends with the same state, and leaves the same files, as the run that was never interrupted.", "quantifier": "all solvers, states, selections of recorded steps, moments of interruption and lengths of the runs", "why_tests_cant": "it is a statement about all interruptions of all runs; tests save and load one state", "anchors": ["hydraxmpm/common/sim_io.py:17-152", "hydraxmpm/common/simstate.py:76-97", "hydraxmpm/solvers/usl.py:60-107", "hydraxmpm/grid/grid.py:28-40"]}
{"id": "C135", "title": "Sustained shearing brings Drucker-Prager material to failure", "statement": "When a Drucker-Prager material is sheared at constant volume for long enough, in any direction and from any admissible state, its shear stress becomes the strength of the cone and its direction tends to that of the shearing; without hardening and dilatancy, undrained triaxial tests end at the stress difference sqrt(3)(mu_1 p + mu_2 c0), whatever the numbers of steps and rows. Material that dilates gains strength.", "quantifier": "all sound parameters, shearing directions, initial states, step sizes, numbers of steps and strides", "why_tests_cant": "a limit over unboundedly many steps, for all initial stresses and directions; tests run one short path", "anchors": ["hydraxmpm/constitutive_laws/druckerprager.py:118-214", "hydraxmpm/element_tests/triaxial_test.py:37-168", "hydraxmpm/element_tests/driver.py:12-47"]}
{"id": "C136", "title": "Obstacles at rest take energy and never give any", "statement": "In a USL simulation under gravity with rigid obstacles that do not move, the kinetic energy at the end plus the work absorbed by the material on the way is at most the kinetic energy at the start plus the work of gravity: no obstacle, with or without friction, gives energy to the bodies.", "quantifier": "all scenes of bodies on grids of their own, laws, stresses, blends of PIC and FLIP, obstacles and numbers of steps", "why_tests_cant": "energy has to be followed through contact, friction and both transfers for every state; a test sees the energy of a few runs", "anchors": ["hydraxmpm/forces/sdf_collider.py:26-237", "hydraxmpm/solvers/usl.py:470-720", "hydraxmpm/sdf/sdfobject.py:111-184"]}
{"id": "C137", "title": "Damping never gives energy", "statement": "In a USL simulation with Cundall damping on the grid, listed after gravity and with a coefficient between zero and one, the kinetic energy at the end plus the work absorbed by the material on the way is at most the kinetic energy at the start plus the work of gravity, with or without obstacles at rest.", "quantifier": "all scenes of bodies on grids of their own, laws, stresses, blends of PIC and FLIP, time steps, coefficients, obstacles and numbers of steps", "why_tests_cant": "damping may turn the velocity of a node within a step, so that the sign of its power is not obvious; a test sees the energy of a few runs", "anchors": ["hydraxmpm/forces/damping.py:29-100", "hydraxmpm/solvers/usl.py:470-720", "hydraxmpm/forces/sdf_collider.py:26-237"]}
{"id": "C138", "title": "Drained tests of Cam-Clay end at the critical state", "statement": "A drained triaxial test of Modified Cam-Clay, in compression or extension, with the lateral stress or the mean stress held, that is run for long enough ends as close as desired to the critical state on its stress path: the axial stress differs from the lateral stress by M times the mean stress, and the preconsolidation pressure is twice the mean stress. No further shearing changes this state.", "quantifier": "all material parameters, axial rates, time steps, stresses held, axisymmetric starting states inside the yield surface whose preconsolidation pressure is at least the stress held, lengths of the test and sampling strides", "why_tests_cant": "the statement is about the limit of infinitely many implicit steps, each of them solving for the lateral rate and for the return to the yield surface; a test runs a few thousand steps of a few clays and compares with a tolerance", "anchors": ["hydraxmpm/element_tests/triaxial_test.py:37-167", "hydraxmpm/element_tests/driver.py:12-47", "hydraxmpm/constitutive_laws/modifiedcamclay.py:345-565"]}
{"id": "C139", "title": "Free motion in the affine solver creates no energy", "statement": "A step of the ASFLIP solver without FLIP blending and without forces, of bodies without stress, does not increase the energy of the motion: the kinetic energy of the points together with the energy of the affine motion that the solver stores with every point.", "quantifier": "all numbers of bodies and grids, point positions inside the boxes, velocities, masses and stored affine matrices, quadratic and cubic shape functions, time steps and speed limits", "why_tests_cant": "the energy after the transfer depends on sums over all nodes of all stencils and on the velocity gradients of every point, and the gain of a step is below one percent; a test sees single scenes, and in most of them energy decreases", "anchors": ["hydraxmpm/solvers/usl_asflip.py:179-290", "hydraxmpm/solvers/usl_asflip.py:292-560", "hydraxmpm/shapefunctions/quadratic.py"]}
{"id": "C140", "title": "Automatic differentiation returns derivatives", "statement": "Where a program of the code is differentiable in each of its operations, forward mode returns its derivative and reverse mode its gradient. In particular the matrices that the Newton loops of the two clay laws get from jax.jacfwd are the Jacobians of their residuals, so that the loop of the Cam-Clay law with these matrices converges to the solution; and the derivative of the safeguarded inverse is that of the inverse wherever this is below the clip.", "quantifier": "all programs over the arithmetic operations, exp, log, sqrt, maximum, minimum, where and stop_gradient; all parameters, trial states and iterates of the residuals", "why_tests_cant": "a derivative is a limit; a finite difference at sampled points agrees only up to a tolerance and misses the points where branches meet", "anchors": ["hydraxmpm/constitutive_laws/modifiedcamclay.py:454-500", "projects/unified_elasto_plastic_inertial_mcc/UEPI_MCC.py", "hydraxmpm/utils/math_helpers.py:595-622", "hydraxmpm/element_tests/triaxial_test.py:77-100"]}
{"id": "C141", "title": "Gradients are numbers", "statement": "The derivatives that the library computes, or lets users compute, of its stress and strain measures, of the residuals of its laws and of the stress of an element test are finite numbers at every state, isotropic stress and material at rest included.", "quantifier": "all states, all programs that contain the measures anywhere, all cotangents and directions", "why_tests_cant": "the result depends on how infinities and zeros meet in the backward sweep, in branches that are not taken; a test of the value or of a gradient at a generic state passes", "anchors": ["hydraxmpm/utils/math_helpers.py:105-139", "hydraxmpm/utils/math_helpers.py:195-222", "hydraxmpm/utils/math_helpers.py:595-644", "hydraxmpm/constitutive_laws/modifiedcamclay.py:428-449", "hydraxmpm/constitutive_laws/mu_i_rheology.py:152", "hydraxmpm/constitutive_laws/druckerprager.py:144", "hydraxmpm/element_tests/triaxial_test.py:77-100"]}
{"id": "C142", "title": "Contact normals and velocities are numbers", "statement": "At every node and every point, each obstacle has a normal whose components are finite numbers, so that contact and the transfer back to the points return finite velocities wherever they are given finite ones.", "quantifier": "all obstacles in all poses, all positions, velocities, weights, masks and masses", "why_tests_cant": "the exceptional positions are single points, lines and circles, where the derivative of a norm at zero is infinite and is multiplied by zero; tests at generic positions pass, and whether a node or point of a regular layout lies exactly on an axis depends on the layout", "anchors": ["hydraxmpm/sdf/sdfobject.py:89-98", "hydraxmpm/sdf/sdfobject.py:146-156", "hydraxmpm/sdf/sdfcollection.py:52-274", "hydraxmpm/sdf/sdfcollection.py:374-380", "hydraxmpm/sdf/sdfcollection.py:520-538", "hydraxmpm/forces/sdf_collider.py:26-59", "hydraxmpm/forces/sdf_collider.py:211-237", "hydraxmpm/solvers/usl.py:600-689"]}
{"id": "C143", "title": "Forces at the material points act", "statement": "The external forces given to material points when they are created accelerate them, and damping of the material points (is_apply_on_grid=False) slows them down.", "quantifier": "all scenes, all forces at the points, all damping coefficients, both solvers, any number of steps", "why_tests_cant": "a test of the damping hook or of the scatter alone sees the effect; that the forces are cleared in between, so that no call of the solver depends on them, is a statement about pairs of whole runs", "anchors": ["hydraxmpm/solvers/usl.py:209-230", "hydraxmpm/solvers/usl.py:456-507", "hydraxmpm/forces/damping.py:103-134", "hydraxmpm/material_points/material_points.py:159-186", "hydraxmpm/solvers/usl_asflip.py:217-281"]}
{"id": "C144", "title": "The calibration determines the parameters it reports", "statement": "The measured curve decides about each of the five parameters of Cam-Clay that the calibration reports: the loss depends on each of them, the optimiser moves each of them, and a curve predicted with other values is another curve.", "quantifier": "all parameters within the bounds, all measurements and confining pressures, any number of chains and of steps of the optimiser, all triaxial tests", "why_tests_cant": "a calibration run always prints five numbers and a falling loss; that one of them is the number drawn at the start can only be seen by comparing all possible values of it over a whole test", "anchors": ["projects/mcc_trx_inverse/mcc_trx_inverse.py:63-117", "projects/mcc_trx_inverse/mcc_trx_inverse.py:156-210", "projects/mcc_trx_inverse/mcc_trx_inverse.py:234-248", "hydraxmpm/constitutive_laws/modifiedcamclay.py:198-258", "hydraxmpm/constitutive_laws/modifiedcamclay.py:345-562", "projects/mcc_trx_inverse/mcc_trx_data_gen.py:58-120"]}
{"id": "C145", "title": "Elastic deformation gives back the work put into it", "statement": "A closed history of elastic strains leaves the stress where it was and takes no work, so that no cycle of loading and unloading inside the yield surface is a source of energy.", "quantifier": "all materials of linear elasticity, Drucker-Prager, Cam-Clay and the inertial clay, all elastic states, closed strain paths of any number of steps", "why_tests_cant": "a test of one loading and unloading line finds no loss; the cycles that give off energy join compression and shear, and the bound is over all closed paths", "anchors": ["hydraxmpm/constitutive_laws/linearelastic.py:100-114", "hydraxmpm/constitutive_laws/druckerprager.py:118-207", "hydraxmpm/constitutive_laws/modifiedcamclay.py:69-81", "hydraxmpm/constitutive_laws/modifiedcamclay.py:386-438", "projects/unified_elasto_plastic_inertial_mcc/UEPI_MCC.py:UEPI_MCC._update_stress"]}
{"id": "C146", "title": "Plastic deformation takes energy", "statement": "The part of a strain increment that is not stored as elastic strain never gives off work, and over any history the work put into a frictional material is at least the increase of its elastic energy.", "quantifier": "all materials and states of Drucker-Prager, Cam-Clay and the inertial clay, all strain increments, histories of any length", "why_tests_cant": "whether work is dissipated depends on pressure, cohesion, dilatancy and on the branch of the return map; the sign holds or fails on regions of a continuum", "anchors": ["hydraxmpm/constitutive_laws/druckerprager.py:118-207", "hydraxmpm/constitutive_laws/modifiedcamclay.py:ModifiedCamClay._update_stress", "projects/unified_elasto_plastic_inertial_mcc/UEPI_MCC.py:UEPI_MCC._update_stress"]}
{"id": "C147", "title": "Splitting a material point changes nothing", "statement": "Replacing a material point by several at the same place that share its mass and volume, each with its velocity, stress and deformation, gives the same nodal fields and the same motion: the parts stay together and behave as the point did.", "quantifier": "all scenes of any number of bodies, grids, couplings, obstacles and forces, all ways to split the points, any number of steps, both kernels", "why_tests_cant": "a metamorphic property between two programs of different array sizes; a test compares one scene with one way to split it", "anchors": ["hydraxmpm/solvers/usl.py:422-516", "hydraxmpm/solvers/usl.py:565-737", "hydraxmpm/solvers/usl_asflip.py:210-283", "hydraxmpm/solvers/usl_asflip.py:462-477", "hydraxmpm/material_points/material_points.py:232-235", "hydraxmpm/constitutive_laws/druckerprager.py:88-116", "hydraxmpm/constitutive_laws/modifiedcamclay.py:345-372"]}
{"id": "C148", "title": "Stress responds continuously to the motion", "statement": "A small change of the velocity gradient, the density or the state of a point changes the stress returned by a law by little: no law jumps at the onset of yielding, between branches of the return or where material separates.", "quantifier": "all parameters, all velocity gradients, stresses, strains, densities and time steps, all laws", "why_tests_cant": "a jump is a statement about limits at a surface of measure zero; a test evaluates single states and never sits on both sides of it", "anchors": ["hydraxmpm/constitutive_laws/linearelastic.py:100-114", "hydraxmpm/constitutive_laws/newtonfluid.py:90-126", "hydraxmpm/constitutive_laws/mu_i_rheology.py:134-190", "hydraxmpm/constitutive_laws/druckerprager.py:118-207", "hydraxmpm/constitutive_laws/modifiedcamclay.py:375-562"]}
{"id": "C149", "title": "Results depend continuously on the initial state", "statement": "Small changes of the initial positions, velocities, masses, volumes, stresses, of gravity or of the time step change the result of a run of any number of steps by little; no exception appears or disappears.", "quantifier": "all scenes of elastic, fluid, mu(I) and Drucker-Prager bodies with gravity and obstacles, all numbers of steps, all continuous families of initial states", "why_tests_cant": "a limit over all nearby initial states and any number of steps; a test compares two runs, and small differences in one comparison say nothing about others", "anchors": ["hydraxmpm/shapefunctions/linear.py:37-70", "hydraxmpm/shapefunctions/quadratic.py:43-101", "hydraxmpm/shapefunctions/cubic.py:60-198", "hydraxmpm/solvers/usl.py:422-516", "hydraxmpm/solvers/usl.py:518-563", "hydraxmpm/solvers/usl.py:565-737", "hydraxmpm/solvers/usl.py:739-772", "hydraxmpm/forces/damping.py:81-98", "hydraxmpm/forces/sdf_collider.py:165-237"]}
{"id": "C150", "title": "Solids do not feel the rate", "statement": "Elastic, Drucker-Prager and Cam-Clay material answers to the path of the deformation, not to its speed: an element test at c times the rate in steps of a c-th of the length, drained or undrained, records the same states. Fluid, mu(I) and elasto-plastic-inertial material answers to the speed through its rate terms only: c times as fast is c times the viscosity, or c times the grain size and a c-th of the regularising rate.", "quantifier": "all laws, all parameters, all deformations, all time steps, all factors c, all schedules of element tests of any length", "why_tests_cant": "a law about all deformation histories and all factors; a test can compare two speeds of one test, to a tolerance that also hides small rate effects", "anchors": ["hydraxmpm/constitutive_laws/linearelastic.py:LinearElasticLaw._update_stress", "hydraxmpm/constitutive_laws/druckerprager.py:DruckerPrager._update_stress", "hydraxmpm/constitutive_laws/modifiedcamclay.py:ModifiedCamClay._update_stress", "hydraxmpm/constitutive_laws/newtonfluid.py:NewtonFluid", "hydraxmpm/constitutive_laws/mu_i_rheology.py:MuI_LC._update_stress", "projects/unified_elasto_plastic_inertial_mcc/UEPI_MCC.py", "hydraxmpm/element_tests/triaxial_test.py:TriaxialTest.run"]}
{"id": "C151", "title": "A short time step changes little", "statement": "As the length of a step goes to zero, the state after the step approaches the state before it, so that the result of a run depends on the time simulated and not on the number of steps it is cut into.", "quantifier": "all scenes of elastic, fluid, mu(I) and Drucker-Prager bodies with gravity, all states, all numbers of steps", "why_tests_cant": "a limit over all step lengths in every scene; a test picks some step lengths, and a loss of one percent per step passes for numerical error", "anchors": ["hydraxmpm/solvers/usl.py:422-516", "hydraxmpm/solvers/usl.py:518-563", "hydraxmpm/solvers/usl.py:565-737", "hydraxmpm/solvers/usl.py:739-772"]}
{"id": "C152", "title": "Finer grids are more accurate", "statement": "The error of the transfers goes to zero with the size of the cells: a smooth field given at the nodes is interpolated to the points with an error of second order and its gradient with an error of first order, and a step of bodies that carry a smooth velocity field moves the points along the field, with its velocity and its velocity gradient, up to an error of first order.", "quantifier": "all kernels, all boxes, cell sizes, points and smooth fields; all scenes of stress-free bodies under gravity and all arrangements of points", "why_tests_cant": "a bound for all smooth fields, points and cell sizes; a convergence study measures some slopes for one field", "anchors": ["hydraxmpm/shapefunctions/linear.py:37-70", "hydraxmpm/shapefunctions/quadratic.py:43-101", "hydraxmpm/shapefunctions/cubic.py:60-198", "hydraxmpm/solvers/usl.py:422-516", "hydraxmpm/solvers/usl.py:565-737"]}
{"id": "C153", "title": "Granular slopes rest below their friction angle and flow above it", "statement": "On a long slope the weight asks for a shear stress of tan(theta) times the normal stress at every depth. Under the mu(I) law a layer flowing parallel to its bed supplies it at exactly one steady shear rate: one that vanishes with the regularisation while tan(theta) is below mu_s, one set by particle size and pressure between mu_s and mu_d, and none above mu_d, where the layer accelerates.", "quantifier": "all parameters of the law with mu_s <= mu_d, all compressed states, all slopes and shear rates", "why_tests_cant": "existence and uniqueness of a rate over all slopes and parameters; a run shows one slope with one set of parameters", "anchors": ["hydraxmpm/constitutive_laws/mu_i_rheology.py:134-190"]}
{"id": "C154", "title": "Critical steps tame the stresses wherever the points lie", "statement": "With steps up to a safety factor times the critical step, one step can turn the stresses of a body into at most a fixed multiple of their energy: the kinetic energy and the energy of the strain of the step are bounded by that of the stresses and of the motion before, with factors that depend on the kernel and the safety factor only, not on where the points lie in the cells or how many share a node. Points on the edge of a body or of a cell do not explode.", "quantifier": "all kernels, safety factors, blends, arrangements and numbers of points, stresses, masses and volumes; 2D and 3D", "why_tests_cant": "worst case over all positions of all points relative to the grid; runs place points at a few positions, and the bad positions are rare", "anchors": ["hydraxmpm/solvers/usl.py:422-516", "hydraxmpm/solvers/usl.py:565-737", "hydraxmpm/shapefunctions/linear.py:37-70", "hydraxmpm/shapefunctions/quadratic.py:43-101", "hydraxmpm/shapefunctions/cubic.py:60-198", "hydraxmpm/constitutive_laws/linearelastic.py:130-152"]}
{"id": "C155", "title": "Drucker-Prager material fails by Coulomb's law", "statement": "On every plane through connected Drucker-Prager material the shear stress is at most the friction coefficient times the normal stress plus the cohesion, whatever the deformation; up to that line every load is held at rest. So cohesionless material stands on slopes up to the friction angle it was calibrated with, and on none steeper.", "quantifier": "all deformations, states, planes, loads, friction angles, slopes", "why_tests_cant": "a limit over all planes, deformations and states; runs show single collapses, and the angle a run stops at mixes the law with the motion", "anchors": ["hydraxmpm/constitutive_laws/druckerprager.py:105-207", "projects/collapse/collapse.py:19-27", "projects/lorentz_collapse/collapse_setup.py:115-136"]}
{"id": "C156", "title": "The figure of the Cam-Clay example shows the lines of its clay", "statement": "In the figure of the triaxial example the lines labelled normal consolidation, critical state, swelling line and failure envelope are those of the clay that is tested, at every pressure shown. A state drawn on the normal consolidation line is normally consolidated, one drawn on the critical state line is critical, and the two panels agree on which states are critical.", "quantifier": "all clays, pressures, confinements, overconsolidation ratios and tests; all recorded states", "why_tests_cant": "a picture: each line is drawn through two points, and whether it is right in between or shifted by the change of units cannot be read off runs of the code", "anchors": ["projects/mcc_trx/mcc.py:90-146", "hydraxmpm/constitutive_laws/modifiedcamclay.py:84-106", "hydraxmpm/constitutive_laws/modifiedcamclay.py:198-258"]}
{"id": "C157", "title": "The domain only has to be large enough", "statement": "Enlarging the computational domain, cutting unused parts off it or changing its padding does not change the result of a simulation, as long as the nodes stay on the same lattice and the windows of all points lie inside. Calls that fail, fail in the same way.", "quantifier": "all scenes with any laws, the forces of the package, obstacles with and without friction, both solvers, all kernels, any number of steps; all pairs of grids on one lattice", "why_tests_cant": "every choice of domain is another input; tests use one domain, and a wrong stride or clipped index shows only on grids of other shapes", "anchors": ["hydraxmpm/grid/grid.py:39-75", "hydraxmpm/shapefunctions/mapping.py:133-229", "hydraxmpm/solvers/usl.py:232-243"]}
{"id": "C158", "title": "A scene can be placed anywhere in the grid, by whole cells", "statement": "If all bodies and obstacles of a scene are moved by a whole number of cells in a grid that stays where it is, the simulation gives the same result, moved by as much: same velocities, stresses, deformations and states of the laws, same errors.", "quantifier": "all scenes of the package, all displacements by whole cells that keep the windows of the points inside the grid, any number of steps", "why_tests_cant": "a statement about pairs of inputs; scenes are tested in one place only", "anchors": ["hydraxmpm/shapefunctions/mapping.py:133-229", "hydraxmpm/sdf/sdfobject.py:111-178", "hydraxmpm/solvers/usl.py:113-189"]}
{"id": "C159", "title": "A plane simulation is a slice of a simulation in space", "statement": "A body of space that repeats a plane body in every layer of cells, with gravity in the plane and no shear across it, moves like the plane body: in every step the points in the depth of the slab get the velocity, place, velocity gradient, deformation gradient and stress of the points of the plane below them, no velocity across the plane, and the same multiple of their volume, as far as the disturbance from the faces of the slab has not reached them.", "quantifier": "all pairs of plane and spatial bodies of this kind, all kernels, any thickness and any heights of the points in a cell, any gravity in the plane, any number of steps", "why_tests_cant": "compares runs in two and in three dimensions, for all arrangements of points in the plane; a branch on the dimension that is wrong for one component shows only in such a comparison", "anchors": ["hydraxmpm/solvers/usl.py:448-509", "hydraxmpm/solvers/usl.py:587-729", "hydraxmpm/shapefunctions/mapping.py:105-199"]}
