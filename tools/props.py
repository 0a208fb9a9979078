#!/usr/bin/env python3
"""Source of properties.jsonl (one row per property)."""
import json, os
P = []
def p(i, title, statement, quantifier, why, anchors):
    P.append(dict(id=i, title=title, statement=statement, quantifier=quantifier,
                  why_tests_cant=why, anchors=anchors))

SF = ["hydraxmpm/shapefunctions/linear.py:vmap_linear_shapefunction",
      "hydraxmpm/shapefunctions/quadratic.py:vmap_quadratic_shapefunction",
      "hydraxmpm/shapefunctions/cubic.py:vmap_cubic_shapefunction"]
MAP = "hydraxmpm/shapefunctions/mapping.py:ShapeFunctionMapping.compute"
GRID = "hydraxmpm/grid/grid.py:GridDomain.create"
USL = "hydraxmpm/solvers/usl.py:USLSolver"
AFL = "hydraxmpm/solvers/usl_asflip.py:USLAFLIP"
MP = "hydraxmpm/material_points/material_points.py:MaterialPointState"

p("C01", "Interpolation weights are a partition of unity inside the user's box",
  "For every material point lying in the box that was passed to GridDomain.create (padding at least 2), the interpolation weights produced by ShapeFunctionMapping.compute for that point are all non-negative and sum to exactly 1, for the linear, quadratic and cubic kernel, in 2D and 3D.",
  "every kernel, dimension 2 and 3, every grid origin/extent/cell size, every point of the box",
  "a test evaluates the weights at finitely many points; the claim is about a continuum of positions including all the cell-boundary ties of the half-open branches",
  SF + [MAP, GRID])
p("C02", "Weight gradients are the derivatives of the weights and sum to zero",
  "For every point the gradient reported for each stencil node is the true spatial partial derivative of the reported weight with respect to the point's position (quadratic and cubic kernels everywhere, linear kernel off the nodes), and the gradients of one point sum to the zero vector.",
  "every kernel, dimension, cell size and point position (linear: positions not on a grid line)",
  "a finite-difference test only samples; a wrong branch condition or sign on a measure-zero set or a single branch is missed",
  SF + [MAP])
p("C03", "Interpolation reproduces linear fields and their gradient exactly",
  "For a point in the box, sum_i N_i x_i equals the point position and sum_i x_i (x) grad N_i equals the identity (for the linear kernel the gradient part needs the point not to sit on a grid line). Hence any affine nodal field is interpolated with its exact value and gradient.",
  "every kernel, dimension, grid and position in the box; every affine field",
  "needs all positions and all fields; finitely many sampled positions cannot establish an identity of piecewise polynomials",
  SF + [MAP])
p("C04", "The affine (APIC) inertia tensor is the constant h^2/4 (quadratic) or h^2/3 (cubic)",
  "sum_i N_i (x_i-x)_a (x_i-x)_b equals delta_ab h^2/4 for the quadratic kernel and delta_ab h^2/3 for the cubic kernel at every position in the box, which is the constant the APIC branch of the solver divides by; for the linear kernel no constant works.",
  "every position in the box, every grid, dimension 2 and 3",
  "the tensor being position independent is a statement about all positions",
  SF + [MAP, AFL + "._g2p"])
p("C05", "Scatter indices are always in range, never collide within a stencil, and agree with the node coordinates",
  "For every set of point positions, even far outside the grid, every node index produced by ShapeFunctionMapping.compute is a valid flat index of the grid; two different in-grid stencil nodes of one point never share an index; and the row of GridDomain.position_stack with that index is exactly the lattice point whose offset to the particle is reported in rel_dist.",
  "every grid, every real position, every stencil slot",
  "an out-of-range or aliased index shows up only for special positions and grid shapes, and JAX silently drops or clamps it",
  [MAP, "hydraxmpm/grid/grid.py:GridDomain.position_mesh", "hydraxmpm/grid/grid.py:GridDomain.num_cells"])
p("C06", "Points outside the grid never disturb it",
  "A stencil slot whose lattice point lies outside the grid has weight 0 and gradient 0, so a material point whose whole stencil is off the grid changes no grid mass, momentum or force, although its index was clamped onto a border node.",
  "every grid, every position, every particle data",
  "clip-mode indexing makes the error invisible unless precisely the border nodes are inspected for the right positions",
  [MAP, USL + "._p2g"])
p("C07", "Padding guarantees complete stencils",
  "With padding p, GridDomain.create yields a grid such that every point of the user's box has its complete stencil inside the grid. Documented requirement: p=1 for linear/quadratic, p=2 for cubic.",
  "all boxes, cell sizes, paddings, points of the box, kernels",
  "whether the last stencil node exists depends on the fractional part of extent/cell_size; tests use commensurate boxes",
  [GRID, "hydraxmpm/common/builder.py:SimBuilder.add_grid", MAP])
p("C08", "Particle-to-grid transfer conserves mass and linear momentum",
  "After P2G, the sum of nodal masses equals the sum of the masses of the points inside the box and the sum of nodal momenta equals the sum of their momenta, for the plain and for the affine (AFLIP) transfer with any stored affine matrices.",
  "any number of points, any positions in the box, any masses, velocities, affine matrices, kernels",
  "conservation is an identity over all configurations; tests check one two-particle configuration",
  [USL + "._p2g", AFL + "._p2g", MAP])
p("C09", "Internal forces are self-equilibrated and do the work of the stress",
  "The nodal forces generated from particle stresses sum to zero for any stresses and volumes, and for any nodal velocity field their total power equals sum_p V_p sigma_p : (grad v)_p with grad v interpolated by the same gradients (compression-positive sign).",
  "any number of points, any stresses, volumes, positions in the box, any nodal velocity field",
  "an identity over all stress states and fields",
  [USL + "._p2g", AFL + "._p2g"])
p("C10", "A USL step changes total linear momentum exactly by the applied impulse",
  "In one step of USLSolver for a body inside its box, total particle momentum after the step equals momentum before plus dt times total nodal external force (zero without forces, dt*M*g with gravity), for every alpha (any PIC/FLIP blend), provided no touched node carries a mass at or below the solver's mass cutoff.",
  "every body state, alpha, dt, stress field, gravity, kernel; the hypothesis about the cutoff is necessary",
  "tests run a few steps of one scene with a tolerance; the cutoff-related loss is hidden in the tolerance",
  [USL + ".__call__", USL + "._p2g", USL + "._integrate_grid", USL + "._g2p", "hydraxmpm/forces/gravity.py:Gravity.apply_grid_forces"])
p("C11", "An AFLIP step conserves linear momentum",
  "In one step of the ASFLIP solver total particle momentum changes exactly by the applied impulse.",
  "every body state, solver parameters, dt",
  "depends on whether the per-particle dynamic blending and the speed clamp are active, which tests do not isolate",
  [AFL + "._p2g", AFL + "._g2p"])
p("C12", "n steps of gravity give n*dt*M*g of momentum",
  "Over any number of steps under a constant gravity without obstacles total momentum is P0 + n*dt*M*g as long as the body stays in the box and no sub-cutoff node occurs.",
  "every number of steps, every initial state satisfying the side conditions along the run",
  "induction over run length; tests run one fixed length",
  [USL + ".__call__", "hydraxmpm/forces/gravity.py:Gravity"])
p("C13", "Rigid translation is preserved exactly",
  "If all points of a stress-free body in its box have the same velocity u and no forces act, then after any number of USL steps every point still has velocity u, its velocity gradient is zero, F and volume are unchanged and it has moved by n*dt*u (while it remains in the box with no sub-cutoff node).",
  "every body, u, alpha, dt, kernel, number of steps",
  "universal over bodies and run lengths",
  [USL + "._p2g", USL + "._g2p"])
p("C14", "The velocity gradient seen by the material law is the true velocity gradient",
  "If the nodal velocities form an affine field v(x)=A x+b, the L stored on each point after a step is minus A (compression-positive convention), with L[i,j] = -dv_i/dx_j, for both solvers.",
  "every affine field A, b, every point position in the box, kernels",
  "tests that use diagonal or symmetric gradients cannot tell L from its transpose",
  [USL + "._g2p", AFL + "._g2p"])
p("C15", "Particle mass, reference volume and particle count never change",
  "Whatever the forces, obstacles, laws and settings, after any number of solver steps each material point set has the same number of points, the same mass_stack and the same volume0_stack.",
  "every reachable world state, any number of steps, any combination of forces, colliders, laws, couplings",
  "an invariant over all histories",
  [USL + ".__call__", AFL])
p("C16", "volume = det(F) * volume0 after every step",
  "After every step of every run, each deformable point satisfies volume_stack = det(F_stack) * volume0_stack.",
  "all reachable states after at least one step",
  "history invariant; it depends on the interaction of g2p and the shear-removal of the law",
  [USL + "._g2p", "hydraxmpm/constitutive_laws/constitutive_law.py:ConstitutiveLaw.remove_accumulated_shear"])
p("C17", "2D runs stay in plane strain",
  "In a 2D simulation after the grid-to-particle update L[2,2]=0, F[2,2]=1, and if F initially has no out-of-plane shear it never gets any (F is block diagonal) for any number of steps.",
  "all 2D states, any number of steps, any nodal velocities",
  "history invariant",
  [USL + "._g2p", AFL + "._g2p"])
p("C18", "The clock counts steps exactly",
  "After n successful steps step = step0+n and time = time0+n*dt, dt unchanged.",
  "every n and every scene",
  "induction over n",
  [USL + ".__call__"])
p("C19", "Rigid and uncoupled bodies are not touched by the material-point update",
  "A material point set that is not referenced by a coupling with skip_mpm_logic=False keeps position, velocity and all other arrays through P2G/G2P/constitutive updates, for any number of steps.",
  "every coupling table, any number of steps",
  "quantifies over all coupling tables and histories",
  [USL + ".__call__", "hydraxmpm/common/builder.py:SimBuilder.couple"])
p("C20", "PIC transfer never creates kinetic energy",
  "Kinetic energy on the grid after P2G is at most that of the points, and the PIC-interpolated point velocities have at most the kinetic energy of the grid; so a force-free stress-free USL step with alpha=0 never increases kinetic energy.",
  "any bodies, velocities, positions",
  "an inequality over all states (Jensen)",
  [USL + "._p2g", USL + "._g2p"])
p("C21", "AFLIP limits what a particle can do in a step",
  "With a CFL limit c>0 set, after any AFLIP step every point's speed is at most c*h/dt, and no point moves by more than c cells in a step ('prevent particles crossing >50% of a cell').",
  "all states, settings, dt",
  "an inequality for all states; the violating case needs fast nodal velocities",
  [AFL + "._g2p"])
p("C22", "Results do not depend on particle numbering",
  "Renumbering the points of a body permutes the per-point results of a USL step and leaves the nodal fields unchanged.",
  "every permutation, every body",
  "n! permutations for every n",
  [USL + "._p2g", USL + "._g2p", MAP])
p("C23", "Bodies sharing a grid act on it additively",
  "When several couplings use the same grid, nodal mass, momentum and force after P2G are the sums of the contributions of all the bodies, independent of coupling order.",
  "any number of couplings on one grid, any bodies",
  "needs multi-body scenes with external or internal forces on all bodies",
  [USL + "._p2g", AFL + "._p2g"])
p("C24", "Contact never lets material penetrate further",
  "After the SDF collider acted on a node inside the obstacle (unit normal), the node's velocity relative to the wall has a non-negative normal component; a separating node (non-negative normal relative velocity) is left exactly unchanged.",
  "every nodal velocity, wall velocity, unit normal, friction >= 0, dimension",
  "continuum of inputs",
  ["hydraxmpm/forces/sdf_collider.py:apply_frictional_contact", "hydraxmpm/forces/sdf_collider.py:SDFCollider._collide_node"])
p("C25", "Wall friction obeys Coulomb's law and is dissipative",
  "The tangential velocity change imposed by the collider is at most mu times the normal velocity change, the tangential velocity is scaled by a factor in [0,1] (never reversed), and the speed relative to the wall never increases.",
  "every velocity, wall velocity, unit normal, friction >= 0",
  "continuum of inputs",
  ["hydraxmpm/forces/sdf_collider.py:apply_frictional_contact"])
p("C26", "Colliders act only inside their obstacle",
  "A node at positive (offset) distance from the obstacle keeps its momentum exactly if its mass exceeds 1e-14, whatever the normal, wall velocity and friction.",
  "every grid state and obstacle",
  "universal over node states",
  ["hydraxmpm/forces/sdf_collider.py:SDFCollider.apply_grid_moments"])
p("C27", "Collider settings given to the builder take effect",
  "SimBuilder.add_sdf_collider(friction=mu) produces a collider that uses mu as its friction coefficient, attached to the obstacle and grids requested.",
  "every argument combination and builder history",
  "requires comparing builders over all values; the existing scenes never look at the coefficient",
  ["hydraxmpm/common/builder.py:SimBuilder.add_sdf_collider", "hydraxmpm/forces/sdf_collider.py:SDFCollider.__init__"])
p("C28", "Cundall damping removes energy and never reverses a force",
  "For coefficient 0<=a<=1, the damped nodal force has the same sign as the undamped one componentwise with magnitude between (1-a) and (1+a) times, and the power of the added force against the nodal velocity is never positive.",
  "every nodal force, mass, momentum, coefficient in [0,1]",
  "continuum of inputs",
  ["hydraxmpm/forces/damping.py:Damping.apply_grid_forces", "hydraxmpm/forces/damping.py:Damping.apply_pre_p2g"])
p("C29", "Grid-to-grid contact exchanges momentum without creating any",
  "The two-body contact response leaves the sum of the two nodal momenta unchanged and removes the approaching normal relative velocity of the receiver.",
  "every pair of nodal states, unit normal",
  "continuum of inputs; the module cannot currently be called at all",
  ["hydraxmpm/forces/gridcontact.py:GridContact._solve_node_collision", "hydraxmpm/forces/gridcontact.py:GridContact.apply_grid_moments"])
p("C30", "Linear elastic stress depends only on total strain",
  "After any sequence of updates with velocity gradients L_k and steps dt_k the linear elastic stress equals the initial stress plus the isotropic Hooke law applied to the total strain sum_k dt_k sym(L_k); so it is independent of the order of the increments, a closed strain cycle returns to the initial stress, spin leaves it unchanged and the pressure change is K times the total volumetric strain.",
  "every sequence of increments, every E, nu with nu not in {-1, 1/2}",
  "quantifies over all strain paths",
  ["hydraxmpm/constitutive_laws/linearelastic.py:LinearElasticLaw._update_stress", "hydraxmpm/constitutive_laws/linearelastic.py:LinearElasticLaw.update"])
p("C31", "Stress stays symmetric",
  "If a point's stress (and elastic strain) is symmetric, then it is symmetric after any number of updates of the linear elastic, Newtonian, mu(I), Drucker-Prager or modified Cam-Clay law, for any velocity gradients.",
  "every law, parameters, state, number of updates",
  "invariant over all histories",
  ["hydraxmpm/constitutive_laws/linearelastic.py", "hydraxmpm/constitutive_laws/newtonfluid.py", "hydraxmpm/constitutive_laws/mu_i_rheology.py", "hydraxmpm/constitutive_laws/druckerprager.py", "hydraxmpm/constitutive_laws/modifiedcamclay.py"])
p("C32", "Drucker-Prager stress is admissible after every update",
  "After an update the Drucker-Prager yield function at the returned stress and returned hardening state is at most zero.",
  "every strain increment, elastic strain, parameters (including dilatancy mu_1_hat)",
  "continuum of inputs; the failing case needs non-zero dilatancy and a plastic step",
  ["hydraxmpm/constitutive_laws/druckerprager.py:DruckerPrager._update_stress"])
p("C33", "Drucker-Prager stress and stored elastic strain agree",
  "For every connected update, in the elastic, cone and apex branch, the returned stress equals 2G dev(eps_e) + (K tr(eps_e)+p_0) I with the returned elastic strain; a disconnected point (density below rho_0) gets zero stress.",
  "every input, every branch",
  "all branches and inputs",
  ["hydraxmpm/constitutive_laws/druckerprager.py:DruckerPrager._update_stress"])
p("C34", "Drucker-Prager accumulated plastic strain never decreases",
  "eps_p_acc returned by an update is at least the previous one.",
  "every input, every branch",
  "monotonicity over all histories; the violation needs an apex return",
  ["hydraxmpm/constitutive_laws/druckerprager.py:DruckerPrager._update_stress"])
p("C35", "mu(I) rheology is pressure-positive, cohesionless, dissipative and friction-bounded",
  "The mu(I) law returns mean stress max(p_eos, p_min) >= 0 for a point above its reference density and zero stress otherwise; shear power is never negative; the equivalent shear stress is bounded by mu_d times pressure and (documented friction law) equals mu(I) p up to regularisation.",
  "every density, strain rate and parameters in the physical range",
  "continuum of inputs",
  ["hydraxmpm/constitutive_laws/mu_i_rheology.py:MuI_LC._update_stress"])
p("C36", "A compressed Newtonian fluid pushes back and viscosity dissipates",
  "For a fluid point with positive equation-of-state pressure the pressure_stack seen by the user equals that pressure, it is zero for an expanded point, and the viscous power is non-negative.",
  "every density, strain rate, parameters",
  "continuum; sign convention errors are invisible in tests that only check shapes",
  ["hydraxmpm/constitutive_laws/newtonfluid.py:NewtonFluid._update_stress", MP + ".pressure_stack"])
p("C37", "Initial densities and stresses are consistent with the law",
  "The fluid, mu(I) and Cam-Clay state constructors return density/stress pairs that the law's own equations map to each other (equation of state at the returned density gives the requested pressure; Cam-Clay states satisfy the yield/compression-line relations used in construction).",
  "every admissible pressure, density, OCR and parameters",
  "round trip over all inputs",
  ["hydraxmpm/constitutive_laws/newtonfluid.py:NewtonFluid.create_state_from_density", "hydraxmpm/constitutive_laws/mu_i_rheology.py:MuI_LC", "hydraxmpm/constitutive_laws/modifiedcamclay.py:ModifiedCamClay.create_state_from_ocr"])
p("C38", "Cam-Clay initialisation keeps admissible stresses",
  "create_state_from_ocr only moves stresses that lie outside the yield surface: an input (p,q) strictly inside is returned unchanged and the result is never outside.",
  "every p>0, q, OCR>=1, parameters",
  "continuum; violating case is any interior point",
  ["hydraxmpm/constitutive_laws/modifiedcamclay.py:ModifiedCamClay.create_state_from_ocr"])
p("C39", "Cam-Clay update keeps the preconsolidation pressure positive and elastic steps inside the yield surface",
  "After any number of updates, whatever the Newton iteration does, p_c stays positive, an elastic step leaves p_c unchanged and returns a stress inside the yield surface, the deviatoric stress is never increased by the return map, and a disconnected point has zero stress and unchanged p_c.",
  "every history, every Jacobian the automatic differentiation could return",
  "quantifies over all inputs and over non-converged Newton iterations",
  ["hydraxmpm/constitutive_laws/modifiedcamclay.py:ModifiedCamClay._update_stress"])
p("C40", "Cam-Clay never produces tension",
  "The mean stress returned by a connected Cam-Clay update is non-negative.",
  "every previous stress with non-negative mean stress, every strain increment",
  "violation needs previous pressure below the minimum pressure",
  ["hydraxmpm/constitutive_laws/modifiedcamclay.py:ModifiedCamClay._update_stress"])
p("C41", "Removing accumulated shear keeps the volume and loses nothing else",
  "remove_accumulated_shear leaves det(F) unchanged (F with det F>=0), is idempotent, and is a no-op for laws that did not request it; F_store keeps the accumulated deformation gradient.",
  "every F with non-negative determinant, 2D and 3D",
  "continuum; the 2D case needs the 3x3 determinant to be looked at",
  ["hydraxmpm/constitutive_laws/constitutive_law.py:ConstitutiveLaw.remove_accumulated_shear"])
p("C42", "Stress measures decompose and reconstruct correctly",
  "Every stress splits as s + p I with trace-free s; q and J2 are non-negative, related by q^2=3 J2, invariant under rotation of the stress; reconstructing a triaxial stress from (p,q) gives back pressure p and q = |q|.",
  "every 3x3 stress, every rotation, all p, q",
  "continuum",
  ["hydraxmpm/utils/math_helpers.py:get_pressure", "hydraxmpm/utils/math_helpers.py:get_dev_stress", "hydraxmpm/utils/math_helpers.py:get_J2", "hydraxmpm/utils/math_helpers.py:get_q_vm", "hydraxmpm/utils/math_helpers.py:reconstruct_stress_from_triaxial"])
p("C43", "Solid-fraction conversions are mutually inverse and match the density definition",
  "phi<->void ratio conversions invert each other; phi from bulk density rho_b and grain density rho_s is rho_b/rho_s; the solid fraction update from L conserves solid mass when combined with the linear volume update.",
  "all admissible phi, e, densities",
  "continuum",
  ["hydraxmpm/utils/math_helpers.py"])
p("C44", "Robust small-matrix inversion is an inverse",
  "For every 2x2/3x3 matrix with determinant away from zero inv_2x2_robust/inv_3x3_robust times the matrix is the identity up to the explicit regularisation factor det/(det +- 1e-20), and no input divides by zero.",
  "every matrix",
  "continuum; a wrong cofactor sign is invisible on symmetric or diagonal samples",
  ["hydraxmpm/utils/math_helpers.py:inv_2x2_robust", "hydraxmpm/utils/math_helpers.py:inv_3x3_robust"])
p("C45", "Rotation helpers are rigid",
  "The 2D rotation helper and rotation by a unit quaternion preserve inner products, the inverse helper undoes them, and composing rotations corresponds to the quaternion product.",
  "every angle, unit quaternion, vector",
  "continuum",
  ["hydraxmpm/utils/math_helpers.py:rotation_2d", "hydraxmpm/utils/math_helpers.py:quaternion_rotate"])
p("C46", "Obstacle primitives report true signed distance",
  "For the sphere the reported value is exactly the Euclidean signed distance to the solid (negative inside); for the plane it is that distance times |n|/(|n|+1e-12); for the box it is above it by at most 1e-6.",
  "every pose, size and query point",
  "continuum; infimum over the surface cannot be sampled",
  ["hydraxmpm/sdf/sdfcollection.py:SphereSDF", "hydraxmpm/sdf/sdfcollection.py:BoxSDF", "hydraxmpm/sdf/sdfcollection.py:PlaneSDF"])
p("C47", "Composite obstacles are unions",
  "A composite SDF is negative at a point iff at least one of its parts is, it is 1-Lipschitz if the parts are, independent of the order of the parts, and reports the friction of a closest part.",
  "any list of parts, any query point",
  "any list length",
  ["hydraxmpm/sdf/sdfcollection.py:CompositeSDF"])
p("C48", "Moving an obstacle moves its distance field rigidly",
  "Translating/rotating an obstacle's state and the query point together leaves the reported distance unchanged; after n kinematic updates with constant velocity the centre is c0+n*dt*v, the 2D angle theta0+n*dt*omega, and the 3D orientation quaternion keeps a norm in [1-1e-12,1] for all time.",
  "every pose, n, velocities",
  "induction over n, continuum of poses",
  ["hydraxmpm/sdf/sdfobject.py:SDFObjectBase"])
p("C49", "Wall velocity is the velocity of the moving obstacle",
  "get_velocity at a point fixed to the obstacle equals the time derivative of that point's world position under the obstacle's motion.",
  "every pose, velocity, spin, point",
  "derivative statement over a continuum",
  ["hydraxmpm/sdf/sdfobject.py:SDFObjectBase.get_velocity"])
p("C50", "Domain walls keep material inside the domain box",
  "DomainSDF is positive exactly at the points strictly inside its (offset) bounds, 1-Lipschitz, its normal is a unit axis vector pointing to the inside of the closest wall, and the wall friction reported is that of the same wall.",
  "every bounds, offset, query point",
  "continuum with ties",
  ["hydraxmpm/sdf/sdfcollection.py:DomainSDF"])
p("C51", "Generated bodies lie in their shape with the requested resolution",
  "Points generated from an SDF all have negative signed distance; in regular mode with ppc points per cell direction, particles are spaced inside their own cell.",
  "every SDF, cell size, ppc",
  "universal over shapes and cell sizes; tests use cell_size=1-like scenes",
  ["hydraxmpm/utils/generate_body.py"])
p("C52", "Builder handles stay valid",
  "Every index returned by a SimBuilder add_* call refers, after any further sequence of builder calls, to exactly the object that was added.",
  "every sequence of builder calls",
  "all call sequences",
  ["hydraxmpm/common/builder.py:SimBuilder", "hydraxmpm/common/builder.py:Registry"])
p("C53", "Every force finds its own state",
  "After any sequence of builder calls, for every gravity/damping force, force_states at its stored index is the state that was created for it.",
  "every sequence of builder calls (including colliders and contacts added in between)",
  "depends on the call order; tests add gravity first",
  ["hydraxmpm/common/builder.py:SimBuilder.add_gravity", "hydraxmpm/common/builder.py:SimBuilder.add_damping", "hydraxmpm/common/builder.py:SimBuilder.add_sdf_collider", "hydraxmpm/common/builder.py:SimBuilder.add_body_contact"])
p("C54", "The solver uses the grid, law and obstacle that the user coupled",
  "For every coupling of a solver made by set_solver, the grid domain, constitutive law and law state used for it at run time are the registered ones, and each obstacle logic is paired with its own obstacle state.",
  "every builder history and every choice of coupling and obstacle subsets",
  "index confusion only shows when couplings are not in registration order",
  ["hydraxmpm/common/builder.py:SimBuilder.set_solver", USL + "._constitutive_update", USL + "._compute_connectivity"])
p("C55", "AFLIP reads back the affine matrix it stored",
  "The affine matrices used in P2G of a body are those computed for that same body in the previous G2P.",
  "every coupling table",
  "needs scenes where particle index and coupling index differ",
  [AFL + "._p2g", AFL + "._g2p"])
p("C56", "Saved states are retrievable: last write per step wins",
  "After any sequence of save_step calls, loading step k returns exactly the last state saved with step k, for every k, and distinct steps never overwrite each other.",
  "every sequence of saves, every step number",
  "all histories, unbounded step numbers (beyond five digits)",
  ["hydraxmpm/common/sim_io.py:SimIO.save_step", "hydraxmpm/common/sim_io.py:load_simulation"])
p("C57", "A crash while saving does not damage other steps",
  "If the process dies at any point during save_step for step k, every previously saved step other than k is still loadable with its exact content.",
  "every history, every crash point",
  "crash points cannot be enumerated by tests",
  ["hydraxmpm/common/sim_io.py:SimIO.save_step"])
p("C58", "Opening a recorder on existing output",
  "Re-opening a recorder with overwrite=False keeps all earlier states retrievable; with the default settings all earlier content of the directory is deleted.",
  "every directory content",
  "universal over contents; destructive default",
  ["hydraxmpm/common/sim_io.py:SimIO.__init__"])
p("C59", "Output stride of the triaxial driver is pure subsampling",
  "For every law and state, the trajectory recorded with stride s is the stride-1 trajectory taken at every s-th step; it has num_steps/s entries, and a stride that does not divide num_steps is an error.",
  "every law, initial state, number of steps and stride",
  "any law as a black box, any length",
  ["hydraxmpm/element_tests/triaxial_test.py", "hydraxmpm/element_tests/driver.py"])
p("C60", "Undrained element tests keep volume constant",
  "In an undrained triaxial run det(F) and hence volume keep their initial value for any number of steps under the exponential update; drained runs prescribe exactly the documented strain rates.",
  "every number of steps, rates, dt",
  "induction and matrix exponential identity",
  ["hydraxmpm/element_tests/triaxial_test.py", "hydraxmpm/element_tests/driver.py"])
p("C61", "Grid sizing survives floating-point rounding",
  "GridDomain.create yields floor(extent/h + 2*padding)+1 nodes per axis when evaluated in IEEE double precision as it is in exact arithmetic.",
  "every box and cell size representable in double precision",
  "requires exact reasoning on rounding for all inputs; violated for cell size 0.1",
  [GRID])
p("C62", "Critical time step is positive and conservative",
  "get_dt_crit of the elastic law is positive and, for every point, at most alpha*h divided by that point's wave speed plus velocity; doubling the cell size doubles it.",
  "every non-empty set of points with positive density",
  "continuum, any number of points",
  ["hydraxmpm/constitutive_laws/linearelastic.py:LinearElasticLaw.get_dt_crit"])
p("C63", "CPIC masks never cut material off",
  "The SDF connectivity correction of the USL solver leaves every interaction active, so the interpolated velocities are those of the plain transfer regardless of obstacles and of sdf sharpness.",
  "every obstacle set, positions, sharpness",
  "universal over obstacle geometry",
  [USL + "._sdf_correction_connectivity", USL + "._g2p"])
p("C64", "scatter_to_grid averages",
  "With normalisation, the value scattered to a node is a weighted mean of the contributing point values: constants are reproduced and results stay within the range of the data; nodes with negligible weight get zero. gather_from_grid interpolates it back.",
  "any data, points, masses",
  "continuum",
  ["hydraxmpm/shapefunctions/mapping.py:ShapeFunctionMapping.scatter_to_grid", "hydraxmpm/shapefunctions/mapping.py:ShapeFunctionMapping.gather_from_grid"])
p("C65", "Default material points are consistent",
  "MaterialPointState.create without explicit mass or volume gives mass = density*volume, reference volume equal to volume, and a density_stack equal to the requested density; the default volume is cell_size^dim / points-per-cell; arrays given explicitly are stored unchanged.",
  "every argument combination",
  "argument combinations x continuum",
  [MP + ".create"])
p("C66", "Bodies of any size can be stepped again",
  "A solver step leaves the volume array of a body with one entry per point, so that the next step can gather from it, for every number of points.",
  "every scene, number of points and number of steps",
  "shape errors appear only for particular sizes, after the first step",
  [USL + "._g2p", USL + "._p2g"])
p("C67", "The collider acts by velocity projection only",
  "The collision response of SDFCollider depends on the signed distance only through its sign, and neither on the time step nor on the `gap` setting: no position-based push-out velocity is ever injected (so the documented margin of safety has no effect).",
  "every node state, distance, time step and gap",
  "absence of any influence is a statement about all inputs",
  ["hydraxmpm/forces/sdf_collider.py:SDFCollider._collide_node", "hydraxmpm/forces/sdf_collider.py:apply_frictional_contact"])

p("C68", "Round obstacle primitives report true signed distance",
  "CapsuleSDF, CylinderSDF and TorusSDF report the Euclidean signed distance of the capsule, cylinder and torus of the given dimensions to within 2e-6, and HollowCylinderSDF that of a pipe of the given height and radii.",
  "every pose, size and query point",
  "continuum; infimum over the surface cannot be sampled",
  ["hydraxmpm/sdf/sdfcollection.py:CapsuleSDF", "hydraxmpm/sdf/sdfcollection.py:CylinderSDF", "hydraxmpm/sdf/sdfcollection.py:TorusSDF", "hydraxmpm/sdf/sdfcollection.py:HollowCylinderSDF"])

p("C69", "Axial strains reported by the triaxial test belong to the recorded states",
  "Entry k of TriaxialTest.axial_strain_stack is the axial strain reached in entry k of the recorded trajectory, that is the sum of rate*dt over the first (k+1)*stride steps.",
  "every rate, time step, number of steps and stride, scalar or array input",
  "a plot of one test looks plausible with shifted strains; the relation is for all strides and step counts",
  ["hydraxmpm/element_tests/triaxial_test.py:TriaxialTest.axial_strain_stack", "hydraxmpm/element_tests/triaxial_test.py:TriaxialTest.run"])

p("C70", "An interrupted save is never read back as a wrong state",
  "If the process dies at any point during save_step for step k, loading step k afterwards gives the state saved before, the new state, or an error, never a mixture of the two.",
  "every directory content, state and crash point",
  "crash points cannot be enumerated in a test run",
  ["hydraxmpm/common/sim_io.py:SimIO.save_step", "hydraxmpm/common/sim_io.py:load_simulation"])

p("C71", "The element driver honours is_F_linear_approx",
  "ElementTestDriver(is_F_linear_approx=True) updates F with I - L dt, otherwise with the matrix exponential.",
  "every law, state, velocity gradient and time step",
  "the two updates agree to first order, so tests with small strain increments cannot tell them apart",
  ["hydraxmpm/element_tests/driver.py:ElementTestDriver.step"])


p("C72", "build returns what was registered",
  "SimBuilder.build returns a state holding every registered body, law and obstacle state at the index returned by its add_* call together with the requested clock, and a single solver exactly if set_solver was called once; an unknown scheme is never accepted.",
  "every sequence of builder calls",
  "all call sequences",
  ["hydraxmpm/common/builder.py:SimBuilder.build", "hydraxmpm/common/builder.py:SimBuilder.set_solver"])
p("C73", "The deformation gradient follows the motion of the points",
  "If the nodal velocities form an affine field and F carries a material vector X to the distance x_q - x_p of two points, then after the grid-to-particle update the new F carries X to the new distance of the two points (USL and ASFLIP).",
  "all affine fields, positions, deformation gradients, kernels, dt",
  "relates two separately computed outputs (F and positions) for all fields; the tests only look at F = I",
  [USL + "._g2p", "hydraxmpm/solvers/usl_asflip.py:USLAFLIP._g2p"])
p("C74", "alpha blends FLIP and PIC as documented",
  "In a USL or ASFLIP step each point moves with the interpolated grid velocity, and its new velocity is the blend (1-alpha)*FLIP + alpha*PIC (docstrings: 0.0 = FLIP, 1.0 = PIC).",
  "all scenes of stress-free bodies under gravity, all alpha",
  "a wrong orientation of the blend is invisible unless both ends are compared with their definitions",
  [USL + "._g2p"])

p("C75", "The star obstacle reports the signed distance to a star",
  "StarSDF.signed_distance_local is the signed Euclidean distance (negative inside) to the star polygon with the given number of points and outer and inner radius.",
  "every number of points, all admissible radii, every query position",
  "needs all positions in all folded sectors; a wrong fold is exact on the symmetry axes that tests use",
  ["hydraxmpm/sdf/sdfcollection.py:StarSDF.signed_distance_local"])
p("C76", "A point cloud obstacle is the union of the balls of its points",
  "MaterialPointCloudSDF gives every point a ball of its reference volume and reports a point as inside exactly if it is in one of the balls, with the true distance outside.",
  "every cloud, every volume, every smooth_k, every query position",
  "the error of the smoothing grows with the number of points near the query, so small clouds look right",
  ["hydraxmpm/sdf/sdfcollection.py:MaterialPointCloudSDF.signed_distance"])
p("C77", "A tabulated obstacle interpolates its table",
  "GridSDF stays within the range of its table, reproduces tables of linear functions inside the box up to the 1e-12 regularisation, takes the value of the closest point of the box outside of it, scale and thickness scale and grow the obstacle, and the box it reports contains the obstacle.",
  "every table, box, scale, thickness and query position",
  "all tables and positions, including the clamped ones",
  ["hydraxmpm/sdf/gridsdf.py:GridSDF.signed_distance_local"])

p("C78", "Reported strains are logarithmic strains of the motion",
  "eps_stack is the symmetric tensor e with exp(-2e) = F F^T (compression positive), independent of which singular value decomposition the library returns; it rotates with the body, ignores rotations of the reference, and eps_v_stack is log(volume0/volume).",
  "every deformation gradient that compresses no direction by more than 1e-12, every singular value decomposition of it",
  "decompositions are not unique (signs, repeated singular values), so no finite set of samples shows independence",
  ["hydraxmpm/utils/math_helpers.py:get_hencky_strain", "hydraxmpm/material_points/material_points.py:MaterialPointState.eps_v_stack"])
p("C79", "Lithostatic preconditioning gives the stress under a slope",
  "precondition_from_lithostatic returns the invariants of the stress carrying the ground above, and reconstruct_stress_from_triaxial rebuilds that stress from them.",
  "all densities, depths, slopes and lateral stress ratios",
  "q is stored without sign and direction, which cannot be seen for the k0 < 1 and level ground that examples use",
  ["hydraxmpm/utils/math_helpers.py:precondition_from_lithostatic", "hydraxmpm/utils/math_helpers.py:reconstruct_stress_from_triaxial"])
p("C80", "Derived quantities of material points mean what they say",
  "Density times volume is the mass up to the 1e-16 regularisation, pressure_stack and q_stack are the invariants of the stress, KE_stack is the kinetic energy of the point, and every documented property returns a value.",
  "every state",
  "all states",
  ["hydraxmpm/material_points/material_points.py:MaterialPointState"])

p("C81", "Transfer to the grid and nodal forces keep the balance of angular momentum",
  "The angular momentum of the nodes after P2G is that of the points (with the spin of the affine matrices for ASFLIP); internal forces of symmetric stresses exert no moment, so transfer, gravity and integration change the angular momentum exactly by dt times the moment of gravity and of the point forces.",
  "every body in the box, every mass, velocity, symmetric stress, force, kernel, cell size, dimension",
  "a balance over all nodes that depends on the kernels reproducing linear fields; tests compare single nodal values",
  ["hydraxmpm/solvers/usl.py:USLSolver._p2g", "hydraxmpm/solvers/usl_asflip.py:USLAFLIP._p2g"])
p("C82", "ASFLIP preserves angular momentum",
  "usl_asflip.py documents that AFLIP/APIC preserves angular momentum: without FLIP blending and clamping the points have the angular momentum of the nodes after G2P (spin of the affine matrices included), and a rigid rotation survives a step unchanged.",
  "all nodal velocity fields and point positions",
  "holds for affine fields, which is what a test would try, but not for general ones",
  ["hydraxmpm/solvers/usl_asflip.py:USLAFLIP._g2p"])

p("C83", "Contact normals point straight away from the nearest surface point",
  "Off the surface, wherever the reported distance is differentiable, get_normal is the unit vector from the nearest surface point of the solid (towards it inside), up to a factor in (0, 1] that comes from the regularised normalisation.",
  "every obstacle whose reported distance is an increasing function of the signed distance (sphere, plane, box in any pose and dimension among them), every position with a gradient",
  "a statement about derivatives at a continuum of points",
  ["hydraxmpm/sdf/sdfobject.py:SDFObjectBase.get_normal", "hydraxmpm/sdf/sdfcollection.py:SphereSDF", "hydraxmpm/sdf/sdfcollection.py:BoxSDF", "hydraxmpm/sdf/sdfcollection.py:PlaneSDF"])
p("C84", "A yielding Cam-Clay step solves the plasticity equations",
  "A step whose elastic trial stress lies outside the yield surface returns a state with a non-negative plastic multiplier and a plastic strain increment such that pressure and preconsolidation pressure follow from the elastic and plastic volumetric strain, the deviator is the trial deviator minus 2G times the plastic strain, the flow is associated and the new stress lies on the new yield surface, the last two up to the residuals left by the Newton loop; the plastic work is non-negative at convergence.",
  "every velocity gradient, previous stress with mean stress at least p_min_calc, parameters, every Jacobian the automatic differentiation could return",
  "an implicit system on a continuum; tests compare single loading paths",
  ["hydraxmpm/constitutive_laws/modifiedcamclay.py:ModifiedCamClay._update_stress"])
p("C85", "Cam-Clay states stay on their compression lines",
  "As long as a point is connected, its specific volume (grain density over bulk density), mean stress and preconsolidation pressure satisfy v = N (p_ref/p_c)^lambda (p_c/p)^kappa if they do initially.",
  "every history of connected steps with mean stress at least p_min_calc",
  "needs induction over arbitrarily long histories, elastic and plastic mixed",
  ["hydraxmpm/constitutive_laws/modifiedcamclay.py:ModifiedCamClay._update_stress", "hydraxmpm/constitutive_laws/modifiedcamclay.py:get_v_sl", "hydraxmpm/solvers/usl.py:USLSolver._g2p"])
p("C86", "Stored Cam-Clay elastic strain matches the stress",
  "After every connected step the stored elastic strain and the stress are related by the same elastic relation, so that plastic strain computed from it does not jump.",
  "every connected step",
  "a relation between two outputs in both branches",
  ["hydraxmpm/constitutive_laws/modifiedcamclay.py:ModifiedCamClay._update_stress"])

p("C87", "The stress of a recorded state belongs to its density",
  "After a solver call or an element-test step, the stress of a point of a law with an equation of state (Newtonian fluid, mu(I)) is the law evaluated at the velocity gradient and the density of that same state.",
  "every scene, law parameter, state and step",
  "a relation between outputs of every step; a test with an already settled state does not see a lag",
  ["hydraxmpm/element_tests/driver.py:ElementTestDriver.step", "hydraxmpm/solvers/usl.py:USLSolver._constitutive_update", "hydraxmpm/constitutive_laws/mu_i_rheology.py:MuI_LC._update_stress"])
p("C88", "Drained element tests hold the confining stress",
  "In a drained triaxial test the lateral stress (is_p_constant=False) or the mean stress (is_p_constant=True) stays at the confining value, up to the error left by the Newton iterations, in every recorded state.",
  "every schedule of axial rates and time steps, any number of steps and iterations, the laws of the package",
  "the error of one step is the start of the next, so the claim needs induction over test length; depends on how the law reacts to the trial rate",
  ["hydraxmpm/element_tests/triaxial_test.py:TriaxialTest.run", "hydraxmpm/element_tests/driver.py:ElementTestDriver.step"])

p("C89", "Cubic boundary splines complete the spline space at walls",
  "With wall nodes of type boundary, their neighbours of the near-boundary types and all others of type middle, the cubic weights are non-negative, sum to one and reproduce the position at every point between the walls, and the gradients reproduce the gradients of constants and of the position.",
  "every grid length of at least three cells and every position between the walls, walls included",
  "a continuum of positions and all grid lengths; the cases at the ends of the pieces are easily missed",
  ["hydraxmpm/shapefunctions/cubic.py:vmap_cubic_shapefunction", "hydraxmpm/shapefunctions/mapping.py:ShapeFunctionMapping.compute"])

p("C90", "Constitutive laws prefer no direction",
  "Rotating (or mirroring) the stress, the velocity gradient, the deformation gradient and the stored tensors of a point before the update gives the rotated result of the update: same pressure-like quantities, rotated tensors, same exception.",
  "every law of the package, every orthogonal matrix, every state and time step",
  "all rotations and all states; tests load along the axes",
  ["hydraxmpm/constitutive_laws/linearelastic.py:LinearElasticLaw._update_stress", "hydraxmpm/constitutive_laws/newtonfluid.py:NewtonFluid", "hydraxmpm/constitutive_laws/mu_i_rheology.py:MuI_LC._update_stress", "hydraxmpm/constitutive_laws/druckerprager.py:DruckerPrager", "hydraxmpm/constitutive_laws/modifiedcamclay.py:ModifiedCamClay._update_stress"])
p("C91", "A simulation does not depend on axes, origin and numbering",
  "Exchange or reverse axes, move the origin by any amount (grid, bodies, obstacles and forces along with it) and renumber the points of the bodies: every step of the USL solver returns the description, in the new axes, of what it returned before, or raises the same exception.",
  "every scene made of the bodies, laws, forces and obstacles of the package, both kernels, two and three dimensions, any number of steps",
  "relates two runs on a continuum of scenes; regression tests fix one orientation, and a mixed-up component or a one-sided floor is invisible in a single orientation",
  ["hydraxmpm/solvers/usl.py:USLSolver", "hydraxmpm/shapefunctions/mapping.py:ShapeFunctionMapping.compute", "hydraxmpm/sdf/sdfobject.py:SDFObjectBase", "hydraxmpm/sdf/sdfcollection.py:DomainSDF.get_normal"])
p("C92", "Symmetric scenes stay symmetric",
  "If a scene equals its mirror image (or its image with axes exchanged) with the points of the bodies paired off, the positions, velocities, stresses and deformation gradients of paired points remain images of each other for the whole simulation.",
  "every symmetric scene, any number of steps",
  "needs induction over steps; asymmetry by tie-breaking shows only at particular nodes",
  ["hydraxmpm/solvers/usl.py:USLSolver", "hydraxmpm/sdf/sdfcollection.py:DomainSDF.get_normal"])

p("C93", "Rigid rotation carries the stress along",
  "A point that is only rotated, with no stretching, keeps its stress up to that rotation: after a step the stress is the old stress turned with the material to first order in dt, the shear stress invariant does not change and an elastic state stays elastic.",
  "the stress-rate laws of the package (linear elastic, Drucker-Prager, Cam-Clay), every spin, stress, strength, time step and number of steps, the velocity gradients of both solvers",
  "the drift per step is of second order and adds up over arbitrarily many steps; a wrong sign of the spin is invisible without rotation",
  ["hydraxmpm/utils/math_helpers.py:get_jaumann_increment", "hydraxmpm/constitutive_laws/linearelastic.py:LinearElasticLaw._update_stress", "hydraxmpm/constitutive_laws/druckerprager.py:DruckerPrager", "hydraxmpm/constitutive_laws/modifiedcamclay.py:ModifiedCamClay._update_stress", "hydraxmpm/solvers/usl.py:USLSolver._g2p"])

p("C94", "A moving observer sees the same simulation",
  "If the same velocity is added to every body and every obstacle, every step gives the same deformation, stresses and relative velocities; positions are carried along with the added velocity.",
  "every scene with gravity and obstacles, every added velocity, any number of steps",
  "relates two runs for a continuum of velocities; tests start from rest",
  ["hydraxmpm/solvers/usl.py:USLSolver", "hydraxmpm/forces/sdf_collider.py:SDFCollider.apply_grid_moments", "hydraxmpm/sdf/sdfobject.py:SDFObjectBase.update_kinematics"])

R = "hydraxmpm/common/rerun.py:RerunVisualizer"
V = "hydraxmpm/common/vtk_io.py:VTKVisualizer"
p("C95", "The picture of an obstacle covers the domain",
  "log_sdf samples the distance on a regular grid with `resolution` points along the longest side that starts at `start` and covers the whole box up to `end`, so that every surface inside the box can be found.",
  "every box and every resolution",
  "depends on position of the box relative to the origin and on its aspect ratio",
  [R + ".log_sdf", V + ".log_sdf"])
p("C96", "The drawn surface is the obstacle",
  "A vertex drawn for an obstacle is within half a sampling step of its surface, and the surface itself crosses the edge on which the vertex lies; the normals stored with the mesh are perpendicular to the drawn surface.",
  "every signed distance (1-Lipschitz along the axes), every box, resolution and sign change",
  "continuum of obstacles and poses",
  [R + ".log_sdf", V + ".log_sdf"])
p("C97", "Points, obstacles and domain are drawn consistently and to scale",
  "Points, contours and the domain box are put into the picture by the same distance-keeping map; the box contains every node of the grid; the disc or ball drawn for a point has its volume.",
  "every state, grid and scale",
  "continuum; geometry of pictures is not checked by tests",
  [R + ".log_material_points", R + ".log_static_domain", V + ".log_particles", V + ".log_static_domain"])
p("C98", "Colours are a faithful scale of the data",
  "The numbers handed to the colour map lie in [0,1], the least value gets 0 and the greatest 1, and greater values get greater numbers; colours given by the caller are used as they are.",
  "every data array and limits",
  "continuum of data",
  [R + ".log_material_points"])
p("C99", "Every logged step keeps its own file",
  "After any sequence of calls the file of a label and a step holds what the last call for them wrote, with the positions and data of the state; files of other labels and steps are not touched.",
  "every sequence of calls, labels, steps and states",
  "needs induction over call sequences and injectivity of names",
  [V + ".log_particles", V + "._save_vtk", V + ".log_sdf"])
p("C100", "One viewer per process, and recordings are saved when asked for",
  "However many visualisers are made, at most one window or server is opened; mode 'save' writes a recording.",
  "every sequence of constructor calls and modes",
  "class-level state over call sequences",
  [R + ".__init__"])

U = "projects/unified_elasto_plastic_inertial_mcc/UEPI_MCC.py"
p("C101", "The unified yield surface joins Cam-Clay and the inertial steady state",
  "At rest the unified surface of UEPI_MCC is the Cam-Clay ellipse; at the steady state q = M(I) p it passes through the inertial critical state; strength and volume rise with the inertial number and stay below their limits; the three forms of the surface describe the same states.",
  "every pressure, shear stress, shift pressure, inertial number and material",
  "identities between nonlinear functions on a continuum",
  [U + ":get_unified_M", U + ":get_unified_M_2", U + ":get_unified_iys", U + ":get_M_I", U + ":get_unified_isl"])
p("C102", "Volumes stay on the inertial swelling line",
  "Through any loading the specific volume of a UEPI_MCC state stays on the swelling line given by its shift pressure and its inertial number.",
  "every material, initial state on its line and loading history",
  "invariant over unbounded histories",
  [U + ":UEPI_MCC._update_stress", U + ":get_unified_isl"])
p("C103", "A yielding step solves the elasto-plastic-inertial equations",
  "When the trial state yields, the new state has elastic stress for the elastic part of the strain, lies on the unified surface at its inertial number, and the plastic strain is normal to that surface; plastic work is not negative.",
  "every material, state, velocity gradient and time step",
  "a continuum of nonlinear return maps",
  [U + ":UEPI_MCC.update", U + ":UEPI_MCC._update_stress"])
p("C104", "UEPI_MCC states stay admissible",
  "Through any loading the pressure never becomes tension, the shift pressure stays positive, the inertial number non-negative and the stress symmetric; a step below yield leaves the shift pressure alone.",
  "every material, initial admissible state and loading history",
  "invariant over unbounded histories",
  [U + ":UEPI_MCC.update", U + ":UEPI_MCC._update_stress"])
p("C105", "UEPI_MCC initial states are as requested",
  "create_state_from_ocr gives a state with the requested pressure, shear stress and overconsolidation ratio, on its swelling line, with the matching density.",
  "every pressure, shear stress, ratio and material",
  "continuum of inputs",
  [U + ":UEPI_MCC.create_state_from_ocr"])

FL = "projects/lorentz_collapse/floor.py"
CS = "projects/lorentz_collapse/collapse_setup.py"
CO = "projects/collapse/collapse.py"
TS = "projects/two_sphere_impact/two_sphere_impact.py"
MI = "projects/mcc_trx_inverse/mcc_trx_inverse.py"
p("C106", "A generated floor has the requested roughness",
  "The root mean square of the height of a SpectralSetup over the half line is rms_height; its wave lengths lie between lambda_min and lambda_max and reach both; amplitudes follow the power law of the Hurst exponent.",
  "every number of harmonics >= 1, exponent, height, phases and wave lengths 0 < lambda_min < lambda_max",
  "a limit of integrals; a sample of points cannot show it",
  [FL + ":SpectralSetup.__init__", FL + ":SpectralSetup.get_bump_waves"])
p("C107", "The rough floor is a sound obstacle",
  "BumpyFloorSDF returns the signed distance to a continuous floor that stays within the sum of its amplitudes of the base, is flat before the transition, lies in its box, and has positive friction within its range.",
  "every floor, position and transition",
  "continuum of floors and positions",
  [FL + ":BumpyFloorSDF.signed_distance_local", FL + ":BumpyFloorSDF.get_surface_friction_local", FL + ":BumpyFloorSDF.get_world_aabb"])
p("C108", "The scripts build the bodies they describe",
  "The column has the mass of its density times its area, its points tile the requested box, and its initial stress carries the weight above; the points of a disc lie in it and stand for their share of it.",
  "every cell size, density, number of points and size",
  "sums over any number of points; scripts have no tests",
  [CS + ":CollapseSetup.build_template", CO + ":CollapseProcedure.build_template", TS + ":create_circle"])
p("C109", "Scripts simulate the requested time and record it at the requested interval",
  "The loops make total_time / dt steps and record the state after every whole interval, the final state included.",
  "every duration, time step, interval and solver",
  "unbounded loops; rounding of quotients",
  [CS + ":CollapseSetup.run", CS + ":CollapseSetup.run_with_trajectory", CO + ":CollapseProcedure.run", TS + ":loop_body"])
p("C110", "A collapse is simulated with the parameters it is given",
  "run and run_with_trajectory simulate the floor, friction and tilt of their parameters, or those of the state if none are given, and change nothing else.",
  "every state, parameters and solver",
  "both functions over all parameters",
  [CS + ":CollapseSetup.run", CS + ":CollapseSetup.run_with_trajectory", CS + ":CollapseParams.get_gravity_vector"])
p("C111", "The calibration reports the best parameters and their loss",
  "Every chain stays within the bounds, which hold only sound materials; the reported parameters have the reported loss, and no chain has a smaller one.",
  "every loss, optimiser, population and number of iterations",
  "iteration over arbitrary optimisers",
  [MI + ":update_step_2d"])
p("C112", "Saved trajectories give back the state",
  "Reading a file of save_compressed_sim gives back the stored numbers to half precision.",
  "every number",
  "continuum of numbers over many magnitudes",
  ["projects/lorentz_collapse/save_data.py:save_compressed_sim"])

p("C113", "The clock keeps time in finite precision",
  "With numbers of p bits the recorded time after n steps is n dt up to a small relative error, never decreases and goes on with every step.",
  "every precision, time step, starting time and number of steps",
  "rounding over unbounded runs",
  [USL + ".__call__", "hydraxmpm/solvers/usl_asflip.py:USLAFLIP"])
p("C114", "Points move with their velocity in finite precision",
  "With numbers of p bits a point with constant velocity v is after n steps at x + n dt v up to a small relative error.",
  "every precision, velocity, time step and number of steps",
  "rounding over unbounded runs",
  [USL + "._g2p", AFL + "._g2p"])
p("C115", "Slow deformation is felt in finite precision",
  "With numbers of p bits a point stretched at a constant rate has after n steps the deformation (1 + dt l)^n up to a small relative error.",
  "every precision, rate, time step and number of steps",
  "rounding over unbounded runs",
  [USL + "._g2p", AFL + "._g2p", "hydraxmpm/element_tests/driver.py:ElementTestDriver.step"])
p("C116", "The solver creates no new extreme velocities",
  "In a stress-free scene under gravity every velocity component of every point of a grid stays within the range of that component before the step, shifted by the fall; points move within the same range.",
  "every scene of USLSolver without obstacles, alpha between 0 and 1, any number of bodies and steps",
  "all particle configurations and runs",
  [USL + "._p2g", USL + "._g2p"])
p("C117", "Points never turn inside out while the steps are small",
  "If in every step each row of dt L has an absolute sum below one, the deformation gradients of all points keep a positive determinant and all volumes stay positive.",
  "every scene of both solvers with library forces and laws, any number of steps",
  "all particle configurations and runs",
  [USL + "._g2p", AFL + "._g2p"])

p("C118", "Walls hold the points",
  "A point inside a box whose walls are DomainSDF planes enforced by SDFCollider stays inside, as long as no node moves more than one cell per step.",
  "every USL scene with library forces and laws in which the collider acts last, any velocities, stresses and number of steps",
  "the collider acts on nodes, not on points; whether points pass between them depends on the position relative to the lattice and on the kernel",
  ["hydraxmpm/forces/sdf_collider.py:SDFCollider.apply_grid_moments", "hydraxmpm/sdf/sdfcollection.py:DomainSDF", USL + "._g2p"])

p("C119", "Points out of reach do not matter",
  "What a step does to a material point (position, velocity, stress, history of its law, affine matrix) depends only on the points closer than the windows of the two kernels reach together (two, three or four cells for the linear, quadratic and cubic kernel), on the obstacles, the forces and the clock: a disturbance spreads by at most that much per step.",
  "every USL or ASFLIP scene with library forces and laws in which every body has its own law (and, for ASFLIP, the solver state of its own number), any two states that agree near the point, any number of steps",
  "points interact through shared nodal arrays of the whole domain, including clipped indices of nodes off the grid; a test compares a few scenes only",
  [USL + ".__call__", AFL + "._g2p", MAP])

p("C120", "Units do not matter",
  "A scene set up in other units of length, time and mass, with every number of it converted, gives the same simulation converted: the code holds no constant with a dimension.",
  "every USL scene with library forces, laws and obstacles, any three unit factors and number of steps",
  "a test compares a few runs in a few units; small constants matter only beyond some size and in some branch",
  [USL, "hydraxmpm/forces/sdf_collider.py:SDFCollider", "hydraxmpm/constitutive_laws/modifiedcamclay.py:ModifiedCamClay", "hydraxmpm/constitutive_laws/newtonfluid.py:NewtonFluid", "hydraxmpm/constitutive_laws/linearelastic.py:LinearElasticLaw", "hydraxmpm/sdf/sdfcollection.py"])

p("C121", "Free fall",
  "A stress-free body that nothing touches falls under gravity like a stone: after the time t its velocity is v + t g, it has moved by t v + t^2 g / 2 up to the error t dt g / 2 of the time stepping, and neither shape, volume, mass nor stress changed. Grid, kernel and blend have no influence.",
  "all scenes of bodies translating on their grid inside the box, any gravities, kernel, blend and number of steps; USL and ASFLIP",
  "a test drops one body in one grid with one blend for some steps and allows a tolerance",
  [USL, AFL, "hydraxmpm/forces/gravity.py:Gravity"])

p("C122", "The order of the additions does not matter",
  "Adding the contributions of the points to a node gives the same nodal mass, momentum and force whatever the order in which the hardware adds them: empty nodes stay empty, masses never become negative, and results of finite precision stay close to the exact sum, so that no node becomes faster than the points around it.",
  "all interaction caches, masses and velocities, all orders of addition (any binary tree), any precision",
  "the order of scattered additions on a GPU is not under control of a test; a run on one machine shows one order",
  [USL, AFL])

p("C123", "Energy balance of a step",
  "Without forces other than gravity the solver creates no energy: kinetic energy after a step plus the work the material absorbs (its stress power with the velocity gradient it is given) is at most the kinetic energy before plus the work of gravity along the drift, for every blend of PIC and FLIP; summed over a run, the kinetic energy gained is at most the work of gravity minus the work absorbed.",
  "all scenes with gravity, all stresses, laws and blends 0 <= alpha <= 1, any number of bodies, grids and steps",
  "the balance mixes quantities of particles and nodes in two transfers; tests see one scene, and only long runs show a slow gain of energy",
  [USL])

p("C124", "A yielding Cam-Clay step has one solution",
  "Whenever the trial stress lies outside of the yield surface the equations that the Cam-Clay update solves (yield condition, flow rule, hardening, hyperelastic pressure) have a solution with a non-negative plastic multiplier, it hardens on the wet side and softens on the dry side, and there is only one, so that a converged update is the update.",
  "all clays (also with stiffness limits), all stresses with positive pressure, preconsolidation pressures, velocity gradients and steps",
  "existence and uniqueness range over all pairs of multiplier and strain; a test only sees the pair the iteration ended at",
  ["hydraxmpm/constitutive_laws/modifiedcamclay.py:397-488"])

p("C125", "The Newton loops converge to the solution",
  "The damped and clamped Newton iterations of Cam-Clay and of the UEPI law come closer to the solution of their equations by a fixed factor with every step, with the regularised inverse and the exact Jacobian they use; the preconsolidation pressure after ten steps is that of the solution up to the corresponding error.",
  "all residuals near a regular zero; all yielding Cam-Clay steps on the wet side",
  "the rate of convergence is a statement about all starting points near all solutions; tests see the end of single runs",
  ["hydraxmpm/constitutive_laws/modifiedcamclay.py:490-527", "projects/unified_elasto_plastic_inertial_mcc/UEPI_MCC.py:428-456"])

p("C126", "A yielding elasto-plastic-inertial step has exactly one solution",
  "Whenever the trial stress lies outside of the surface at rest the coupled equations of the UEPI law (yield condition at the new inertial number, flow rule, hardening with the change of the inertial number, log-linear elasticity) have a solution with positive multiplier and positive pressures; every solution flows, and its pressure and hardening pressure lie between the trial pressure and the shifted hardening pressure. There is no second solution, so the result does not depend on how the Newton loop went.",
  "all parameters in range, all states with pressures of at least one unit, velocity gradients and steps",
  "existence is a statement about all pairs of unknowns; a test only sees the pair the iteration ended at",
  ["projects/unified_elasto_plastic_inertial_mcc/UEPI_MCC.py:324-471"])

p("C127", "Loading procedures apply what they name",
  "A numerical element test compresses its point by the total strain, within the total time and at the rate it prints, and reports the strains the point really has; replaying a measured record gives the point the strains of the record; samples of the data set called drained are sheared at constant lateral stress, those called undrained at constant volume, and each row of a sample pairs a stress with the strain it belongs to.",
  "all laws, strains, times, numbers of steps, records and Newton outcomes",
  "a plotted curve that is stretched by one n-th, replays unloading as loading or holds another stress looks plausible; that no law and no record escapes is a statement about all of them",
  ["projects/unified_elasto_plastic_inertial_mcc/sip_setup.py:51-107,121-163", "projects/unified_elasto_plastic_inertial_mcc/results_london_clay_trx.py:50-59", "projects/mcc_trx_inverse/mcc_trx_data_gen.py:67-125", "hydraxmpm/element_tests/triaxial_test.py:TriaxialTest.run"])

p("C128", "A parameter study varies what it names",
  "Every sample of the collapse study lies within the bounds; the mode varying the angle has a level floor of friction one half, the one varying friction a level floor whose friction has the sampled base, spread and wave lengths, the one varying geometry bumps of the sampled roughness and wave lengths with friction one half; no other parameter matters, the points start with the stress that belongs to the tilt, and the stored metadata determine the sample.",
  "all random numbers, modes, places and parameter vectors within the bounds",
  "the study is a hundred runs of three seconds each; what a parameter does not influence and what holds over the whole box of parameters cannot be read off them",
  ["projects/lorentz_collapse/collapse_run.py:23-168", "projects/lorentz_collapse/floor.py:137-159", "projects/lorentz_collapse/collapse_setup.py:52-90,389-413"])

p("C129", "Inside a regularly filled body only the divergence of the stress moves the points",
  "Where the points form a lattice with the spacing of the grid, the internal force at a node is minus the volume of a cell times the divergence of the stress, the nodes carry the mass of a cell and an affine velocity field exactly; so under uniform stress the inside of a body falls freely, and a body at rest whose stress carries its weight stays at rest, over any number of steps as far as the rim has not reached it.",
  "all grids in two and three dimensions, kernels, lattice arrangements with any number of points per cell, masses, volumes, stresses varying linearly, affine velocity fields, gravities, time steps and numbers of steps",
  "every finite run mixes these errors with those of the rim; that they vanish for every arrangement and kernel, and that they do not for irregular ones, is a statement about sums of kernel gradients",
  ["hydraxmpm/solvers/usl.py:422-737", "hydraxmpm/shapefunctions/mapping.py", "hydraxmpm/forces/gravity.py"])

p("C130", "An element test predicts the material points of a simulation",
  "Whatever happened to a material point of a simulation, an element test of the same law that starts from the same state and is given the velocity gradients and time steps of the point ends with the same stress, law state and volume.",
  "all scenes with the forces of the package, both solvers, dimensions, laws, points, numbers of steps, histories of the velocity gradient and time steps",
  "element tests are used to calibrate the laws for simulations; a finite comparison cannot show that the two programs follow the same law along every history, and with laws of the density they do not",
  ["hydraxmpm/element_tests/driver.py", "hydraxmpm/solvers/usl.py:565-772", "hydraxmpm/constitutive_laws/newtonfluid.py", "hydraxmpm/constitutive_laws/linearelastic.py"])

p("C131", "Element tests of the inertial clay end where the figures say",
  "A step of the elasto-plastic-inertial law leaves the state unchanged exactly at the inertial steady state; every pressure and isochoric rate of deformation has exactly one such state, and so have every undrained test and every drained test on a path steeper than the critical state line; faster shearing is stronger. The steady state lies on the lines drawn for it, at the inertial number computed for the figure.",
  "all parameters, states, rates of deformation, time steps, volumes and confining stresses",
  "steady states are limits that no finite test reaches; existence and uniqueness are statements about all real pressures; the figure computes its own inertial number, which no test compares with that of the law",
  ["projects/unified_elasto_plastic_inertial_mcc/UEPI_MCC.py:378-471", "projects/unified_elasto_plastic_inertial_mcc/result_trx.py:238-250", "projects/unified_elasto_plastic_inertial_mcc/plotting.py:420-490"])

p("C132", "The figures of the theory show the law",
  "The yield surfaces, arrows of plastic flow, compression, swelling and steady state lines of the theory figures are those of the law: surfaces are its ellipses, arrows are its flow and normal where a right angle is drawn, lines are straight with the given slopes and pass through the marked points, straight segments between two points of a line are the line; data on a compression line calibrate to that line.",
  "all parameters, pressures, inertial numbers, overconsolidation ratios and data sets with two different pressures",
  "the figures are looked at, not tested; normality is a statement about derivatives and straightness one about all points of a curve",
  ["projects/unified_elasto_plastic_inertial_mcc/theory_ys_plot.py", "projects/unified_elasto_plastic_inertial_mcc/theory_I_ys_plot.py", "projects/unified_elasto_plastic_inertial_mcc/theory_sl_plot.py", "projects/unified_elasto_plastic_inertial_mcc/theory_iss.py", "projects/unified_elasto_plastic_inertial_mcc/plotting.py:492-570", "projects/unified_elasto_plastic_inertial_mcc/results_london_clay_iso.py:105-135"])

p("C133", "Undrained tests of Cam-Clay end at the critical state",
  "Under sustained shearing at constant volume, from any admissible state, wet or dry, Modified Cam-Clay tends to the critical state: the pressure is the one the critical state line gives for the volume, the preconsolidation pressure is twice that, the deviatoric stress is M times it and points along the shearing. So undrained triaxial tests of the element test module, in compression or extension, end there if they are run for long enough, however many steps are recorded.",
  "all clay parameters, admissible initial states, directions and rates of shearing and time steps",
  "the critical state is a limit of infinitely many implicit plastic steps that no finite test reaches; a test shows one path for one size of steps",
  ["hydraxmpm/constitutive_laws/modifiedcamclay.py:345-565", "hydraxmpm/element_tests/triaxial_test.py:37-168", "hydraxmpm/element_tests/driver.py:12-47"])

p("C134", "A saved simulation can be continued",
  "A process that records its run may die at any moment, also in the middle of a save. A second process that opens the recorder with overwrite=False, loads the solver and the last complete step with load_simulation and goes on ends with the same state, and leaves the same files, as the run that was never interrupted.",
  "all solvers, states, selections of recorded steps, moments of interruption and lengths of the runs",
  "it is a statement about all interruptions of all runs; tests save and load one state",
  ["hydraxmpm/common/sim_io.py:17-152", "hydraxmpm/common/simstate.py:76-97", "hydraxmpm/solvers/usl.py:60-107", "hydraxmpm/grid/grid.py:28-40"])

p("C135", "Sustained shearing brings Drucker-Prager material to failure",
  "When a Drucker-Prager material is sheared at constant volume for long enough, in any direction and from any admissible state, its shear stress becomes the strength of the cone and its direction tends to that of the shearing; without hardening and dilatancy, undrained triaxial tests end at the stress difference sqrt(3)(mu_1 p + mu_2 c0), whatever the numbers of steps and rows. Material that dilates gains strength.",
  "all sound parameters, shearing directions, initial states, step sizes, numbers of steps and strides",
  "a limit over unboundedly many steps, for all initial stresses and directions; tests run one short path",
  ["hydraxmpm/constitutive_laws/druckerprager.py:118-214", "hydraxmpm/element_tests/triaxial_test.py:37-168", "hydraxmpm/element_tests/driver.py:12-47"])

p("C136", "Obstacles at rest take energy and never give any",
  "In a USL simulation under gravity with rigid obstacles that do not move, the kinetic energy at the end plus the work absorbed by the material on the way is at most the kinetic energy at the start plus the work of gravity: no obstacle, with or without friction, gives energy to the bodies.",
  "all scenes of bodies on grids of their own, laws, stresses, blends of PIC and FLIP, obstacles and numbers of steps",
  "energy has to be followed through contact, friction and both transfers for every state; a test sees the energy of a few runs",
  ["hydraxmpm/forces/sdf_collider.py:26-237", "hydraxmpm/solvers/usl.py:470-720", "hydraxmpm/sdf/sdfobject.py:111-184"])

p("C137", "Damping never gives energy",
  "In a USL simulation with Cundall damping on the grid, listed after gravity and with a coefficient between zero and one, the kinetic energy at the end plus the work absorbed by the material on the way is at most the kinetic energy at the start plus the work of gravity, with or without obstacles at rest.",
  "all scenes of bodies on grids of their own, laws, stresses, blends of PIC and FLIP, time steps, coefficients, obstacles and numbers of steps",
  "damping may turn the velocity of a node within a step, so that the sign of its power is not obvious; a test sees the energy of a few runs",
  ["hydraxmpm/forces/damping.py:29-100", "hydraxmpm/solvers/usl.py:470-720", "hydraxmpm/forces/sdf_collider.py:26-237"])

p("C138", "Drained tests of Cam-Clay end at the critical state",
  "A drained triaxial test of Modified Cam-Clay, in compression or extension, with the lateral stress or the mean stress held, that is run for long enough ends as close as desired to the critical state on its stress path: the axial stress differs from the lateral stress by M times the mean stress, and the preconsolidation pressure is twice the mean stress. No further shearing changes this state.",
  "all material parameters, axial rates, time steps, stresses held, axisymmetric starting states inside the yield surface whose preconsolidation pressure is at least the stress held, lengths of the test and sampling strides",
  "the statement is about the limit of infinitely many implicit steps, each of them solving for the lateral rate and for the return to the yield surface; a test runs a few thousand steps of a few clays and compares with a tolerance",
  ["hydraxmpm/element_tests/triaxial_test.py:37-167", "hydraxmpm/element_tests/driver.py:12-47", "hydraxmpm/constitutive_laws/modifiedcamclay.py:345-565"])

p("C139", "Free motion in the affine solver creates no energy",
  "A step of the ASFLIP solver without FLIP blending and without forces, of bodies without stress, does not increase the energy of the motion: the kinetic energy of the points together with the energy of the affine motion that the solver stores with every point.",
  "all numbers of bodies and grids, point positions inside the boxes, velocities, masses and stored affine matrices, quadratic and cubic shape functions, time steps and speed limits",
  "the energy after the transfer depends on sums over all nodes of all stencils and on the velocity gradients of every point, and the gain of a step is below one percent; a test sees single scenes, and in most of them energy decreases",
  ["hydraxmpm/solvers/usl_asflip.py:179-290", "hydraxmpm/solvers/usl_asflip.py:292-560", "hydraxmpm/shapefunctions/quadratic.py"])

p("C140", "Automatic differentiation returns derivatives",
  "Where a program of the code is differentiable in each of its operations, forward mode returns its derivative and reverse mode its gradient. In particular the matrices that the Newton loops of the two clay laws get from jax.jacfwd are the Jacobians of their residuals, so that the loop of the Cam-Clay law with these matrices converges to the solution; and the derivative of the safeguarded inverse is that of the inverse wherever this is below the clip.",
  "all programs over the arithmetic operations, exp, log, sqrt, maximum, minimum, where and stop_gradient; all parameters, trial states and iterates of the residuals",
  "a derivative is a limit; a finite difference at sampled points agrees only up to a tolerance and misses the points where branches meet",
  ["hydraxmpm/constitutive_laws/modifiedcamclay.py:454-500", "projects/unified_elasto_plastic_inertial_mcc/UEPI_MCC.py", "hydraxmpm/utils/math_helpers.py:595-622", "hydraxmpm/element_tests/triaxial_test.py:77-100"])

p("C141", "Gradients are numbers",
  "The derivatives that the library computes, or lets users compute, of its stress and strain measures, of the residuals of its laws and of the stress of an element test are finite numbers at every state, isotropic stress and material at rest included.",
  "all states, all programs that contain the measures anywhere, all cotangents and directions",
  "the result depends on how infinities and zeros meet in the backward sweep, in branches that are not taken; a test of the value or of a gradient at a generic state passes",
  ["hydraxmpm/utils/math_helpers.py:105-139", "hydraxmpm/utils/math_helpers.py:195-222", "hydraxmpm/utils/math_helpers.py:595-644", "hydraxmpm/constitutive_laws/modifiedcamclay.py:428-449", "hydraxmpm/constitutive_laws/mu_i_rheology.py:152", "hydraxmpm/constitutive_laws/druckerprager.py:144", "hydraxmpm/element_tests/triaxial_test.py:77-100"])

p("C142", "Contact normals and velocities are numbers",
  "At every node and every point, each obstacle has a normal whose components are finite numbers, so that contact and the transfer back to the points return finite velocities wherever they are given finite ones.",
  "all obstacles in all poses, all positions, velocities, weights, masks and masses",
  "the exceptional positions are single points, lines and circles, where the derivative of a norm at zero is infinite and is multiplied by zero; tests at generic positions pass, and whether a node or point of a regular layout lies exactly on an axis depends on the layout",
  ["hydraxmpm/sdf/sdfobject.py:89-98", "hydraxmpm/sdf/sdfobject.py:146-156", "hydraxmpm/sdf/sdfcollection.py:52-274", "hydraxmpm/sdf/sdfcollection.py:374-380", "hydraxmpm/sdf/sdfcollection.py:520-538", "hydraxmpm/forces/sdf_collider.py:26-59", "hydraxmpm/forces/sdf_collider.py:211-237", "hydraxmpm/solvers/usl.py:600-689"])

p("C143", "Forces at the material points act",
  "The external forces given to material points when they are created accelerate them, and damping of the material points (is_apply_on_grid=False) slows them down.",
  "all scenes, all forces at the points, all damping coefficients, both solvers, any number of steps",
  "a test of the damping hook or of the scatter alone sees the effect; that the forces are cleared in between, so that no call of the solver depends on them, is a statement about pairs of whole runs",
  ["hydraxmpm/solvers/usl.py:209-230", "hydraxmpm/solvers/usl.py:456-507", "hydraxmpm/forces/damping.py:103-134", "hydraxmpm/material_points/material_points.py:159-186", "hydraxmpm/solvers/usl_asflip.py:217-281"])

p("C144", "The calibration determines the parameters it reports",
  "The measured curve decides about each of the five parameters of Cam-Clay that the calibration reports: the loss depends on each of them, the optimiser moves each of them, and a curve predicted with other values is another curve.",
  "all parameters within the bounds, all measurements and confining pressures, any number of chains and of steps of the optimiser, all triaxial tests",
  "a calibration run always prints five numbers and a falling loss; that one of them is the number drawn at the start can only be seen by comparing all possible values of it over a whole test",
  ["projects/mcc_trx_inverse/mcc_trx_inverse.py:63-117", "projects/mcc_trx_inverse/mcc_trx_inverse.py:156-210", "projects/mcc_trx_inverse/mcc_trx_inverse.py:234-248", "hydraxmpm/constitutive_laws/modifiedcamclay.py:198-258", "hydraxmpm/constitutive_laws/modifiedcamclay.py:345-562", "projects/mcc_trx_inverse/mcc_trx_data_gen.py:58-120"])

p("C145", "Elastic deformation gives back the work put into it",
  "A closed history of elastic strains leaves the stress where it was and takes no work, so that no cycle of loading and unloading inside the yield surface is a source of energy.",
  "all materials of linear elasticity, Drucker-Prager, Cam-Clay and the inertial clay, all elastic states, closed strain paths of any number of steps",
  "a test of one loading and unloading line finds no loss; the cycles that give off energy join compression and shear, and the bound is over all closed paths",
  ["hydraxmpm/constitutive_laws/linearelastic.py:100-114", "hydraxmpm/constitutive_laws/druckerprager.py:118-207", "hydraxmpm/constitutive_laws/modifiedcamclay.py:69-81", "hydraxmpm/constitutive_laws/modifiedcamclay.py:386-438", U + ":UEPI_MCC._update_stress"])
p("C146", "Plastic deformation takes energy",
  "The part of a strain increment that is not stored as elastic strain never gives off work, and over any history the work put into a frictional material is at least the increase of its elastic energy.",
  "all materials and states of Drucker-Prager, Cam-Clay and the inertial clay, all strain increments, histories of any length",
  "whether work is dissipated depends on pressure, cohesion, dilatancy and on the branch of the return map; the sign holds or fails on regions of a continuum",
  ["hydraxmpm/constitutive_laws/druckerprager.py:118-207", "hydraxmpm/constitutive_laws/modifiedcamclay.py:ModifiedCamClay._update_stress", U + ":UEPI_MCC._update_stress"])

p("C147", "Splitting a material point changes nothing",
  "Replacing a material point by several at the same place that share its mass and volume, each with its velocity, stress and deformation, gives the same nodal fields and the same motion: the parts stay together and behave as the point did.",
  "all scenes of any number of bodies, grids, couplings, obstacles and forces, all ways to split the points, any number of steps, both kernels",
  "a metamorphic property between two programs of different array sizes; a test compares one scene with one way to split it",
  ["hydraxmpm/solvers/usl.py:422-516", "hydraxmpm/solvers/usl.py:565-737", "hydraxmpm/solvers/usl_asflip.py:210-283", "hydraxmpm/solvers/usl_asflip.py:462-477", "hydraxmpm/material_points/material_points.py:232-235", "hydraxmpm/constitutive_laws/druckerprager.py:88-116", "hydraxmpm/constitutive_laws/modifiedcamclay.py:345-372"])

p("C148", "Stress responds continuously to the motion",
  "A small change of the velocity gradient, the density or the state of a point changes the stress returned by a law by little: no law jumps at the onset of yielding, between branches of the return or where material separates.",
  "all parameters, all velocity gradients, stresses, strains, densities and time steps, all laws",
  "a jump is a statement about limits at a surface of measure zero; a test evaluates single states and never sits on both sides of it",
  ["hydraxmpm/constitutive_laws/linearelastic.py:100-114", "hydraxmpm/constitutive_laws/newtonfluid.py:90-126", "hydraxmpm/constitutive_laws/mu_i_rheology.py:134-190", "hydraxmpm/constitutive_laws/druckerprager.py:118-207", "hydraxmpm/constitutive_laws/modifiedcamclay.py:375-562"])

p("C149", "Results depend continuously on the initial state",
  "Small changes of the initial positions, velocities, masses, volumes, stresses, of gravity or of the time step change the result of a run of any number of steps by little; no exception appears or disappears.",
  "all scenes of elastic, fluid, mu(I) and Drucker-Prager bodies with gravity and obstacles, all numbers of steps, all continuous families of initial states",
  "a limit over all nearby initial states and any number of steps; a test compares two runs, and small differences in one comparison say nothing about others",
  ["hydraxmpm/shapefunctions/linear.py:37-70", "hydraxmpm/shapefunctions/quadratic.py:43-101", "hydraxmpm/shapefunctions/cubic.py:60-198", "hydraxmpm/solvers/usl.py:422-516", "hydraxmpm/solvers/usl.py:518-563", "hydraxmpm/solvers/usl.py:565-737", "hydraxmpm/solvers/usl.py:739-772", "hydraxmpm/forces/damping.py:81-98", "hydraxmpm/forces/sdf_collider.py:165-237"])

p("C150", "Solids do not feel the rate",
  "Elastic, Drucker-Prager and Cam-Clay material answers to the path of the deformation, not to its speed: an element test at c times the rate in steps of a c-th of the length, drained or undrained, records the same states. Fluid, mu(I) and elasto-plastic-inertial material answers to the speed through its rate terms only: c times as fast is c times the viscosity, or c times the grain size and a c-th of the regularising rate.",
  "all laws, all parameters, all deformations, all time steps, all factors c, all schedules of element tests of any length",
  "a law about all deformation histories and all factors; a test can compare two speeds of one test, to a tolerance that also hides small rate effects",
  ["hydraxmpm/constitutive_laws/linearelastic.py:LinearElasticLaw._update_stress", "hydraxmpm/constitutive_laws/druckerprager.py:DruckerPrager._update_stress", "hydraxmpm/constitutive_laws/modifiedcamclay.py:ModifiedCamClay._update_stress", "hydraxmpm/constitutive_laws/newtonfluid.py:NewtonFluid", "hydraxmpm/constitutive_laws/mu_i_rheology.py:MuI_LC._update_stress", "projects/unified_elasto_plastic_inertial_mcc/UEPI_MCC.py", "hydraxmpm/element_tests/triaxial_test.py:TriaxialTest.run"])

p("C151", "A short time step changes little",
  "As the length of a step goes to zero, the state after the step approaches the state before it, so that the result of a run depends on the time simulated and not on the number of steps it is cut into.",
  "all scenes of elastic, fluid, mu(I) and Drucker-Prager bodies with gravity, all states, all numbers of steps",
  "a limit over all step lengths in every scene; a test picks some step lengths, and a loss of one percent per step passes for numerical error",
  ["hydraxmpm/solvers/usl.py:422-516", "hydraxmpm/solvers/usl.py:518-563", "hydraxmpm/solvers/usl.py:565-737", "hydraxmpm/solvers/usl.py:739-772"])

p("C152", "Finer grids are more accurate",
  "The error of the transfers goes to zero with the size of the cells: a smooth field given at the nodes is interpolated to the points with an error of second order and its gradient with an error of first order, and a step of bodies that carry a smooth velocity field moves the points along the field, with its velocity and its velocity gradient, up to an error of first order.",
  "all kernels, all boxes, cell sizes, points and smooth fields; all scenes of stress-free bodies under gravity and all arrangements of points",
  "a bound for all smooth fields, points and cell sizes; a convergence study measures some slopes for one field",
  ["hydraxmpm/shapefunctions/linear.py:37-70", "hydraxmpm/shapefunctions/quadratic.py:43-101", "hydraxmpm/shapefunctions/cubic.py:60-198", "hydraxmpm/solvers/usl.py:422-516", "hydraxmpm/solvers/usl.py:565-737"])

p("C153", "Granular slopes rest below their friction angle and flow above it",
  "On a long slope the weight asks for a shear stress of tan(theta) times the normal stress at every depth. Under the mu(I) law a layer flowing parallel to its bed supplies it at exactly one steady shear rate: one that vanishes with the regularisation while tan(theta) is below mu_s, one set by particle size and pressure between mu_s and mu_d, and none above mu_d, where the layer accelerates.",
  "all parameters of the law with mu_s <= mu_d, all compressed states, all slopes and shear rates",
  "existence and uniqueness of a rate over all slopes and parameters; a run shows one slope with one set of parameters",
  ["hydraxmpm/constitutive_laws/mu_i_rheology.py:134-190"])

p("C154", "Critical steps tame the stresses wherever the points lie",
  "With steps up to a safety factor times the critical step, one step can turn the stresses of a body into at most a fixed multiple of their energy: the kinetic energy and the energy of the strain of the step are bounded by that of the stresses and of the motion before, with factors that depend on the kernel and the safety factor only, not on where the points lie in the cells or how many share a node. Points on the edge of a body or of a cell do not explode.",
  "all kernels, safety factors, blends, arrangements and numbers of points, stresses, masses and volumes; 2D and 3D",
  "worst case over all positions of all points relative to the grid; runs place points at a few positions, and the bad positions are rare",
  ["hydraxmpm/solvers/usl.py:422-516", "hydraxmpm/solvers/usl.py:565-737", "hydraxmpm/shapefunctions/linear.py:37-70", "hydraxmpm/shapefunctions/quadratic.py:43-101", "hydraxmpm/shapefunctions/cubic.py:60-198", "hydraxmpm/constitutive_laws/linearelastic.py:130-152"])

p("C155", "Drucker-Prager material fails by Coulomb's law",
  "On every plane through connected Drucker-Prager material the shear stress is at most the friction coefficient times the normal stress plus the cohesion, whatever the deformation; up to that line every load is held at rest. So cohesionless material stands on slopes up to the friction angle it was calibrated with, and on none steeper.",
  "all deformations, states, planes, loads, friction angles, slopes",
  "a limit over all planes, deformations and states; runs show single collapses, and the angle a run stops at mixes the law with the motion",
  ["hydraxmpm/constitutive_laws/druckerprager.py:105-207", "projects/collapse/collapse.py:19-27", "projects/lorentz_collapse/collapse_setup.py:115-136"])

p("C156", "The figure of the Cam-Clay example shows the lines of its clay",
  "In the figure of the triaxial example the lines labelled normal consolidation, critical state, swelling line and failure envelope are those of the clay that is tested, at every pressure shown. A state drawn on the normal consolidation line is normally consolidated, one drawn on the critical state line is critical, and the two panels agree on which states are critical.",
  "all clays, pressures, confinements, overconsolidation ratios and tests; all recorded states",
  "a picture: each line is drawn through two points, and whether it is right in between or shifted by the change of units cannot be read off runs of the code",
  ["projects/mcc_trx/mcc.py:90-146", "hydraxmpm/constitutive_laws/modifiedcamclay.py:84-106", "hydraxmpm/constitutive_laws/modifiedcamclay.py:198-258"])

p("C157", "The domain only has to be large enough",
  "Enlarging the computational domain, cutting unused parts off it or changing its padding does not change the result of a simulation, as long as the nodes stay on the same lattice and the windows of all points lie inside. Calls that fail, fail in the same way.",
  "all scenes with any laws, the forces of the package, obstacles with and without friction, both solvers, all kernels, any number of steps; all pairs of grids on one lattice",
  "every choice of domain is another input; tests use one domain, and a wrong stride or clipped index shows only on grids of other shapes",
  ["hydraxmpm/grid/grid.py:39-75", "hydraxmpm/shapefunctions/mapping.py:133-229", "hydraxmpm/solvers/usl.py:232-243"])

p("C158", "A scene can be placed anywhere in the grid, by whole cells",
  "If all bodies and obstacles of a scene are moved by a whole number of cells in a grid that stays where it is, the simulation gives the same result, moved by as much: same velocities, stresses, deformations and states of the laws, same errors.",
  "all scenes of the package, all displacements by whole cells that keep the windows of the points inside the grid, any number of steps",
  "a statement about pairs of inputs; scenes are tested in one place only",
  ["hydraxmpm/shapefunctions/mapping.py:133-229", "hydraxmpm/sdf/sdfobject.py:111-178", "hydraxmpm/solvers/usl.py:113-189"])

p("C159", "A plane simulation is a slice of a simulation in space",
  "A body of space that repeats a plane body in every layer of cells, with gravity in the plane and no shear across it, moves like the plane body: in every step the points in the depth of the slab get the velocity, place, velocity gradient, deformation gradient and stress of the points of the plane below them, no velocity across the plane, and the same multiple of their volume, as far as the disturbance from the faces of the slab has not reached them.",
  "all pairs of plane and spatial bodies of this kind, all kernels, any thickness and any heights of the points in a cell, any gravity in the plane, any number of steps",
  "compares runs in two and in three dimensions, for all arrangements of points in the plane; a branch on the dimension that is wrong for one component shows only in such a comparison",
  ["hydraxmpm/solvers/usl.py:448-509", "hydraxmpm/solvers/usl.py:587-729", "hydraxmpm/shapefunctions/mapping.py:105-199"])

if __name__ == "__main__":
    out = os.path.join(os.path.dirname(os.path.abspath(__file__)), "..", "properties.jsonl")
    with open(out, "w") as f:
        for r in P:
            f.write(json.dumps(r) + "\n")
    print(len(P), "properties")
