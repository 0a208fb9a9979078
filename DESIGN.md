# Formal model of HydraxMPM in Lean 4

The code in `/repo/hydraxmpm` is read as text and modelled function by function.
Nothing of it is executed. The properties are in `properties.jsonl` (C01, C02, ...),
the status of each is in `MANIFEST.json`.

## Layout

| directory | content |
|---|---|
| `lean/Verif/Model/` | the model. One module per source file (or group). Every definition cites file and lines |
| `lean/Verif/Spec/` | small specifications that do not use model helpers (others stand next to their theorems in namespace `Hydrax.Spec`) |
| `lean/Verif/Lemmas/` | helper lemmas |
| `lean/Verif/Props/` | the property theorems, each with a concrete non-trivial `example` |
| `tools/props.py`, `tools/claims.py`, `tools/regen.py` | sources of `properties.jsonl`, of `MANIFEST.json`, of `lean/Verif.lean` and of the generated table below |
| `tools/axioms.py` | lists the axioms of every manifest theorem (`tools/axioms.json`) |
| `tools/mutate.py`, `tools/logmut.py` | mutation tests of the theorems |
| `seeded/LOG.jsonl` | mutation-test log |

## Trusted base

* Lean 4.33.0 kernel and the Mathlib definitions used in statements.
* Axioms: at most `propext`, `Classical.choice`, `Quot.sound`; the generated table at the end says which theorem uses
  fewer. No own axioms, no `sorry`, no `native_decide`, no `bv_decide`.
* That the model says what the code says. This is checked by reading; the comments of the definitions give the lines.
  `Verif/Conformance.lean` also runs the model on the inputs of `/repo/tests` and compares with the numbers expected there.
  Those tests are older than the code (constructor arguments, padding and the sign of `L` have changed since), so the inputs
  are translated; the expected `L` of `test_usl.py` is transposed just as the code has it.
* **Arithmetic**: JAX float32/float64 arithmetic is replaced by exact arithmetic in
  an arbitrary linearly ordered field (so the model also runs on `ℚ`) or in `ℝ` where `sqrt`, `exp`,
  `log`, powers occur. Rounding, overflow, NaN are not modelled, with the exception of C61
  (grid size in doubles), C109 (number of steps in doubles), C112 (half precision), C113-C115 (rounding to p bits), C122 (order of additions), C141 and C142 (infinities and NaN in derivatives and contact). Division by zero and roots of negative numbers are excluded by
  stated hypotheses, not by the totalised Lean functions.
* **Arrays**: an array of static shape `(n, ...)` is a function `Fin n → ...`; nodal arrays are
  functions `ℕ → ...` read on `0..num_cells-1` (that the indices are in range is theorem C05).
  `x.at[idx].add(v)` is the sum over all slots with that index
  (duplicates add up, order irrelevant in exact arithmetic).
* **Python errors** are values of `Except PyErr`; `jit`, `vmap`, `lax.scan`, `lax.cond` have their
  documented functional meaning. Equinox modules are immutable records.
* Automatic differentiation: where the code differentiates with `jax.grad/jacfwd`, the result is an arbitrary
  function parameter of the model, so the theorems hold for any value of it (C83 and C125 assume that it is the derivative where
  there is one). C140 and C141 model the derivatives themselves: programs over the primitives with the forward and reverse rules
  that JAX documents for them. These rules are trusted, and C141 trusts in addition that a `cond` under `vmap` evaluates both branches
  and that the backward sweep of the branch not taken starts from zeros. `expm`, the random
  generator and the transcendental functions (`MathFns`) are parameters too; the last are instantiated by the real functions in
  `realFns`.

## What is modelled

| source (under `hydraxmpm/`) | model | simplifications |
|---|---|---|
| `grid/grid.py` | `Model/Grid`, `Model/Float` | sizes are naturals; a negative size becomes 0 |
| `shapefunctions/{linear,quadratic,cubic}.py` | `Model/ShapeFn` | none |
| `shapefunctions/mapping.py` | `Model/Mapping` | flat index `Fin (n*w)` |
| `solvers/usl.py` | `Model/Usl` (one coupling), `Model/Step` (whole call) | indices of couplings in range; shapes static |
| `solvers/usl_asflip.py` | `Model/Asflip` | the non-MLS branch, which always raises, is the error value |
| `solvers/{solver,coupling}.py`, `common/simstate.py` | `Model/Step` | |
| `forces/*.py` | `Model/Forces` | hooks as functions on the scene |
| `constitutive_laws/*.py` | `Model/Laws`, `Model/CamClay`, `Model/LawTable` | Jacobian of Newton's method and the NaN test are parameters |
| `material_points/material_points.py` | `Model/MaterialPoints`, `Model/Derived` | `jnp.linalg.svd` is a parameter |
| `utils/math_helpers.py` | `Model/MathHelpers` | `*_stack` versions only where they differ |
| `utils/generate_body.py` | `Model/Generate` | random points are a parameter |
| programs given to `jax.jacfwd`, `jax.grad` | `Model/AutoDiff`, `Model/IEEE`, `Model/SdfDiff` | expressions without sharing; JAX's rules; no rounding, overflow or signed zeros |
| `sdf/sdfobject.py`, `sdf/sdfcollection.py` | `Model/Sdf`, `Model/SdfMore` | `jax.grad` is a parameter |
| `sdf/gridsdf.py` | `Model/SdfMore` | the table as loaded; reading the file left out |
| `common/builder.py` | `Model/Builder` | registered objects opaque; `summary` left out |
| `common/sim_io.py` | `Model/SimIO` | encoding of one leaf, path joining, messages left out |
| `common/rerun.py`, `common/vtk_io.py` | `Model/Visual` | what is handed to the drawing libraries; found contours are an input |
| `element_tests/*.py` | `Model/ElementTest` | one material point |
| `projects/unified_elasto_plastic_inertial_mcc/UEPI_MCC.py`, `sip_setup.py:SIPConfig.gamma` | `Model/Uepi` | `get_ps_I` and plotting left out |
| rounding of `usl.py`, `usl_asflip.py`, `driver.py` | `Model/Rounding`, `Model/FloatScatter` | clock, drift, stretch, nodal sums and velocity only; unbounded exponents |
| `projects/lorentz_collapse/floor.py` | `Model/Floor` | `jnp.pi` is a parameter |
| `projects/{collapse,lorentz_collapse,two_sphere_impact,mcc_trx_inverse}` | `Model/Scripts`, `Model/Calibration` | solver and optimiser are any functions; the calibration also with its test, loss and Adam |
| `projects/mcc_trx/mcc.py` | `Model/TrxFigure` | reference lines and markers of the two stress panels; limits, labels and the panels over strain are left out |

Not modelled: what Rerun, PyVista, scikit-image and matplotlib do with what `common/rerun.py` and `common/vtk_io.py` hand to them, `sdf/sdfmorph.py` and other commented-out code,
`jaxtyping` run-time checks, the plotting and data files of the scripts in `projects/`.

## Plan per property

| id | model | proof |
|---|---|---|
| C01-C04 | three 1D kernels, tensor product, `ShapeFunctionMapping.compute` | case split on the cell, polynomial identities, product of sums |
| C05-C07 | `GridDomain.create`, `ravel_multi_index(clip)`, `position_stack` | induction over dimension, floor arithmetic |
| C08-C10, C12, C13, C20, C22 | `_p2g`, `_integrate_grid`, `_g2p` of USL for one coupling, then whole calls, iterated steps | exchange of finite sums, induction over couplings and steps, Jensen |
| C11, C21 | ASFLIP transfers | as above; clamp by norm estimate; refutation by witness |
| C14, C73 | both `_g2p` | C03; USL is transposed: refuted, partial |
| C15-C19, C23, C63, C66 | whole `__call__` on lists of bodies, grids, couplings, forces, laws (laws and forces as arbitrary functions with frame conditions proved for the real ones) | invariants by induction over couplings and steps |
| C24-C26, C28, C29, C67 | collider, damping, contact | algebra and norm inequalities |
| C27, C52-C55, C72 | builder as a state machine | invariants over arbitrary call sequences, refutations by witness |
| C30-C41, C62 | constitutive laws | algebra, induction over updates |
| C42-C45 | `math_helpers` | algebra |
| C46-C51, C68, C75-C77 | SDF objects, body generation | Euclidean geometry, infimum of distances (`Spec.distTo`) as specification |
| C56-C58, C70 | SimIO as a file-system state machine | refinement to a map step -> state, crash prefixes |
| C59-C60, C69, C71 | element test driver, nested scan | induction, `det (exp A) = exp (tr A)` |
| C61 | round-to-nearest-even double arithmetic on ℚ | error bound of one rounding, exactness on binary lattices, witness |
| C64-C65 | mapping, material points | algebra |
| C78 | `get_hencky_strain` | matrix exponential, injectivity on symmetric matrices by functional calculus |
| C79-C80 | `math_helpers`, properties of `MaterialPointState` | algebra |
| C74 | both `_g2p` | algebra on whole calls, witness |
| C83 | `get_normal` on the distance functions | Lipschitz estimate and derivative along the segment to the nearest point; uniqueness of gradients |
| C84-C86 | Cam-Clay update with arbitrary Jacobian | existence of multiplier and plastic strain, gradient of the yield function as derivative, induction over histories; refutations for the solver's volume and the elastic strain |
| C87-C88 | element test driver with each law, solver calls | damped Newton on affine residuals (factor 1/5 per iteration) and on residuals with one corner (elastic and yielding Drucker-Prager), induction over the steps of a test; invariants of the constitutive loop; refutations for mu(I) |
| C89 | the four cubic splines | sum over the nodes reduced to the four around the point, polynomial identities per cell; right derivatives of the pieces; refutations on the right wall, in the plane and for the solver |
| C90 | all laws, orthogonal matrices on tensors | invariants of rotated tensors agree, each update written with invariants and tensor algebra; Newton loops see invariants only |
| C91 | signed permutations of axes with a translation, permutations of points, acting on every part of the state | kernel weights per axis are even; the node set around a point maps onto the node set around its image; each stage of the step commutes; fold over couplings and forces; induction over steps; refutation at corners of domain walls |
| C92 | as C91 | the image of the run is the run of the image; evaluated witness with domain walls |
| C93 | law updates under a skew velocity gradient, spin of the two gathers on a rigidly rotating grid velocity | one step is the Jaumann increment of the stored strain; exact growth of its norm; induction over steps; derivative at dt = 0 compared with the rotated stress |
| C94 | whole USL step on a scene and on the boosted scene | relation between the two contexts kept by every stage: equal masses and forces, momenta differing by mass times velocity; partition of unity in the gather; evaluated witnesses for the refutations |
| C95-C96 | sampling of an obstacle and what is made of the vertices found (contour finders of scikit-image enter as the specification `EdgeVertex`: linear interpolation on an edge of the sampling grid with a change of sign) | floor and ceiling arithmetic; weighted combination of the two Lipschitz bounds; intermediate value theorem |
| C97-C98 | positions, radii, boxes and numbers handed to the drawing libraries | algebra; floor arithmetic of the grid size |
| C99-C100 | names and contents of files; the class flag of the viewer | induction over the sequence of calls |
| C101-C105 | the law of `projects/unified_elasto_plastic_inertial_mcc/UEPI_MCC.py`; Jacobian and NaN test of Newton's method are parameters | algebra of the surfaces, logarithms of the lines, induction over the history |
| C106-C107 | `projects/lorentz_collapse/floor.py` | averages of products of sines over growing intervals; Lipschitz bounds |
| C108-C112 | set-up, loops, calibration and saving in `projects/`; a solver and an optimiser are any functions, doubles and half precision as rationals with rounding | induction over loops, rounding error bounds |
| C113-C115 | `time + dt`, `position + dt v` and `(1 + dt l) F` with every operation rounded to p bits, exponents unbounded (no overflow, no underflow) | relative error of each rounding by induction; absorption below half a spacing |
| C116 | USL scene over any number of bodies | grid velocities are averages of point velocities, points receive averages of grid velocities |
| C117 | both solvers | strictly diagonally dominant matrices have positive determinant; induction over steps |
| C118 | USL scene with the collider as last force; a fixed flat wall as seen by the nodes within reach of the point; `DomainSDF` | the point moves by a convex mean of nodal displacements; nodes up to one cell above the wall do not move towards it; for the linear kernel nodes of one window differ by at most one cell, so either all are held or all are above the wall; induction over steps |
| C119 | the whole call of both solvers run on two scenes that agree on a set of points | relational invariant through every stage: nodes that no other point reaches collect the same sums, points connected to such nodes only read the same values; slots with weight lie within reach; induction over steps |
| C120 | USL scene with gravity, damping, smooth obstacles; three positive unit factors applied to every field by its dimension | the conversion commutes with every stage (scatter, integration, forces, gather, law, reset, caches); nodal masses must lie on the same side of the cutoffs, which is automatic if the unit of mass is kept; induction over steps; each law and obstacle separately |
| C121 | whole USL and ASFLIP scenes under any list of gravities, bodies translating with their grid and free of stress | nodal velocity before and after integration is `u` and `u + dt g` wherever a weight is not zero; partition of unity in the gather, zero sum of gradients for L; laws at rest stay at rest; induction over steps. Refuted for ASFLIP at the speed limit by a step evaluated in the kernel |
| C122 | `array.at[ids].add(values)` as an arbitrary binary tree of rounded additions over the contributions of a node (`Verif.Model.FloatScatter`) | induction over the tree: factors `(1 ± u)^depth` for terms of one sign, `((1 + u)^depth - 1) Σ|x|` for any; depth is below the number of terms; permutation of the leaves for the exact sum. Refuted bit by bit with three points in a cell and 24 bits |
| C123 | the whole USL call (`uslCall`), gravity, any laws | node by node: kinetic energy is convex and the change of the nodal momentum is the force times the step; the transfer back is a convex blend (Jensen); virtual work turns nodal forces into stress power (`sum_scatterAdd_mul`); sums over bodies, grids and steps. Refuted for a shared grid by evaluation |
| C124 | `mccResiduals`, `mccTrial` against the equations of the return map written down separately (`Spec.ReturnData.Solves`) | the flow rule gives the multiplier as a function of the plastic strain; the yield function along it changes sign between the trial state and the critical state (intermediate value theorem); on the wet side two solutions are ordered both ways. Three solutions on the dry side by two sign changes |
| C125 | `mccNewton`, `uepiNewton`, `inv2` and the residuals of the law | one damped step with the regularised inverse leaves at most 0.3 (0.65) of the distance if the linearisation is exact up to a tenth; continuity of the derivative gives such a neighbourhood (`newton_basin`); the Jacobian of the Cam-Clay residuals has positive determinant on the wet side (`clay_det`). The Jacobian near the solution is assumed exact (`Spec.ExactJac`); for the matrices of forward mode this is proved (`mcc_newton_ad_reaches_partial`, C140) |
| C126 | `uepiResiduals`, `uepiTrial` against the equations written down separately (`Spec.UepiStep`) | for a given multiplier the flow rule falls strictly with the hardening pressure, so it determines it, continuously (`implicit_zero`); along that curve the yield function is positive at rest and negative for large multipliers (`flow_far`), hence zero in between; of two contracting solutions the one with the larger multiplier hardens more and ends closer to the critical state (`uepi_order`), so its surface, strengthening included, is not smaller (`uepi_grows`: the strength grows less than the inertial number, the inertial number falls no faster than the root of the pressure) while its shear stress is; the two dry solutions were written down first and the material constants solved for (`exTwinPr`) |
| C127 | `sipTest`, `londonTest`, `datasetTest`: the settings with which the scripts call `TriaxialTest` (`sipDt`, `sipRate`, `recordDt`, `recordRates`, `DatasetMode`); the law is any law; pandas' reading of the sheet is a list of rows | `prescribed_axial_strain` of C88 evaluated for those schedules; the record by a sum over its rows; the lateral stress from `residual_eq` |
| C128 | `studySample`, `studyParams`, `studyFloor`, `studyStress`, `studyKey`: bounds, the three modes and the metadata of the collapse study; random numbers are given | the floor theorems of C106-C107 applied over the whole box of parameters (`Spec.InStudy`); independence by comparing the arguments; signs of the sines left of the column's edge |
| C129 | the transfer and the whole USL step as in C81-C94; `Spec.Filled` says that the points of a block form a lattice with the spacing of the grid | sums of kernel values and gradients over a lattice, axis by axis, from the partition of unity and its moments with the roles of nodes and points exchanged (`fill_axis`); the step through `usl_stages`; runs by induction with a margin that grows by twice the reach of the kernel and the distance a point may move |
| C130 | the whole call of both solvers, all laws of the table and `Driver.step`; `Spec.drive` feeds the driver with a history, `Spec.Alike` says that a law gives the same answer for two volumes and gradients | `call_point` reduces a call to one body; laws act point by point (`libLaw_point`); induction over the steps; the volumes agree since determinants multiply |
| C131 | steady states of the equations of a step (`Spec.UepiStep`) and of the code (`uepiUpdate`); the curves of `result_trx.py` and `plotting.py` | algebra of the step; intermediate value theorem for strictly decreasing functions of the pressure; the root of the residuals at a steady state given explicitly |
| C132 | the curves of the `theory_*.py` scripts, of `TriaxialDashboard.add_reference` and the calibration of `results_london_clay_iso.py` as functions over any field; straight segments on logarithmic axes as `logSegment` | derivative of the ellipse; laws of powers and logarithms; limits |
| C133 | repeated `mccUpdate` with one velocity gradient (`mccPath`), and `TriaxialTest.run` with the undrained option | every step moves `ln(2p/p_c)` towards 0 by the plastic volumetric strain (`shear_gap`); if it stopped short of 0 the multipliers would be summable and the stress along the shearing unbounded, against the yield surface (`shear_converges`); stress across the shearing is divided by `1 + 6 G lam`, whose logarithms are not summable; with residuals of at most δ the same holds up to a tolerance: `\|ln(2p/p_c)\| - ν c` with `c` the stress along the shearing decreases until it is small (`drift_settles`, `near_settles`), and yielding steps keep the state near the surface (`near_limit`) |
| C134 | the recording loop of the usage notes (`recordedRun`), pytrees as static part and leaves (`Pytree`), the recorder of C56-C58 | what the files of later steps contain makes no difference to the loop, since it creates them anew (`recordedRun_agree`); the interrupted process has touched only those (`recordedRun_writes`) |
| C135 | the update of C32 repeated with one velocity gradient (`dpPath`), and as the law of an undrained test | a step moves the deviatoric stress along the shearing and scales it by `1/(1+k)`; the parts along and across the shearing obey `c'(1+k) = c + a` and `d'(1+k) = d` as for Cam-Clay (C133). Strength bounded: `Σk = ∞`, so `d → 0`; unbounded: `d` is bounded. Dilatant: `Σk` would be bounded by the strength lost, so `c` would grow without bound |
| C136 | the collider hook on top of the stages of C123 (`UslGather`, `WallStages`) | at a node the velocity `w` left by an obstacle at rest satisfies `w·(v - w) ≥ 0` (`resting_wall_work`; normals not longer than one, any square root), which is all that the balance of C123 needs (`gather_energy`) |
| C137 | the damping hook between gravity and the colliders (`DampStages`) | per component of a node, the undamped force still pays for the energy, also when the velocity turns (`damped_node`, uses `a ≤ 1`); obstacles along the axes only scale components (`axis_walls_scale`); then `gather_energy` of C136 |
| C138 | the drained branch of the triaxial test (lateral rate by Newton) over infinitely many steps of `mccUpdate` | `Drained.Path`: the gap between `p_c` and its critical value shrinks at every yielding step, and every path yields after finitely many steps (`DrainedLimit`); the stress point is determined by `p_c` on the path; existence of the lateral rate by the intermediate value theorem on `[−a/2, a]` (`drained_step_exists`), and every such rate keeps the state wet and inside (`drained_step_keeps`) |
| C139 | `aflipCall` without forces and stress, all bodies and grids | scatter: Cauchy-Schwarz at the nodes with the velocities `v − B·d`, whose first moments vanish and second moments are the inertia of C04 (`affine_scatter`); gather: Bessel inequality for the weights and their gradients (`weighted_bessel`), with the relative gradients bounded by 3/2 of the inverse second moment (`fisher_le`); the factor 2/3 is the one of this bound |
| C140 | expression programs with JAX's forward and reverse rules (`Model/AutoDiff`), the residuals of both clay laws and the safeguarded inverse as such programs | induction over the program: each rule gives the Fréchet derivative of the operation (`Spec.Exact`); reverse mode is the transpose of forward mode; the residual programs evaluate to the residuals of the model (`mccProg_eval`, `uepiProg_eval`) |
| C141 | the same programs in an arithmetic with infinities and NaN (`Model/IEEE`) | without poles and edges both sweeps agree with exact arithmetic (`Spec.Tame`, induction); a NaN cotangent reaches every input, and a part with NaN derivative makes the whole derivative NaN (induction over the program); at zero the derivative of the root is infinite and is multiplied by zero |
| C142 | distances and poses as programs, contact, ghost velocity, mask and gather in the arithmetic with NaN (`Model/SdfDiff`) | each distance program evaluates to the distance of `Model/Sdf` and is free of poles outside the named places, so normals and contact agree with exact arithmetic; at the named places `nan_spreads` gives a NaN component, which every later operation keeps |
| C143 | whole calls of both solvers with the hooks of the package | the reset makes worlds that differ in point forces equal; zero point forces are an invariant of the hooks before the scatter, where the damping of points is the identity |
| C144 | the calibration script with test, loss and Adam (`Model/Calibration`) | the runs for two values of N are related by a factor of the mass; the relation holds initially and is kept by law, driver, lateral search and scan; the derivative of a constant is zero and zero moments stay zero |
| C145 | the elastic branches of the laws, work along a list of strains | linear elasticity: stress is a symmetric linear function of the sum of the strains; the clays: the states of an eight step cycle are computed for all materials, its work is `-4 G e^2` |
| C146 | the three branches of Drucker-Prager | deviatoric and volumetric part of the plastic strain per branch; histories by convexity of the elastic energy and induction |
| C147 | two scenes with different numbers of points (`Lemmas/SplitScene`) | sums over parts are sums over points; the relation between the two scenes is kept by every stage of a call, the grids being equal; induction over calls; for ASFLIP the affine matrices in the solver states are renumbered with the parts (`Props/SplittingAflip`); laws with a density of separation are followed along successful runs, using that the laws leave mass and volume alone (`Props/SplittingLaws`) |
| C148 | the laws on real numbers | continuity of each branch, equality of the branches where they meet; jumps by one-sided limits |
| C149 | calls of the USL solver on real numbers, in any number | families of states over a topological space: sums over stencils become sums over all nodes, whose terms are continuous; families of results fail alike or succeed together; contact without friction removes the part of the velocity that points into the obstacle, a continuous operation; induction over the calls |
| C150 | updates of all laws, element tests | rate times time is unchanged in strain and spin increments; element tests by a map of scans, the Newton search for the lateral rate scales with the rate |
| C151 | calls of the USL solver | exact value of a call with step zero from the stages of C12; limit by the continuity of C149; induction over the calls for motion whose nodal momenta cancel |
| C152 | weights, gradients, calls of the USL solver | remainder of the linearisation times weights with known moments (C03, C04) and sums of absolute gradients; nodal velocities are means of velocities within reach |
| C153 | `muIStress` in simple shear over the reals | closed form of the stress ratio, strictly increasing and continuous in the rate; intermediate values with an explicit upper rate; thresholds at half the coefficients |
| C154 | kernels, calls of the USL solver, `get_dt_crit` | squared slope of a smooth kernel is bounded by its value (case split on the pieces); Cauchy-Schwarz at the nodes for the forces and at the points for the gradients; Young's inequality for bodies in motion; evaluated witness for the linear kernel |
| C155 | `dpUpdate` over the reals, `compute_mu` of the collapse example | shear and normal stress on a plane are bounded by the second invariant through one test tensor; completing the square gives the line; a stress with lateral load reaches it; trigonometry for the angles |
| C156 | lines and markers of `projects/mcc_trx/mcc.py`, the point of `create_state_from_ocr`, runs of the triaxial driver | power laws are straight on logarithmic axes; volumes fall with the preconsolidation pressure (logarithms); runs from C85; closed form of the drawn swelling line |
| C157 | `uslCall`, `aflipCall` on two grids of one lattice | the nodes common to both grids are renumbered; interaction lists, nodal arrays and obstacle data agree under the renumbering through all stages (`CtxEmb`), which gives equality of the results |
| C158 | `uslCall`, obstacles with the methods of the base class | C91 for a translation followed by C157; with C94 for one step this gives runs seen by an observer moving whole cells per step |
| C159 | `p2gBody`, `gravityGrid`, `integrateBody`, `g2pBody`, `uslCall` in two and three dimensions | sums over points and windows become sums over nodes, which factor into a plane part and a sum over layers; the weights of the layers sum to one and their derivatives to zero (`fill_axis`, `sum_basis`, `sum_dbasis`); the slab, without a rim, is an invariant of the steps |
| C81-C82 | both transfers, forces, ASFLIP gather | C02-C04 and exchange of finite sums; refutation by witness |

Where the code violates a property, the negation is proved for the model with a concrete
witness and the part that does hold is proved as `..._partial`.

## Disagreements between the code and its documentation or evident intent

All of these are facts about the text of the code. Those with a theorem are proved about the model.

| where | what happens | theorem |
|---|---|---|
| usl_asflip.py:485-487 | the speed limit refers to the grid, so whether a point is slowed down depends on the observer; above twice the limit no point of a moving scene has the right velocity | `aflip_limit_not_galilean` |
| `forces/sdf_collider.py:26-77` | friction sets in with a jump at the tangential speed 1e-12, so that the velocity after contact is not a continuous function of the velocity before | `friction_jumps` |
| projects/mcc_trx/mcc.py:138-141 | the swelling line is drawn from 1 kPa with the volume of 10 Pa, three times too steep | `trx_sl_value`, `trx_sl_wrong` |
| sdfcollection.py:52-60 with math_helpers.py:639-644 | `safe_norm` adds `1e-12` to squared lengths of any unit: points up to a millionth of the unit inside a box count as outside, and boxes thinner than two millionths have no inside | `box_unit_counterexample` |
| collapse.py:19-27 with druckerprager.py:105-207 | material calibrated to a friction angle also stands on steeper slopes, since lateral stresses raise the pressure the cone sees; from `mu_1 = sqrt 3 / 2` on it stands on every slope | `steeper_slopes_stand`, `wide_cone_no_angle` |
| linear.py:41-49 with usl.py:470-516 | a point close to the edge of a cell is strained without bound in a step well below the critical one, since the linear kernel is steep where it is small | `linear_step_untamed` |
| mu_i_rheology.py:165-181 | a slope below the static friction angle runs away: the law supplies at most mu_d/2 of the pressure in simple shear | `gentle_slope_runs_away` |
| usl.py:470-516, 632-650 | the velocity gradient of a point alone in its cells is zero whatever the velocity field and the size of the cells | `gradient_not_improved` |
| usl.py:697-701 | the blend with the grid is applied once per step and not per unit of time: with alpha = 0.99 motion below the cell size loses one percent per step, so that shorter steps damp more | `unseen_decays`, `steps_not_time` |
| triaxial_test.py:60-100 with mu(I) | no lateral rate brings the lateral stress further than mu_d/(2 sqrt 3) times the pressure away from the pressure of the equation of state; a test whose confining stress differs from it runs on with the wrong lateral stress | `drained_muI_misses` |
| linear.py:49, usl.py:470-499 | with the linear kernel the force on a node jumps when a stressed point passes it | `linear_force_jumps` |
| usl.py:600-609 | a node whose mass falls to the cutoff loses its velocity at once | `cutoff_jumps` |
| damping.py:83-92 | the damped force jumps where the momentum of a node changes sign | `damping_jumps` |
| mu_i_rheology.py:134-190 | stress jumps from zero to the pressure `p_min` and more when the reference density is exceeded | `muI_jumps` |
| druckerprager.py:160-196 | stress jumps between cone and apex if there is dilatancy or hardening; the accumulated plastic strain jumps always | `dp_jumps_dilatant`, `dp_jumps_hardening`, `dp_plastic_strain_jumps` |
| druckerprager.py:198-207, modifiedcamclay.py:556-562 | stress jumps to zero at the density of separation, whatever its value | `dp_jumps_at_separation`, `mcc_jumps_at_separation` |
| modifiedcamclay.py:520-524 | a clay with preconsolidation pressure below one jumps to one and above as soon as it yields | `mcc_jumps_at_yield` |
| material_points.py:232-235 | the density `m / (V + 1e-16)` of a part is lower than that of the whole; parts separate where the point does not | `dp_split_fails`, `density_split` |
| material_points.py:232-235 | for the same reason a body of another thickness and its slice in the plane have different densities; at the reference density one separates and the other does not | `slab_sand_thickness` |
| usl_asflip.py:462-477 | dynamic blending compares the nodal mass with the mass of the point and so depends on how finely a body is sampled | `aflip_dynamic_split_fails` |
| modifiedcamclay.py:69-81; UEPI_MCC.py elastic predictor | the shear modulus follows the pressure at constant Poisson ratio; closed elastic cycles give off energy without bound | `mcc_cycle_gains`, `mcc_energy_unbounded`, `uepi_cycle_gains` |
| druckerprager.py:168-178 | the plastic strain of cohesive dilatant material under tension gives off energy | `dp_tension_gains` |
| mcc_trx_inverse.py:31, 234-248; modifiedcamclay.py:84-86, 223-227, 556 | the loss does not depend on `N`; the calibrated `N` is the random first guess | `calib_loss_N`, `calib_N_frozen`, `calib_report_N` |
| usl.py:209-230; material_points.py:159 | `force_stack` given to the points is cleared before it is read: it never acts | `given_force_ignored` |
| damping.py:103-134 | `Damping(is_apply_on_grid=False)` multiplies forces that are always zero: it does nothing for any coefficient | `usl_point_damping_ignored`, `aflip_point_damping_ignored` |
| sdfcollection.py:172, 179; usl.py:642-656 | a point exactly on the axis of a pipe, or in the centre of a ring, gets a NaN normal, and the USL gather adds NaN times zero to its velocity: the point is lost in one step in free space | `pipe_point_lost`, `ring_point_lost` |
| sdfcollection.py:374-380 | a composite has no normal wherever one of its parts has none; with a pipe and a floor the nodes of the floor on the axis destroy the velocities around them | `composite_nan`, `silo_node_lost` |
| sdfcollection.py:82, 274, 533 | normals are NaN at the centre of a sphere, in the tube of a torus, and of a cloud at each of its points | `sphere_centre_nan`, `torus_core_nan`, `cloud_nan` |
| math_helpers.py:105-139 | the reverse-mode derivative of `get_q_vm` at isotropic stress is NaN (no floor under the root, unlike `get_shear_strain_vm`) | `q_grad_nan`, `nan_spreads` |
| mu_i_rheology.py:152 | the reverse-mode derivative of the stress at rest is NaN, although the law is smooth there (`alpha`) | `dotGamma_grad_nan` |
| modifiedcamclay.py:443-449 | the masks are applied to values after the root, so they do not stop NaN in reverse mode; a drained test from isotropic stress with zero axial rate keeps lateral rate zero, whatever the confining stress | `qSafe_grad_nan`, `lateral_search_stuck` |
| UEPI_MCC.py:378-471 | an overconsolidated sample sheared by one percent has two exact solutions of the return map, at shear stresses 6500 and 6250: which one the Newton loop returns depends on its starting point | `uepi_dry_not_unique` |
| usl_asflip.py:395-443 | the affine matrix is gathered with the gradients of the shape functions, not with the inverse inertia; a free step can increase the kinetic energy and the energy of the stored motion | `affine_energy_grows` |
| damping.py:88-94 | the damping force is built component by component and is not antiparallel to the velocity; together with an inclined obstacle it creates energy | `damping_gives_energy` |
| sdf_collider.py:160-209 | several obstacles on one grid are applied one after the other; in an obtuse corner the second pushes the body away from the first, so that a body at rest gets kinetic energy and moves uphill | `two_obstacles_give_energy` |
| druckerprager.py:162 | the volumetric correction lowers the pressure of dilatant material, so that undrained shearing takes away all strength instead of raising it | `dp_dilatant_fails` |
| sim_io.py:88-101 | `save_solver` is said to save the static configuration (grid, laws), but Equinox leaves out fields marked static: alpha, the grid, gaps, base friction and callbacks are not saved, and a skeleton with other ones loads without complaint | `saved_solver_static`, `load_foreign_solver`, `foreign_solver_differs` |
| sim_io.py:24-53 | the usage notes open the recorder, with overwriting as the default, before loading: the states are deleted first. (The notes also name an argument `relative_to` and a method `load_simulation` that do not exist.) | `documented_load_fails` |
| result_trx.py:245 | the inertial number of the figures is computed from the pressure and from a shear rate that contains the 1e-16 of `get_shear_strain_vm`; the law uses no pressure below `p_ref`: tests end below the drawn steady state line | `figI_missed`, `figI_low_pressure` |
| element_tests/driver.py | the law is called with the volume before the step, the solver calls it with the volume after it: element tests of the fluid and mu(I) laws lag by one step | `element_fluid_lag`, `element_lags` |
| usl.py p2g | uniform stress pushes points of an irregular arrangement (not a bug of the code but of the method; kept as the limit of C129) | `dented_fall_fails` |
| collapse_run.py:76-122 | the modes `VARY_FRIC` and `VARY_GEOM` vary the tilt as well | `study_varies_tilt` |
| floor.py:78-80, 137-159 | the transition is announced for friction and bumps, but friction is not ramped: it varies under the column | `study_friction_not_ramped` |
| collapse_run.py:38,43 | base friction may be smaller than its spread and is then cut off at 1e-6 | `study_friction_cut` |
| collapse_run.py:130, collapse_setup.py:79-90 | all runs start from the stress of the template with tilt 0 | `study_stress_level` |
| collapse_run.py:159 | `int(key[0])` is the high word of the key: 0 for every seed below 2^32 | `study_key_lost` |
| sip_setup.py:82-96 | rate and step length spread the strain over `num_steps` steps, `start_static=True` spends the first one at rest: one n-th of the strain is never applied, and the reported strains are too large by n/(n-1) | `sip_strain_missed`, `sip_reported_wrong` |
| results_london_clay_trx.py:57-59 | rates are taken without their sign, a record with unloading is replayed as loading | `london_unloading_lost` |
| mcc_trx_data_gen.py:122-125 | the samples called drained are run with `is_p_constant=True`: mean stress, not lateral stress, is held | `dataset_drained_lateral` |
| mcc_trx_data_gen.py:116-118, triaxial_test.py:26-36 | strains of k/999 are stored beside stresses after (k+1)/1000 of the test | `dataset_strain_shifted` |
| UEPI_MCC.py:382 | trial shear stresses below 1e-6 are replaced by 1e-6: an isotropic step ends inside of the surface and, without any shearing, gets a positive inertial number | `uepi_isotropic_inside` |
| modifiedcamclay.py:519 | the loop clamps the logarithm of the preconsolidation pressure at zero: a clay whose preconsolidation pressure is below one unit (MPa, say) never gets its solution | `mcc_soft_clay_missed` |
| modifiedcamclay.py:454-488 | on the dry side the equations of a step may have three solutions, so that the result depends on the path of the iteration | `dry_return_not_unique` |
| usl.py:488-499 | the internal force of a body replaces that of the bodies before it on the same grid, so kinetic energy plus absorbed work grows without any load | `shared_grid_energy_fails` |
| gridsdf.py:44-58 | the box of a tabulated obstacle is that of the table; with a thickness above the margin of the table the solid reaches to infinity | `table_box_fails` |
| usl.py:488-499, usl_asflip.py:263-273 | nodal sums in single precision depend on the order of the additions, which is left open: a node can rest in one run and move in the next | `mass_order_matters`, `moment_order_matters` |
| usl_asflip.py:483-489 | a freely falling body stops accelerating once it moves half a cell per step | `aflip_fall_fails` |
| usl.py:600-603, sdf_collider.py:165-197 | the mass cutoffs are plain numbers: counted in large units of mass a body no longer moves | `mass_unit_counterexample` |
| sdf_collider.py:53-56 | friction acts only above a speed of `1e-12` in whatever unit | `friction_unit_counterexample` |
| druckerprager.py:144 | the second stress invariant counts as at least `1e-12`: an unstrained cohesionless point under a small pressure flows or rests depending on the unit of stress | `dp_unit_counterexample` |
| modifiedcamclay.py:72 | pressures below one (pascal or kilopascal) count as one in the stiffness | `mcc_unit_counterexample` |
| usl_asflip.py:473 | the support ratio compares with the mass plus `1e-9` | `aflip_mass_unit_counterexample` |
| sdfcollection.py:471-495 with sdf_collider.py:160-209 | a node near a corner is held by its nearest wall only: points leave through the floor beside a side wall | `corner_leak` |
| sdf_collider.py:160-209 | with the quadratic and cubic kernels points on a floor that is not a line of nodes sink through it: the nodes more than one cell above are free but carry weight | `floor_leak` |
| usl.py:180 | JAX computes in single precision unless `jax_enable_x64` is set, which no file of the package does: with the default `dt` the clock stops at 32768 s | `clock_bounded`, `default_clock_stops` |
| usl.py:702, usl_asflip.py:528 | in single precision a point at 1 m moving at 1.5e-5 m/s never moves | `slow_point_stuck`, `drift_not_faithful` |
| usl.py:709-710, usl_asflip.py:497-498, driver.py:17-18 | in single precision strain increments below 2^-26 per step are lost | `slow_strain_lost` |
| usl.py:709-716 | a step that turns a point inside out is accepted and gives a negative volume | `large_step_inverts` |
| floor.py:127-131 | behind `x_max` the waves start afresh without a transition: a step in the floor | `floor_step` |
| floor.py:133-135 | the vertical distance is returned as signed distance | `floor_not_distance` |
| collapse.py:50, collapse_setup.py:68 | spacing `cell_size / ppc` but volume `cell_size**2 / ppc`: for `ppc = 2` twice the mass | `column_mass_doubled` |
| collapse_setup.py:90 | the vertical stress goes into the third axis although the simulation is in the plane of the first two | `column_stress_wrong_axis` |
| collapse.py:123 | `int(2.0 / 1e-5)` is 199999 | `step_count_loses_step` |
| collapse.py:132, collapse_setup.py:226, two_sphere_impact.py:131 | the call-back sees the states after steps 1, n+1, 2n+1, … and never the last | `loop_misses_end` |
| collapse_setup.py:415 | steps beyond the last whole interval are not made | `traj_drops_steps` |
| collapse_setup.py:202-214 | `run` sets floor and friction of the parameters but not gravity | `run_ignores_tilt` |
| collapse_setup.py:360, 423 | `params=None` is the default but fails | `collapse_needs_params` |
| mcc_trx_inverse.py:234-241 | parameters after the update are reported with losses before it | `calib_report_fails` |
| mcc_trx_inverse.py:31 | `N` from 0.4 allows specific volumes below one | `calib_volume_below_one` |
| save_data.py:67-72, 82-83 | stresses are saved in kPa, everything in half precision | `saved_stress_kPa`, `saved_lost` |
| UEPI_MCC.py:144 | a guard of 1e-12 in a denominator makes the form negative on the surface the other two describe | `uepi_iys_fails` |
| UEPI_MCC.py:376 | an elastic step sets the inertial number to 1e-22 but keeps the volume | `uepi_line_lost` |
| UEPI_MCC.py:378-425 | flow direction uses `M_csl` also when the inertial number is not zero | `uepi_not_associated` |
| UEPI_MCC.py:265 | `q_stack` is ignored | `uepi_init_q_fails` |
| vtk_io.py:154, rerun.py:327 | `end * 1.05 - start * 0.95` enlarges the sampled box only where `start + end > 0`; below the origin part of the box or all of it is missed | `sample_misses_end`, `sample_backwards`, `sample_misses_flat_top` |
| rerun.py:388 | two components of the normals are exchanged although those of the vertices are not | `rerun_mesh_normals_wrong` |
| rerun.py:185, vtk_io.py:64 | points are drawn with their initial volume | `drawn_size_ignores_compression` |
| rerun.py:226-235 | limits given by the caller do not clip; a spread below 1e-6 is drawn in one colour | `colours_outside`, `colours_flat` |
| vtk_io.py:106 | without a step every call writes step 0 | `vtk_default_step_overwrites` |
| vtk_io.py:84 | `property_name=None` reads an unbound variable | `vtk_calls_fail` |
| vtk_io.py:215 | `log_sdf` without a step (the default) always raises `TypeError` once a surface is found | `vtk_calls_fail` |
| rerun.py:137-146 | mode "save" is ignored for the first visualiser of a process | `save_mode_ignored` |
| usl.py:113-189 | obstacles are moved to the end of the step before contact is computed with the points at its beginning: bodies and floor moving together get contact or lose it | `floor_not_galilean` |
| linearelastic.py:100-114 | no objective rate: the stress of a rotating point stays fixed in space | `elastic_spin_keeps`, `elastic_not_carried` |
| math_helpers.py:24-28 | the explicit co-rotation increases J2 in every step by dt²/2 times the square of the rotation rate of the deviator, so that pure rotation reaches any yield stress | `spin_J2_grows`, `dp_spin_yields`, `mcc_spin_yields` |
| usl_asflip.py | the stored gradient is the negative of the velocity gradient but not transposed as in usl.py, so the spin has the opposite sign and the laws turn the stress against the motion | `aflip_spin_gradient`, `dp_backwards` |
| sdfcollection.py:468-495 | at places equally far from two walls the normal is that of the first wall in the list (left before floor before right), so mirrored corners behave differently | `corner_prefers_axis`, `walls_break_symmetry` |
| cubic.py:128-179, mapping.py:199 | the boundary splines are never selected (`intr_node_type=0`); one node type serves all axes; on the right wall the gradient is that of the outer side | `cubic_wall_unused`, `cubic_wall_plane_fails`, `cubic_wall_grad_fails` |
| usl.py:672 | the velocity gradient is stored transposed (ASFLIP stores it correctly) | `usl_velocity_gradient_wrong` |
| usl.py:711 | hence the deformation gradient is wrong as soon as there is rotation | `usl_deformation_wrong` |
| usl.py:60 / 699 | `alpha` is documented as 0 = FLIP, 1 = PIC; the code does the opposite | `usl_alpha_reversed` |
| usl_asflip.py:83 / 481 | the same swap of `alpha` in ASFLIP | `aflip_alpha_blend` |
| usl_asflip.py:15 / 404 | "preserves angular momentum" does not hold with the default MLS update, which stores the gradient and not the APIC moment; the APIC branch (407-414) lacks the minus sign that P2G expects, but it raises before that matters | `aflip_g2p_angular_fails` |
| usl.py:480 ff. | nodal force of a shared grid is overwritten by the last coupling | `shared_grid_force_fails` |
| usl.py:717, 619 | `.squeeze()` makes the volume of a one-point body a scalar; the second call fails. With obstacles the first call fails already (USL) | `single_point_second_call_fails`, `single_point_obstacle_fails` |
| usl.py (F reset) | in 2D the reset sets `F[2,2] = 0`, so `det F = 0`; a second reset gives `F = 0`; `F_store` lost or overwritten | `reset_det_fails`, `reset_twice_fails`, `store_lost`, `store_overwritten` |
| usl.py (mass cutoff) | nodes below the cutoff lose their momentum | `momentum_cutoff_needed` |
| usl_asflip.py:208 / 314, 545 | solver state read at `s_idx`, written at `p_idx` | `aflip_affine_swapped`, `aflip_index_error` |
| usl_asflip.py (dynamic alpha, CFL clamp) | both destroy momentum; positions move with the unclamped velocity; `alpha_support_min/max` never read | `aflip_momentum_fails_dynamic`, `aflip_momentum_fails_limit`, `aflip_displacement_fails` |
| grid.py:39-75 | padding 1 is not enough for the quadratic kernel; rounding loses or adds a node for cell size 0.1 | `padding_one_quadratic_incomplete`, `float_size_loses_node`, `float_size_gains_node` |
| linear.py:49 | on grid lines the gradient of the linear kernel is 0 | `linear_gradient_wrong_on_grid_line` |
| mapping.py:305 | `gather_from_grid` always raises AttributeError | `gather_fails` |
| gravity.py, damping.py | gravity on particles raises AttributeError; damping on particles has no effect | `particle_damping_idle` |
| sdf_collider.py | `gap` has no effect | `collider_gap_ignored` |
| gridcontact.py | the force can never be run (TypeError); the contact impulse is regularised with 1e-12 | `grid_contact_never_runs`, `contact_momentum_fails` |
| newtonfluid.py | `create_state` always raises; the pressure has the wrong sign | `fluid_create_fails`, `fluid_pressure_sign_wrong` |
| mu_i_rheology.py | the shear stress is half of `mu(I) p` | `muI_friction_law_half` |
| druckerprager.py | cone return leaves the yield surface if `mu_1_hat > 0`; the apex return decreases `eps_p_acc`; `get_dt_crit` reads `rho_stack`, which does not exist | `dp_admissible_fails`, `dp_apex_decreases` |
| modifiedcamclay.py | `p_c` is never below 1 after a plastic step; tension after reconnection; `from_ocr` always projects; states made by two constructors cannot be used | `mcc_pc_ge_one`, `mcc_reconnection_fails`, `mcc_ocr_inside_moved`, `mcc_state_without_ref_fails` |
| modifiedcamclay.py:434-438, 542-546 | elastic steps accumulate the elastic strain, yielding steps overwrite it with the secant strain `(p - p0)/K(p)`, so it jumps | `mcc_elastic_strain_fails` |
| modifiedcamclay.py:52-54 / usl.py:711 | pressure follows the summed strain increments, the specific volume `det(1 - dt L)`; the state drifts below its compression lines, also over a closed cycle | `mcc_volume_drift` |
| math_helpers.py:520-528 | conversions from bulk density are wrong for all positive densities | `phi_from_bulk_density_wrong` |
| math_helpers.py:543-592 | the lithostatic stress is not recovered from its invariants for k0 > 1 or under a slope | `lithostatic_overconsolidated_wrong`, `lithostatic_slope_wrong` |
| material_points.py:249-254, 269-273 | `KE_density_stack` and `q_p_stack` return None | `point_properties_missing` |
| math_helpers.py:287-289 | `get_dev_strain_stack` calls itself for ever | |
| sdfcollection.py:163 ff. | the 3D hollow cylinder ignores its height | `hollow_cylinder_height_ignored` |
| sdfcollection.py:520-538 | with the default smoothing a cloud reports points outside all its balls as inside | `cloud_smooth_false_inside` |
| sdfcollection.py:169 ff. | the planar ring with inner radius 0 still has a surface at its centre | `ring_no_hole_wrong` |
| sdfcollection.py:417-418 | `wall_offset` moves both walls in the same direction | `domain_create` |
| generate_body.py | offsets not scaled with the cell size, so points leave their cell and overlap; three of the modes raise | `regular_leaves_cell`, `regular_overlaps`, `generate_modes_fail` |
| material_points.py | default volume is `h^2` in 3D; `points_per_cell` ignored; density off by `V/(V+1e-16)` | `default_volume_3d`, `points_per_cell_ignored`, `create_density_inexact` |
| builder.py | index of a force state counts all forces but colliders have no state; friction of `add_sdf_collider` dropped; crossed couplings, later grids, subsets of obstacles are paired wrongly; unknown scheme gives UnboundLocalError | `gravity_after_collider_fails`, `collider_friction_ignored`, `crossed_couplings_wrong`, `second_grid_fails`, `sdf_subset_wrong`, `unknown_scheme` |
| triaxial_test.py | `axial_strain_stack` does not belong to the recorded states | `reported_strain_scalar_wrong`, `reported_strain_stride_wrong` |
| driver.py | the attribute `is_F_linear_approx` is never read | `linear_flag_ignored` |
| driver.py:27-31 | the law is given the volume of the previous step | `driver_stress_lags` |
| driver.py, triaxial_test.py | with is_p_constant=True the mean stress of a mu(I) point does not depend on the lateral rate: the test is one-dimensional compression and leaves the confining pressure (in floating point the derivative may be rounding noise instead of zero; the mean stress cannot be controlled in any case) | `p_constant_no_control`, `p_constant_drifts` |
| sim_io.py | the documented example uses a keyword and a method that do not exist; an interrupted save loses the old file of that step | `crash_loses_step` |

## Mutation tests

`tools/mutate.py` copies `lean/` to a scratch directory, edits one definition of the model, rebuilds, replaces proofs that
fail by `sorry` (in the scratch copy only) and continues, so that all theorems that depend on the edited behaviour are
found. A mutant is caught if a theorem of the claim it breaks fails. Results, and what was tightened after a miss, are in
`seeded/LOG.jsonl`.

## Status of every property (generated by `tools/regen.py`)

Axioms: P = `propext`, C = `Classical.choice`, Q = `Quot.sound`; theorems without mark depend on all three.

<!-- generated -->
| id | property | status | theorems | module | note |
|---|---|---|---|---|---|
| C01 | Interpolation weights are a partition of unity inside the user's box | proved | `weights_partition_of_unity` | Props/Mapping | all three kernels, any dimension |
| C02 | Weight gradients are the derivatives of the weights and sum to zero | proved | `weights_are_bsplines`, `weight_gradient_is_derivative`, `weight_gradients_sum_zero` | Props/Mapping | weights identified with cardinal B-splines of the scaled offset; derivative via HasDerivAt of the total nodal weight |
| C03 | Interpolation reproduces linear fields and their gradient exactly | proved | `affine_field_reproduced`, `affine_gradient_reproduced`, `linear_gradient_wrong_on_grid_line` | Props/Mapping | the last theorem shows the grid-line hypothesis of the linear kernel is necessary |
| C04 | The affine (APIC) inertia tensor is the constant h^2/4 (quadratic) or h^2/3 (cubic) | proved | `second_moment_constant`, `second_moment_linear_not_constant` | Props/Mapping |  |
| C05 | Scatter indices are always in range, never collide within a stencil, and agree with the node coordinates | proved | `node_index_in_range`, `node_index_no_alias`, `node_index_position` | Props/Mapping |  |
| C06 | Points outside the grid never disturb it | proved | `outside_slots_inactive`, `outside_point_no_effect` | Props/Mapping, Props/Transfer |  |
| C07 | Padding guarantees complete stencils | partial | `padding_complete_partial`, `padding_one_quadratic_commensurate_partial`, `padding_one_quadratic_incomplete` | Props/Mapping | documented padding 1 for the quadratic kernel is refuted; holds with padding 2, or padding 1 when the box is a whole number of cells |
| C08 | Particle-to-grid transfer conserves mass and linear momentum | proved | `p2g_conserves`, `aflip_p2g_conserves` | Props/Transfer |  |
| C09 | Internal forces are self-equilibrated and do the work of the stress | proved | `internal_forces_self_equilibrated`, `nodal_forces_sum`, `internal_force_power` | Props/Transfer |  |
| C10 | A USL step changes total linear momentum exactly by the applied impulse | proved | `usl_step_momentum`, `momentum_cutoff_needed` | Props/Momentum | bodies in their boxes, one active coupling per body; the second theorem shows the cutoff hypothesis is necessary |
| C100 | One viewer per process, and recordings are saved when asked for | partial | `one_viewer`, `save_mode_partial` (PQ), `save_mode_ignored` (P) | Props/Visual | at most one window is proved; mode save does nothing for the first visualiser of a process |
| C101 | The unified yield surface joins Cam-Clay and the inertial steady state | partial | `uepi_strengthening`, `uepi_surface`, `uepi_iys_partial`, `uepi_iys_fails`, `uepi_lines`, `uepi_gamma_N` | Props/Uepi | limits, steady state, lines and the first two forms of the surface are proved; the third form agrees up to a constant of 1e-12 in a denominator and is refuted exactly |
| C102 | Volumes stay on the inertial swelling line | partial | `uepi_line_run_partial`, `uepi_line_yield`, `uepi_line_elastic`, `uepi_steady_volume`, `uepi_line_lost` | Props/Uepi | proved for steps that yield and for elastic steps from rest; an elastic step after flow sets the inertial number to 1e-22 without changing the volume's offset, and the state leaves its line |
| C103 | A yielding step solves the elasto-plastic-inertial equations | partial | `uepi_return_map`, `uepi_return_dissipates`, `uepi_helpers`, `uepi_not_associated` | Props/Uepi | all equations are proved up to the residuals Newton's method leaves; the plastic strain is normal to the surface at rest, not to the inertial surface returned to |
| C104 | UEPI_MCC states stay admissible | proved | `uepi_admissible_step`, `uepi_admissible_run`, `uepi_elastic_inside` | Props/Uepi |  |
| C105 | UEPI_MCC initial states are as requested | partial | `uepi_init_partial`, `uepi_init_q_fails` | Props/Uepi | proved for everything but the shear stress, which is ignored |
| C106 | A generated floor has the requested roughness | proved | `spectral_roughness`, `spectral_wavelengths`, `spectral_power_law`, `spectral_equal_wavelengths` | Props/Floor | with equal wave lengths, outside the quantifier, the floor is rougher by the root of the number of harmonics |
| C107 | The rough floor is a sound obstacle | partial | `floor_distance_partial`, `floor_height_bounds`, `floor_sign`, `floor_friction_bounds`, `floor_box`, `floor_step`, `floor_not_distance` | Props/Floor | the vertical distance is returned, proved to lie between the distance and sqrt(1 + slope^2) times it; refuted as the distance itself; the floor has a step at x_max |
| C108 | The scripts build the bodies they describe | partial | `column_mass_partial`, `column_tiles`, `column_layout`, `column_mass`, `column_mass_doubled`, `column_stress_wrong_axis`, `circle_volume`, `circle_inside` | Props/Scripts | layout and discs proved; the column of the scripts is twice too heavy, and in the plane the stress along gravity is the horizontal one |
| C109 | Scripts simulate the requested time and record it at the requested interval | partial | `step_count_exact`, `step_count_within_one_partial`, `step_count_loses_step`, `loop_records` (PQ), `loop_interval_partial`, `loop_misses_end`, `traj_records` (PQ), `traj_last_partial` (PQ), `traj_drops_steps` (none), `traj_times` | Props/Scripts | number of steps right or one less (refuted for 2.0/1e-5 of collapse.py); the plain loop records one step late and misses the end; the trajectory drops steps left over |
| C11 | An AFLIP step conserves linear momentum | partial | `aflip_step_balance`, `aflip_step_momentum_partial`, `aflip_momentum_fails_limit`, `aflip_momentum_fails_dynamic` | Props/AflipMomentum | proved for a constant blend below the speed limit, with an exact formula for the loss above it; refuted for the default dynamic blend and for the limit |
| C110 | A collapse is simulated with the parameters it is given | partial | `traj_uses_params` (PQ), `run_uses_params_partial` (PQ), `run_ignores_tilt` (PQ), `collapse_needs_params` (PQ), `tilt_gravity` | Props/Scripts | proved for run_with_trajectory with parameters; run ignores the tilt, and both fail without parameters |
| C111 | The calibration reports the best parameters and their loss | partial | `calib_bounds` (PQ), `calib_report_partial` (PQ), `calib_report_fails`, `calib_material`, `calib_volume_below_one` | Props/Scripts | bounds proved; the reported loss is that of the population before the last update; the bounds admit specific volumes below one |
| C112 | Saved trajectories give back the state | partial | `saved_close_partial`, `saved_stress_kPa`, `saved_lost` | Props/Scripts | proved within the range of half precision; stresses come back in kPa, small volumes as zero and large stresses as infinity |
| C113 | The clock keeps time in finite precision | partial | `clockRounded_id`, `clock_error_partial`, `clock_exact_partial`, `clock_monotone_partial`, `clock_bounded`, `clock_not_faithful`, `default_clock_stops` | Props/Rounding | error bound and exact cases proved; the time never passes 2^p dt, so in single precision with the default time step the clock stops at 32768 s |
| C114 | Points move with their velocity in finite precision | partial | `drift_error_partial`, `slow_point_stuck`, `drift_not_faithful` | Props/Rounding | error bound proved; a point with an increment below half the spacing of numbers never moves |
| C115 | Slow deformation is felt in finite precision | partial | `stretchRounded_id`, `stretch_error_partial`, `slow_strain_lost`, `strain_not_faithful` | Props/Rounding | error bound proved; strain increments below 2^-(p+2) per step are lost altogether |
| C116 | The solver creates no new extreme velocities | proved | `usl_no_new_extremes`, `usl_run_no_new_extremes` | Props/MaxPrinciple | for the solver USLSolver |
| C117 | Points never turn inside out while the steps are small | proved | `call_upright`, `run_upright`, `smallStep_sharp`, `large_step_inverts` | Props/Inversion | the bound is sharp; beyond it the solver returns negative volumes without an error. For laws that reset the deformation in three dimensions only, with an exact cube root |
| C118 | Walls hold the points | partial | `wall_holds`, `wall_holds_run`, `wall_tight`, `wall_tight_run`, `box_wall_holds`, `box_wall_run`, `box_wall_tight`, `corner_leak`, `floor_leak` | Props/Walls | true with the linear kernel away from edges and corners; with the wider kernels the point may sink by up to (reach - 1) cells plus one step. In corners points leak because a node answers to one wall only |
| C119 | Points out of reach do not matter | proved | `step_local`, `aflip_step_local`, `run_local`, `aflip_run_local`, `near_point_matters` | Props/Locality | two calls on scenes that agree on a set of points agree afterwards on every point of the set out of reach of the others; sets may shrink from step to step. A point within reach does matter |
| C12 | n steps of gravity give n*dt*M*g of momentum | proved | `usl_run_momentum`, `usl_run_weight` | Props/Momentum | side conditions required at every state along the run, as in the statement |
| C120 | Units do not matter | partial | `box_units_partial`, `capsule_units_partial`, `cylinder_units_partial`, `box_unit_counterexample`, `step_units_partial`, `run_units_partial`, `run_length_time_units_partial`, `elastic_law_units`, `fluid_law_units`, `muI_law_units`, `dp_units_partial`, `mcc_units_partial`, `domain_units`, `planar_obstacle_units`, `spatial_obstacle_units`, `mass_unit_counterexample`, `friction_unit_counterexample`, `dp_unit_counterexample`, `mcc_unit_counterexample`, `aflip_mass_unit_counterexample` | Props/Units | true for units of length and time with elastic, fluid and mu(I) laws and smooth obstacles, for units of mass as long as no nodal mass crosses the cutoffs; Drucker-Prager and Cam-Clay away from their floors. False in general: mass cutoffs 1e-12 and 1e-14, friction below 1e-12, J2 floor 1e-12, pressure floor 1 in Cam-Clay, 1e-9 in ASFLIP, and 1e-12 in the distances to boxes, capsules and cylinders, which convert up to 1e-6 (cylinders 2e-6) of the larger unit only |
| C121 | Free fall | partial | `fall_step`, `free_fall`, `free_fall_parabola`, `aflip_fall_step`, `aflip_free_fall_partial`, `aflip_fall_fails` | Props/FreeFall | true for USL with the exact displacement of the scheme; for ASFLIP (constant or dynamic blend, affine matrices zero at the start) as long as the body is below the speed limit. False for ASFLIP at the limit of half a cell per step: the body stops accelerating |
| C122 | The order of the additions does not matter | partial | `mass_scatter_faithful`, `mass_scatter_single`, `mass_orders_agree`, `mass_empty_iff`, `signed_scatter_faithful`, `node_speed_bounded`, `mass_order_matters`, `moment_order_matters` | Props/FloatScatter | true up to rounding: relative error of masses (k+2) 2^-23 for k contributions in single precision, emptiness and sign exact, nodal speed bounded, signed sums accurate relative to the sum of sizes. False bit by bit: single precision gives different masses, and a resting or a moving node, in different orders. Overflow and underflow not modelled; weights are taken as the given floats |
| C123 | Energy balance of a step | partial | `usl_step_energy_stressfree`, `usl_step_energy_partial`, `usl_run_energy_partial`, `shared_grid_energy_fails` | Props/EnergyBalance | proved for bodies on grids of their own, and for bodies without stress on shared grids; refuted for two bodies under stress on one grid, since the internal force of the second replaces that of the first |
| C124 | A yielding Cam-Clay step has one solution | partial | `return_exists`, `return_unique`, `mcc_residuals_zero_iff`, `mcc_return_solvable`, `mcc_converged_solution`, `dry_return_not_unique` | Props/CamClaySolution | existence for every yielding step; uniqueness proved on the wet side and refuted on the dry side (three solutions of one step) |
| C125 | The Newton loops converge to the solution | partial | `mcc_newton_converges`, `uepi_newton_converges`, `newton_basin`, `mcc_newton_reaches_partial`, `mcc_newton_ad_reaches_partial`, `mcc_newton_pc_error`, `mcc_soft_clay_missed` | Props/AutoDiff, Props/NewtonLoop | mcc_newton_converges and uepi_newton_converges hold for any residuals with a regular zero; for Cam-Clay the neighbourhood exists around every solution on the wet side with pressure above and preconsolidation pressure at least one unit and without stiffness limits; its size is not given, so that the start of the loop need not lie within it; refuted for preconsolidation pressures below one unit, which the loop excludes |
| C126 | A yielding elasto-plastic-inertial step has exactly one solution | partial | `flow_exists`, `uepi_solvable`, `uepi_step_exists_partial`, `uepi_between`, `uepi_flows`, `uepi_isotropic_inside`, `uepi_contracting_unique`, `uepi_wet_contracts`, `uepi_wet_unique`, `uepi_wet_determined`, `uepi_dry_not_unique` | Props/UepiSolution, Props/UepiUnique | the residuals have a zero for every yielding step (uepi_solvable); the zero is an exact step of the law only for trial shear stresses of at least 1e-6, which the code puts in place of smaller ones: refuted for isotropic steps, which end inside of the surface and get an inertial number; unique among contracting solutions, hence for every step whose trial pressure is not below the shifted hardening pressure; refuted for dilating material, a step of which has two solutions with different shear stresses |
| C127 | Loading procedures apply what they name | partial | `sip_strain`, `sip_length`, `sip_strain_missed`, `sip_reported_wrong`, `sip_label`, `record_duration`, `london_strain`, `london_replay_partial`, `london_unloading_lost`, `dataset_drained_lateral`, `dataset_undrained_volume`, `dataset_strain_shifted` | Props/Procedures | holds for the printed rate, for records without unloading and for the volume of undrained samples; refuted for the strain reached by a numerical test (one n-th is missing, and the reported strains are too large by n/(n-1)), for records with unloading, for drained samples (mean stress is held) and for the strain column of the data set |
| C128 | A parameter study varies what it names | partial | `study_sample`, `study_level`, `study_friction_half`, `study_geometry`, `study_friction`, `study_depends`, `study_tilt`, `study_varies_tilt`, `study_friction_not_ramped`, `study_friction_cut`, `study_stress_partial`, `study_stress_level`, `study_key_lost` (P) | Props/Study | holds for the floors of the three modes and for independence of the parameters that are not named; refuted: every mode also varies the tilt, friction is not ramped and is cut off where the spread exceeds the base, tilted runs start from the stress of the level template, and the stored key is the high word of the seed |
| C129 | Inside a regularly filled body only the divergence of the stress moves the points | partial | `patch_force`, `patch_node`, `patch_step`, `patch_block_step`, `patch_run_partial`, `patch_equilibrium_partial`, `elastic_holdsAtRest`, `dented_fall_fails` | Props/PatchExample, Props/PatchTest | holds for lattice arrangements (for the linear kernel and varying stress or velocity: off the grid lines); refuted for irregular arrangements: one point out of place makes a uniform pressure push it |
| C13 | Rigid translation is preserved exactly | proved | `usl_step_translation`, `usl_run_translation` | Props/Momentum | for every law that leaves a stress-free undeformed body at rest |
| C130 | An element test predicts the material points of a simulation | partial | `element_predicts_run_partial`, `element_predicts_elastic`, `libLaw_point`, `alike_elastic`, `alike_fluid`, `alike_muI`, `alike_dp`, `alike_mcc`, `element_fluid_lag`, `element_lags` | Lemmas/ElementPoint, Props/ElementLink | holds for the elastic law along every history; for Drucker-Prager and Cam-Clay as long as no step crosses the density at which they become cohesionless; for the fluid and mu(I) laws for steps at constant volume; refuted for them under compression: the driver updates the volume after the law, the solver before it, so the element test lags by one step |
| C131 | Element tests of the inertial clay end where the figures say | partial | `uepi_steady_iff`, `uepi_update_steady`, `uepi_keeps_steady`, `steady_unique`, `steady_undrained_unique`, `steady_drained_unique`, `steady_undrained_faster`, `steady_drained_faster`, `steady_drawn`, `figI_steady_partial`, `figI_low_pressure`, `figI_missed` | Props/Steady | refuted for the inertial number of the figure: it is always larger than that of the law, above the reference pressure by at most that of a shear rate of 1e-8, below it by the factor sqrt(p_ref/p); so the states end below the drawn line. That tests approach the steady state is not proved |
| C132 | The figures of the theory show the law | proved | `fig_surfaces`, `fig_initial`, `fig_arrow_normal`, `fig_arrow_friction`, `fig_lines`, `fig_segments`, `fig_iss_limits`, `iso_units`, `iso_fit_recovers` | Props/Figures | curves as functions of the pressure; colours, limits of the axes and sampling are not modelled; curve_fit is taken to return a minimiser of the misfit with N >= 0 |
| C133 | Undrained tests of Cam-Clay end at the critical state | partial | `mcc_critical_state_partial`, `undrained_critical_partial`, `mcc_critical_near_partial`, `undrained_near_partial`, `undrained_path`, `criticalPressure_line`, `criticalStress_triaxial`, `rootOps_path` | Props/CriticalRobust, Props/CriticalState, Props/CriticalTest | proved when the Newton loops of the yielding steps end at a root of their residuals, as they can for all steps (rootOps_path), and, with residuals left over, up to any tolerance if the residuals stay below a bound that does not depend on how the derivatives are computed; that ten damped iterations reach the bound is not proved. The pressures p_min_calc and 2e-6/M must not be above the critical pressure |
| C134 | A saved simulation can be continued | partial | `resume_run_partial`, `simulation_resumes_partial`, `load_foreign_solver`, `saved_solver_static`, `foreign_solver_differs`, `documented_load_fails` | Props/Restart | proved when the skeletons have the static fields of the solver; these are not saved, although save_solver claims to save the grid: a skeleton with another alpha or another cell size is accepted and the simulation goes on differently. Opening the recorder before loading, as in the usage notes, deletes the saved states |
| C135 | Sustained shearing brings Drucker-Prager material to failure | partial | `dp_failure_partial`, `undrained_failure_partial`, `dp_dilatant_fails`, `dp_shear_scaled` | Props/Failure | proved for mu_1_hat = 0, with hardening allowed for the limit of the direction; refuted for mu_1_hat > 0: dilatant material loses all of its strength within finitely many steps, because the volumetric correction lowers the pressure (see C32) |
| C136 | Obstacles at rest take energy and never give any | partial | `resting_wall_work`, `obstacle_step_energy_partial`, `obstacle_run_energy_partial`, `library_obstacles_energy_partial`, `obstacles_slow_down`, `two_obstacles_give_energy` | Props/ObstacleEnergy, Props/ObstacleRest | proved when at most one obstacle acts on each grid (the walls of a box are one obstacle); with two, which are applied one after the other, it fails in an obtuse corner: a body at rest is set in motion uphill. Without gravity and stress any number of obstacles only slow the bodies down |
| C137 | Damping never gives energy | partial | `damped_node`, `damping_step_energy_partial`, `damping_run_energy_partial`, `damping_box_energy_partial`, `damping_gives_energy` | Props/DampingEnergy, Props/DampingRest | proved without obstacles and for any number of obstacles at rest whose normals point along the axes of the grid (floors, walls, the box of the package). Damping acts on each component by itself and does not point against the motion, so it fails on slopes: a body pressed against a slope is thrown back along it with a thousand times its energy. Damping of material points (on_grid = False) has no effect at all (C143) |
| C138 | Drained tests of Cam-Clay end at the critical state | partial | `mcc_drained_critical_partial`, `drained_critical_partial`, `drained_step_keeps`, `drained_step_exists`, `drained_test_exists`, `exClayDrained_limit` | Props/DrainedExists, Props/DrainedState, Props/DrainedTest | the Newton loops of the law and of the lateral control are assumed to end at roots, the pressure to stay above the floor, the axial stress to stay on the loaded side and the solid to stay connected; for compression from wet states such a run is proved to exist (drained_test_exists), so that nothing but the accuracy of the Newton loops is assumed there. Starting states that are denser than critical are covered by the limit but not by the existence |
| C139 | Free motion in the affine solver creates no energy | partial | `aflip_step_energy_partial`, `aflip_first_step_energy`, `affine_energy_grows` | Props/AffineEnergy | proved with two thirds of the new affine energy: kinetic' + 2/3 affine' is at most kinetic + affine, for every step; the step from zero affine matrices does not increase the kinetic energy. The full statement is false: the gather with B-spline gradients (use_mls_update) stores up to 3/2 of the affine energy that the transfer can carry, and in the second free step of two points that move apart both the kinetic energy and the total grow (affine_energy_grows) |
| C14 | The velocity gradient seen by the material law is the true velocity gradient | partial | `usl_velocity_gradient_transposed`, `usl_strain_rate_partial`, `aflip_velocity_gradient`, `usl_velocity_gradient_wrong` | Props/Gather | USL stores the transpose, refuted by usl_velocity_gradient_wrong; the symmetric part is right; AFLIP stores the true gradient |
| C140 | Automatic differentiation returns derivatives | partial | `ad_forward_exact`, `ad_reverse_transpose`, `ad_grad_exact`, `jacfwd_exact`, `mccProg_eval`, `mcc_jacfwd_exact`, `mcc_newton_ad_reaches_partial`, `uepiProg_eval`, `uepi_jacfwd_exact`, `ad_max_tie`, `safeInvProg_eval`, `safe_inv_clipped`, `safe_inv_exact_code` | Props/AutoDiff | proved for the derivative rules of JAX's primitives, which are part of the trusted base. At a tie of maximum (a kink of the stiffness at a positive multiplier) the result is the mean of the two one-sided derivatives (ad_max_tie), and where the derivative of the inverse exceeds the clip the safeguarded one has by design a smaller derivative (safe_inv_clipped) |
| C141 | Gradients are numbers | partial | `ieee_forward`, `ieee_reverse`, `qProg_eval`, `q_tame`, `dpSqrt_tame`, `shearVm_tame`, `safeNorm_tame`, `safeInv_tame`, `mcc_residuals_tame`, `mcc_jacfwd_number`, `nan_spreads`, `q_grad_nan`, `dotGamma_grad_nan`, `qSafe_grad_nan`, `qSafe_forward`, `lateral_search_newton`, `lateral_search_stuck` | Props/GradNan | proved for the measures with a floor or an offset under the root, for the safeguarded inverse and for the Jacobians of the Cam-Clay loop. False for get_q_vm at isotropic stress and for the shear rate of the mu(I) law at rest: their reverse-mode derivatives are NaN, whatever multiplies them (nan_spreads); the masks of the Cam-Clay law protect in forward mode only, so the lateral search of a drained test at isotropic stress with zero axial rate never moves (lateral_search_stuck). Not modelled: rounding, overflow, signed zeros |
| C142 | Contact normals and velocities are numbers | partial | `normal_number`, `contact_number`, `collide_number`, `point_number`, `box_tame`, `plane_tame`, `capsule_tame`, `cylinder_tame`, `sphere_tame`, `pipe_tame`, `ring_tame`, `torus_tame`, `composite_tame`, `posed2_tame`, `posed3_tame`, `boxProg_eval`, `capsuleProg_eval`, `cylinderProg_eval`, `planeProg_eval`, `sphereProg_eval`, `pipeProg_eval`, `ringProg_eval`, `torusProg_eval`, `localProg2_eval`, `localProg3_eval`, `sphere_normal_code`, `contact_nan`, `collide_nan`, `point_lost`, `node_lost`, `sphere_centre_nan`, `pipe_axis_nan`, `ring_centre_nan`, `torus_core_nan`, `composite_nan`, `cloud_nan`, `pipe_point_lost`, `ring_point_lost`, `silo_node_lost` | Props/NormalNan | proved for boxes, half spaces, capsules and cylinders everywhere in any pose, and for spheres, pipes, rings, tori and composites away from the places named next. False at the centre of a sphere or ring, on the axis of a pipe, in the middle of the tube of a torus, at the points of a cloud, and for a composite wherever one part has no normal. Consequences: a point on the axis of a pipe or in the centre of a ring that is its nearest obstacle loses its velocity in one USL step though it touches nothing (the mask multiplies NaN by zero); in a silo of pipe and floor the nodes of the floor on the axis do the same to their neighbours. Not modelled: the star, rounding, overflow |
| C143 | Forces at the material points act | partial | `given_force_ignored`, `usl_given_force_ignored`, `aflip_given_force_ignored`, `usl_point_damping_ignored`, `aflip_point_damping_ignored`, `point_force_impulse_partial`, `aflip_point_force_impulse_partial`, `pushed_points_move` | Props/PointForces | false for both solvers: the forces at the points are cleared at the start of each call, after which no force of the package writes any, so the result of a call is the same for all given forces, and any run with damping of the points is the run without it. What holds is that forces written by a hook of a user before the scatter act with their whole impulse (and are then damped) |
| C144 | The calibration determines the parameters it reports | partial | `run_withN`, `calib_runs`, `calib_kernel_N`, `calib_loss_N`, `calib_best_N`, `calib_grad_N`, `calib_N_frozen`, `calib_report_N`, `dataset_withN`, `elastic_step_determines_partial`, `plastic_step_determines_partial` | Props/Calibration | false for N: the law reads the specific volume only to compare it with a multiple of N, and the initial specific volume is a multiple of N, so stresses, strains and preconsolidation pressures of every triaxial test are the same for all N. The gradient along N is zero, Adam leaves it, and the N that is reported was drawn at random. The curves of the data generator do not depend on N either. Proved positively: an elastic step determines kap and nu; a yielding step on the wet side determines M and lam, for clays of the same kap and nu and Newton loops that end at a zero of the residuals. That the errors along the whole curve, with loops that may stop early, determine the four parameters together is not proved |
| C145 | Elastic deformation gives back the work put into it | partial | `elastic_cycle_work`, `elastic_work_nonneg`, `dp_elastic_cycle`, `mcc_isochoric_cycle_partial`, `mcc_cycle_gains`, `mcc_energy_unbounded`, `uepi_cycle_gains` | Props/ElasticWork | proved for linear elasticity, for Drucker-Prager without spin and for Cam-Clay at constant volume. False for both clays: their shear modulus follows the pressure at constant Poisson ratio, so that compressing, shearing, expanding and shearing back gives off energy each time around, without bound. Work is measured with the mean of the stresses before and after a step. Fluid and mu(I) law have no elastic path |
| C146 | Plastic deformation takes energy | partial | `dp_step_dissipates_partial`, `dp_path_dissipates_partial`, `dp_tension_gains`, `mcc_return_dissipates`, `uepi_return_dissipates` | Props/CamClayReturn, Props/PlasticWork, Props/Uepi | Drucker-Prager: proved without hardening where the new mean stress is compressive or the material is not dilatant, in every branch; over histories without spin of connected points the work with the stress at the end of each step is at least the gain of elastic energy. False for cohesive dilatant material under tension, since the flow compacts it. For the two clays the single step is proved at the solution of the return map (C84, C103); over histories it is false already for elastic steps (C145) |
| C147 | Splitting a material point changes nothing | partial | `usl_split`, `usl_run_split`, `dp_split_partial`, `mcc_split_partial`, `usl_run_split_laws_partial`, `aflip_run_split_laws_partial`, `density_split`, `dp_split_fails`, `aflip_split_partial`, `aflip_call_split_partial`, `aflip_run_split_partial`, `aflip_dynamic_split_fails` | Props/Splitting, Props/SplittingAflip, Props/SplittingLaws | proved for every run of the USL solver with elastic, fluid and mu(I) material, all forces and obstacles, for bodies of two points or more (a body of one point fails, C66). Drucker-Prager and Cam-Clay read the density m/(V + 1e-16): their update, and every successful run with them, is proved to be the same as long as the recorded densities of point and parts are on the same side of the density of separation, and refuted at that density. ASFLIP: proved for the transfers, for calls and for runs of any length with constant blending when each body has its own solver state, refuted for dynamic blending, which compares with the mass of the point |
| C148 | Stress responds continuously to the motion | partial | `elastic_continuous`, `fluid_continuous`, `muI_continuous_partial`, `muI_jumps`, `dp_continuous_partial`, `dp_jumps_dilatant`, `dp_jumps_hardening`, `dp_plastic_strain_jumps`, `dp_jumps_at_separation`, `mcc_continuous_partial`, `mcc_continuous_at_yield_partial`, `mcc_jumps_at_separation`, `mcc_jumps_at_yield` | Props/Continuity, Props/ContinuityYield | proved for elastic and fluid material, for Drucker-Prager without dilatancy and hardening at any density, for mu(I) away from the reference density and for Cam-Clay inside the yield surface and, on the wet side, where yielding begins (stress and preconsolidation pressure; pressures above one unit, trial shear stress of at least 1e-6, exact Jacobians, no stiffness limits). Refuted where material separates (mu(I), Drucker-Prager, Cam-Clay), between cone and apex with dilatancy or hardening (sign of the volumetric correction, C32), and at the yield surface of a clay with preconsolidation pressure below one (clamp of its logarithm). Not proved: Cam-Clay far beyond the yield surface, where the ten iterates need not stay on the wet side |
| C149 | Results depend continuously on the initial state | partial | `call_continuous_partial`, `run_continuous_partial`, `run_stable_partial`, `contact_call_continuous_partial`, `contact_run_continuous_partial`, `linear_force_jumps`, `cutoff_jumps`, `damping_jumps`, `friction_jumps` | Props/Dependence, Props/DependenceContact | proved for the USL solver with quadratic or cubic kernels, one coupling per body, gravity on the grid, and elastic, fluid, mu(I) or Drucker-Prager material (the last without dilatancy and hardening; its accumulated plastic strain may jump and is left out), for any topological space of parameters, at initial states from which no node gets exactly the cutoff mass, no mu(I) point exactly its reference density and no Drucker-Prager point exactly the density of separation. contact_run_continuous_partial: the same with any obstacles, at rest or in prescribed motion, whose collider has the builder's friction of zero, if moreover no node gets exactly the mass below which contact takes it to be at rest; obstacles and time step are then the same for all initial states. Refuted with the linear kernel (force jumps at a node), at the cutoff mass, with damping at zero momentum and with any friction at the tangential speed 1e-12 (friction_jumps). Not covered: Cam-Clay and Drucker-Prager with dilatancy or hardening (their stress jumps, C148), changes of the obstacles, contact between bodies, the ASFLIP solver |
| C15 | Particle mass, reference volume and particle count never change | proved | `mass_volume0_invariant` | Props/Invariants | all solvers, forces and laws of the package, any number of bodies and steps |
| C150 | Solids do not feel the rate | proved | `solids_rate_free`, `test_rate_free`, `deriv_unit`, `fluid_rate`, `uepi_rate`, `muI_rate`, `fluid_feels_rate` | Props/RateFree | solids_rate_free: one update of each solid, any factor, over any field; test_rate_free: whole element tests, the same recorded states or the same exception, for every derivative operator that obeys the chain rule for units (deriv_unit: the true derivative does). fluid_rate, uepi_rate, muI_rate: the exact change of parameters that a change of speed amounts to; fluid_feels_rate: a sheared viscous fluid does feel the speed |
| C151 | A short time step changes little | partial | `zero_step`, `short_step_partial`, `unseen_step`, `unseen_decays`, `steps_not_time` | Props/ShortSteps | zero_step: a step of length zero changes no position, deformation or volume and blends each velocity with that of the grid (nothing changes for alpha = 1); short_step_partial: results of short steps tend to that, with quadratic or cubic kernels, no node at the cutoff mass, no point where its law jumps, no reset of the deformation. Refuted for alpha < 1: motion that the grid cannot see loses the factor alpha in every step whatever its length (unseen_decays, any number of steps), so that the result depends on the number of steps (steps_not_time). Not covered: obstacles, ASFLIP, convergence of whole runs |
| C152 | Finer grids are more accurate | partial | `interpolation_error`, `interpolation_error_exact`, `gradient_error`, `smooth_of_gradient`, `step_error`, `gradient_not_improved` | Props/Accuracy | interpolation_error: at most M/2 dim v h^2 with v = 1/4 (linear, quadratic) or 1/3 (cubic), exact for /x/^2 with the smooth kernels (interpolation_error_exact); gradient_error: at most M dim reach^2 h; smooth_of_gradient: fields with a Lipschitz gradient are covered; step_error: positions and velocities after a USL step of stress-free bodies, for every arrangement of points. Refuted for the velocity gradients seen by the laws: with few points per cell they do not improve with the grid (gradient_not_improved). Not covered: stressed bodies (C129), several steps |
| C153 | Granular slopes rest below their friction angle and flow above it | partial | `slope_steady_partial`, `slope_creep_partial`, `slope_flows`, `gentle_slope_runs_away`, `layer_stress` | Props/SlopeFlow | Refuted as stated: with tan(theta) = 0.35 < mu_s = 0.38 no rate carries the layer (gentle_slope_runs_away), because the viscosity multiplies half the shear rate (C35). Proved with both thresholds halved: unique steady rate, growing with the slope, below mu_d/2 and none from there on; below mu_s/2 the rate is at most alpha 2T/sqrt(mu_s^2 - 4T^2); between, it is at least a rate set by the particle size and the root of the pressure |
| C154 | Critical steps tame the stresses wherever the points lie | partial | `step_tamed_partial`, `rest_tamed_partial`, `dt_crit_cfl`, `linear_step_untamed` | Props/StableStep | Proved for quadratic and cubic kernels, USL solver, bodies with a grid of their own, no loads: from rest the kinetic energy is at most R and the energy of the strain of the step at most R^2 times the energy of the stresses, R = cfl^2 dim 6 (quadratic) or cfl^2 dim 9 (cubic); in motion with any share eps of the kinetic energy added. dt_crit_cfl: steps up to get_dt_crit meet the condition. Refuted for linear kernels: a point near the edge of a cell gets a strain of more than 10^6 times the energy of its stress in a tenth of the critical step (linear_step_untamed). Not covered: bodies sharing a grid (C123), obstacles, ASFLIP |
| C155 | Drucker-Prager material fails by Coulomb's law | partial | `dp_coulomb_partial`, `coulomb_run_partial`, `cone_coulomb`, `slope_held`, `slope_fails`, `steeper_slopes_stand`, `wide_cone_no_angle`, `collapse_exceeds`, `plane_le_J2` | Props/Coulomb, Props/CoulombRun | Proved with the coefficients of the cone divided by sqrt(1 - 4 mu_1^2 / 3): Coulomb's law on every plane for mu_1 < sqrt 3 / 2 and no dilatancy (dilatant material leaves the cone, C32), for single updates and for all points over runs of any scene of such and of mu(I) bodies, and every load up to that line held at rest, so the line is sharp. Refuted with the friction angle: calibrated as in the collapse example, material of every friction angle also stands on steeper slopes (steeper_slopes_stand), and from mu_1 = sqrt 3 / 2 on there is no angle at all (wide_cone_no_angle). Held stresses need a shear stress above the 1e-6 floor of the law |
| C156 | The figure of the Cam-Clay example shows the lines of its clay | partial | `trx_lines_shown`, `trx_envelope_shown`, `trx_reading`, `trx_panels_agree`, `trx_run_reading`, `trx_sl_end_partial`, `trx_sl_value`, `trx_sl_wrong`, `trx_sl_counterexample`, `trx_sl_repaired` | Props/TrxFigure | Proved for the normal consolidation line, the critical state line and the envelope, at every pressure, for every state on the lines of the clay, and for all states of a test that are reached through connected states of mean stress at least p_min_calc. Refuted for the swelling line: its left end carries the volume of 10 Pa at the abscissa of 1 kPa, so that the line drawn is three times too steep and right only at its right end (trx_sl_value, trx_sl_wrong); with 1000 in place of 10 it would be right (trx_sl_repaired) |
| C157 | The domain only has to be large enough | proved | `call_domain`, `aflip_call_domain`, `run_domain`, `aflip_run_domain`, `run_boxes`, `sameLattice_create`, `cut_window_matters` | Props/DomainSize | Equality of the results of calls and runs, errors included, for USLSolver and USLAFLIP. The condition on the windows is asked along one of the two runs; run_boxes states it for the boxes and paddings a user gives. cut_window_matters shows that it cannot be dropped: a box that cuts the window of a point silently changes its velocity |
| C158 | A scene can be placed anywhere in the grid, by whole cells | proved | `whole_cells`, `whole_cells_run`, `aflip_whole_cells`, `aflip_whole_cells_run`, `base_moves`, `part_of_cell_matters` | Props/WholeCells, Props/WholeCellsAflip | By C91 the scene can be moved together with its grid, and by C157 the grid can then be put back. base_moves provides the condition on obstacles for every shape with the methods of the base class. part_of_cell_matters: for a quarter of a cell the claim is false |
| C159 | A plane simulation is a slice of a simulation in space | partial | `slab_p2g`, `slab_gravity`, `slab_integrate`, `slab_g2p`, `slab_after`, `slab_step`, `slab_elastic_step`, `slab_elastic_run_partial`, `slab_fluid_step`, `slab_fluid_run_partial`, `slab_sand_step`, `slab_sand_run_partial`, `slab_clay_step`, `slab_clay_run_partial`, `slab_sand_thickness`, `slab_reset_differs` | Props/Slab, Props/SlabClay, Props/SlabFluid, Props/SlabRun, Props/SlabSand, Props/SlabThickness | Stage by stage, for one call of USLSolver, and by induction for runs with the linear elastic law, the Newtonian fluid, mu(I), and Drucker-Prager and Cam-Clay at thickness one (their density adds 1e-16 to the volume, which no other thickness scales along; slab_sand_thickness is a body three units thick whose slice separates while it does not). Every step takes two half widths of the kernel and the largest motion across the plane off either face. slab_step holds for every law that only writes the stress, given that it treats points above each other alike. With a reset of the deformation gradient the claim fails (slab_reset_differs). Missing: sand and clay at other thicknesses away from the reference density, several bodies, obstacles, and the USLAFLIP solver |
| C16 | volume = det(F) * volume0 after every step | partial | `volume_invariant_partial`, `plane_reset_det_zero`, `volume_invariant_fails` | Props/Invariants | false in 2D for laws with requires_F_reset=True (det F becomes 0); proved in 3D and for laws without reset |
| C17 | 2D runs stay in plane strain | proved | `plane_strain_g2p`, `plane_strain_run` | Props/Invariants | F[2,2]=1 is stated after G2P; a later F reset sets it to 0 |
| C18 | The clock counts steps exactly | proved | `clock_exact` | Props/Invariants |  |
| C19 | Rigid and uncoupled bodies are not touched by the material-point update | proved | `inactive_body_unchanged`, `uncoupled_body_exact` | Props/Frame | scratch arrays L and force of a body named in a skipped coupling are cleared by the reset stage |
| C20 | PIC transfer never creates kinetic energy | proved | `p2g_kinetic_energy`, `pic_g2p_kinetic_energy`, `pic_step_kinetic_energy`, `usl_step_kinetic_energy`, `usl_step_energy_stressfree` | Props/Blend, Props/EnergyBalance, Props/Gather | usl_step_kinetic_energy is the whole call for any number of bodies and grids; usl_step_energy_stressfree adds every blend and gravity |
| C21 | AFLIP limits what a particle can do in a step | partial | `aflip_speed_limit_partial`, `aflip_displacement_fails` | Props/AflipMomentum | speed bound proved; displacement bound refuted, positions are advanced with the unlimited velocity |
| C22 | Results do not depend on particle numbering | proved | `p2g_renumber`, `g2p_renumber`, `step_renumber` | Props/Renumbering |  |
| C23 | Bodies sharing a grid act on it additively | partial | `shared_grid_partial`, `aflip_shared_grid_partial`, `shared_grid_force_last`, `shared_grid_force_fails` | Props/SharedGrid | mass and momentum are additive; the nodal force is overwritten by the last coupling |
| C24 | Contact never lets material penetrate further | proved | `contact_no_penetration`, `contact_penetration_bound`, `sdf_collider_hook` | Props/Contact | node and hook level; the second theorem covers normals shorter than one as produced by get_normal |
| C25 | Wall friction obeys Coulomb's law and is dissipative | proved | `contact_friction`, `contact_penetration_bound`, `sdf_collider_hook` | Props/Contact | node and hook level |
| C26 | Colliders act only inside their obstacle | proved | `collideNode_outside`, `sdf_collider_hook` | Props/Contact |  |
| C27 | Collider settings given to the builder take effect | partial | `collider_attached_partial`, `collider_friction_ignored`, `collider_default_obstacle` | Props/Builder | obstacle, grids and gap take effect; the friction argument is refuted, it is ignored for every value |
| C28 | Cundall damping removes energy and never reverses a force | proved | `damp_component`, `damping_grid`, `damping_body`, `damping_grid_hook`, `damping_body_hook`, `particle_damping_idle` | Props/Contact | component, grid, body and hook level |
| C29 | Grid-to-grid contact exchanges momentum without creating any | partial | `contact_momentum_partial`, `contact_momentum_fails`, `contact_rigid_actor`, `grid_contact_never_runs` | Props/Contact | momentum conserved up to the 1e-12 regularisation only; the solver can never complete a step with this force |
| C30 | Linear elastic stress depends only on total strain | proved | `elastic_total_strain`, `elastic_order_independent`, `elastic_closed_cycle`, `elastic_spin_irrelevant`, `elastic_pressure`, `elasticLaw_point` | Props/Elastic |  |
| C31 | Stress stays symmetric | proved | `stress_symmetric_run`, `libLaw_symm`, `jaumann_symm`, `elasticStress_symm`, `fluidStress_symm`, `muIStress_symm`, `dpUpdate_symm`, `mccUpdate_symm` | Props/Symmetry | whole scenes, any number of steps, all five laws |
| C32 | Drucker-Prager stress is admissible after every update | partial | `dp_admissible_partial`, `dp_admissible_run_partial`, `muI_in_cone`, `dp_cone_residual`, `dp_dilatant_inadmissible`, `dp_admissible_fails` | Props/CoulombRun, Props/DruckerPrager | proved for mu_1_hat=0 with inactive apex regularisation, for single updates and (H=0) for all points over runs of scenes with Drucker-Prager and mu(I) bodies; refuted for mu_1_hat>0 (sign of the volumetric correction) |
| C33 | Drucker-Prager stress and stored elastic strain agree | proved | `dp_stress_strain_consistent`, `dpLaw_point` | Props/DruckerPrager |  |
| C34 | Drucker-Prager accumulated plastic strain never decreases | partial | `dp_plastic_strain_monotone_partial`, `dp_apex_decreases`, `dp_plastic_strain_monotone_fails` | Props/DruckerPrager | refuted for the apex return, which strictly decreases eps_p_acc |
| C35 | mu(I) rheology is pressure-positive, cohesionless, dissipative and friction-bounded | partial | `muI_pressure`, `muI_dissipative`, `muI_shear_stress`, `muI_friction_bound_partial`, `muI_friction_law_half`, `muI_friction_law_fails` | Props/Flow | pressure, dissipation and bound hold; the shear stress is half of mu(I) p |
| C36 | A compressed Newtonian fluid pushes back and viscosity dissipates | partial | `fluid_pressure_partial`, `fluid_pressure_sign_wrong`, `fluidLaw_pressure`, `fluid_create_fails` (none) | Props/Flow | the sign of the pressure is wrong in the compression-positive convention used everywhere else |
| C37 | Initial densities and stresses are consistent with the law | proved | `fluid_eos_roundtrip`, `muI_create_roundtrip`, `mcc_ocr_density_roundtrip`, `mcc_stress_roundtrip`, `mcc_density_roundtrip`, `mcc_state_without_ref_fails` | Props/CamClay, Props/Flow | two of the Cam-Clay constructors leave stress_ref_stack=None, so the law cannot be run from them (last theorem) |
| C38 | Cam-Clay initialisation keeps admissible stresses | partial | `mcc_ocr_admissible_partial`, `mcc_ocr_inside_moved` | Props/CamClay | every stress with q given is projected, also from the inside |
| C39 | Cam-Clay update keeps the preconsolidation pressure positive and elastic steps inside the yield surface | partial | `mcc_pc_pos`, `mcc_pc_pos_run`, `mcc_elastic_inside_partial`, `mcc_return_shrinks`, `mcc_disconnected`, `mcc_pc_ge_one`, `mccLaw_point`, `mcc_reconnection_fails` | Props/CamClay | all parts proved except the elastic one for points whose previous mean stress is below p_min_calc, where it is refuted |
| C40 | Cam-Clay never produces tension | partial | `mcc_no_tension_partial`, `mcc_reconnection_fails` | Props/CamClay | refuted for points reconnecting from zero stress |
| C41 | Removing accumulated shear keeps the volume and loses nothing else | partial | `remove_shear_partial`, `reset_det_fails`, `reset_twice_fails`, `store_lost`, `store_overwritten` | Props/Reset | 3D determinant and idempotence proved; 2D determinant and F_store refuted |
| C42 | Stress measures decompose and reconstruct correctly | proved | `stress_split`, `stress_split_unique`, `getJ2_value`, `invariants_rotated`, `qVm_value`, `tau_value`, `triaxial_roundtrip`, `shearStrainVm_value` | Props/Helpers |  |
| C43 | Solid-fraction conversions are mutually inverse and match the density definition | partial | `phi_e_roundtrip`, `phi_e_range`, `phiFromL_conserves_solid`, `phi_from_bulk_density_wrong`, `phi_from_bulk_density_partial` | Props/Helpers | the bulk-density conversions are refuted for all positive densities |
| C44 | Robust small-matrix inversion is an inverse | proved | `safeInv_value`, `inv2_inverse`, `inv3_inverse`, `regularised_factor` | Props/Helpers |  |
| C45 | Rotation helpers are rigid | proved | `quatRotate_eq`, `quatRotate_rigid`, `quatRotate_mul`, `quatRotate_inv`, `rot2_rigid`, `quatRotate_not_rigid` | Props/Helpers | unit quaternions; the last theorem shows that unit length is needed |
| C46 | Obstacle primitives report true signed distance | proved | `sphere_signed_distance`, `plane_signed_distance`, `box_signed_distance` | Props/SdfDistance |  |
| C47 | Composite obstacles are unions | proved | `composite_union` | Props/Sdf |  |
| C48 | Moving an obstacle moves its distance field rigidly | proved | `rigid_motion2`, `rigid_motion3`, `updates_value`, `quat_norm_bounded`, `integrateQuat_euler` | Props/Sdf | 3D rigid motion for unit quaternions |
| C49 | Wall velocity is the velocity of the moving obstacle | proved | `surface_velocity2`, `surface_velocity2_update`, `surface_velocity3`, `integrateQuat_euler` | Props/Sdf |  |
| C50 | Domain walls keep material inside the domain box | proved | `domain_walls`, `domain_create` (PQ), `domain_contact` | Props/Sdf |  |
| C51 | Generated bodies lie in their shape with the requested resolution | partial | `generated_inside` (PQ), `regular_cells_partial`, `regular_leaves_cell`, `regular_overlaps`, `generate_modes_fail` (PQ), `ptsPerDim_least` | Props/Generate | all points are inside the shape; the regular spacing holds for unit cells and is refuted for other cell sizes |
| C52 | Builder handles stay valid | proved | `handles_stay_valid` | Props/Builder |  |
| C53 | Every force finds its own state | partial | `force_state_shifted`, `damping_state_shifted`, `force_state_partial`, `gravity_after_collider_fails` (PQ), `gravity_uses_other_state` (PQ) | Props/Builder | holds for forces added before the first collider; refuted after a collider, where the stored index is too large by the number of colliders |
| C54 | The solver uses the grid, law and obstacle that the user coupled | partial | `grid_used`, `grid_used_partial`, `law_used_partial`, `sdf_paired_partial`, `solver_state_partial`, `sdf_subset_wrong`, `crossed_couplings_wrong`, `second_grid_fails`, `aligned_single_grid` (P), `aligned_in_order` (PQ) | Props/Builder | holds for couplings aligned with the registries and for the default obstacle list; refuted for crossed couplings, a single body on a later grid, and obstacle subsets |
| C55 | AFLIP reads back the affine matrix it stored | partial | `aflip_stored`, `aflip_affine_roundtrip_partial`, `aflip_affine_swapped`, `aflip_index_error` | Props/Frame | the state is read at s_idx and written at p_idx; refuted when these differ |
| C56 | Saved states are retrievable: last write per step wins | proved | `stateName_injective`, `load_last_saved`, `load_unsaved` | Props/SimIO |  |
| C57 | A crash while saving does not damage other steps | proved | `crash_other_steps` | Props/SimIO |  |
| C58 | Opening a recorder on existing output | proved | `open_recorder` (P) | Props/SimIO |  |
| C59 | Output stride of the triaxial driver is pure subsampling | proved | `stride_subsamples`, `stride_not_dividing` | Props/ElementTest |  |
| C60 | Undrained element tests keep volume constant | proved | `undrained_volume_constant`, `prescribed_axial_strain`, `recorded_rates` | Props/ElementTest | expm is the matrix exponential over the reals |
| C61 | Grid sizing survives floating-point rounding | partial | `float_size_exact_partial`, `float_size_within_one_partial`, `float_size_loses_node`, `float_size_gains_node`, `rnd64_err`, `rnd64_exact` | Props/FloatGrid | exact for boxes and cell sizes on a common binary lattice, never off by more than one; refuted for cell size 0.1; unbounded exponent |
| C62 | Critical time step is positive and conservative | proved | `elastic_dt_crit`, `dtCrit_bound` | Props/Elastic |  |
| C63 | CPIC masks never cut material off | proved | `cpic_mask_one`, `ghost_irrelevant`, `sharpness_irrelevant` | Props/Frame |  |
| C64 | scatter_to_grid averages | partial | `scatter_weighted_mean`, `scatter_range`, `scatter_constant`, `scatter_total`, `gather_fails`, `gather_intended_partial` | Props/Scatter | scatter_to_grid is proved; gather_from_grid always raises AttributeError, its intended formula is proved to interpolate |
| C65 | Default material points are consistent | partial | `create_consistent` (PQ), `create_keeps_given`, `create_density_partial`, `create_density_inexact`, `default_volume_3d`, `points_per_cell_ignored` (PQ) | Props/Scatter | mass and volumes are consistent; the density differs by a factor V/(V+1e-16), the default volume is wrong in 3D and points_per_cell is ignored |
| C66 | Bodies of any size can be stepped again | partial | `volume_array_shape_partial`, `single_point_second_call_fails`, `single_point_obstacle_fails` | Props/Frame | refuted for bodies of one point: the second call always fails, with obstacles (USL) even the first |
| C67 | The collider acts by velocity projection only | proved | `collider_gap_ignored`, `collider_depth_ignored` | Props/Contact | shows that the documented margin `gap` has no effect |
| C68 | Round obstacle primitives report true signed distance | partial | `capsule_signed_distance`, `cylinder_signed_distance`, `torus_signed_distance`, `ring_signed_distance`, `walls_signed_distance`, `hollow_cylinder_height_ignored`, `ring_no_hole_wrong` | Props/SdfDistance, Props/SdfHollow | refuted for the 3D hollow cylinder, whose height is never used, and for the planar ring with inner radius 0; the ring and the planar walls are exact otherwise |
| C69 | Axial strains reported by the triaxial test belong to the recorded states | partial | `reported_strain_partial`, `reported_strain_scalar_wrong`, `reported_strain_stride_wrong` | Props/ElementTest | holds for array time steps with stride 1; refuted for scalar input and for larger strides |
| C70 | An interrupted save is never read back as a wrong state | proved | `crash_same_step`, `crash_loses_step` | Props/SimIO | writes reach the disk leaf by leaf; a partly written leaf is not modelled |
| C71 | The element driver honours is_F_linear_approx | partial | `linear_update_partial`, `linear_flag_ignored` | Props/ElementTest | the parameter of step works; the attribute of the driver is never read |
| C72 | build returns what was registered | proved | `build_keeps_states`, `build_single`, `unknown_scheme` (PQ) | Props/Builder |  |
| C73 | The deformation gradient follows the motion of the points | partial | `aflip_deformation_follows`, `usl_deformation_follows_partial`, `usl_deformation_wrong` | Props/Deformation | holds for the ASFLIP solver; for USL only for symmetric velocity gradients, refuted in simple shear |
| C74 | alpha blends FLIP and PIC as documented | partial | `usl_alpha_blend`, `usl_alpha_partial`, `usl_alpha_reversed`, `aflip_alpha_blend` | Props/Angular, Props/Blend | the code blends with the ends swapped: alpha = 0 is PIC and alpha = 1 is FLIP |
| C75 | The star obstacle reports the signed distance to a star | proved | `star_signed_distance` | Props/SdfStar | arctan2, round, sin, cos of the reals |
| C76 | A point cloud obstacle is the union of the balls of its points | partial | `cloud_union`, `cloud_radius_volume`, `cloud_smooth_partial`, `cloud_smooth_false_inside`, `signedDist_union` | Props/SdfTable | holds for smooth_k <= 1e-3 (in the plane the balls are larger by 1e-12 pi); with smoothing, which is the default, the error is at most log(n)/smooth_k and points outside all balls are reported inside |
| C77 | A tabulated obstacle interpolates its table | partial | `table_between`, `table_affine`, `table_outside`, `table_scale`, `table_box_contains`, `table_box_fails` | Props/SdfTable | all proved, except that the reported box contains the obstacle only if the outer faces of the table lie outside of the thickened solid; refuted otherwise |
| C78 | Reported strains are logarithmic strains of the motion | proved | `hencky_log_strain`, `logStrain_unique`, `hencky_objective`, `hencky_trace`, `eps_v_volume`, `reported_strains` | Props/Derived | the decomposition is any function returning singular value decompositions |
| C79 | Lithostatic preconditioning gives the stress under a slope | partial | `lithostatic_invariants`, `lithostatic_stress_partial`, `lithostatic_overconsolidated_wrong`, `lithostatic_slope_wrong` | Props/Derived | the invariants are right; the rebuilt stress is right on level ground with k0 <= 1 and wrong for k0 > 1 or under a slope |
| C80 | Derived quantities of material points mean what they say | partial | `density_mass`, `density_ratio`, `ke_zero_iff`, `ke_boost`, `point_invariants`, `strain_rate_stretch`, `shear_strain_rate_value`, `point_properties_missing` | Props/Derived | KE_density_stack and q_p_stack build an exception without raising it and return None |
| C81 | Transfer to the grid and nodal forces keep the balance of angular momentum | proved | `p2g_angular_momentum`, `aflip_p2g_angular_momentum`, `nodal_forces_moment`, `usl_grid_angular_momentum` | Props/Angular | any kernel for USL and for the forces (linear kernel off grid lines); quadratic and cubic kernel for the ASFLIP transfer, whose inertia tensor is only constant for those |
| C82 | ASFLIP preserves angular momentum | partial | `aflip_g2p_angular_partial`, `aflip_affine_motion_kept`, `aflip_g2p_angular_fails` | Props/Angular | proved for affine nodal velocity fields; the default update stores the MLS gradient, for which angular momentum is not preserved in general |
| C83 | Contact normals point straight away from the nearest surface point | proved | `normal_nearest`, `nearest_exists`, `sphere_normal`, `plane_normal`, `box_normal` | Props/SdfNormal | jax.grad is assumed to return the gradient where there is one; the sphere theorem also covers its surface |
| C84 | A yielding Cam-Clay step solves the plasticity equations | proved | `mcc_return_map`, `mcc_return_dissipates`, `mccGrad_deriv` | Props/CamClayReturn | the residuals left by the ten damped Newton steps are those of C125; trial shear stresses below 1e-6 are treated as 1e-6 |
| C85 | Cam-Clay states stay on their compression lines | partial | `mcc_line_step`, `mcc_line_run_partial`, `driver_mcc_line_step`, `driver_mcc_line_run`, `mcc_critical_line`, `mcc_volume_drift` | Props/CamClay, Props/CamClayReturn, Props/DriverControl | holds for the recorded volume of every triaxial element test; in the solver it holds for the specific volume that follows the logarithmic strain, elastic or plastic, converged or not; the volume the solver computes falls below the lines with every isotropic increment |
| C86 | Stored Cam-Clay elastic strain matches the stress | partial | `mcc_elastic_strain_partial`, `mcc_elastic_strain_fails` | Props/CamClayReturn | yielding steps store the secant strain (p - p0)/K(p), elastic steps the accumulated increments; refuted after one elastic step |
| C87 | The stress of a recorded state belongs to its density | partial | `solver_stress_current`, `driver_density_partial`, `driver_stress_lags` | Props/DriverControl | holds for both solvers; the element-test driver gives the law the volume before the step, so its stress belongs to the previous density |
| C88 | Drained element tests hold the confining stress | partial | `newton_affine`, `drained_elastic_step`, `drained_elastic_control`, `drained_fluid_step`, `drained_dp_step_partial`, `drained_dp_compression_step`, `drained_dp_control_partial`, `muI_lateral_range`, `drained_muI_misses`, `p_constant_no_control`, `p_constant_run`, `p_constant_drifts` | Props/DriverControl, Props/DriverDrained, Props/DriverYield | proved for linear elasticity (both controls, any length), for the lateral stress of the fluid, and for compression tests of any length of Drucker-Prager material without dilatancy and hardening, elastic or yielding (two Newton iterations or more, steps above the smallest resolved shear stress, a derivative that takes one of the slopes at a corner); refuted for mu(I): with is_p_constant=True no lateral rate can change the mean stress of the step, and the lateral stress stays within mu_d/(2 sqrt 3) of the pressure of the equation of state, whatever the lateral rate; not proved for Cam-Clay and for dilatant or hardening Drucker-Prager material |
| C89 | Cubic boundary splines complete the spline space at walls | partial | `cubic_wall_unity`, `cubic_wall_linear`, `cubic_types_nonneg`, `cubicDBasis_right_deriv`, `cubic_wall_grad_partial`, `cubic_wall_grad_fails`, `cubic_wall_unused`, `cubic_wall_plane_fails` | Props/CubicWall | weights proved in one dimension; gradients proved except on the right wall, where they sum to minus the inverse cell size; refuted in the plane, where one node type selects the splines of both axes; the solver never selects the boundary splines, so at a wall without padding the weights sum to 5/6 |
| C90 | Constitutive laws prefer no direction | proved | `laws_isotropic` | Props/Isotropy | Newton and Jacobian iterations of Cam-Clay act on the invariants and are covered; exact arithmetic |
| C91 | A simulation does not depend on axes, origin and numbering | partial | `usl_symmetric`, `usl_run_symmetric`, `aflip_symmetric`, `aflip_run_symmetric`, `baseSdf_sym`, `sphereSdf_sym`, `domainSdf_sym_partial`, `corner_prefers_axis` | Lemmas/LatObstacle, Props/LatticeAflip, Props/LatticeSymmetry | proved for both solvers and every scene whose obstacles follow the axes (ASFLIP: each body owns the solver state with its number), which holds for all obstacles of the base class (any gradient operator that prefers no axis) and for balls; for domain walls proved where one wall is closest and refuted at places equally far from two walls, where the first wall in the list wins |
| C92 | Symmetric scenes stay symmetric | partial | `symmetric_scene_stays`, `aflip_symmetric_stays`, `walls_break_symmetry` | Props/LatticeAflip, Props/LatticeSymmetry | follows from C91; refuted for domain walls: two points moving along the diagonal into the corner of a frictionless square leave it with different velocity components |
| C93 | Rigid rotation carries the stress along | partial | `spin_pressure_partial`, `spin_J2_grows`, `dp_spin_step`, `mcc_spin_step`, `dp_carried_partial`, `mcc_carried_partial`, `usl_spin_gradient`, `aflip_spin_gradient`, `jaumann_backwards`, `dp_backwards`, `elastic_spin_keeps`, `elastic_not_carried`, `dp_spin_yields`, `mcc_spin_yields` | Props/Spin | pressure is kept; Drucker-Prager and Cam-Clay stresses turn with the material to first order with the gradient the USL solver supplies; refuted: J2 grows in every step so that pure rotation ends in yielding whatever the strength, linear elastic stress does not turn at all, and with the gradient of the ASFLIP solver the stress turns the wrong way |
| C94 | A moving observer sees the same simulation | partial | `usl_galilean_partial`, `galilean_run_partial`, `aflip_galilean_partial`, `aflip_galilean_run_partial`, `aflip_limit_not_galilean`, `libLaw_carried`, `plane_sameLook`, `plane_rides`, `floor_not_galilean`, `two_steps_not_galilean` | Props/Galilean, Props/GalileanAflip, Props/WholeCells | proved for one step with any laws of the package, gravity, and obstacles that look the same after their motion over the step (none at all, or a plane moved along itself); refuted for a floor moving towards or away from the grid rows, since the obstacle is moved before the points, and over two steps, since the places of the points relative to the grid differ; for an observer moving a whole number of cells per step it is proved over runs of any length. ASFLIP: the same for points below the speed limit of the solver for both observers; refuted for every scene when the observer is faster than twice the limit |
| C95 | The picture of an obstacle covers the domain | partial | `sample_covers_partial`, `sample_misses_end`, `sample_backwards`, `sample_misses_flat_top` | Props/Visual | holds for boxes with start + end >= 0 on every axis, up to the last step; refuted for boxes below the origin (a strip is missing, or all samples lie outside) and for flat boxes (the top is missing) |
| C96 | The drawn surface is the obstacle | partial | `drawn_vertex_near_surface`, `drawn_edge_meets_surface`, `signedDist_axisLipschitz`, `vtk_mesh_normals`, `vtk_faces_read`, `rerun_mesh_normals_partial`, `rerun_mesh_normals_wrong` | Props/Visual | vertices and VTK normals are proved; the normals logged to Rerun have two components exchanged |
| C97 | Points, obstacles and domain are drawn consistently and to scale | partial | `drawn_together`, `domain_box_contains_grid`, `drawn_size_partial`, `drawn_size_ignores_compression` | Props/Visual | map and box proved; the size is that of the initial, not of the current volume |
| C98 | Colours are a faithful scale of the data | partial | `colours_default_partial`, `colours_limits`, `colours_outside`, `colours_flat`, `colours_ignore_sense`, `colours_given` | Props/Visual | holds without limits for a spread of at least 1e-6; refuted for given limits (no clipping) and for data on a small scale |
| C99 | Every logged step keeps its own file | partial | `vtk_files`, `vtk_series_kept`, `vtk_particles_content`, `vtk_lines_partition` (PQ), `vtk_default_step_overwrites`, `vtk_calls_fail` | Props/Visual | proved for calls with distinct labels and steps; without a step every call overwrites the last one, and log_sdf without a step fails |
