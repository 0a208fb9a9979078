import Verif.Props.AflipMomentum
import Verif.Model.Laws

/-!
# Numbers from the test files of the repository

The files in `/repo/tests` contain expected values (some inside commented-out asserts). Here the model is run on the same
inputs. These are checks of the model, not properties; no claim in `MANIFEST.json` rests on them.
-/

namespace Hydrax

/-- `|x - y| ≤ 1e-3 |y|`, the tolerance of `np.testing.assert_allclose(x, y, rtol=1e-3)`. -/
def close3 (x y : ℚ) : Bool := decide (|x - y| ≤ 1 / 1000 * |y|)

/-- The body of tests/test_usl.py:28-44. -/
def testBody : MPState ℚ 2 2 :=
  MPState.create
    { position := fun _ => ![1 / 10, 1 / 4]
      velocity := some fun _ => ![1, 1]
      mass := some ![1 / 10, 3 / 10]
      volume := some ![7 / 10, 4 / 10]
      stress := some fun p => if p = 0 then fun _ _ => 1 else 0 }

/-- The grid of tests/test_usl.py:18-21 (the current code adds padding, the test expects none). -/
def testGrid (pad : ℕ) : GridDomain ℚ 2 := GridDomain.create (fun _ => 0) (fun _ => 1) 1 pad

/-- Nodes after P2G and integration with `dt = 0.001`. -/
def testNodes (pad : ℕ) : GridArrays ℚ 2 :=
  integrateBody (1 / 1000) (p2gBody (compute .linear (testGrid pad) testBody.position) testBody GridArrays.new)

/-- The points after G2P with `alpha = 0.99`. -/
def testPoints (pad : ℕ) : MPState ℚ 2 2 :=
  g2pBody (99 / 100) (1 / 1000) (compute .linear (testGrid pad) testBody.position) none (testNodes pad) testBody

set_option maxRecDepth 100000 in
/-- tests/test_usl.py:109-117: nodal masses and momenta. -/
example : (List.range 4).map (testNodes 0).mass = [27 / 100, 9 / 100, 3 / 100, 1 / 100] ∧
    ∀ a, (List.range 4).map (fun j => (testNodes 0).moment j a) = [27 / 100, 9 / 100, 3 / 100, 1 / 100] := by
  decide +kernel

set_option maxRecDepth 100000 in
/-- tests/test_usl.py:135-149, 158: the velocity gradient, with the padding of the test and of the current code. The expected
value in the test is transposed in the same way as the code (C14). -/
example : ∀ pad ∈ [0, 2], ∀ p, close3 ((testPoints pad).L p 0 0) (-19445 / 1000000) ∧ close3 ((testPoints pad).L p 0 1) (-19445 / 1000000) ∧
    close3 ((testPoints pad).L p 1 0) (-9333334 / 1000000000) ∧ close3 ((testPoints pad).L p 1 1) (-9333334 / 1000000000) ∧
    (testPoints pad).L p 2 2 = 0 := by
  decide +kernel

set_option maxRecDepth 100000 in
/-- tests/test_usl.py:152-171: volumes, positions, velocities. -/
example : ∀ pad ∈ [0, 2], ∀ p, close3 ((testPoints pad).volume p) ((![69998 / 100000, 399989 / 1000000] : Fin 2 → ℚ) p) ∧
    (testPoints pad).position p = ![101 / 1000, 251 / 1000] ∧ (testPoints pad).velocity p = ![1, 1] := by
  decide +kernel

/-- tests/test_usl.py:195-211. -/
def testBody3 : MPState ℚ 3 2 :=
  MPState.create
    { position := fun _ => ![1 / 10, 1 / 4, 3 / 10]
      velocity := some fun _ => ![1, 1, 1]
      mass := some ![1 / 10, 3 / 10]
      volume := some ![7 / 10, 4 / 10]
      stress := some fun p => if p = 0 then fun _ _ => 1 else 0 }

/-- The grid of tests/test_usl.py:187-190. -/
def testGrid3 : GridDomain ℚ 3 := GridDomain.create (fun _ => 0) (fun _ => 1) 1 0

/-- Nodes after P2G and integration with `dt = 0.001`. -/
def testNodes3 : GridArrays ℚ 3 :=
  integrateBody (1 / 1000) (p2gBody (compute .linear testGrid3 testBody3.position) testBody3 GridArrays.new)

/-- The points after G2P with `alpha = 0.99`. -/
def testPoints3 : MPState ℚ 3 2 :=
  g2pBody (99 / 100) (1 / 1000) (compute .linear testGrid3 testBody3.position) none testNodes3 testBody3

set_option maxRecDepth 100000 in
/-- tests/test_usl.py:272-279: nodal masses and momenta in 3D. -/
example : (List.range 8).map testNodes3.mass =
      [189 / 1000, 81 / 1000, 63 / 1000, 27 / 1000, 21 / 1000, 9 / 1000, 7 / 1000, 3 / 1000] ∧
    ∀ a, (List.range 8).map (fun j => testNodes3.moment j a) = (List.range 8).map testNodes3.mass := by
  decide +kernel

set_option maxRecDepth 100000 in
/-- tests/test_usl.py:284-305: velocity gradient, positions and velocities in 3D. -/
example : ∀ p, (∀ j, close3 (testPoints3.L p 0 j) (-19445 / 1000000) ∧ close3 (testPoints3.L p 1 j) (-933333 / 100000000) ∧
      close3 (testPoints3.L p 2 j) (-833333 / 100000000)) ∧
    testPoints3.position p = ![101 / 1000, 251 / 1000, 301 / 1000] ∧ testPoints3.velocity p = ![1, 1, 1] := by
  decide +kernel

/-- tests/test_linearelastic_mat.py:15-19. -/
example : close3 (shearModulus (1000 : ℚ) (1 / 5)) (416666667 / 1000000) ∧
    close3 (bulkModulus (1000 : ℚ) (1 / 5)) (5555555555555557 / 10000000000000) := by
  decide +kernel

/-- tests/test_linearelastic_mat.py:24-71. -/
example : ∀ i j, elasticStress (1 / 10 : ℚ) (1 / 10) ((1 / 10 : ℚ) • (1 : Mat3 ℚ)) 0 (1 / 10) i j =
    ((125 / 100000 : ℚ) • (1 : Mat3 ℚ)) i j := by
  intro i j
  fin_cases i <;> fin_cases j <;> decide +kernel

/-- tests/test_newtonfluid_mat.py:53-69; `pow` is only used with the exponent 7. The expected stress is negative in
compression, like the code and unlike the rest of the library (C36). -/
example : ∀ i, close3 (fluidStress { ratFns with pow := fun x _ => x ^ 7 } { bulk := 2 * 10 ^ 6, viscosity := 1 / 1000, beta := 7 }
    (1 : Mat3 ℚ) 1400 1390 1 i i) (-10292005 / 100) := by
  decide +kernel

end Hydrax
