import Verif.Model.MaterialPoints
import Verif.Spec.Interp
import Mathlib.LinearAlgebra.Matrix.Notation
import Mathlib.Data.Fin.VecNotation
import Mathlib.Tactic.NormNum
import Mathlib.Tactic.FinCases
import Mathlib.Data.Rat.Floor

/-!
# A concrete body used in the examples beside the theorems
-/

namespace Hydrax

/-- Two points in the unit square with different masses, velocities and a common stress. -/
def exBody : MPState ℚ 2 2 :=
  MPState.create
    { position := ![![1 / 3, 9 / 10], ![1 / 2, 1 / 4]]
      velocity := some ![![1, 2], ![-3, 1]]
      mass := some ![1, 2]
      volume := some ![1 / 4, 1 / 2]
      stress := some fun _ => !![1, 2, 0; 2, 3, 0; 0, 0, 1] }

theorem exBody_inBox : ∀ p, Spec.InBox (fun _ => (0 : ℚ)) (fun _ => 1) (exBody.position p) := by
  intro p d
  fin_cases p <;> fin_cases d <;> norm_num [exBody, MPState.create]

/-- The same body with the second point moved far off the grid. -/
def exBodyFar : MPState ℚ 2 2 := { exBody with position := ![![1 / 3, 9 / 10], ![100, -7]] }

end Hydrax
