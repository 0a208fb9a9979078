import Verif.Props.SlabSandExample
import Verif.Props.Invariants
import Verif.Lemmas.RealFns

/-!
# Sand notices the thickness of the slab (C159)
-/

namespace Hydrax
open Spec

/-- Sand with its reference density between the densities that the two-dimensional and the three units thick body compute. -/
def edgeSand : DPParams ℚ := DPParams.mk' 100 (1 / 4) (1 / 2) 1 1 (1 / 4) 0 (2 / (1 + 1 / (2 * 10 ^ 16)))

/-- The stress of a point after an update of the law. -/
def stressAfter {dim n : ℕ} (law : Law ℚ dim (LawState ℚ)) (s : MPState ℚ dim n) (ls : LawState ℚ) (dt : ℚ) (p : Fin n) : Option (Mat3 ℚ) :=
  match law.update s ls dt with
  | .ok r => some (r.1.stress p)
  | .error _ => none

/-- The slab theorem fails for sand of another thickness: the density adds `1e-16` to the volume, so a body three units thick and its slice have
different densities, and at the reference density one of them has come apart while the other carries its pressure. -/
theorem slab_sand_thickness : Slab bookGrid 2 7 3 bookOf (fun _ => 1 / 2) leafBody bookBody ∧
    stressAfter (dpLaw ratFns edgeSand false) leafBody (.dp (fun _ => 0) (fun _ => 0) fun _ => 2) (1 / 100) 0 = some 0 ∧
    stressAfter (dpLaw ratFns edgeSand false) bookBody (.dp (fun _ => 0) (fun _ => 0) fun _ => 2) (1 / 100) 0 = some (isoT 2) := by
  refine ⟨book_slab, ?_, ?_⟩
  · simp only [stressAfter, dpLaw]
    refine congrArg some ?_
    have : ∀ i j : Fin 3, (show ℚ from (dpUpdate ratFns edgeSand (leafBody.L 0) 0 0 2 (leafBody.density 0) (1 / 100)).stress i j) = 0 := by decide +kernel
    exact Matrix.ext this
  · simp only [stressAfter, dpLaw]
    refine congrArg some ?_
    have : ∀ i j : Fin 3, (show ℚ from (dpUpdate ratFns edgeSand (bookBody.L 0) 0 0 2 (bookBody.density 0) (1 / 100)).stress i j) = (show ℚ from isoT (2 : ℚ) i j) := by decide +kernel
    exact Matrix.ext this

/-- Nor does it hold with a reset of the deformation gradient: points that agree before a reset differ after it, whatever their deformation, as the
reset of the plane leaves no volume and that of space keeps it. -/
theorem slab_reset_differs {K : Type*} [Field K] [LinearOrder K] [IsStrictOrderedRing K] [FloorRing K] {fn : MathFns K} (hcb : ∀ x, fn.cbrt x ^ 3 = x) {n m : ℕ}
    (s2 : MPState K 2 n) (s3 : MPState K 3 m) (i : Fin n) (q : Fin m) (hF : s3.F q = s2.F i) (hdet : (s2.F i).det ≠ 0) :
    (removeShear fn true s3).F q ≠ (removeShear fn true s2).F i := by
  intro e
  change cbar fn 3 (s3.F q) = cbar fn 2 (s2.F i) at e
  apply hdet
  rw [← hF, ← cbar_det_three hcb (s3.F q), e, cbar_det_two]

/-- An undeformed point of the plane and one of space. -/
example := slab_reset_differs realFns_cbrt_cube (MPState.create { position := fun _ => ![0, 0] } : MPState ℝ 2 1)
  (MPState.create { position := fun _ => ![0, 0, 0] } : MPState ℝ 3 1) 0 0 rfl (by simp [MPState.create])

end Hydrax
