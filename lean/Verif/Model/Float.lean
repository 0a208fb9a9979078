import Verif.Model.Grid
import Mathlib.Data.Int.Log
import Mathlib.Data.Rat.Floor

/-!
# Double precision

Python floats as rational numbers: every operation is computed exactly and rounded to 53 significant bits, ties to even.
Simplification: the exponent is unbounded, so overflow, subnormal numbers, infinities and NaN are not modelled.
-/

namespace Hydrax

/-- Nearest integer, ties to even. -/
def nearestEven (q : ℚ) : ℤ :=
  if q - ⌊q⌋ < 1 / 2 then ⌊q⌋
  else if 1 / 2 < q - ⌊q⌋ then ⌊q⌋ + 1
  else if Even ⌊q⌋ then ⌊q⌋ else ⌊q⌋ + 1

/-- Unit in the last place of a non-zero number. -/
def ulp (q : ℚ) : ℚ := 2 ^ (Int.log 2 |q| - 52)

/-- Rounding to double precision. -/
def rnd64 (q : ℚ) : ℚ := if q = 0 then 0 else nearestEven (q / ulp q) * ulp q

/-- `GridDomain.create` (grid.py:39-75) with every arithmetic operation followed by `rnd`. -/
def GridDomain.createRounded {dim : ℕ} (rnd : ℚ → ℚ) (origin stop : Fin dim → ℚ) (cellSize : ℚ) (padding : ℕ := 2) :
    GridDomain ℚ dim :=
  let paddedOrigin := fun d => rnd (origin d - rnd (padding * cellSize))
  let paddedEnd := fun d => rnd (stop d + rnd (padding * cellSize))
  let rawSize := fun d => rnd (rnd (paddedEnd d - paddedOrigin d) / cellSize)
  { origin := paddedOrigin
    stop := paddedEnd
    cellSize := cellSize
    gridSize := fun d => (pyInt (rnd (rawSize d + 1))).toNat
    padding := padding
    invCellSize := rnd (1 / cellSize) }

end Hydrax
