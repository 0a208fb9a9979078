import Verif.Model.Basic

/-!
# Grid

Model of `hydraxmpm/grid/grid.py`.
-/

namespace Hydrax

/-- `GridDomain` (grid.py:20-37). Sizes are natural numbers. -/
structure GridDomain (K : Type*) (dim : ℕ) where
  origin : Fin dim → K
  stop : Fin dim → K
  cellSize : K
  gridSize : Fin dim → ℕ
  padding : ℕ
  invCellSize : K

section
variable {K : Type*} [Field K] [LinearOrder K] [FloorRing K] {dim : ℕ}

/-- `GridDomain.create` (grid.py:39-75). `int(...)` truncates towards zero; a negative size, which
makes JAX fail later, is mapped to 0 here. The conversions tuple/array (54-57) are the identity. -/
def GridDomain.create (origin stop : Fin dim → K) (cellSize : K) (padding : ℕ := 2) :
    GridDomain K dim :=
  let paddedOrigin := fun d => origin d - padding * cellSize
  let paddedEnd := fun d => stop d + padding * cellSize
  let rawSize := fun d => (paddedEnd d - paddedOrigin d) / cellSize
  { origin := paddedOrigin
    stop := paddedEnd
    cellSize := cellSize
    gridSize := fun d => (pyInt (rawSize d + 1)).toNat
    padding := padding
    invCellSize := 1 / cellSize }

end

section
variable {K : Type*} {dim : ℕ}

/-- `num_cells` (grid.py:83-89). -/
def GridDomain.numCells (g : GridDomain K dim) : ℕ := ∏ d, g.gridSize d

/-- Row `r` of `position_stack` (grid.py:91-105): `jnp.indices(grid_size)` moved last, scaled,
shifted and flattened in C order. -/
def GridDomain.positionStack [Field K] (g : GridDomain K dim) (r : ℕ) : Fin dim → K :=
  fun d => (unravel dim g.gridSize r d : K) * g.cellSize + g.origin d

/-- `GridArrays` (grid.py:108-127). -/
structure GridArrays (K : Type*) (dim : ℕ) where
  mass : ℕ → K
  moment : ℕ → Fin dim → K
  momentNt : ℕ → Fin dim → K
  force : ℕ → Fin dim → K

/-- `GridArrays.new` (grid.py:129-142). -/
def GridArrays.new [Field K] : GridArrays K dim :=
  { mass := fun _ => 0, moment := fun _ _ => 0, momentNt := fun _ _ => 0, force := fun _ _ => 0 }

end
end Hydrax
