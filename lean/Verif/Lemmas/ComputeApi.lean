import Verif.Lemmas.GridBox

/-!
# From the flat interaction list to one point (helper lemmas)
-/

set_option linter.unusedSectionVars false

namespace Hydrax

section
variable {K : Type*} [Field K] [LinearOrder K] [IsStrictOrderedRing K] [FloorRing K] {dim : ℕ}
open Spec

theorem compute_sum_point {M : Type*} [AddCommMonoid M] (ker : Kernel) (g : GridDomain K dim)
    {n : ℕ} (pos : Fin n → Fin dim → K) (p : Fin n)
    (F : Fin n → Interaction K → M) :
    (∑ i with (compute ker g pos).pointId i = p,
      F ((compute ker g pos).pointId i)
        ⟨(compute ker g pos).nodeHash i, (compute ker g pos).shapeVal i,
         (compute ker g pos).shapeGrad i, (compute ker g pos).relDist i⟩)
      = ∑ s : Fin (windowSize ker dim), F p (computeSingle ker g (pos p) s) := by
  rw [Finset.sum_filter]
  rw [← sum_point_interactions n (windowSize ker dim)
    (fun q s => F q (computeSingle ker g (pos q) s)) p]
  rfl

/-- Position of lattice node `m`. -/
def latticePos (g : GridDomain K dim) (m : Fin dim → ℤ) : Fin dim → K :=
  fun d => (m d : K) * g.cellSize + g.origin d

theorem positionStack_nodeHashOf (g : GridDomain K dim) (m : Fin dim → ℤ)
    (hm : isValid g.gridSize m) : g.positionStack (nodeHashOf g m) = latticePos g m := by
  funext d
  unfold GridDomain.positionStack nodeHashOf latticePos
  rw [unravel_ravel dim g.gridSize _ (fun d => by have := hm d; omega)]
  have := (hm d).1
  have h2 : (((m d).toNat : ℤ) : K) = (m d : K) := by rw [Int.toNat_of_nonneg this]
  rw [← h2]; push_cast; rfl

theorem latticePos_nodeIdx (ker : Kernel) (g : GridDomain K dim) (hg : g.cellSize * g.invCellSize = 1)
    (x : Fin dim → K) (s : ℕ) (d : Fin dim) :
    latticePos g (nodeIdx ker g x s) d = x d - g.cellSize * distVec ker g x s d := by
  unfold latticePos distVec basePos
  have : g.cellSize * ((x d - g.origin d) * g.invCellSize - (nodeIdx ker g x s d : K))
      = (x d - g.origin d) * (g.cellSize * g.invCellSize) - g.cellSize * (nodeIdx ker g x s d : K) := by
    ring
  rw [this, hg]; ring

theorem create_inv (o e : Fin dim → K) (h : K) (hh : 0 < h) (p : ℕ) :
    (GridDomain.create o e h p).cellSize * (GridDomain.create o e h p).invCellSize = 1 := by
  simp only [GridDomain.create]; field_simp

theorem create_gridSize_pos (o e : Fin dim → K) (h : K) (hh : 0 < h) (pad : ℕ)
    (hoe : ∀ d, o d ≤ e d) (d : Fin dim) : 0 < (GridDomain.create o e h pad).gridSize d := by
  have h1 := create_gridSize o e h hh pad d (hoe d)
  have h2 : (0 : ℤ) ≤ ⌊(e d - o d) / h⌋ :=
    Int.floor_nonneg.mpr (div_nonneg (by linarith [hoe d]) hh.le)
  omega

theorem exists_node_of_hash (g : GridDomain K dim) (j : ℕ) (hj : j < g.numCells) :
    ∃ m : Fin dim → ℤ, isValid g.gridSize m ∧ nodeHashOf g m = j := by
  refine ⟨fun d => (unravel dim g.gridSize j d : ℤ), fun d => ?_, ?_⟩
  · have := unravel_lt dim g.gridSize j hj d
    constructor
    · exact Int.natCast_nonneg _
    · exact Int.ofNat_lt.mpr this
  · unfold nodeHashOf
    simp only [Int.toNat_natCast]
    exact ravel_unravel dim g.gridSize j hj

theorem clipHash_lt (g : GridDomain K dim) (hpos : ∀ d, 0 < g.gridSize d) (m : Fin dim → ℤ) :
    clipHash g.gridSize m < g.numCells :=
  ravel_lt dim g.gridSize _ (fun d => by have := hpos d; omega)

end
end Hydrax
