import Verif.Model.ShapeFn
import Verif.Model.Grid

/-!
# Particle/grid mapping

Model of `hydraxmpm/shapefunctions/mapping.py`.
-/

namespace Hydrax

/-- 1D stencil of each kernel, `kernels[...][1]` (mapping.py:41-45). -/
def window1d : Kernel → List ℤ
  | .linear => [0, 1]
  | .quadratic => [0, 1, 2]
  | .cubic => [-1, 0, 1, 2]

/-- Length of the 1D stencil. -/
def winLen (ker : Kernel) : ℕ := (window1d ker).length

/-- `window_size`, the number of rows of `_stencil_offsets` (mapping.py:106-109). -/
def windowSize (ker : Kernel) (dim : ℕ) : ℕ := winLen ker ^ dim

/-- Row `s` of `_stencil_offsets`: `meshgrid(..., indexing="ij")`, stacked last and flattened in C
order (mapping.py:124-130). -/
def stencilOffset (ker : Kernel) (dim : ℕ) (s : ℕ) : Fin dim → ℤ :=
  fun d => (window1d ker).getD (unravel dim (fun _ => winLen ker) s d) 0

/-- `InteractionCache` (mapping.py:48-79) for `n` points and `w` stencil nodes each. -/
structure InteractionCache (K : Type*) (n w : ℕ) where
  nodeHash : Fin (n * w) → ℕ
  shapeVal : Fin (n * w) → K
  cpicMask : Fin (n * w) → K
  shapeGrad : Fin (n * w) → Fin 3 → K
  relDist : Fin (n * w) → Fin 3 → K
  pointId : Fin (n * w) → Fin n
  stencilId : Fin (n * w) → Fin w

section
variable {K : Type*} [Field K] [LinearOrder K] [FloorRing K] {dim : ℕ}

/-- `base_id_float.astype(int32)` (mapping.py:159, 174-182). -/
def baseId (ker : Kernel) (basePos : K) : ℤ :=
  match ker with
  | .quadratic => ⌊basePos - 1 / 2⌋
  | _ => ⌊basePos⌋

/-- Clip one index to `[0, size)` and flatten: `ravel_multi_index(mode="clip")`
(mapping.py:189-191). -/
def clipHash (size : Fin dim → ℕ) (idx : Fin dim → ℤ) : ℕ :=
  ravel dim size (fun d => (max 0 (min (idx d) ((size d : ℤ) - 1))).toNat)

/-- Result of `compute_single_interaction`. -/
structure Interaction (K : Type*) where
  nodeHash : ℕ
  shapeVal : K
  shapeGrad : Fin 3 → K
  relDist : Fin 3 → K

/-- `base_pos` (mapping.py:171). -/
def basePos (g : GridDomain K dim) (xp : Fin dim → K) : Fin dim → K :=
  fun d => (xp d - g.origin d) * g.invCellSize

/-- `node_idx` (mapping.py:168-182). -/
def nodeIdx (ker : Kernel) (g : GridDomain K dim) (xp : Fin dim → K) (s : ℕ) : Fin dim → ℤ :=
  fun d => baseId ker (basePos g xp d) + stencilOffset ker dim s d

/-- `is_valid` (mapping.py:186). -/
def isValid (size : Fin dim → ℕ) (idx : Fin dim → ℤ) : Prop :=
  ∀ d, 0 ≤ idx d ∧ idx d < (size d : ℤ)

instance (size : Fin dim → ℕ) (idx : Fin dim → ℤ) : Decidable (isValid size idx) := by
  unfold isValid; infer_instance

/-- `compute_single_interaction` (mapping.py:162-212) for a point at `xp` and stencil row `s`.
The final padding of `dist_vec` (207-210) is `pad3` (the identity when `dim = 3`). -/
def computeSingle (ker : Kernel) (g : GridDomain K dim) (xp : Fin dim → K) (s : ℕ) :
    Interaction K :=
  let idx := nodeIdx ker g xp s
  let dist : Fin dim → K := fun d => basePos g xp d - (idx d : K)
  let vg := shapeFunction ker dist g.invCellSize
  { nodeHash := clipHash g.gridSize idx
    shapeVal := if isValid g.gridSize idx then vg.1 else 0
    shapeGrad := if isValid g.gridSize idx then vg.2 else fun _ => 0
    relDist := pad3 dist }

/-- `ShapeFunctionMapping.compute` (mapping.py:133-228): the flat interaction list, with
`point_ids = i // window`, `stencil_ids = i % window` (154-156). -/
def compute (ker : Kernel) (g : GridDomain K dim) {n : ℕ} (pos : Fin n → Fin dim → K) :
    InteractionCache K n (windowSize ker dim) :=
  let single := fun i : Fin (n * windowSize ker dim) =>
    computeSingle ker g (pos i.divNat) i.modNat.val
  { nodeHash := fun i => (single i).nodeHash
    shapeVal := fun i => (single i).shapeVal
    cpicMask := fun _ => 1
    shapeGrad := fun i => (single i).shapeGrad
    relDist := fun i => (single i).relDist
    pointId := fun i => i.divNat
    stencilId := fun i => i.modNat }

end

section
variable {K : Type*} [Field K]

/-- `zeros.at[idx].add(vals)`: slot `j` of the result of a scatter-add onto zeros. -/
def scatterAdd {N : ℕ} (idx : Fin N → ℕ) (vals : Fin N → K) : ℕ → K :=
  fun j => ∑ i, if idx i = j then vals i else 0

variable [LinearOrder K]

/-- `scatter_to_grid` for one scalar component of the data (mapping.py:231-303; tensors are
flattened to columns at 280 and every column is treated alike). -/
def scatterToGrid {n w : ℕ} (c : InteractionCache K n w) (data mass : Fin n → K) (cutoff : K)
    (normalize : Bool) : ℕ → K :=
  let weight := fun i => c.shapeVal i * mass (c.pointId i)
  let accum := scatterAdd c.nodeHash (fun i => data (c.pointId i) * weight i)
  let wAccum := scatterAdd c.nodeHash weight
  fun j =>
    if normalize then
      (if wAccum j > cutoff then accum j / (if wAccum j > cutoff then wAccum j else 1) else 0)
    else accum j

/-- The attribute names of `InteractionCache` (mapping.py:71-89). -/
def interactionCacheAttrs : List String :=
  ["node_hashes", "shape_vals", "cpic_mask", "shape_grads", "rel_dist", "point_ids", "stencil_ids",
   "dim", "num_interactions"]

/-- Attribute access on an object with the given attribute names. -/
def getAttr {α : Type*} (attrs : List String) (name : String) (value : α) : Except PyErr α :=
  if name ∈ attrs then .ok value else .error .attributeError

/-- `gather_from_grid` for one scalar component (mapping.py:305-337). Line 332 reads
`cache.window_size`, an attribute that only `ShapeFunctionMapping` has. -/
def gatherFromGrid {n w : ℕ} (c : InteractionCache K n w) (gridData : ℕ → K) :
    Except PyErr (Fin n → K) :=
  match getAttr interactionCacheAttrs "window_size" w with
  | .error e => .error e
  | .ok _ => .ok fun p => ∑ i, if c.pointId i = p then c.shapeVal i * gridData (c.nodeHash i) else 0

/-- `gather_from_grid` with the window size taken from the mapping object, i.e. what line 332
intends. -/
def gatherFromGridIntended {n w : ℕ} (c : InteractionCache K n w) (gridData : ℕ → K) : Fin n → K :=
  fun p => ∑ i, if c.pointId i = p then c.shapeVal i * gridData (c.nodeHash i) else 0

end
end Hydrax
