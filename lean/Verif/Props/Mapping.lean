import Verif.Lemmas.ComputeApi
import Verif.Lemmas.KernelDeriv

/-!
# Properties C01–C07: interpolation and grid indexing

The statements use only the model of the public functions `GridDomain.create`,
`GridDomain.positionStack`, `ShapeFunctionMapping.compute` and the specification
`Spec.InBox`, `Spec.bspline`.
-/

set_option linter.unusedSectionVars false

namespace Hydrax
open Spec

section
variable {K : Type*} [Field K] [LinearOrder K] [IsStrictOrderedRing K] [FloorRing K] {dim : ℕ}

/-- Total weight that the interaction list gives to grid node `j` for point `p`. -/
def weightAt {n w : ℕ} (c : InteractionCache K n w) (p : Fin n) (j : ℕ) : K :=
  ∑ i with c.pointId i = p, if c.nodeHash i = j then c.shapeVal i else 0

/-- Total weight gradient that the interaction list gives to grid node `j` for point `p`. -/
def gradAt {n w : ℕ} (c : InteractionCache K n w) (p : Fin n) (j : ℕ) (k : Fin 3) : K :=
  ∑ i with c.pointId i = p, if c.nodeHash i = j then c.shapeGrad i k else 0

/-- **C01.** Weights are non-negative and sum to one for every point in the user's box. -/
theorem weights_partition_of_unity (ker : Kernel) (o e : Fin dim → K) (h : K) (hh : 0 < h)
    (pad : ℕ) (hpad : 2 ≤ pad) {n : ℕ} (pos : Fin n → Fin dim → K) (p : Fin n)
    (hx : InBox o e (pos p)) :
    let c := compute ker (GridDomain.create o e h pad) pos
    (∀ i, 0 ≤ c.shapeVal i) ∧ ∑ i with c.pointId i = p, c.shapeVal i = 1 := by
  refine ⟨fun i => computeSingle_val_nonneg ker _ _ _, ?_⟩
  have hin := stencilInside_of_inBox ker o e h hh pad
    (le_trans (by cases ker <;> decide) hpad) (pos p) hx
  rw [← stencil_sum_val hin]
  exact compute_sum_point ker (GridDomain.create o e h pad) pos p (fun _ I => I.shapeVal)

/-- Non-trivial instance of C01: an off-centre point in a 2D unit box with cells of size 1/4. -/
example : ∑ i with (compute .cubic (GridDomain.create (dim := 2) (fun _ => (0:ℚ)) (fun _ => 1) (1/4))
    (fun _ : Fin 1 => ![1/3, 9/10])).pointId i = 0,
    (compute .cubic (GridDomain.create (dim := 2) (fun _ => (0:ℚ)) (fun _ => 1) (1/4))
    (fun _ : Fin 1 => ![1/3, 9/10])).shapeVal i = 1 :=
  (weights_partition_of_unity .cubic (fun _ => (0:ℚ)) (fun _ => 1) (1/4) (by norm_num) 2 le_rfl
    (fun _ : Fin 1 => ![1/3, 9/10]) 0 (by intro d; fin_cases d <;> norm_num)).2

/-- **C02** (value part). The total weight of every grid node is the tensor-product B-spline of the
scaled distance between point and node, for every position whatsoever. -/
theorem weights_are_bsplines (ker : Kernel) (g : GridDomain K dim)
    (hg : g.cellSize * g.invCellSize = 1) {n : ℕ} (pos : Fin n → Fin dim → K) (p : Fin n)
    (j : ℕ) (hj : j < g.numCells) :
    weightAt (compute ker g pos) p j =
      ∏ d, bspline (match ker with | .linear => 1 | .quadratic => 2 | .cubic => 3)
        ((pos p d - g.positionStack j d) * g.invCellSize) := by
  obtain ⟨m, hm, rfl⟩ := exists_node_of_hash g j hj
  have h1 := compute_sum_point ker g pos p
    (fun _ I => if I.nodeHash = nodeHashOf g m then I.shapeVal else 0)
  have h2 := nodal_weight ker g (pos p) m hm
  have h3 : weightAt (compute ker g pos) p (nodeHashOf g m)
      = ∏ d, basis1 ker (basePos g (pos p) d - (m d : K)) := h1.trans h2
  rw [h3]
  refine Finset.prod_congr rfl fun d _ => ?_
  rw [basis1_eq_bspline, positionStack_nodeHashOf g m hm]
  have e1 : (pos p d - latticePos g m d) * g.invCellSize = basePos g (pos p) d - (m d : K) := by
    unfold latticePos basePos
    have : (pos p d - ((m d : K) * g.cellSize + g.origin d)) * g.invCellSize
        = (pos p d - g.origin d) * g.invCellSize - (m d : K) * (g.cellSize * g.invCellSize) := by ring
    rw [this, hg, mul_one]
  rw [e1]
  cases ker <;> rfl

/-- **C02** (sum part). Gradients of a point in the box sum to zero. -/
theorem weight_gradients_sum_zero (hdim : dim = 2 ∨ dim = 3) (ker : Kernel) (o e : Fin dim → K)
    (h : K) (hh : 0 < h) (pad : ℕ) (hpad : 2 ≤ pad) {n : ℕ} (pos : Fin n → Fin dim → K)
    (p : Fin n) (hx : InBox o e (pos p)) (k : Fin 3) :
    let c := compute ker (GridDomain.create o e h pad) pos
    ∑ i with c.pointId i = p, c.shapeGrad i k = 0 := by
  have hin := stencilInside_of_inBox ker o e h hh pad
    (le_trans (by cases ker <;> decide) hpad) (pos p) hx
  rw [← stencil_sum_grad hdim hin k]
  exact compute_sum_point ker (GridDomain.create o e h pad) pos p (fun _ I => I.shapeGrad k)

/-- **C03** (value part). An affine nodal field `b + ∑_a A_a x_a` is interpolated exactly. -/
theorem affine_field_reproduced (ker : Kernel) (o e : Fin dim → K) (h : K) (hh : 0 < h)
    (pad : ℕ) (hpad : 2 ≤ pad) {n : ℕ} (pos : Fin n → Fin dim → K) (p : Fin n)
    (hx : InBox o e (pos p)) (b : K) (A : Fin dim → K) :
    let g := GridDomain.create o e h pad
    let c := compute ker g pos
    ∑ i with c.pointId i = p, c.shapeVal i * (b + ∑ a, A a * g.positionStack (c.nodeHash i) a)
      = b + ∑ a, A a * pos p a := by
  intro g c
  have hin : StencilInside ker g (pos p) := stencilInside_of_inBox ker o e h hh pad
    (le_trans (by cases ker <;> decide) hpad) (pos p) hx
  have hg : g.cellSize * g.invCellSize = 1 := create_inv o e h hh pad
  have h1 := compute_sum_point ker g pos p
    (fun _ I => I.shapeVal * (b + ∑ a, A a * g.positionStack I.nodeHash a))
  refine h1.trans ?_
  have h2 : ∀ s : Fin (windowSize ker dim),
      (computeSingle ker g (pos p) s).shapeVal *
        (b + ∑ a, A a * g.positionStack (computeSingle ker g (pos p) s).nodeHash a)
      = (computeSingle ker g (pos p) s).shapeVal * (b + ∑ a, A a * pos p a)
        - ∑ a, (A a * g.cellSize) *
            ((computeSingle ker g (pos p) s).shapeVal * distVec ker g (pos p) s a) := by
    intro s
    have hv := hin s s.isLt
    have e1 : g.positionStack (computeSingle ker g (pos p) s).nodeHash
        = latticePos g (nodeIdx ker g (pos p) s) := by
      rw [← positionStack_nodeHashOf g _ hv, ← clipHash_of_valid g _ hv]; rfl
    rw [e1]
    simp only [latticePos_nodeIdx ker g hg]
    rw [mul_add, mul_add, Finset.mul_sum, Finset.mul_sum, add_sub_assoc, ← Finset.sum_sub_distrib]
    congr 1
    exact Finset.sum_congr rfl fun a _ => by ring
  rw [Finset.sum_congr rfl fun s _ => h2 s, Finset.sum_sub_distrib, ← Finset.sum_mul,
    stencil_sum_val hin, Finset.sum_comm]
  simp only [← Finset.mul_sum]
  have h3 : ∀ a : Fin dim, ∑ s : Fin (windowSize ker dim),
      (computeSingle ker g (pos p) s).shapeVal * distVec ker g (pos p) s a = 0 := by
    intro a
    have h4 := sum_stencil_sep ker g (pos p) (fun d x => basis1 ker x * if d = a then x else 1)
    rw [Finset.sum_congr rfl fun s _ => by rw [computeSingle_val ker g (pos p) s (hin s s.isLt)]]
    rw [Finset.sum_congr rfl (fun s _ => by
      rw [coord_as_prod (distVec ker g (pos p) s) a, ← Finset.prod_mul_distrib])]
    rw [h4]
    apply Finset.prod_eq_zero (Finset.mem_univ a)
    simp only [if_true]
    rw [← sum_dist_basis ker (basePos g (pos p) a)]
    exact Finset.sum_congr rfl (fun j _ => mul_comm _ _)
  simp [h3]

/-- **C03** (gradient part). The interpolated gradient of an affine nodal field is its gradient. For
the linear kernel the point must not lie on a grid line (there the code's `sign(0)=0` drops it). -/
theorem affine_gradient_reproduced (hdim : dim = 2 ∨ dim = 3) (ker : Kernel) (o e : Fin dim → K)
    (h : K) (hh : 0 < h) (pad : ℕ) (hpad : 2 ≤ pad) {n : ℕ} (pos : Fin n → Fin dim → K)
    (p : Fin n) (hx : InBox o e (pos p))
    (hlin : ker = .linear → ∀ d, ∀ z : ℤ, (pos p d - o d) / h ≠ z)
    (b : K) (A : Fin dim → K) (k : Fin dim) :
    let g := GridDomain.create o e h pad
    let c := compute ker g pos
    ∑ i with c.pointId i = p, c.shapeGrad i ⟨k, by omega⟩ *
        (b + ∑ a, A a * g.positionStack (c.nodeHash i) a) = A k := by
  intro g c
  have hin : StencilInside ker g (pos p) := stencilInside_of_inBox ker o e h hh pad
    (le_trans (by cases ker <;> decide) hpad) (pos p) hx
  have hg : g.cellSize * g.invCellSize = 1 := create_inv o e h hh pad
  have hl : ker = .linear → ∀ d, frac ker (basePos g (pos p) d) ≠ 0 := by
    rintro rfl d
    have hb : basePos g (pos p) d = (pos p d - o d) / h + (pad : K) := create_basePos o e h hh pad _ d
    simp only [frac, hb, Int.fract_add_natCast]
    intro h0
    rw [Int.fract_eq_zero_iff] at h0
    obtain ⟨z, hz⟩ := h0
    exact hlin rfl d z hz.symm
  have h1 := compute_sum_point ker g pos p
    (fun _ I => I.shapeGrad ⟨k, by omega⟩ * (b + ∑ a, A a * g.positionStack I.nodeHash a))
  refine h1.trans ?_
  have h2 : ∀ s : Fin (windowSize ker dim),
      (computeSingle ker g (pos p) s).shapeGrad ⟨k, by omega⟩ *
        (b + ∑ a, A a * g.positionStack (computeSingle ker g (pos p) s).nodeHash a)
      = (computeSingle ker g (pos p) s).shapeGrad ⟨k, by omega⟩ * (b + ∑ a, A a * pos p a)
        - ∑ a, (A a * g.cellSize) *
            ((computeSingle ker g (pos p) s).shapeGrad ⟨k, by omega⟩ * distVec ker g (pos p) s a) := by
    intro s
    have hv := hin s s.isLt
    have e1 : g.positionStack (computeSingle ker g (pos p) s).nodeHash
        = latticePos g (nodeIdx ker g (pos p) s) := by
      rw [← positionStack_nodeHashOf g _ hv, ← clipHash_of_valid g _ hv]; rfl
    rw [e1]
    simp only [latticePos_nodeIdx ker g hg]
    rw [mul_add, mul_add, Finset.mul_sum, Finset.mul_sum, add_sub_assoc, ← Finset.sum_sub_distrib]
    congr 1
    exact Finset.sum_congr rfl fun a _ => by ring
  rw [Finset.sum_congr rfl fun s _ => h2 s, Finset.sum_sub_distrib, ← Finset.sum_mul,
    stencil_sum_grad hdim hin, Finset.sum_comm]
  simp only [← Finset.mul_sum, stencil_sum_grad_dist hdim hin hl k]
  simp only [mul_ite, mul_zero, Finset.sum_ite_eq, Finset.mem_univ, if_true, zero_mul, zero_sub]
  have : -(A k * g.cellSize * -g.invCellSize) = A k * (g.cellSize * g.invCellSize) := by ring
  rw [this, hg, mul_one]

/-- **C04.** The inertia tensor of the stencil is `h²/4` (quadratic) and `h²/3` (cubic) times the
identity at every position in the box. -/
theorem second_moment_constant (ker : Kernel) (hker : ker ≠ .linear) (o e : Fin dim → K)
    (h : K) (hh : 0 < h) (pad : ℕ) (hpad : 2 ≤ pad) {n : ℕ} (pos : Fin n → Fin dim → K)
    (p : Fin n) (hx : InBox o e (pos p)) (a b : Fin dim) :
    let g := GridDomain.create o e h pad
    let c := compute ker g pos
    ∑ i with c.pointId i = p, c.shapeVal i *
        ((g.positionStack (c.nodeHash i) a - pos p a) * (g.positionStack (c.nodeHash i) b - pos p b))
      = if a = b then h ^ 2 / (match ker with | .quadratic => 4 | _ => 3) else 0 := by
  intro g c
  have hin : StencilInside ker g (pos p) := stencilInside_of_inBox ker o e h hh pad
    (le_trans (by cases ker <;> decide) hpad) (pos p) hx
  have hg : g.cellSize * g.invCellSize = 1 := create_inv o e h hh pad
  have h1 := compute_sum_point ker g pos p
    (fun _ I => I.shapeVal * ((g.positionStack I.nodeHash a - pos p a) *
      (g.positionStack I.nodeHash b - pos p b)))
  refine h1.trans ?_
  have h2 : ∀ s : Fin (windowSize ker dim),
      (computeSingle ker g (pos p) s).shapeVal *
        ((g.positionStack (computeSingle ker g (pos p) s).nodeHash a - pos p a) *
          (g.positionStack (computeSingle ker g (pos p) s).nodeHash b - pos p b))
      = h ^ 2 * ((computeSingle ker g (pos p) s).shapeVal * distVec ker g (pos p) s a
          * distVec ker g (pos p) s b) := by
    intro s
    have hv := hin s s.isLt
    have e1 : g.positionStack (computeSingle ker g (pos p) s).nodeHash
        = latticePos g (nodeIdx ker g (pos p) s) := by
      rw [← positionStack_nodeHashOf g _ hv, ← clipHash_of_valid g _ hv]; rfl
    rw [e1]
    simp only [latticePos_nodeIdx ker g hg]
    have : g.cellSize = h := rfl
    rw [this]; ring
  rw [Finset.sum_congr rfl fun s _ => h2 s, ← Finset.mul_sum, stencil_sum_val_dist_dist hin]
  cases ker
  · exact absurd rfl hker
  · simp only [secondMoment]; split_ifs <;> ring
  · simp only [secondMoment]; split_ifs <;> ring

/-- **C04** (linear kernel): no constant works, the value depends on the position in the cell. -/
theorem second_moment_linear_not_constant :
    ¬ ∃ D : ℚ, ∀ x : ℚ, 0 ≤ x → x ≤ 1 →
      ∑ i with (compute .linear (GridDomain.create (dim := 2) (fun _ => (0:ℚ)) (fun _ => 1) 1)
          (fun _ : Fin 1 => ![x, 0])).pointId i = 0,
        (compute .linear (GridDomain.create (dim := 2) (fun _ => (0:ℚ)) (fun _ => 1) 1)
          (fun _ : Fin 1 => ![x, 0])).shapeVal i *
        ((GridDomain.create (dim := 2) (fun _ => (0:ℚ)) (fun _ => 1) 1).positionStack
          ((compute .linear (GridDomain.create (dim := 2) (fun _ => (0:ℚ)) (fun _ => 1) 1)
          (fun _ : Fin 1 => ![x, 0])).nodeHash i) 0 - x) ^ 2 = D := by
  rintro ⟨D, hD⟩
  have h0 := hD 0 le_rfl (by norm_num)
  have h1 := hD (1 / 2) (by norm_num) (by norm_num)
  rw [← h0] at h1
  revert h1
  decide +kernel

/-- **C05.** Every node index is in range, whatever the position. -/
theorem node_index_in_range (ker : Kernel) (g : GridDomain K dim) (hpos : ∀ d, 0 < g.gridSize d)
    {n : ℕ} (pos : Fin n → Fin dim → K) (i : Fin (n * windowSize ker dim)) :
    (compute ker g pos).nodeHash i < g.numCells :=
  clipHash_lt g hpos _

theorem valid_of_val_ne_zero (ker : Kernel) (g : GridDomain K dim) (x : Fin dim → K) (s : ℕ)
    (h : (computeSingle ker g x s).shapeVal ≠ 0) : isValid g.gridSize (nodeIdx ker g x s) := by
  by_contra hc; exact h (by simp [computeSingle, hc])

theorem nodeIdx_injective (ker : Kernel) (g : GridDomain K dim) (x : Fin dim → K)
    (s s' : Fin (windowSize ker dim)) (h : nodeIdx ker g x s = nodeIdx ker g x s') : s = s' := by
  have hlt : ∀ (s : Fin (windowSize ker dim)) d,
      unravel dim (fun _ => winLen ker) s d < winLen ker := fun s d =>
    unravel_lt dim (fun _ => winLen ker) s (by simpa [windowSize] using s.isLt) d
  have h1 : unravel dim (fun _ => winLen ker) s = unravel dim (fun _ => winLen ker) s' := by
    funext d
    have h2 : baseId ker (basePos g x d) + off ker (unravel dim (fun _ => winLen ker) s d)
        = baseId ker (basePos g x d) + off ker (unravel dim (fun _ => winLen ker) s' d) :=
      congrFun h d
    exact congrArg Fin.val (off_injective ker ⟨_, hlt s d⟩ ⟨_, hlt s' d⟩ (by simp only; omega))
  ext
  rw [← ravel_unravel dim (fun _ => winLen ker) s (by simpa [windowSize] using s.isLt), h1,
    ravel_unravel dim (fun _ => winLen ker) s' (by simpa [windowSize] using s'.isLt)]

/-- **C05.** Distinct active slots of one point never share a node index. -/
theorem node_index_no_alias (ker : Kernel) (g : GridDomain K dim) {n : ℕ}
    (pos : Fin n → Fin dim → K) (i i' : Fin (n * windowSize ker dim)) :
    let c := compute ker g pos
    c.pointId i = c.pointId i' → i ≠ i' → c.shapeVal i ≠ 0 → c.shapeVal i' ≠ 0 →
      c.nodeHash i ≠ c.nodeHash i' := by
  intro c hp hne hv hv' hh
  apply hne
  have hp' : i.divNat = i'.divNat := hp
  have v := valid_of_val_ne_zero ker g (pos i.divNat) i.modNat hv
  have v' := valid_of_val_ne_zero ker g (pos i'.divNat) i'.modNat hv'
  have hh' : clipHash g.gridSize (nodeIdx ker g (pos i.divNat) i.modNat)
      = clipHash g.gridSize (nodeIdx ker g (pos i'.divNat) i'.modNat) := hh
  rw [clipHash_of_valid g _ v, clipHash_of_valid g _ v'] at hh'
  have h1 := nodeHashOf_injective g _ _ v v' hh'
  rw [hp'] at h1
  have hm := nodeIdx_injective ker g (pos i'.divNat) _ _ h1
  apply finProdFinEquiv.symm.injective
  rw [finProdFinEquiv_symm_apply, finProdFinEquiv_symm_apply, hp', hm]

/-- **C05.** The index of an active slot is the row of `position_stack` holding the lattice point whose
scaled offset to the particle is `rel_dist`. -/
theorem node_index_position (ker : Kernel) (g : GridDomain K dim)
    (hg : g.cellSize * g.invCellSize = 1) (hdim : dim ≤ 3) {n : ℕ} (pos : Fin n → Fin dim → K)
    (i : Fin (n * windowSize ker dim)) :
    let c := compute ker g pos
    c.shapeVal i ≠ 0 → ∀ d : Fin dim,
      g.positionStack (c.nodeHash i) d = pos (c.pointId i) d - g.cellSize * c.relDist i ⟨d, by omega⟩ := by
  intro c hv d
  have v := valid_of_val_ne_zero ker g (pos i.divNat) i.modNat hv
  have e1 : g.positionStack (c.nodeHash i) = latticePos g (nodeIdx ker g (pos i.divNat) i.modNat) := by
    rw [← positionStack_nodeHashOf g _ v, ← clipHash_of_valid g _ v]; rfl
  rw [e1, latticePos_nodeIdx ker g hg]
  have e2 : c.relDist i ⟨d, by omega⟩ = distVec ker g (pos i.divNat) i.modNat d :=
    pad3_lt (distVec ker g (pos i.divNat) i.modNat) ⟨d, by omega⟩ d.isLt
  rw [e2]; rfl

/-- **C06.** A slot whose lattice point lies outside the grid carries no weight and no gradient. -/
theorem outside_slots_inactive (ker : Kernel) (g : GridDomain K dim) (hh : 0 < g.cellSize)
    (hg : g.cellSize * g.invCellSize = 1) (hdim : dim ≤ 3) {n : ℕ} (pos : Fin n → Fin dim → K)
    (i : Fin (n * windowSize ker dim)) (d : Fin dim) :
    let c := compute ker g pos
    let y := pos (c.pointId i) d - g.cellSize * c.relDist i ⟨d, by omega⟩
    (y < g.origin d ∨ g.origin d + ((g.gridSize d : K) - 1) * g.cellSize < y) →
      c.shapeVal i = 0 ∧ c.shapeGrad i = fun _ => 0 := by
  intro c y hy
  have e2 : c.relDist i ⟨d, by omega⟩ = distVec ker g (pos i.divNat) i.modNat d :=
    pad3_lt (distVec ker g (pos i.divNat) i.modNat) ⟨d, by omega⟩ d.isLt
  have e3 : y = latticePos g (nodeIdx ker g (pos i.divNat) i.modNat) d := by
    rw [latticePos_nodeIdx ker g hg, ← e2]; rfl
  have hnv : ¬ isValid g.gridSize (nodeIdx ker g (pos i.divNat) i.modNat) := by
    intro hv
    rw [e3] at hy
    unfold latticePos at hy
    have h0 := (hv d).1
    have h1 := (hv d).2
    rcases hy with hy | hy
    · have : (0 : K) ≤ (nodeIdx ker g (pos i.divNat) i.modNat d : K) := by exact_mod_cast h0
      nlinarith [mul_nonneg this hh.le]
    · have h2 : (nodeIdx ker g (pos i.divNat) i.modNat d : K) ≤ (g.gridSize d : K) - 1 := by
        have : nodeIdx ker g (pos i.divNat) i.modNat d + 1 ≤ (g.gridSize d : ℤ) := h1
        have h3 : ((nodeIdx ker g (pos i.divNat) i.modNat d + 1 : ℤ) : K) ≤ ((g.gridSize d : ℤ) : K) :=
          Int.cast_le.mpr this
        push_cast at h3; linarith
      nlinarith [mul_le_mul_of_nonneg_right h2 hh.le]
  exact ⟨if_neg hnv, if_neg hnv⟩

/-- **C07** (what holds). Padding 1 suffices for the linear kernel and padding 2 for the quadratic and
cubic kernel: every stencil node of a point in the box is a node of the grid. Missing w.r.t. the
documented rule: padding 1 for the quadratic kernel, see `padding_one_quadratic_incomplete`. -/
theorem padding_complete_partial (ker : Kernel) (o e : Fin dim → K) (h : K) (hh : 0 < h) (pad : ℕ)
    (hpad : (match ker with | .linear => 1 | .quadratic => 2 | .cubic => 2) ≤ pad) (hdim : dim ≤ 3)
    {n : ℕ} (pos : Fin n → Fin dim → K) (i : Fin (n * windowSize ker dim)) :
    let g := GridDomain.create o e h pad
    let c := compute ker g pos
    InBox o e (pos (c.pointId i)) →
      c.nodeHash i < g.numCells ∧ ∀ d : Fin dim,
        g.positionStack (c.nodeHash i) d = pos (c.pointId i) d - h * c.relDist i ⟨d, by omega⟩ := by
  intro g c hx
  have hin : StencilInside ker g (pos i.divNat) := stencilInside_of_inBox ker o e h hh pad
    (by cases ker <;> exact hpad) _ hx
  have v := hin i.modNat i.modNat.isLt
  refine ⟨clipHash_lt g (create_gridSize_pos o e h hh pad (fun d => (hx d).1.trans (hx d).2)) _, ?_⟩
  intro d
  have hg : g.cellSize * g.invCellSize = 1 := create_inv o e h hh pad
  have e1 : g.positionStack (c.nodeHash i) = latticePos g (nodeIdx ker g (pos i.divNat) i.modNat) := by
    rw [← positionStack_nodeHashOf g _ v, ← clipHash_of_valid g _ v]; rfl
  have e2 : c.relDist i ⟨d, by omega⟩ = distVec ker g (pos i.divNat) i.modNat d :=
    pad3_lt (distVec ker g (pos i.divNat) i.modNat) ⟨d, by omega⟩ d.isLt
  rw [e1, latticePos_nodeIdx ker g hg, e2]; rfl

/-- **C07** (violation). With the documented padding 1 the quadratic kernel loses weight for a point
inside the box: box `[0, 3/4]²`, cell size 1, point at the corner `(3/4, 3/4)`. -/
theorem padding_one_quadratic_incomplete :
    ∑ i with (compute .quadratic
        (GridDomain.create (dim := 2) (fun _ => (0:ℚ)) (fun _ => 3 / 4) 1 1)
        (fun _ : Fin 1 => fun _ => 3 / 4)).pointId i = 0,
      (compute .quadratic
        (GridDomain.create (dim := 2) (fun _ => (0:ℚ)) (fun _ => 3 / 4) 1 1)
        (fun _ : Fin 1 => fun _ => 3 / 4)).shapeVal i = (31 / 32) ^ 2 := by
  decide +kernel

/-- **C07** (quadratic kernel, padding 1). Padding 1 is enough for the quadratic kernel when the box
size is a whole number of cells. -/
theorem padding_one_quadratic_commensurate_partial (o e : Fin dim → K) (h : K) (hh : 0 < h) (pad : ℕ)
    (hpad : 1 ≤ pad) (hcom : ∀ d, ∃ z : ℤ, e d - o d = z * h) (hdim : dim ≤ 3)
    {n : ℕ} (pos : Fin n → Fin dim → K) (i : Fin (n * windowSize .quadratic dim)) :
    let g := GridDomain.create o e h pad
    let c := compute .quadratic g pos
    InBox o e (pos (c.pointId i)) →
      c.nodeHash i < g.numCells ∧ ∀ d : Fin dim,
        g.positionStack (c.nodeHash i) d = pos (c.pointId i) d - h * c.relDist i ⟨d, by omega⟩ := by
  intro g c hx
  have hin : StencilInside .quadratic g (pos i.divNat) :=
    stencilInside_quadratic_commensurate o e h hh pad hpad hcom _ hx
  have v := hin i.modNat i.modNat.isLt
  refine ⟨clipHash_lt g (create_gridSize_pos o e h hh pad (fun d => (hx d).1.trans (hx d).2)) _, ?_⟩
  intro d
  have hg : g.cellSize * g.invCellSize = 1 := create_inv o e h hh pad
  have e1 : g.positionStack (c.nodeHash i)
      = latticePos g (nodeIdx .quadratic g (pos i.divNat) i.modNat) := by
    rw [← positionStack_nodeHashOf g _ v, ← clipHash_of_valid g _ v]; rfl
  have e2 : c.relDist i ⟨d, by omega⟩ = distVec .quadratic g (pos i.divNat) i.modNat d :=
    pad3_lt (distVec .quadratic g (pos i.divNat) i.modNat) ⟨d, by omega⟩ d.isLt
  rw [e1, latticePos_nodeIdx .quadratic g hg, e2]; rfl

/-- **C03** (why the grid-line hypothesis is needed). On a grid line the linear kernel reports gradient 0
for the nodal field `x ↦ x`, whose gradient is 1. -/
theorem linear_gradient_wrong_on_grid_line :
    ∑ i with (compute .linear (GridDomain.create (dim := 2) (fun _ => (0:ℚ)) (fun _ => 1) 1)
        (fun _ : Fin 1 => fun _ => 1)).pointId i = 0,
      (compute .linear (GridDomain.create (dim := 2) (fun _ => (0:ℚ)) (fun _ => 1) 1)
        (fun _ : Fin 1 => fun _ => 1)).shapeGrad i 0 *
      (GridDomain.create (dim := 2) (fun _ => (0:ℚ)) (fun _ => 1) 1).positionStack
        ((compute .linear (GridDomain.create (dim := 2) (fun _ => (0:ℚ)) (fun _ => 1) 1)
          (fun _ : Fin 1 => fun _ => 1)).nodeHash i) 0 = 0 := by
  decide +kernel

/-! ### Non-trivial instances -/

/-- A 2D grid on the unit square with cells of size 1/4 used in the examples. -/
def exGrid : GridDomain ℚ 2 := GridDomain.create (fun _ => 0) (fun _ => 1) (1 / 4)

/-- Two points, one in the square and one far away. -/
def exPos : Fin 2 → Fin 2 → ℚ := ![![1 / 3, 9 / 10], ![100, -7]]

theorem exPos_inBox : InBox (fun _ => (0:ℚ)) (fun _ => 1) (exPos 0) := by
  intro d; fin_cases d <;> norm_num [exPos]

example := weights_are_bsplines .cubic exGrid (by norm_num [exGrid, GridDomain.create]) exPos 0 30
  (by decide +kernel)
example := weight_gradients_sum_zero (.inl rfl) .quadratic (fun _ => (0:ℚ)) (fun _ => 1) (1/4)
  (by norm_num) 2 le_rfl exPos 0 exPos_inBox 1
example := affine_field_reproduced .cubic (fun _ => (0:ℚ)) (fun _ => 1) (1/4)
  (by norm_num) 2 le_rfl exPos 0 exPos_inBox 5 ![2, 3]
example := affine_gradient_reproduced (.inl rfl) .cubic (fun _ => (0:ℚ)) (fun _ => 1) (1/4)
  (by norm_num) 2 le_rfl exPos 0 exPos_inBox (by simp) 5 ![2, 3] 1
/-- The grid-line hypothesis can be met for the linear kernel. -/
example := affine_gradient_reproduced (.inl rfl) .linear (fun _ => (0:ℚ)) (fun _ => 1) 1
  (by norm_num) 2 le_rfl (fun _ : Fin 1 => fun _ => 1 / 2) 0
  (by intro d; norm_num) (by
    intro _ d z h
    have h2 : (1 : ℚ) = 2 * z := by linarith
    have h3 : (1 : ℤ) = 2 * z := by exact_mod_cast h2
    omega) 5 ![2, 3] 1
example := second_moment_constant .cubic (by decide) (fun _ => (0:ℚ)) (fun _ => 1) (1/4)
  (by norm_num) 2 le_rfl exPos 0 exPos_inBox 1 1
example (i) : (compute .cubic exGrid exPos).nodeHash i < exGrid.numCells :=
  node_index_in_range .cubic exGrid
    (create_gridSize_pos (fun _ => 0) (fun _ => 1) (1/4) (by norm_num) 2 (by simp)) exPos i
example := node_index_no_alias .cubic exGrid exPos ⟨0, by decide⟩ ⟨1, by decide⟩
  rfl (by simp) (by decide +kernel)
  (by decide +kernel)
example := node_index_position .cubic exGrid (by norm_num [exGrid, GridDomain.create]) (by norm_num)
  exPos ⟨0, by decide⟩ (by decide +kernel) 1
/-- Slot 16 belongs to the far point. -/
example : (compute .cubic exGrid exPos).shapeVal ⟨16, by decide⟩ = 0 :=
  (outside_slots_inactive .cubic exGrid (by norm_num [exGrid, GridDomain.create])
    (by norm_num [exGrid, GridDomain.create]) (by norm_num) exPos ⟨16, by decide⟩ 0 (by decide +kernel)).1
example := padding_complete_partial .quadratic (fun _ => (0:ℚ)) (fun _ => 1) (1/4) (by norm_num) 2
  le_rfl (by norm_num : 2 ≤ 3) exPos
  ((⟨0, by decide⟩ : Fin (2 * windowSize .quadratic 2))) (by exact exPos_inBox)
example := padding_one_quadratic_commensurate_partial (fun _ => (0:ℚ)) (fun _ => 1) (1/4)
  (by norm_num) 1 le_rfl (fun _ => ⟨4, by norm_num⟩) (by norm_num : 2 ≤ 3) exPos
  ((⟨0, by decide⟩ : Fin (2 * windowSize .quadratic 2))) (by exact exPos_inBox)

end

/-- **C02** (derivative part). Moving a point along axis `k`, the weight of any grid node changes at the
rate given by the reported gradient. For the linear kernel the point must not lie on a grid line of
axis `k`. -/
theorem weight_gradient_is_derivative {dim : ℕ} (hdim : dim = 2 ∨ dim = 3) (ker : Kernel)
    (g : GridDomain ℝ dim) {n : ℕ} (pos : Fin n → Fin dim → ℝ) (p : Fin n) (j : ℕ)
    (hj : j < g.numCells) (k : Fin dim)
    (hlin : ker = .linear → ∀ z : ℤ, (pos p k - g.origin k) * g.invCellSize ≠ z) :
    HasDerivAt
      (fun t => weightAt (compute ker g (Function.update pos p (Function.update (pos p) k t))) p j)
      (gradAt (compute ker g pos) p j ⟨k, by omega⟩) (pos p k) := by
  obtain ⟨m, hm, rfl⟩ := exists_node_of_hash g j hj
  have hw : ∀ pos' : Fin n → Fin dim → ℝ, weightAt (compute ker g pos') p (nodeHashOf g m)
      = ∏ d, basis1 ker (basePos g (pos' p) d - (m d : ℝ)) := by
    intro pos'
    have h1 := compute_sum_point ker g pos' p
      (fun _ I => if I.nodeHash = nodeHashOf g m then I.shapeVal else 0)
    exact h1.trans (nodal_weight ker g (pos' p) m hm)
  have hgr : gradAt (compute ker g pos) p (nodeHashOf g m) ⟨k, by omega⟩
      = ∏ d, if d = k then dbasis1 g.invCellSize ker (basePos g (pos p) d - (m d : ℝ))
          else basis1 ker (basePos g (pos p) d - (m d : ℝ)) := by
    have h1 := compute_sum_point ker g pos p
      (fun _ I => if I.nodeHash = nodeHashOf g m then I.shapeGrad ⟨k, by omega⟩ else 0)
    exact h1.trans (nodal_grad hdim ker g (pos p) m hm k)
  rw [hgr]
  have hfun : (fun t => weightAt (compute ker g
        (Function.update pos p (Function.update (pos p) k t))) p (nodeHashOf g m))
      = fun t => basis1 ker ((t - g.origin k) * g.invCellSize - (m k : ℝ)) *
          ∏ d ∈ Finset.univ.erase k, basis1 ker (basePos g (pos p) d - (m d : ℝ)) := by
    funext t
    rw [hw, ← Finset.mul_prod_erase _ _ (Finset.mem_univ k)]
    congr 1
    · simp [basePos]
    · refine Finset.prod_congr rfl fun d hd => ?_
      have : d ≠ k := Finset.ne_of_mem_erase hd
      simp [basePos, this]
  rw [hfun, ← Finset.mul_prod_erase _ _ (Finset.mem_univ k)]
  have hrest : ∏ d ∈ Finset.univ.erase k,
      (if d = k then dbasis1 g.invCellSize ker (basePos g (pos p) d - (m d : ℝ))
          else basis1 ker (basePos g (pos p) d - (m d : ℝ)))
      = ∏ d ∈ Finset.univ.erase k, basis1 ker (basePos g (pos p) d - (m d : ℝ)) :=
    Finset.prod_congr rfl fun d hd => if_neg (Finset.ne_of_mem_erase hd)
  rw [hrest, if_pos rfl]
  refine HasDerivAt.mul_const ?_ _
  rw [dbasis1_scale]
  have hb : HasDerivAt (basis1 ker : ℝ → ℝ) (dbasis1 1 ker (basePos g (pos p) k - (m k : ℝ)))
      ((pos p k - g.origin k) * g.invCellSize - (m k : ℝ)) := by
    refine hasDerivAt_basis1 ker _ ?_
    intro hl
    have hz : ∀ z : ℤ, basePos g (pos p) k ≠ z := hlin hl
    change basePos g (pos p) k - (m k : ℝ) ≠ 0 ∧ |basePos g (pos p) k - (m k : ℝ)| ≠ 1
    constructor
    · intro h0
      exact hz (m k) (by linarith)
    · intro h1
      rcases abs_eq (by norm_num : (0:ℝ) ≤ 1) |>.mp h1 with h2 | h2
      · exact hz (m k + 1) (by push_cast; linarith)
      · exact hz (m k - 1) (by push_cast; linarith)
  have hin : HasDerivAt (fun t : ℝ => (t - g.origin k) * g.invCellSize - (m k : ℝ))
      g.invCellSize (pos p k) := by
    have := ((((hasDerivAt_id (pos p k)).sub_const (g.origin k)).mul_const g.invCellSize).sub_const
      (m k : ℝ))
    exact this.congr_deriv (by ring)
  have := HasDerivAt.comp (pos p k) hb hin
  exact this.congr_deriv (by ring)

/-- Instance: the cubic kernel on the example grid, moving along the second axis. -/
example := weight_gradient_is_derivative (.inl rfl) .cubic
  (GridDomain.create (dim := 2) (fun _ => (0:ℝ)) (fun _ => 1) 1) (fun _ : Fin 1 => fun _ => 1/3) 0 7
  (by
    have h : ∀ d, (GridDomain.create (dim := 2) (fun _ => (0:ℝ)) (fun _ => 1) 1).gridSize d = 6 := by
      intro d
      have := create_gridSize (fun _ : Fin 2 => (0:ℝ)) (fun _ => 1) 1 (by norm_num) 2 d (by norm_num)
      norm_num at this
      omega
    unfold GridDomain.numCells
    simp [h]) 1 (by simp)

end Hydrax
