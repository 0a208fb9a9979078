import Verif.Lemmas.ComputeApi
import Verif.Model.Usl
import Mathlib.Algebra.BigOperators.Ring.Finset

/-!
# Sums over interactions, nodes and points (helper lemmas)
-/

set_option linter.unusedSectionVars false

namespace Hydrax

section
variable {K : Type*} [Field K] [LinearOrder K] [IsStrictOrderedRing K] {dim n w : ℕ}

/-- What the transfers need from an interaction list for complete stencils. -/
structure GoodCache (c : InteractionCache K n w) (N : ℕ) : Prop where
  hash_lt : ∀ i, c.nodeHash i < N
  val_nonneg : ∀ i, 0 ≤ c.shapeVal i
  mask_one : ∀ i, c.cpicMask i = 1
  sum_val : ∀ p, pointSum c c.shapeVal p = 1
  sum_grad : ∀ p k, pointSum c (fun i => c.shapeGrad i k) p = 0
  grad_zero : ∀ i, c.shapeVal i = 0 → ∀ k, c.shapeGrad i k = 0

theorem sum_scatterAdd {N m : ℕ} (idx : Fin m → ℕ) (h : ∀ i, idx i < N) (v : Fin m → K) :
    ∑ j ∈ Finset.range N, scatterAdd idx v j = ∑ i, v i := by
  unfold scatterAdd
  rw [Finset.sum_comm]
  refine Finset.sum_congr rfl fun i _ => ?_
  rw [Finset.sum_ite_eq, if_pos (Finset.mem_range.mpr (h i))]

theorem sum_scatterAdd_mul {N m : ℕ} (idx : Fin m → ℕ) (h : ∀ i, idx i < N) (v : Fin m → K)
    (φ : ℕ → K) :
    ∑ j ∈ Finset.range N, scatterAdd idx v j * φ j = ∑ i, v i * φ (idx i) := by
  rw [← sum_scatterAdd idx h (fun i => v i * φ (idx i))]
  refine Finset.sum_congr rfl fun j _ => ?_
  unfold scatterAdd
  rw [Finset.sum_mul]
  refine Finset.sum_congr rfl fun i _ => ?_
  split_ifs with hij
  · subst hij; rfl
  · simp

theorem sum_by_point (c : InteractionCache K n w) (f : Fin n → K) (v : Fin (n * w) → K) :
    ∑ i, f (c.pointId i) * v i = ∑ p, f p * pointSum c v p := by
  unfold pointSum
  rw [← Finset.sum_fiberwise Finset.univ c.pointId]
  refine Finset.sum_congr rfl fun p _ => ?_
  rw [Finset.mul_sum]
  refine Finset.sum_congr rfl fun i hi => ?_
  rw [(Finset.mem_filter.mp hi).2]

theorem pointSum_mul (c : InteractionCache K n w) (f : K) (v : Fin (n * w) → K) (p : Fin n) :
    pointSum c (fun i => f * v i) p = f * pointSum c v p := by
  unfold pointSum; rw [Finset.mul_sum]

theorem pointSum_add (c : InteractionCache K n w) (u v : Fin (n * w) → K) (p : Fin n) :
    pointSum c (fun i => u i + v i) p = pointSum c u p + pointSum c v p :=
  Finset.sum_add_distrib

theorem pointSum_sub (c : InteractionCache K n w) (u v : Fin (n * w) → K) (p : Fin n) :
    pointSum c (fun i => u i - v i) p = pointSum c u p - pointSum c v p :=
  Finset.sum_sub_distrib _ _

theorem scatterAdd_add {m : ℕ} (idx : Fin m → ℕ) (u v : Fin m → K) (j : ℕ) :
    scatterAdd idx (fun i => u i + v i) j = scatterAdd idx u j + scatterAdd idx v j := by
  unfold scatterAdd
  rw [← Finset.sum_add_distrib]
  exact Finset.sum_congr rfl fun i _ => by split_ifs <;> simp

theorem scatterAdd_nonneg {m : ℕ} (idx : Fin m → ℕ) (v : Fin m → K) (h : ∀ i, 0 ≤ v i) (j : ℕ) :
    0 ≤ scatterAdd idx v j :=
  Finset.sum_nonneg fun i _ => by split_ifs; exacts [h i, le_rfl]

/-- A scatter of non-negative values vanishes at `j` only if all values landing there vanish. -/
theorem eq_zero_of_scatterAdd_eq_zero {m : ℕ} (idx : Fin m → ℕ) (v : Fin m → K) (h : ∀ i, 0 ≤ v i)
    (j : ℕ) (h0 : scatterAdd idx v j = 0) (i : Fin m) (hi : idx i = j) : v i = 0 := by
  unfold scatterAdd at h0
  rw [Finset.sum_eq_zero_iff_of_nonneg (fun i _ => by split_ifs; exacts [h i, le_rfl])] at h0
  have := h0 i (Finset.mem_univ i)
  rwa [if_pos hi] at this

theorem scatterAdd_eq_zero {m : ℕ} (idx : Fin m → ℕ) (v : Fin m → K) (j : ℕ)
    (h : ∀ i, idx i = j → v i = 0) : scatterAdd idx v j = 0 :=
  Finset.sum_eq_zero fun i _ => by split_ifs with hi; exacts [h i hi, rfl]

variable [FloorRing K]

theorem pointSum_compute (ker : Kernel) (g : GridDomain K dim) (pos : Fin n → Fin dim → K)
    (F : Fin n → Interaction K → K) (p : Fin n) :
    pointSum (compute ker g pos) (fun i => F ((compute ker g pos).pointId i)
        ⟨(compute ker g pos).nodeHash i, (compute ker g pos).shapeVal i,
         (compute ker g pos).shapeGrad i, (compute ker g pos).relDist i⟩) p
      = ∑ s : Fin (windowSize ker dim), F p (computeSingle ker g (pos p) s) :=
  compute_sum_point ker g pos p F

/-- The interaction list of points with complete stencils is good. -/
theorem goodCache_of_inside (hdim : dim = 2 ∨ dim = 3) (ker : Kernel) (g : GridDomain K dim)
    (hpos : ∀ d, 0 < g.gridSize d) (pos : Fin n → Fin dim → K)
    (hin : ∀ p, StencilInside ker g (pos p)) : GoodCache (compute ker g pos) g.numCells where
  hash_lt i := clipHash_lt g hpos _
  val_nonneg i := computeSingle_val_nonneg ker g _ _
  mask_one _ := rfl
  sum_val p := by
    rw [← stencil_sum_val (hin p)]
    exact pointSum_compute ker g pos (fun _ I => I.shapeVal) p
  sum_grad p k := by
    rw [← stencil_sum_grad hdim (hin p) k]
    exact pointSum_compute ker g pos (fun _ I => I.shapeGrad k) p
  grad_zero i h k := grad_eq_zero_of_val hdim _ h k

/-- The interaction list of points in the user's box is good. -/
theorem goodCache_of_inBox (hdim : dim = 2 ∨ dim = 3) (ker : Kernel) (o e : Fin dim → K) (h : K)
    (hh : 0 < h) (pad : ℕ) (hpad : 2 ≤ pad) (pos : Fin n → Fin dim → K)
    (hx : ∀ p, Spec.InBox o e (pos p)) :
    GoodCache (compute ker (GridDomain.create o e h pad) pos)
      (GridDomain.create o e h pad).numCells := by
  by_cases hn : Nonempty (Fin n)
  · obtain ⟨p⟩ := hn
    exact goodCache_of_inside hdim ker _
      (create_gridSize_pos o e h hh pad (fun d => (hx p d).1.trans (hx p d).2)) pos
      (fun p => stencilInside_of_inBox ker o e h hh pad
        (le_trans (by cases ker <;> decide) hpad) (pos p) (hx p))
  · have hn0 : n = 0 := by
      by_contra h0
      exact hn ⟨⟨0, Nat.pos_of_ne_zero h0⟩⟩
    subst hn0
    have hi : ∀ i : Fin (0 * windowSize ker dim), False := fun i => by
      have := i.isLt; simp at this
    exact ⟨fun i => (hi i).elim, fun i => (hi i).elim, fun i => (hi i).elim,
      fun p => p.elim0, fun p => p.elim0, fun i => (hi i).elim⟩

end

section
variable {K : Type*} [Field K] [LinearOrder K] [IsStrictOrderedRing K] {dim n w N : ℕ}
  {c : InteractionCache K n w}

/-- Mass that the points of `s` put on node `j`. -/
def nodeMass (c : InteractionCache K n w) (m : Fin n → K) (j : ℕ) : K :=
  scatterAdd c.nodeHash (fun i => c.shapeVal i * m (c.pointId i)) j

theorem p2g_mass (hc : GoodCache c N) (s : MPState K dim n) (g : GridArrays K dim) (j : ℕ) :
    (p2gBody c s g).mass j = g.mass j + nodeMass c s.mass j := by
  simp only [p2gBody, nodeMass, hc.mask_one, mul_one]

theorem p2g_moment (hc : GoodCache c N) (s : MPState K dim n) (g : GridArrays K dim) (j : ℕ)
    (a : Fin dim) :
    (p2gBody c s g).moment j a = g.moment j a +
      scatterAdd c.nodeHash (fun i => c.shapeVal i * s.mass (c.pointId i) * s.velocity (c.pointId i) a) j := by
  simp only [p2gBody, hc.mask_one, mul_one]

theorem p2g_force (hc : GoodCache c N) (s : MPState K dim n) (g : GridArrays K dim) (j : ℕ)
    (a : Fin dim) :
    (p2gBody c s g).force j a =
      scatterAdd c.nodeHash (fun i => s.volume (c.pointId i) *
        internTerm dim (s.stress (c.pointId i)) (c.shapeGrad i) a
        + c.shapeVal i * s.force (c.pointId i) a) j := by
  simp only [p2gBody, hc.mask_one, mul_one, one_mul, zero_add]

/-- Interpolating a nodal field to the points and weighting with the point masses is the same as
weighting the field with the nodal masses. -/
theorem sum_mass_interp (hc : GoodCache c N) (m : Fin n → K) (u : ℕ → K) :
    ∑ p, m p * pointSum c (fun i => c.shapeVal i * u (c.nodeHash i)) p
      = ∑ j ∈ Finset.range N, nodeMass c m j * u j := by
  rw [← sum_by_point, nodeMass_sum_mul hc]
  exact Finset.sum_congr rfl fun i _ => by ring
where
  nodeMass_sum_mul (hc : GoodCache c N) : ∑ j ∈ Finset.range N, nodeMass c m j * u j
      = ∑ i, c.shapeVal i * m (c.pointId i) * u (c.nodeHash i) :=
    sum_scatterAdd_mul c.nodeHash hc.hash_lt _ _

theorem sum_nodeMass (hc : GoodCache c N) (m : Fin n → K) :
    ∑ j ∈ Finset.range N, nodeMass c m j = ∑ p, m p := by
  have := sum_mass_interp hc m (fun _ => 1)
  simp only [mul_one, hc.sum_val] at this
  exact this.symm

theorem sum_point_field (hc : GoodCache c N) (f : Fin n → K) :
    ∑ i, c.shapeVal i * f (c.pointId i) = ∑ p, f p := by
  have := sum_by_point c f c.shapeVal
  simp only [hc.sum_val, mul_one] at this
  rw [← this]
  exact Finset.sum_congr rfl fun i _ => mul_comm _ _

theorem sum_internTerm (hc : GoodCache c N) (V : Fin n → K) (σ : Fin n → Mat3 K) (a : Fin dim) :
    ∑ i, V (c.pointId i) * internTerm dim (σ (c.pointId i)) (c.shapeGrad i) a = 0 := by
  unfold internTerm trunc3
  split_ifs with h
  · simp only [Finset.mul_sum]
    rw [Finset.sum_comm]
    refine Finset.sum_eq_zero fun b _ => ?_
    have h1 := sum_by_point c (fun p => V p * σ p ⟨a, h⟩ b) (fun i => c.shapeGrad i b)
    simp only [hc.sum_grad, mul_zero, Finset.sum_const_zero] at h1
    rw [← h1]
    exact Finset.sum_congr rfl fun i _ => by ring
  · simp

theorem nodeMass_nonneg (hc : GoodCache c N) (m : Fin n → K) (hm : ∀ p, 0 ≤ m p) (j : ℕ) :
    0 ≤ nodeMass c m j :=
  scatterAdd_nonneg _ _ (fun i => mul_nonneg (hc.val_nonneg i) (hm _)) j

/-- At a node without mass every slot has zero weight. -/
theorem val_zero_of_nodeMass (hc : GoodCache c N) (m : Fin n → K) (hm : ∀ p, 0 < m p) (j : ℕ)
    (h : nodeMass c m j = 0) (i : Fin (n * w)) (hi : c.nodeHash i = j) : c.shapeVal i = 0 := by
  have := eq_zero_of_scatterAdd_eq_zero c.nodeHash _
    (fun i => mul_nonneg (hc.val_nonneg i) (hm _).le) j h i hi
  exact (mul_eq_zero.mp this).resolve_right (hm _).ne'

end
end Hydrax
