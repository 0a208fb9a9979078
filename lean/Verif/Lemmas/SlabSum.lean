import Verif.Lemmas.Fill

/-!
# Sums over the nodes and points of a slab (helper lemmas for C159)
-/

set_option linter.unusedSectionVars false

namespace Hydrax
open Spec

section
variable {K : Type*} [Field K] [LinearOrder K] [IsStrictOrderedRing K] [FloorRing K] {dim n m : ℕ}

/-- A sum over the window of a point as a sum over the nodes of the grid. -/
theorem gather_nodes (ker : Kernel) (g : GridDomain K dim) (x : Fin dim → K) {ι : Type*} (A : Finset ι) (node : ι → Fin dim → ℤ)
    (hv : ∀ a ∈ A, isValid g.gridSize (node a)) (hinj : ∀ a ∈ A, ∀ b ∈ A, node a = node b → a = b)
    (hcov : ∀ j, isValid g.gridSize j → ∃ a ∈ A, node a = j) (f : Interaction K → K)
    (hf : ∀ s : Fin (windowSize ker dim), ¬ isValid g.gridSize (nodeIdx ker g x s) → f (computeSingle ker g x s) = 0) (V : ℕ → K) :
    ∑ s : Fin (windowSize ker dim), f (computeSingle ker g x s) * V (computeSingle ker g x s).nodeHash =
      ∑ a ∈ A, V (nodeHashOf g (node a)) * ∑ s : Fin (windowSize ker dim),
        if (computeSingle ker g x s).nodeHash = nodeHashOf g (node a) then f (computeSingle ker g x s) else 0 := by
  simp only [Finset.mul_sum]
  rw [Finset.sum_comm]
  refine Finset.sum_congr rfl fun s _ => ?_
  by_cases hs : isValid g.gridSize (nodeIdx ker g x s)
  · obtain ⟨a, ha, hj⟩ := hcov _ hs
    have hh : (computeSingle ker g x s).nodeHash = nodeHashOf g (node a) := by
      rw [hj]; exact clipHash_of_valid g _ hs
    rw [Finset.sum_eq_single a]
    · rw [if_pos hh, hh, mul_comm]
    · intro b hb hba
      rw [if_neg, mul_zero]
      intro h
      exact hba (hinj b hb a ha (nodeHashOf_injective g _ _ (hv b hb) (hv a ha) (h.symm.trans hh)))
    · intro h; exact absurd ha h
  · rw [hf s hs, zero_mul]
    refine (Finset.sum_eq_zero fun a _ => ?_).symm
    split_ifs <;> simp

/-- The node of space above node `j` of the plane, in layer `k`. -/
def Spec.nodeAbove (j : Fin 2 → ℤ) (k : ℤ) : Fin 3 → ℤ := ![j 0, j 1, k]

/-- A sum over the nodes of space of something that does not depend on the layer. -/
theorem slab_sum (ker : Kernel) (A : Finset (Fin 2 → ℤ)) (N : ℤ) (z : K) (I : ℤ → Prop)
    (hI : ∀ k : ℤ, basis1 ker (z - k) ≠ 0 → k ∈ Finset.Ico 0 N ∧ I k) (c : (Fin 2 → ℤ) → K) (φ : K → K) (hφ : ∀ x, basis1 ker x = 0 → φ x = 0)
    (V3 : (Fin 2 → ℤ) → ℤ → K) (V2 : (Fin 2 → ℤ) → K) (hV : ∀ j ∈ A, ∀ k, k ∈ Finset.Ico 0 N → I k → V3 j k = V2 j) :
    ∑ a ∈ A ×ˢ Finset.Ico 0 N, V3 a.1 a.2 * (c a.1 * φ (z - a.2)) =
      (∑ j ∈ A, V2 j * c j) * ∑ i : Fin (winLen ker), φ (z - ((baseId ker z + off ker i : ℤ) : K)) := by
  rw [Finset.sum_product, Finset.sum_mul]
  refine Finset.sum_congr rfl fun j hj => ?_
  rw [← lattice_sum ker φ hφ z (Finset.Ico 0 N) (fun k hk => (hI k hk).1), Finset.mul_sum]
  refine Finset.sum_congr rfl fun k hk => ?_
  by_cases h0 : basis1 ker (z - k) = 0
  · simp [hφ _ h0]
  · rw [hV j hj k hk (hI k h0).2, mul_assoc]

end

section
variable {K : Type*} [Field K] [LinearOrder K] [IsStrictOrderedRing K] [FloorRing K] {n m : ℕ}

/-- The third axis of a grid of space. -/
def Spec.zGrid (g : GridDomain K 3) : GridDomain K 1 :=
  { origin := fun _ => g.origin 2, stop := fun _ => g.stop 2, cellSize := g.cellSize, gridSize := fun _ => g.gridSize 2
    padding := g.padding, invCellSize := g.invCellSize }

/-- The grid of space continues the grid of the plane. -/
structure Spec.GridOver (g2 : GridDomain K 2) (g3 : GridDomain K 3) : Prop where
  cell : g3.cellSize = g2.cellSize
  inv : g3.invCellSize = g2.invCellSize
  proper : g2.cellSize * g2.invCellSize = 1
  origin : ∀ d : Fin 2, g3.origin d.castSucc = g2.origin d
  size : ∀ d : Fin 2, g3.gridSize d.castSucc = g2.gridSize d

/-- Nodes of the plane. -/
noncomputable def planeNodes (g : GridDomain K 2) : Finset (Fin 2 → ℤ) := Fintype.piFinset fun d => Finset.Ico 0 (g.gridSize d : ℤ)

theorem mem_planeNodes (g : GridDomain K 2) (j : Fin 2 → ℤ) : j ∈ planeNodes g ↔ isValid g.gridSize j := by
  unfold planeNodes isValid
  simp [Fintype.mem_piFinset, Finset.mem_Ico]

variable {g2 : GridDomain K 2} {g3 : GridDomain K 3}

theorem nodeAbove_valid (hg : GridOver g2 g3) {j : Fin 2 → ℤ} {k : ℤ} :
    isValid g3.gridSize (nodeAbove j k) ↔ isValid g2.gridSize j ∧ k ∈ Finset.Ico 0 (g3.gridSize 2 : ℤ) := by
  have h0 := hg.size 0
  have h1 := hg.size 1
  simp only [Fin.castSucc_zero, Fin.castSucc_one] at h0 h1
  unfold isValid nodeAbove
  rw [Fin.forall_fin_succ, Fin.forall_fin_two, Fin.forall_fin_two]
  simp only [Matrix.cons_val_zero, Fin.succ_zero_eq_one, Fin.succ_one_eq_two, Matrix.cons_val_one, Matrix.cons_val, Finset.mem_Ico]
  rw [show g3.gridSize 0 = g2.gridSize 0 from h0, show g3.gridSize 1 = g2.gridSize 1 from h1]
  tauto

/-- Gather of a quantity that does not depend on the layer. -/
theorem slab_gather (hg : GridOver g2 g3) (ker : Kernel) {x2 : Fin 2 → K} {x3 : Fin 3 → K} (hx : ∀ d : Fin 2, x3 d.castSucc = x2 d)
    (I : ℤ → Prop) (hI : ∀ k : ℤ, basis1 ker (cellCoord g3 x3 2 - k) ≠ 0 → k ∈ Finset.Ico 0 (g3.gridSize 2 : ℤ) ∧ I k)
    (V3 V2 : ℕ → K)
    (hV : ∀ j, isValid g2.gridSize j → ∀ k, k ∈ Finset.Ico 0 (g3.gridSize 2 : ℤ) → I k → V3 (nodeHashOf g3 (nodeAbove j k)) = V2 (nodeHashOf g2 j)) :
    (∑ s : Fin (windowSize ker 3), (computeSingle ker g3 x3 s).shapeVal * V3 (computeSingle ker g3 x3 s).nodeHash =
      ∑ s : Fin (windowSize ker 2), (computeSingle ker g2 x2 s).shapeVal * V2 (computeSingle ker g2 x2 s).nodeHash) ∧
    (∀ a : Fin 2, ∑ s : Fin (windowSize ker 3), (computeSingle ker g3 x3 s).shapeGrad a.castSucc * V3 (computeSingle ker g3 x3 s).nodeHash =
      ∑ s : Fin (windowSize ker 2), (computeSingle ker g2 x2 s).shapeGrad a.castSucc * V2 (computeSingle ker g2 x2 s).nodeHash) ∧
    ∑ s : Fin (windowSize ker 3), (computeSingle ker g3 x3 s).shapeGrad 2 * V3 (computeSingle ker g3 x3 s).nodeHash = 0 := by
  have hg3 : g3.cellSize * g3.invCellSize = 1 := by rw [hg.cell, hg.inv]; exact hg.proper
  have c0 : cellCoord g3 x3 0 = cellCoord g2 x2 0 := by
    unfold cellCoord; rw [hg.cell, ← hx 0, ← hg.origin 0]; rfl
  have c1 : cellCoord g3 x3 1 = cellCoord g2 x2 1 := by
    unfold cellCoord; rw [hg.cell, ← hx 1, ← hg.origin 1]; rfl
  have inj3 : ∀ a ∈ planeNodes g2 ×ˢ Finset.Ico 0 (g3.gridSize 2 : ℤ), ∀ b ∈ planeNodes g2 ×ˢ Finset.Ico 0 (g3.gridSize 2 : ℤ),
      nodeAbove a.1 a.2 = nodeAbove b.1 b.2 → a = b := by
    rintro ⟨j, k⟩ _ ⟨j', k'⟩ _ h
    have e0 := congrFun h 0
    have e1 := congrFun h 1
    have e2 := congrFun h 2
    simp only [nodeAbove, Matrix.cons_val_zero, Matrix.cons_val_one, Matrix.cons_val] at e0 e1 e2
    refine Prod.ext (funext fun d => ?_) e2
    fin_cases d
    · exact e0
    · exact e1
  have val3 : ∀ a ∈ planeNodes g2 ×ˢ Finset.Ico 0 (g3.gridSize 2 : ℤ), isValid g3.gridSize (nodeAbove a.1 a.2) := by
    intro a ha
    rw [Finset.mem_product, mem_planeNodes] at ha
    exact (nodeAbove_valid hg).mpr ha
  have cov3 : ∀ j, isValid g3.gridSize j → ∃ a ∈ planeNodes g2 ×ˢ Finset.Ico 0 (g3.gridSize 2 : ℤ), nodeAbove a.1 a.2 = j := by
    intro j hj
    have e : nodeAbove ![j 0, j 1] (j 2) = j := by
      funext d; fin_cases d <;> rfl
    rw [← e, nodeAbove_valid hg, ← mem_planeNodes] at hj
    exact ⟨(![j 0, j 1], j 2), Finset.mem_product.mpr hj, e⟩
  have val2 : ∀ a ∈ planeNodes g2, isValid g2.gridSize (id a) := fun a ha => (mem_planeNodes g2 a).mp ha
  have cov2 : ∀ j, isValid g2.gridSize j → ∃ a ∈ planeNodes g2, id a = j := fun j hj => ⟨j, (mem_planeNodes g2 j).mpr hj, rfl⟩
  have v0 : ∀ {dim} (g : GridDomain K dim) (x : Fin dim → K) (s : Fin (windowSize ker dim)), ¬ isValid g.gridSize (nodeIdx ker g x s) →
      (computeSingle ker g x s).shapeVal = 0 := fun g x s h => by simp only [computeSingle, if_neg h]
  have d0 : ∀ {dim} (g : GridDomain K dim) (x : Fin dim → K) (a : Fin 3) (s : Fin (windowSize ker dim)),
      ¬ isValid g.gridSize (nodeIdx ker g x s) → (computeSingle ker g x s).shapeGrad a = 0 := fun g x a s h => by
    simp only [computeSingle, if_neg h]
  have hVm : ∀ j ∈ planeNodes g2, ∀ k, k ∈ Finset.Ico 0 (g3.gridSize 2 : ℤ) → I k →
      V3 (nodeHashOf g3 (nodeAbove j k)) = V2 (nodeHashOf g2 j) := fun j hj => hV j ((mem_planeNodes g2 j).mp hj)
  -- sums over nodes of space, for the three factors
  have red : ∀ (φ0 φ1 φ2 : K → K), (∀ x, basis1 ker x = 0 → φ2 x = 0) →
      ∑ a ∈ planeNodes g2 ×ˢ Finset.Ico 0 (g3.gridSize 2 : ℤ), V3 (nodeHashOf g3 (nodeAbove a.1 a.2)) *
        (φ0 (cellCoord g2 x2 0 - a.1 0) * φ1 (cellCoord g2 x2 1 - a.1 1) * φ2 (cellCoord g3 x3 2 - a.2)) =
      (∑ j ∈ planeNodes g2, V2 (nodeHashOf g2 j) * (φ0 (cellCoord g2 x2 0 - j 0) * φ1 (cellCoord g2 x2 1 - j 1))) *
        ∑ i : Fin (winLen ker), φ2 (cellCoord g3 x3 2 - ((baseId ker (cellCoord g3 x3 2) + off ker i : ℤ) : K)) := fun φ0 φ1 φ2 hφ =>
    slab_sum ker (planeNodes g2) _ _ I hI (fun j => φ0 (cellCoord g2 x2 0 - j 0) * φ1 (cellCoord g2 x2 1 - j 1)) φ2 hφ
      (fun j k => V3 (nodeHashOf g3 (nodeAbove j k))) (fun j => V2 (nodeHashOf g2 j)) hVm
  have dz : ∀ c x : K, basis1 ker x = 0 → dbasis1 c ker x = 0 := fun c x h => dbasis_eq_zero_of_basis ker c x h
  refine ⟨?_, ?_, ?_⟩
  · rw [gather_nodes ker g3 x3 _ (fun a : (Fin 2 → ℤ) × ℤ => nodeAbove a.1 a.2) val3 inj3 cov3 (fun I => I.shapeVal) (v0 g3 x3) V3,
      gather_nodes ker g2 x2 _ id val2 (fun _ _ _ _ h => h) cov2 (fun I => I.shapeVal) (v0 g2 x2) V2]
    rw [Finset.sum_congr rfl fun a ha => congrArg (V3 (nodeHashOf g3 (nodeAbove a.1 a.2)) * ·) ((nodal_weight ker g3 x3 _ (val3 a ha)).trans (by
        rw [basePos_eq_cellCoord hg3, Fin.prod_univ_three, c0, c1])),
      Finset.sum_congr rfl fun a ha => congrArg (V2 (nodeHashOf g2 (id a)) * ·) ((nodal_weight ker g2 x2 _ (val2 a ha)).trans (by
        rw [basePos_eq_cellCoord hg.proper, Fin.prod_univ_two]))]
    have := red (basis1 ker) (basis1 ker) (basis1 ker) (fun _ h => h)
    rw [sum_basis, mul_one] at this
    exact this
  · intro a
    rw [gather_nodes ker g3 x3 _ (fun a : (Fin 2 → ℤ) × ℤ => nodeAbove a.1 a.2) val3 inj3 cov3 (fun I => I.shapeGrad a.castSucc) (d0 g3 x3 _) V3,
      gather_nodes ker g2 x2 _ id val2 (fun _ _ _ _ h => h) cov2 (fun I => I.shapeGrad a.castSucc) (d0 g2 x2 _) V2]
    have e3 := fun b hb => nodal_grad (.inr rfl) ker g3 x3 (nodeAbove b.1 b.2) (val3 b hb) a.castSucc
    have e2 := fun b hb => nodal_grad (.inl rfl) ker g2 x2 (id b) (val2 b hb) a
    refine Eq.trans (Finset.sum_congr rfl fun b hb => congrArg (V3 (nodeHashOf g3 (nodeAbove b.1 b.2)) * ·) (e3 b hb))
      (Eq.trans ?_ (Finset.sum_congr rfl fun b hb => congrArg (V2 (nodeHashOf g2 (id b)) * ·) (e2 b hb)).symm)
    simp only [basePos_eq_cellCoord hg3, basePos_eq_cellCoord hg.proper, Fin.prod_univ_three, Fin.prod_univ_two, c0, c1]
    fin_cases a
    · have := red (dbasis1 g2.invCellSize ker) (basis1 ker) (basis1 ker) (fun _ h => h)
      rw [sum_basis, mul_one] at this
      simpa [nodeAbove, hg.inv] using this
    · have := red (basis1 ker) (dbasis1 g2.invCellSize ker) (basis1 ker) (fun _ h => h)
      rw [sum_basis, mul_one] at this
      simpa [nodeAbove, hg.inv] using this
  · rw [gather_nodes ker g3 x3 _ (fun a : (Fin 2 → ℤ) × ℤ => nodeAbove a.1 a.2) val3 inj3 cov3 (fun I => I.shapeGrad 2) (d0 g3 x3 _) V3]
    have e3 := fun b hb => nodal_grad (.inr rfl) ker g3 x3 (nodeAbove b.1 b.2) (val3 b hb) 2
    rw [Finset.sum_congr rfl fun a ha => congrArg (V3 (nodeHashOf g3 (nodeAbove a.1 a.2)) * ·) ((e3 a ha).trans (by
      rw [basePos_eq_cellCoord hg3, Fin.prod_univ_three, c0, c1]))]
    have := red (basis1 ker) (basis1 ker) (dbasis1 g3.invCellSize ker) (dz _)
    rw [sum_dbasis, mul_zero] at this
    simpa [nodeAbove] using this

/-- Scatter of a slab: the sum over the layers of each point of the plane. -/
theorem slab_scatter (ker : Kernel) {lo hi : K} {of : Fin m → Fin n} {ξ : Fin n → K} {pos3 : Fin m → Fin 3 → K}
    (hf : Filled (zGrid g3) (fun _ => lo) (fun _ => hi) of (fun i _ => ξ i) (fun q _ => pos3 q 2)) (k : ℤ)
    (h1 : lo + halfWidth ker ≤ k) (h2 : (k : K) + halfWidth ker ≤ hi) (φ : K → K) (hφ : ∀ x, basis1 ker x = 0 → φ x = 0)
    (r3 : Fin m → K) (r2 : Fin n → K)
    (hr : ∀ q, InBlock (zGrid g3) (fun _ => lo) (fun _ => hi) (fun _ => pos3 q 2) → r3 q = r2 (of q)) :
    ∑ q, r3 q * φ (cellCoord g3 (pos3 q) 2 - k) = ∑ i, r2 i * ∑ l ∈ fillRange lo hi (ξ i), φ (ξ i + l - k) := by
  have := fill_prod ker hf (fun _ => k) (fun _ => ⟨h1, h2⟩) (fun _ => φ) (fun _ => hφ) r3 r2 hr
  simp only [Finset.univ_unique, Fin.default_eq_zero, Finset.prod_singleton] at this
  exact this

/-- What a node in the depth of the slab collects from the points of space is what the node of the plane below it collects; gradients
along the third axis give nothing. -/
theorem slab_collect (hg : GridOver g2 g3) (ker : Kernel) {lo hi : K} {of : Fin m → Fin n} {ξ : Fin n → K} {pos2 : Fin n → Fin 2 → K}
    {pos3 : Fin m → Fin 3 → K} (hf : Filled (zGrid g3) (fun _ => lo) (fun _ => hi) of (fun i _ => ξ i) (fun q _ => pos3 q 2))
    (hpos : ∀ q, InBlock (zGrid g3) (fun _ => lo) (fun _ => hi) (fun _ => pos3 q 2) → ∀ d : Fin 2, pos3 q d.castSucc = pos2 (of q) d)
    {j : Fin 2 → ℤ} (hj : isValid g2.gridSize j) {k : ℤ} (hk : k ∈ Finset.Ico 0 (g3.gridSize 2 : ℤ)) (h1 : lo + halfWidth ker ≤ k)
    (h2 : (k : K) + halfWidth ker ≤ hi) (r3 : Fin m → K) (r2 : Fin n → K)
    (hr : ∀ q, InBlock (zGrid g3) (fun _ => lo) (fun _ => hi) (fun _ => pos3 q 2) → r3 q = r2 (of q)) :
    (scatterAdd (compute ker g3 pos3).nodeHash (fun i => (compute ker g3 pos3).shapeVal i * r3 ((compute ker g3 pos3).pointId i))
        (nodeHashOf g3 (nodeAbove j k)) =
      scatterAdd (compute ker g2 pos2).nodeHash (fun i => (compute ker g2 pos2).shapeVal i * r2 ((compute ker g2 pos2).pointId i))
        (nodeHashOf g2 j)) ∧
    (∀ a : Fin 2, scatterAdd (compute ker g3 pos3).nodeHash (fun i => (compute ker g3 pos3).shapeGrad i a.castSucc *
        r3 ((compute ker g3 pos3).pointId i)) (nodeHashOf g3 (nodeAbove j k)) =
      scatterAdd (compute ker g2 pos2).nodeHash (fun i => (compute ker g2 pos2).shapeGrad i a.castSucc *
        r2 ((compute ker g2 pos2).pointId i)) (nodeHashOf g2 j)) ∧
    scatterAdd (compute ker g3 pos3).nodeHash (fun i => (compute ker g3 pos3).shapeGrad i 2 * r3 ((compute ker g3 pos3).pointId i))
      (nodeHashOf g3 (nodeAbove j k)) = 0 := by
  have hg3 : g3.cellSize * g3.invCellSize = 1 := by rw [hg.cell, hg.inv]; exact hg.proper
  have hv3 : isValid g3.gridSize (nodeAbove j k) := (nodeAbove_valid hg).mpr ⟨hj, hk⟩
  have val : ∀ {dim N : ℕ} {g : GridDomain K dim} (_ : g.cellSize * g.invCellSize = 1) (pos : Fin N → Fin dim → K) (j : Fin dim → ℤ)
      (_ : isValid g.gridSize j) (r : Fin N → K), scatterAdd (compute ker g pos).nodeHash
      (fun i => (compute ker g pos).shapeVal i * r ((compute ker g pos).pointId i)) (nodeHashOf g j)
      = ∑ p, r p * ∏ d, basis1 ker (cellCoord g (pos p) d - j d) := by
    intro dim N g hg pos j hv r
    rw [scatterAdd_compute ker g pos (fun p I => I.shapeVal * r p)]
    refine Finset.sum_congr rfl fun p _ => ?_
    rw [← basePos_eq_cellCoord hg, ← nodal_weight ker g (pos p) j hv, Finset.mul_sum]
    refine Finset.sum_congr rfl fun s _ => ?_
    split_ifs <;> ring
  have cc : ∀ q, InBlock (zGrid g3) (fun _ => lo) (fun _ => hi) (fun _ => pos3 q 2) →
      cellCoord g3 (pos3 q) 0 = cellCoord g2 (pos2 (of q)) 0 ∧ cellCoord g3 (pos3 q) 1 = cellCoord g2 (pos2 (of q)) 1 := by
    intro q hq
    constructor
    · unfold cellCoord; rw [hg.cell, ← hpos q hq 0, ← hg.origin 0]; rfl
    · unfold cellCoord; rw [hg.cell, ← hpos q hq 1, ← hg.origin 1]; rfl
  have red : ∀ (φ0 φ1 φ2 : K → K), (∀ x, basis1 ker x = 0 → φ2 x = 0) →
      ∑ q, r3 q * (φ0 (cellCoord g3 (pos3 q) 0 - j 0) * φ1 (cellCoord g3 (pos3 q) 1 - j 1) * φ2 (cellCoord g3 (pos3 q) 2 - k)) =
      ∑ i, r2 i * (φ0 (cellCoord g2 (pos2 i) 0 - j 0) * φ1 (cellCoord g2 (pos2 i) 1 - j 1)) *
        ∑ l ∈ fillRange lo hi (ξ i), φ2 (ξ i + l - k) := by
    intro φ0 φ1 φ2 hφ
    rw [← slab_scatter ker hf k h1 h2 φ2 hφ
      (fun q => r3 q * (φ0 (cellCoord g3 (pos3 q) 0 - j 0) * φ1 (cellCoord g3 (pos3 q) 1 - j 1)))
      (fun i => r2 i * (φ0 (cellCoord g2 (pos2 i) 0 - j 0) * φ1 (cellCoord g2 (pos2 i) 1 - j 1))) fun q hq => by
        rw [hr q hq, (cc q hq).1, (cc q hq).2]]
    exact Finset.sum_congr rfl fun q _ => by ring
  have ax := fun i => fill_axis ker g3.invCellSize lo hi (ξ i) k h1 h2
  refine ⟨?_, fun a => ?_, ?_⟩
  · rw [val hg3 pos3 _ hv3 r3, val hg.proper pos2 _ hj r2]
    simp only [Fin.prod_univ_three, Fin.prod_univ_two]
    have := red (basis1 ker) (basis1 ker) (basis1 ker) (fun _ h => h)
    simp only [(ax _).1, mul_one] at this
    exact this
  · refine (fill_grad_sum (.inr rfl) ker hg3 _ hv3 r3 a.castSucc (by omega)).trans
      (Eq.trans ?_ (fill_grad_sum (.inl rfl) ker hg.proper _ hj r2 a (by omega)).symm)
    simp only [Fin.prod_univ_three, Fin.prod_univ_two]
    fin_cases a
    · have := red (dbasis1 g2.invCellSize ker) (basis1 ker) (basis1 ker) (fun _ h => h)
      simp only [(ax _).1, mul_one] at this
      simpa [nodeAbove, hg.inv] using this
    · have := red (basis1 ker) (dbasis1 g2.invCellSize ker) (basis1 ker) (fun _ h => h)
      simp only [(ax _).1, mul_one] at this
      simpa [nodeAbove, hg.inv] using this
  · refine (fill_grad_sum (.inr rfl) ker hg3 _ hv3 r3 2 (by omega)).trans ?_
    simp only [Fin.prod_univ_three]
    have := red (basis1 ker) (basis1 ker) (dbasis1 g3.invCellSize ker) (fun x h => dbasis_eq_zero_of_basis ker _ x h)
    simp only [(ax _).2.1, mul_zero, Finset.sum_const_zero] at this
    simpa [nodeAbove] using this

end
end Hydrax
