import Verif.Lemmas.LatKernel
import Verif.Props.Renumbering
import Mathlib.Algebra.BigOperators.Ring.Finset

/-!
# Sums over a regular arrangement of points (helper lemmas for C129)
-/

set_option linter.unusedSectionVars false

namespace Hydrax
open Spec

section
variable {K : Type*} [Field K] [LinearOrder K] [IsStrictOrderedRing K] [FloorRing K] {dim n m : ℕ}

/-- Half of the width of a kernel, in cells. -/
def Spec.halfWidth : Kernel → K
  | .linear => 1
  | .quadratic => 3 / 2
  | .cubic => 2

theorem basis1_reach (ker : Kernel) {x : K} (h : basis1 ker x ≠ 0) : -halfWidth ker < x ∧ x < halfWidth ker := by
  have hs := basis1_support ker x h
  cases ker
  · exact hs
  · simp only [halfWidth] at *
    exact ⟨by linarith [hs.1], hs.2⟩
  · exact hs

theorem reach_pos (ker : Kernel) : (0 : K) < halfWidth ker := by
  cases ker <;> simp [halfWidth]

/-- Coordinates in units of cells, from the first node. -/
def Spec.cellCoord (g : GridDomain K dim) (x : Fin dim → K) : Fin dim → K :=
  fun d => (x d - g.origin d) / g.cellSize

/-- The place lies in the block between `lo` and `hi` (in cells). -/
abbrev Spec.InBlock (g : GridDomain K dim) (lo hi : Fin dim → K) (x : Fin dim → K) : Prop :=
  ∀ d, lo d ≤ cellCoord g x d ∧ cellCoord g x d < hi d

/-- The points of the block between `lo` and `hi` (in cells) form a lattice with the spacing of the grid: `m` classes, each with one
point at `ξ b + k` for every integer `k` for which this lies in the block, and no other points. -/
structure Spec.Filled (g : GridDomain K dim) (lo hi : Fin dim → K) (cls : Fin n → Fin m) (ξ : Fin m → Fin dim → K)
    (pos : Fin n → Fin dim → K) : Prop where
  lattice : ∀ p, InBlock g lo hi (pos p) →
    ∃ k : Fin dim → ℤ, ∀ d, cellCoord g (pos p) d = ξ (cls p) d + k d
  once : ∀ b (k : Fin dim → ℤ), (∀ d, lo d ≤ ξ b d + k d ∧ ξ b d + k d < hi d) →
    ∃! p, cls p = b ∧ ∀ d, cellCoord g (pos p) d = ξ b d + k d

/-- Integers that carry class `b` into the block, along one axis. -/
noncomputable def fillRange (lo hi x : K) : Finset ℤ := Finset.Ico ⌈lo - x⌉ ⌈hi - x⌉

theorem mem_fillRange (lo hi x : K) (k : ℤ) : k ∈ fillRange lo hi x ↔ lo ≤ x + k ∧ x + k < hi := by
  unfold fillRange
  rw [Finset.mem_Ico, Int.ceil_le, Int.lt_ceil]
  constructor <;> rintro ⟨a, b⟩ <;> constructor <;> linarith

/-- A sum over all points of a quantity that vanishes outside the block. -/
theorem fill_sum {g : GridDomain K dim} {lo hi : Fin dim → K} {cls : Fin n → Fin m} {ξ : Fin m → Fin dim → K}
    {pos : Fin n → Fin dim → K} (hf : Filled g lo hi cls ξ pos) (F : Fin m → (Fin dim → K) → K) (G : Fin n → K)
    (hG : ∀ p, InBlock g lo hi (pos p) → G p = F (cls p) (cellCoord g (pos p)))
    (h0 : ∀ p, ¬ InBlock g lo hi (pos p) → G p = 0) :
    ∑ p, G p = ∑ b, ∑ k ∈ Fintype.piFinset (fun d => fillRange (lo d) (hi d) (ξ b d)), F b (fun d => ξ b d + k d) := by
  classical
  rw [Finset.sum_sigma']
  have hin : ∀ x ∈ (Finset.univ : Finset (Fin m)).sigma (fun b => Fintype.piFinset fun d => fillRange (lo d) (hi d) (ξ b d)),
      ∀ d, lo d ≤ ξ x.1 d + x.2 d ∧ ξ x.1 d + x.2 d < hi d := by
    rintro ⟨b, k⟩ hx d
    have := (Finset.mem_sigma.mp hx).2
    rw [Fintype.mem_piFinset] at this
    exact (mem_fillRange _ _ _ _).mp (this d)
  symm
  rw [← Finset.sum_subset (Finset.filter_subset
    (fun p => InBlock g lo hi (pos p)) Finset.univ)
    (fun p _ hp => h0 p fun h => hp (Finset.mem_filter.mpr ⟨Finset.mem_univ _, h⟩))]
  refine Finset.sum_bij (fun x hx => (hf.once x.1 x.2 (hin x hx)).exists.choose) ?_ ?_ ?_ ?_
  · intro x hx
    have h := (hf.once x.1 x.2 (hin x hx)).exists.choose_spec
    rw [Finset.mem_filter]
    refine ⟨Finset.mem_univ _, fun d => ?_⟩
    rw [h.2 d]
    exact hin x hx d
  · rintro ⟨b, k⟩ hx ⟨b', k'⟩ hx' e
    have h := (hf.once b k (hin _ hx)).exists.choose_spec
    have h' := (hf.once b' k' (hin _ hx')).exists.choose_spec
    simp only at e
    rw [← e] at h'
    obtain rfl : b = b' := h.1.symm.trans h'.1
    have : k = k' := by
      funext d
      have := (h.2 d).symm.trans (h'.2 d)
      exact_mod_cast add_left_cancel this
    subst this
    rfl
  · intro p hp
    have hp := (Finset.mem_filter.mp hp).2
    obtain ⟨k, hk⟩ := hf.lattice p hp
    have hb : ∀ d, lo d ≤ ξ (cls p) d + k d ∧ ξ (cls p) d + k d < hi d := fun d => by rw [← hk d]; exact hp d
    have hx : (⟨cls p, k⟩ : (_ : Fin m) × (Fin dim → ℤ)) ∈ (Finset.univ : Finset (Fin m)).sigma
        (fun b => Fintype.piFinset fun d => fillRange (lo d) (hi d) (ξ b d)) :=
      Finset.mem_sigma.mpr ⟨Finset.mem_univ _, Fintype.mem_piFinset.mpr fun d => (mem_fillRange _ _ _ _).mpr (hb d)⟩
    refine ⟨⟨cls p, k⟩, hx, ?_⟩
    exact (hf.once (cls p) k hb).unique (hf.once (cls p) k hb).exists.choose_spec ⟨rfl, hk⟩
  · rintro ⟨b, k⟩ hx
    have h := (hf.once b k (hin _ hx)).exists.choose_spec
    have e := hG _ (fun d => by rw [h.2 d]; exact hin _ hx d)
    rw [e, h.1]
    congr 1
    funext d
    exact (h.2 d).symm

/-- Sum over the lattice of a function that vanishes where the kernel does, as a sum over a stencil. -/
theorem lattice_sum (ker : Kernel) (φ : K → K) (hφ : ∀ x, basis1 ker x = 0 → φ x = 0) (t : K) (A : Finset ℤ)
    (hA : ∀ k : ℤ, basis1 ker (t - k) ≠ 0 → k ∈ A) :
    ∑ k ∈ A, φ (t - k) = ∑ i : Fin (winLen ker), φ (t - ((baseId ker t + off ker i : ℤ) : K)) := by
  symm
  refine Finset.sum_bij_ne_zero (fun i _ _ => baseId ker t + off ker i) ?_ ?_ ?_ ?_
  · intro i _ h
    exact hA _ fun h0 => h (hφ _ h0)
  · intro i _ _ j _ _ e
    exact off_injective ker i j (by omega)
  · intro k _ hk
    obtain ⟨i, hi⟩ := mem_stencil_of_basis_ne_zero ker t k fun h0 => hk (hφ _ h0)
    exact ⟨i, Finset.mem_univ _, by rw [← hi]; exact hk, hi.symm⟩
  · intro i _ _
    rfl

/-- Weights that a lattice of points gives to a node: they sum to one, their derivatives to zero, and their first moment vanishes. -/
theorem fill_axis (ker : Kernel) (c : K) (lo hi x : K) (j : ℤ) (h1 : lo + halfWidth ker ≤ j) (h2 : (j : K) + halfWidth ker ≤ hi) :
    (∑ k ∈ fillRange lo hi x, basis1 ker (x + k - j) = 1) ∧ (∑ k ∈ fillRange lo hi x, dbasis1 c ker (x + k - j) = 0) ∧
    (∑ k ∈ fillRange lo hi x, (x + k - j) * basis1 ker (x + k - j) = 0) ∧
    ((ker = .linear → ∀ z : ℤ, x ≠ z) → ∑ k ∈ fillRange lo hi x, (x + k - j) * dbasis1 c ker (x + k - j) = -c) := by
  have hA : ∀ k : ℤ, basis1 ker ((j : K) - x - k) ≠ 0 → k ∈ fillRange lo hi x := by
    intro k hk
    have := basis1_reach ker hk
    rw [mem_fillRange]
    constructor <;> linarith
  have e : ∀ k : ℤ, x + k - j = -((j : K) - x - k) := fun k => by ring
  simp only [e, (basis1_neg ker c _).1, (basis1_neg ker c _).2]
  refine ⟨?_, ?_, ?_, fun hx => ?_⟩
  · rw [lattice_sum ker (basis1 ker) (fun _ h => h) _ _ hA]
    exact sum_basis ker _
  · rw [Finset.sum_neg_distrib, lattice_sum ker (dbasis1 c ker) (fun x h => dbasis_eq_zero_of_basis ker c x h) _ _ hA,
      sum_dbasis, neg_zero]
  · simp only [neg_mul]
    rw [Finset.sum_neg_distrib, lattice_sum ker (fun x => x * basis1 ker x) (fun x h => by rw [h, mul_zero]) _ _ hA,
      sum_dist_basis, neg_zero]
  · simp only [neg_mul_neg]
    rw [lattice_sum ker (fun x => x * dbasis1 c ker x) (fun x h => by
      show x * _ = 0
      rw [dbasis_eq_zero_of_basis ker c x h, mul_zero]) _ _ hA]
    refine sum_dist_dbasis ker c _ fun hk h0 => ?_
    subst hk
    obtain ⟨z, hz⟩ := Int.fract_eq_zero_iff.mp h0
    exact hx rfl (j - z) (by push_cast; rw [hz]; ring)

/-- The same with a product over the axes. -/
theorem fill_prod (ker : Kernel) {g : GridDomain K dim} {lo hi : Fin dim → K} {cls : Fin n → Fin m} {ξ : Fin m → Fin dim → K}
    {pos : Fin n → Fin dim → K} (hf : Filled g lo hi cls ξ pos) (j : Fin dim → ℤ)
    (hj : ∀ d, lo d + halfWidth ker ≤ j d ∧ (j d : K) + halfWidth ker ≤ hi d) (φ : Fin dim → K → K)
    (hφ : ∀ d x, basis1 ker x = 0 → φ d x = 0) (q : Fin n → K) (Q : Fin m → K)
    (hq : ∀ p, InBlock g lo hi (pos p) → q p = Q (cls p)) :
    ∑ p, q p * ∏ d, φ d (cellCoord g (pos p) d - j d) =
      ∑ b, Q b * ∏ d, ∑ k ∈ fillRange (lo d) (hi d) (ξ b d), φ d (ξ b d + k - j d) := by
  rw [fill_sum hf (fun b x => Q b * ∏ d, φ d (x d - j d)) _ (fun p hp => by rw [hq p hp])]
  · refine Finset.sum_congr rfl fun b _ => ?_
    rw [← Finset.mul_sum, Finset.prod_univ_sum]
  · intro p hp
    simp only [InBlock] at hp
    push Not at hp
    obtain ⟨d, hd⟩ := hp
    have hz : basis1 ker (cellCoord g (pos p) d - j d) = 0 := by
      by_contra h
      have h1 := basis1_reach ker h
      have h2 := hj d
      have := hd (by linarith)
      linarith
    rw [Finset.prod_eq_zero (Finset.mem_univ d) (hφ d _ hz), mul_zero]

theorem basePos_eq_cellCoord {g : GridDomain K dim} (hg : g.cellSize * g.invCellSize = 1) (x : Fin dim → K) :
    basePos g x = cellCoord g x := by
  funext d
  have : g.invCellSize = 1 / g.cellSize := eq_one_div_of_mul_eq_one_right hg
  unfold basePos cellCoord
  rw [this, mul_one_div]

/-- Mass and first moment that a node of the interior collects; here for any quantity that is constant on the classes. -/
theorem fill_val (ker : Kernel) {g : GridDomain K dim} (hg : g.cellSize * g.invCellSize = 1) {lo hi : Fin dim → K} {cls : Fin n → Fin m}
    {ξ : Fin m → Fin dim → K} {pos : Fin n → Fin dim → K} (hf : Filled g lo hi cls ξ pos) (j : Fin dim → ℤ) (hv : isValid g.gridSize j)
    (hj : ∀ d, lo d + halfWidth ker ≤ j d ∧ (j d : K) + halfWidth ker ≤ hi d) (q : Fin n → K) (Q : Fin m → K)
    (hq : ∀ p, InBlock g lo hi (pos p) → q p = Q (cls p)) :
    scatterAdd (compute ker g pos).nodeHash (fun i => (compute ker g pos).shapeVal i * q ((compute ker g pos).pointId i)) (nodeHashOf g j)
      = ∑ b, Q b ∧
    ∀ a, scatterAdd (compute ker g pos).nodeHash (fun i => (compute ker g pos).shapeVal i *
      (q ((compute ker g pos).pointId i) * (cellCoord g (pos ((compute ker g pos).pointId i)) a - j a))) (nodeHashOf g j) = 0 := by
  have key : ∀ r : Fin n → K, scatterAdd (compute ker g pos).nodeHash
      (fun i => (compute ker g pos).shapeVal i * r ((compute ker g pos).pointId i)) (nodeHashOf g j)
      = ∑ p, r p * ∏ d, basis1 ker (cellCoord g (pos p) d - j d) := by
    intro r
    rw [scatterAdd_compute ker g pos (fun p I => I.shapeVal * r p)]
    refine Finset.sum_congr rfl fun p _ => ?_
    rw [← basePos_eq_cellCoord hg, ← nodal_weight ker g (pos p) j hv, Finset.mul_sum]
    refine Finset.sum_congr rfl fun s _ => ?_
    split_ifs <;> ring
  refine ⟨?_, fun a => ?_⟩
  · rw [key, fill_prod ker hf j hj (fun _ => basis1 ker) (fun _ _ h => h) q Q hq]
    refine Finset.sum_congr rfl fun b _ => ?_
    rw [Finset.prod_eq_one fun d _ => (fill_axis ker 0 (lo d) (hi d) (ξ b d) (j d) (hj d).1 (hj d).2).1, mul_one]
  · rw [key fun p => q p * (cellCoord g (pos p) a - j a)]
    have e : ∀ p, q p * (cellCoord g (pos p) a - j a) * ∏ d, basis1 ker (cellCoord g (pos p) d - j d) =
        q p * ∏ d, (if d = a then fun x => x * basis1 ker x else basis1 ker) (cellCoord g (pos p) d - j d) := by
      intro p
      rw [mul_assoc]
      congr 1
      rw [← Finset.mul_prod_erase _ _ (Finset.mem_univ a), ← Finset.mul_prod_erase (a := a) _ _ (Finset.mem_univ a), if_pos rfl, ← mul_assoc]
      congr 1
      refine Finset.prod_congr rfl fun d hd => ?_
      rw [if_neg (Finset.mem_erase.mp hd).1]
    rw [Finset.sum_congr rfl fun p _ => e p, fill_prod ker hf j hj _ (fun d x h => by
      split_ifs
      · show x * basis1 ker x = 0
        rw [h, mul_zero]
      · exact h) q Q hq]
    refine Finset.sum_eq_zero fun b _ => ?_
    rw [Finset.prod_eq_zero (Finset.mem_univ a), mul_zero]
    rw [if_pos rfl]
    exact (fill_axis ker 0 (lo a) (hi a) (ξ b a) (j a) (hj a).1 (hj a).2).2.2.1

/-- Gradients in the first `dim` directions that a node collects. -/
theorem fill_grad_sum (hdim : dim = 2 ∨ dim = 3) (ker : Kernel) {g : GridDomain K dim} (hg : g.cellSize * g.invCellSize = 1)
    {pos : Fin n → Fin dim → K} (j : Fin dim → ℤ) (hv : isValid g.gridSize j) (q : Fin n → K) (a : Fin dim) (h3 : a.val < 3) :
    scatterAdd (compute ker g pos).nodeHash (fun i => (compute ker g pos).shapeGrad i ⟨a, h3⟩ * q ((compute ker g pos).pointId i))
      (nodeHashOf g j) =
    ∑ p, q p * ∏ d, (if d = a then dbasis1 g.invCellSize ker else basis1 ker) (cellCoord g (pos p) d - j d) := by
  rw [scatterAdd_compute ker g pos (fun p I => I.shapeGrad ⟨a, h3⟩ * q p)]
  refine Finset.sum_congr rfl fun p _ => ?_
  have := nodal_grad hdim ker g (pos p) j hv a
  rw [basePos_eq_cellCoord hg] at this
  rw [show (∏ d, (if d = a then dbasis1 g.invCellSize ker else basis1 ker) (cellCoord g (pos p) d - j d)) =
    ∏ d, if d = a then dbasis1 g.invCellSize ker (cellCoord g (pos p) d - (j d : K)) else basis1 ker (cellCoord g (pos p) d - (j d : K)) from
    Finset.prod_congr rfl fun d _ => by split_ifs <;> rfl, ← this, Finset.mul_sum]
  refine Finset.sum_congr rfl fun s _ => ?_
  split_ifs <;> ring

theorem fill_grad_plane (ker : Kernel) (g : GridDomain K dim) (pos : Fin n → Fin dim → K) (r : Fin 3) (hr : ¬ r.val < dim)
    (i : Fin (n * windowSize ker dim)) : (compute ker g pos).shapeGrad i r = 0 := by
  show (computeSingle ker g _ _).shapeGrad r = 0
  by_cases hv : isValid g.gridSize (nodeIdx ker g (pos i.divNat) i.modNat.val)
  · rw [computeSingle_grad ker g _ _ hv, pad3_ge _ r hr]
  · simp only [computeSingle, if_neg hv]

/-- Gradients that a node of the interior collects. -/
theorem fill_grad (hdim : dim = 2 ∨ dim = 3) (ker : Kernel) {g : GridDomain K dim} (hg : g.cellSize * g.invCellSize = 1) {lo hi : Fin dim → K}
    {cls : Fin n → Fin m} {ξ : Fin m → Fin dim → K} {pos : Fin n → Fin dim → K} (hf : Filled g lo hi cls ξ pos) (j : Fin dim → ℤ)
    (hv : isValid g.gridSize j) (hj : ∀ d, lo d + halfWidth ker ≤ j d ∧ (j d : K) + halfWidth ker ≤ hi d) (q : Fin n → K) (Q : Fin m → K)
    (hq : ∀ p, InBlock g lo hi (pos p) → q p = Q (cls p)) (a : Fin dim) (h3 : a.val < 3) :
    scatterAdd (compute ker g pos).nodeHash (fun i => (compute ker g pos).shapeGrad i ⟨a, h3⟩ * q ((compute ker g pos).pointId i))
      (nodeHashOf g j) = 0 := by
  rw [fill_grad_sum hdim ker hg j hv, fill_prod ker hf j hj _ (fun d x h => by
    split_ifs
    · exact dbasis_eq_zero_of_basis ker _ x h
    · exact h) q Q hq]
  refine Finset.sum_eq_zero fun b _ => ?_
  rw [Finset.prod_eq_zero (Finset.mem_univ a), mul_zero]
  rw [if_pos rfl]
  exact (fill_axis ker _ (lo a) (hi a) (ξ b a) (j a) (hj a).1 (hj a).2).2.1

/-- First moments of the gradients that a node of the interior collects. -/
theorem fill_grad_moment (hdim : dim = 2 ∨ dim = 3) (ker : Kernel) {g : GridDomain K dim} (hg : g.cellSize * g.invCellSize = 1)
    {lo hi : Fin dim → K} {cls : Fin n → Fin m} {ξ : Fin m → Fin dim → K} {pos : Fin n → Fin dim → K} (hf : Filled g lo hi cls ξ pos)
    (hlin : ker = .linear → ∀ b d, ∀ z : ℤ, ξ b d ≠ z) (j : Fin dim → ℤ) (hv : isValid g.gridSize j)
    (hj : ∀ d, lo d + halfWidth ker ≤ j d ∧ (j d : K) + halfWidth ker ≤ hi d) (q : Fin n → K) (Q : Fin m → K)
    (hq : ∀ p, InBlock g lo hi (pos p) → q p = Q (cls p)) (a : Fin dim) (h3 : a.val < 3) (e : Fin dim) :
    scatterAdd (compute ker g pos).nodeHash (fun i => (compute ker g pos).shapeGrad i ⟨a, h3⟩ *
      (q ((compute ker g pos).pointId i) * (cellCoord g (pos ((compute ker g pos).pointId i)) e - j e))) (nodeHashOf g j) =
    if e = a then -g.invCellSize * ∑ b, Q b else 0 := by
  rw [fill_grad_sum hdim ker hg j hv (fun p => q p * (cellCoord g (pos p) e - j e))]
  set ψ : Fin dim → K → K := fun d => if d = a then dbasis1 g.invCellSize ker else basis1 ker with hψ
  have hψ0 : ∀ d x, basis1 ker x = 0 → ψ d x = 0 := by
    intro d x h
    simp only [hψ]
    split_ifs
    · exact dbasis_eq_zero_of_basis ker _ x h
    · exact h
  have e1 : ∀ p, q p * (cellCoord g (pos p) e - j e) * ∏ d, ψ d (cellCoord g (pos p) d - j d) =
      q p * ∏ d, (if d = e then fun x => x * ψ d x else ψ d) (cellCoord g (pos p) d - j d) := by
    intro p
    rw [mul_assoc]
    congr 1
    rw [← Finset.mul_prod_erase _ _ (Finset.mem_univ e), ← Finset.mul_prod_erase (a := e) _ _ (Finset.mem_univ e), if_pos rfl, ← mul_assoc]
    congr 1
    refine Finset.prod_congr rfl fun d hd => ?_
    rw [if_neg (Finset.mem_erase.mp hd).1]
  rw [Finset.sum_congr rfl fun p _ => e1 p, fill_prod ker hf j hj _ (fun d x h => by
    split_ifs
    · show x * ψ d x = 0
      rw [hψ0 d x h, mul_zero]
    · exact hψ0 d x h) q Q hq]
  have hax := fun b d => fill_axis ker g.invCellSize (lo d) (hi d) (ξ b d) (j d) (hj d).1 (hj d).2
  split_ifs with hea
  · subst hea
    rw [Finset.mul_sum]
    refine Finset.sum_congr rfl fun b _ => ?_
    rw [Finset.prod_eq_single e (fun d _ hd => ?_) (fun h => absurd (Finset.mem_univ _) h), if_pos rfl]
    · have := (hax b e).2.2.2 fun h => hlin h b e
      simp only [hψ, if_pos]
      rw [this, mul_comm]
    · rw [if_neg hd]
      simp only [hψ, if_neg hd]
      exact (hax b d).1
  · refine Finset.sum_eq_zero fun b _ => ?_
    rw [Finset.prod_eq_zero (Finset.mem_univ a), mul_zero]
    rw [if_neg (Ne.symm hea)]
    simp only [hψ, if_pos]
    exact (hax b a).2.1

end
end Hydrax
