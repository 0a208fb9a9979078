import Verif.Lemmas.Kernel1D
import Verif.Lemmas.Ravel
import Mathlib.Logic.Equiv.Fin.Basic
import Mathlib.Algebra.Order.BigOperators.Ring.Finset

/-!
# Sums over the stencil of one point (helper lemmas)
-/

set_option linter.unusedSectionVars false

namespace Hydrax

section
variable {K : Type*} [Field K] [LinearOrder K] [FloorRing K] {dim : ℕ}

/-- All stencil nodes of `xp` exist in the grid. -/
def StencilInside (ker : Kernel) (g : GridDomain K dim) (xp : Fin dim → K) : Prop :=
  ∀ s, s < windowSize ker dim → isValid g.gridSize (nodeIdx ker g xp s)

/-- Normalised offset of the point to stencil node `s`. -/
def distVec (ker : Kernel) (g : GridDomain K dim) (xp : Fin dim → K) (s : ℕ) : Fin dim → K :=
  fun d => basePos g xp d - (nodeIdx ker g xp s d : K)

theorem distVec_apply (ker : Kernel) (g : GridDomain K dim) (xp : Fin dim → K) (s : ℕ)
    (d : Fin dim) :
    distVec ker g xp s d = basePos g xp d -
      ((baseId ker (basePos g xp d) + off ker (unravel dim (fun _ => winLen ker) s d) : ℤ) : K) :=
  rfl

/-- Separable sums over the stencil. -/
theorem sum_stencil_sep (ker : Kernel) (g : GridDomain K dim) (xp : Fin dim → K)
    (f : Fin dim → K → K) :
    ∑ s : Fin (windowSize ker dim), ∏ d, f d (distVec ker g xp s d)
      = ∏ d, ∑ j : Fin (winLen ker),
          f d (basePos g xp d - ((baseId ker (basePos g xp d) + off ker j : ℤ) : K)) := by
  rw [← sum_stencil_prod dim (winLen ker) (fun d j =>
    f d (basePos g xp d - ((baseId ker (basePos g xp d) + off ker j : ℤ) : K)))]
  rfl

theorem computeSingle_val (ker : Kernel) (g : GridDomain K dim) (xp : Fin dim → K) (s : ℕ)
    (h : isValid g.gridSize (nodeIdx ker g xp s)) :
    (computeSingle ker g xp s).shapeVal = ∏ d, basis1 ker (distVec ker g xp s d) := by
  simp only [computeSingle, if_pos h]; rfl

theorem computeSingle_grad (ker : Kernel) (g : GridDomain K dim) (xp : Fin dim → K) (s : ℕ)
    (h : isValid g.gridSize (nodeIdx ker g xp s)) :
    (computeSingle ker g xp s).shapeGrad = pad3 (tensorGrad dim
      (fun d => basis1 ker (distVec ker g xp s d))
      (fun d => dbasis1 g.invCellSize ker (distVec ker g xp s d))) := by
  simp only [computeSingle, if_pos h]; rfl

theorem computeSingle_relDist (ker : Kernel) (g : GridDomain K dim) (xp : Fin dim → K) (s : ℕ) :
    (computeSingle ker g xp s).relDist = pad3 (distVec ker g xp s) := rfl

omit [LinearOrder K] [FloorRing K] in
/-- The tensor-product gradient is the product rule in 2D and 3D. -/
theorem tensorGrad_eq (hdim : dim = 2 ∨ dim = 3) (b db : Fin dim → K) (k : Fin dim) :
    tensorGrad dim b db k = ∏ d, if d = k then db d else b d := by
  rcases hdim with rfl | rfl
  · fin_cases k <;> simp [tensorGrad, Fin.prod_univ_two, mul_comm]
  · fin_cases k
    · simp [tensorGrad, Fin.prod_univ_three]
    · simp only [tensorGrad, Fin.prod_univ_three]
      show db 1 * b 0 * b 2 = b 0 * db 1 * b 2
      ring
    · simp only [tensorGrad, Fin.prod_univ_three]
      show db 2 * b 0 * b 1 = b 0 * b 1 * db 2
      ring

omit [FloorRing K] [LinearOrder K] in
theorem pad3_lt (v : Fin dim → K) (k : Fin 3) (h : k.val < dim) : pad3 v k = v ⟨k.val, h⟩ := by
  simp [pad3, h]

omit [FloorRing K] [LinearOrder K] in
theorem pad3_ge (v : Fin dim → K) (k : Fin 3) (h : ¬ k.val < dim) : pad3 v k = 0 := by
  simp [pad3, h]

variable [IsStrictOrderedRing K]

theorem computeSingle_val_nonneg (ker : Kernel) (g : GridDomain K dim) (xp : Fin dim → K) (s : ℕ) :
    0 ≤ (computeSingle ker g xp s).shapeVal := by
  simp only [computeSingle, shapeFunction]
  split_ifs
  · exact Finset.prod_nonneg (fun d _ => basis1_nonneg ker _)
  · exact le_refl _

variable {ker : Kernel} {g : GridDomain K dim} {xp : Fin dim → K}

theorem stencil_sum_val (h : StencilInside ker g xp) :
    ∑ s : Fin (windowSize ker dim), (computeSingle ker g xp s).shapeVal = 1 := by
  rw [Finset.sum_congr rfl (fun s _ => by rw [computeSingle_val ker g xp s (h s s.isLt)]),
    sum_stencil_sep ker g xp (fun _ => basis1 ker)]
  exact Finset.prod_eq_one (fun d _ => sum_basis ker _)

omit [LinearOrder K] [IsStrictOrderedRing K] [FloorRing K] in
theorem coord_as_prod (v : Fin dim → K) (a : Fin dim) : v a = ∏ d, if d = a then v d else 1 := by
  simp

/-- Gradients of a complete stencil sum to zero. -/
theorem stencil_sum_grad (hdim : dim = 2 ∨ dim = 3) (h : StencilInside ker g xp) (k : Fin 3) :
    ∑ s : Fin (windowSize ker dim), (computeSingle ker g xp s).shapeGrad k = 0 := by
  rw [Finset.sum_congr rfl (fun s _ => by rw [computeSingle_grad ker g xp s (h s s.isLt)])]
  by_cases hk : k.val < dim
  · simp only [pad3_lt _ k hk, tensorGrad_eq hdim]
    have := sum_stencil_sep ker g xp (fun d x =>
      if d = ⟨k.val, hk⟩ then dbasis1 g.invCellSize ker x else basis1 ker x)
    rw [this]
    apply Finset.prod_eq_zero (Finset.mem_univ (⟨k.val, hk⟩ : Fin dim))
    simpa using sum_dbasis ker g.invCellSize (basePos g xp ⟨k.val, hk⟩)
  · simp [pad3_ge _ k hk]

/-- First moments of a complete stencil vanish. -/
theorem stencil_sum_val_dist (h : StencilInside ker g xp) (a : Fin 3) :
    ∑ s : Fin (windowSize ker dim),
      (computeSingle ker g xp s).shapeVal * (computeSingle ker g xp s).relDist a = 0 := by
  simp only [computeSingle_relDist]
  rw [Finset.sum_congr rfl (fun s _ => by rw [computeSingle_val ker g xp s (h s s.isLt)])]
  by_cases ha : a.val < dim
  · simp only [pad3_lt _ a ha]
    rw [Finset.sum_congr rfl (fun s _ => by
      rw [coord_as_prod (distVec ker g xp s) ⟨a.val, ha⟩, ← Finset.prod_mul_distrib])]
    rw [sum_stencil_sep ker g xp (fun d x => basis1 ker x * if d = ⟨a.val, ha⟩ then x else 1)]
    apply Finset.prod_eq_zero (Finset.mem_univ (⟨a.val, ha⟩ : Fin dim))
    simp only [if_true]
    rw [← sum_dist_basis ker (basePos g xp ⟨a.val, ha⟩)]
    exact Finset.sum_congr rfl (fun j _ => mul_comm _ _)
  · simp [pad3_ge _ a ha]

/-- Second moments of a complete stencil. -/
theorem stencil_sum_val_dist_dist (h : StencilInside ker g xp) (a b : Fin dim) :
    ∑ s : Fin (windowSize ker dim),
      (computeSingle ker g xp s).shapeVal * distVec ker g xp s a * distVec ker g xp s b
        = if a = b then secondMoment ker (basePos g xp a) else 0 := by
  rw [Finset.sum_congr rfl (fun s _ => by rw [computeSingle_val ker g xp s (h s s.isLt)])]
  rw [Finset.sum_congr rfl (fun s _ => by
    rw [coord_as_prod (distVec ker g xp s) a, coord_as_prod (distVec ker g xp s) b,
      ← Finset.prod_mul_distrib, ← Finset.prod_mul_distrib])]
  rw [sum_stencil_sep ker g xp (fun d x => basis1 ker x * (if d = a then x else 1)
    * (if d = b then x else 1))]
  by_cases hab : a = b
  · subst hab
    rw [if_pos rfl]
    rw [Finset.prod_eq_single a]
    · simp only [if_true]
      rw [← sum_sq_basis ker (basePos g xp a)]
      exact Finset.sum_congr rfl (fun j _ => by ring)
    · intro d _ hd
      simpa [hd] using sum_basis ker (basePos g xp d)
    · intro hx; exact absurd (Finset.mem_univ a) hx
  · rw [if_neg hab]
    apply Finset.prod_eq_zero (Finset.mem_univ a)
    simp only [if_true, if_neg hab, mul_one]
    rw [← sum_dist_basis ker (basePos g xp a)]
    exact Finset.sum_congr rfl (fun j _ => mul_comm _ _)

/-- First moments of the gradients of a complete stencil. -/
theorem stencil_sum_grad_dist (hdim : dim = 2 ∨ dim = 3) (h : StencilInside ker g xp)
    (hlin : ker = .linear → ∀ d, frac ker (basePos g xp d) ≠ 0) (k a : Fin dim) :
    ∑ s : Fin (windowSize ker dim),
      (computeSingle ker g xp s).shapeGrad ⟨k, by omega⟩ * distVec ker g xp s a
        = if k = a then -g.invCellSize else 0 := by
  rw [Finset.sum_congr rfl (fun s _ => by
    rw [congrFun (computeSingle_grad ker g xp s (h s s.isLt)) _, pad3_lt _ _ k.isLt,
      tensorGrad_eq hdim, coord_as_prod (distVec ker g xp s) a, ← Finset.prod_mul_distrib])]
  rw [sum_stencil_sep ker g xp (fun d x =>
    (if d = k then dbasis1 g.invCellSize ker x else basis1 ker x) * (if d = a then x else 1))]
  by_cases hka : k = a
  · subst hka
    rw [if_pos rfl, Finset.prod_eq_single k]
    · simp only [if_true]
      rw [← sum_dist_dbasis ker g.invCellSize (basePos g xp k) (fun hl => hlin hl k)]
      exact Finset.sum_congr rfl (fun j _ => mul_comm _ _)
    · intro d _ hd
      simpa [hd] using sum_basis ker (basePos g xp d)
    · intro hx; exact absurd (Finset.mem_univ k) hx
  · rw [if_neg hka]
    apply Finset.prod_eq_zero (Finset.mem_univ k)
    simp only [if_true, if_neg hka, mul_one]
    exact sum_dbasis ker g.invCellSize (basePos g xp k)

/-- A stencil node with zero weight has zero gradient. -/
theorem grad_eq_zero_of_val (hdim : dim = 2 ∨ dim = 3) (s : ℕ)
    (h : (computeSingle ker g xp s).shapeVal = 0) (k : Fin 3) :
    (computeSingle ker g xp s).shapeGrad k = 0 := by
  by_cases hv : isValid g.gridSize (nodeIdx ker g xp s)
  · rw [congrFun (computeSingle_grad ker g xp s hv) k]
    rw [computeSingle_val ker g xp s hv, Finset.prod_eq_zero_iff] at h
    obtain ⟨d, -, hd⟩ := h
    by_cases hk : k.val < dim
    · rw [pad3_lt _ k hk, tensorGrad_eq hdim]
      apply Finset.prod_eq_zero (Finset.mem_univ d)
      split_ifs
      · exact dbasis_eq_zero_of_basis ker _ _ hd
      · exact hd
    · exact pad3_ge _ k hk
  · simp [computeSingle, hv]

end

section
variable {M : Type*} [AddCommMonoid M]

/-- A sum over the interactions of one point is a sum over the stencil. -/
theorem sum_point_interactions (n w : ℕ) (F : Fin n → Fin w → M) (p : Fin n) :
    ∑ i : Fin (n * w), (if i.divNat = p then F i.divNat i.modNat else 0) = ∑ s, F p s := by
  rw [← Equiv.sum_comp finProdFinEquiv, Fintype.sum_prod_type]
  have h : ∀ x y, (finProdFinEquiv (x, y) : Fin (n * w)).divNat = x ∧
      (finProdFinEquiv (x, y) : Fin (n * w)).modNat = y := by
    intro x y
    have := finProdFinEquiv.symm_apply_apply (x, y)
    rw [finProdFinEquiv_symm_apply] at this
    exact ⟨congrArg Prod.fst this, congrArg Prod.snd this⟩
  simp only [h]
  rw [Finset.sum_eq_single p]
  · simp
  · intro q _ hq; simp [hq]
  · intro hp; exact absurd (Finset.mem_univ p) hp

/-- A sum over all interactions is a double sum over points and stencil. -/
theorem sum_interactions (n w : ℕ) (F : Fin n → Fin w → M) :
    ∑ i : Fin (n * w), F i.divNat i.modNat = ∑ p, ∑ s, F p s := by
  rw [← Equiv.sum_comp finProdFinEquiv, Fintype.sum_prod_type]
  have h : ∀ x y, (finProdFinEquiv (x, y) : Fin (n * w)).divNat = x ∧
      (finProdFinEquiv (x, y) : Fin (n * w)).modNat = y := by
    intro x y
    have := finProdFinEquiv.symm_apply_apply (x, y)
    rw [finProdFinEquiv_symm_apply] at this
    exact ⟨congrArg Prod.fst this, congrArg Prod.snd this⟩
  simp only [h]

end
end Hydrax
