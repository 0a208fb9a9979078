import Verif.Lemmas.LatSym

/-!
# Sums over a stencil as sums over the nodes of the grid, and their symmetry (helper lemmas)
-/

set_option linter.unusedSectionVars false

namespace Hydrax

open Spec

section
variable {K : Type*} [Field K] [LinearOrder K] [IsStrictOrderedRing K]

theorem quadratic_far {x : K} (c : K) (h : 3 / 2 ≤ |x|) : quadraticBasis x = 0 ∧ quadraticDBasis c x = 0 := by
  unfold quadraticBasis quadraticDBasis
  rcases le_abs.mp h with h | h
  · by_cases e : x = 3 / 2
    · subst e; norm_num
    · have : 3 / 2 < x := lt_of_le_of_ne h (Ne.symm e)
      constructor <;> rw [if_neg (by rintro ⟨-, h'⟩; linarith), if_neg (by rintro ⟨-, h'⟩; linarith),
        if_neg (by rintro ⟨-, h'⟩; linarith)]
  · by_cases e : x = -3 / 2
    · subst e; norm_num
    · have : x < -3 / 2 := lt_of_le_of_ne (by linarith) e
      constructor <;> rw [if_neg (by rintro ⟨h', -⟩; linarith), if_neg (by rintro ⟨h', -⟩; linarith),
        if_neg (by rintro ⟨h', -⟩; linarith)]

theorem cubic_far {x : K} (c : K) (h : 2 ≤ |x|) : cubicBasis .middle x = 0 ∧ cubicDBasis .middle c x = 0 := by
  unfold cubicBasis cubicDBasis
  rcases le_abs.mp h with h | h
  · rw [if_neg (by rintro ⟨-, h'⟩; linarith), if_neg (by rintro ⟨-, h'⟩; linarith),
      if_neg (by rintro ⟨-, h'⟩; linarith), if_neg (by rintro ⟨-, h'⟩; linarith),
      if_neg (by rintro ⟨-, h'⟩; linarith), if_neg (by rintro ⟨-, h'⟩; linarith),
      if_neg (by rintro ⟨-, h'⟩; linarith), if_neg (by rintro ⟨-, h'⟩; linarith)]
    exact ⟨rfl, rfl⟩
  · by_cases e : x = -2
    · subst e; norm_num
    · have : x < -2 := lt_of_le_of_ne (by linarith) e
      rw [if_neg (by rintro ⟨h', -⟩; linarith), if_neg (by rintro ⟨h', -⟩; linarith),
        if_neg (by rintro ⟨h', -⟩; linarith), if_neg (by rintro ⟨h', -⟩; linarith),
        if_neg (by rintro ⟨h', -⟩; linarith), if_neg (by rintro ⟨h', -⟩; linarith),
        if_neg (by rintro ⟨h', -⟩; linarith), if_neg (by rintro ⟨h', -⟩; linarith)]
      exact ⟨rfl, rfl⟩

theorem quadratic_even (c : K) {x : K} (h : 0 ≤ x) :
    quadraticBasis (-x) = quadraticBasis x ∧ quadraticDBasis c (-x) = -quadraticDBasis c x := by
  rcases le_or_gt (3 / 2) x with h3 | h3
  · have h1 := quadratic_far c (x := x) (by rwa [abs_of_nonneg h])
    have h2 := quadratic_far c (x := -x) (by rwa [abs_neg, abs_of_nonneg h])
    rw [h1.1, h1.2, h2.1, h2.2]; simp
  · rcases lt_trichotomy x (1 / 2) with h2 | h2 | h2
    · have a := quadraticBasis_1 (f := x + 1 / 2) (by linarith) (by linarith)
      have b := quadraticBasis_1 (f := -x + 1 / 2) (by linarith) (by linarith)
      have c' := quadraticDBasis_1 (f := x + 1 / 2) (c := c) (by linarith) (by linarith)
      have d := quadraticDBasis_1 (f := -x + 1 / 2) (c := c) (by linarith) (by linarith)
      rw [add_sub_cancel_right] at a b c' d
      rw [a, b, c', d]; constructor <;> ring
    · subst h2
      unfold quadraticBasis quadraticDBasis
      norm_num
    · have a := quadraticBasis_0 (f := x - 1 / 2) (by linarith) (by linarith)
      have b := quadraticBasis_2 (f := -x + 3 / 2) (by linarith) (by linarith)
      have c' := quadraticDBasis_0 (f := x - 1 / 2) (c := c) (by linarith) (by linarith)
      have d := quadraticDBasis_2 (f := -x + 3 / 2) (c := c) (by linarith) (by linarith)
      rw [add_sub_cancel_right] at b d
      rw [sub_add_cancel] at a c'
      rw [a, b, c', d]; constructor <;> ring

theorem cubic_even (c : K) {x : K} (h : 0 ≤ x) :
    cubicBasis .middle (-x) = cubicBasis .middle x ∧ cubicDBasis .middle c (-x) = -cubicDBasis .middle c x := by
  rcases le_or_gt 2 x with h3 | h3
  · have h1 := cubic_far c (x := x) (by rwa [abs_of_nonneg h])
    have h2 := cubic_far c (x := -x) (by rwa [abs_neg, abs_of_nonneg h])
    rw [h1.1, h1.2, h2.1, h2.2]; simp
  · rcases lt_trichotomy x 1 with h2 | h2 | h2
    · rcases h.eq_or_lt with h0 | h0
      · subst h0
        unfold cubicBasis cubicDBasis
        norm_num
      · have a := cubicBasis_1 (f := x) (by linarith) (by linarith)
        have b := cubicBasis_2 (f := -x + 1) (by linarith) (by linarith)
        have c' := cubicDBasis_1 (f := x) (c := c) (by linarith) (by linarith)
        have d := cubicDBasis_2 (f := -x + 1) (c := c) (by linarith) (by linarith)
        rw [add_sub_cancel_right] at b d
        rw [a, b, c', d]; constructor <;> ring
    · subst h2
      unfold cubicBasis cubicDBasis
      norm_num
    · have a := cubicBasis_0 (f := x - 1) (by linarith) (by linarith)
      have b := cubicBasis_3 (f := -x + 2) (by linarith) (by linarith)
      have c' := cubicDBasis_0 (f := x - 1) (c := c) (by linarith) (by linarith)
      have d := cubicDBasis_3 (f := -x + 2) (c := c) (by linarith) (by linarith)
      rw [add_sub_cancel_right] at b d
      rw [sub_add_cancel] at a c'
      rw [a, b, c', d]; constructor <;> ring

theorem sgn_neg' (x : K) : sgn (-x) = -sgn x := by
  unfold sgn
  rcases lt_trichotomy x 0 with h | h | h
  · rw [if_neg (by linarith), if_neg (by linarith), if_pos h]; ring
  · subst h; simp
  · rw [if_pos (by linarith), if_neg (by linarith), if_neg (by linarith)]

/-- Weights are even, derivatives odd. -/
theorem basis1_neg (ker : Kernel) (c x : K) :
    basis1 ker (-x) = basis1 ker x ∧ dbasis1 c ker (-x) = -dbasis1 c ker x := by
  cases ker
  · simp only [basis1, dbasis1, linearBasis, linearDBasis, abs_neg, sgn_neg']
    refine ⟨trivial, ?_⟩
    split_ifs <;> ring
  · rcases le_total 0 x with h | h
    · exact quadratic_even c h
    · have := quadratic_even c (x := -x) (by linarith)
      rw [neg_neg] at this
      exact ⟨this.1.symm, by simp only [dbasis1]; rw [this.2, neg_neg]⟩
  · rcases le_total 0 x with h | h
    · exact cubic_even c h
    · have := cubic_even c (x := -x) (by linarith)
      rw [neg_neg] at this
      exact ⟨this.1.symm, by simp only [dbasis1]; rw [this.2, neg_neg]⟩

end

section
variable {K : Type*} [Field K] [LinearOrder K] [IsStrictOrderedRing K] [FloorRing K] {dim : ℕ}

/-- Multi indices of the nodes. -/
abbrev GridIdx (size : Fin dim → ℕ) := (d : Fin dim) → Fin (size d)

/-- Interaction of a point with a node of the grid, whether or not the node is in its stencil. -/
def nodeInter (ker : Kernel) (g : GridDomain K dim) (x : Fin dim → K) (k : Fin dim → ℕ) : Interaction K :=
  { nodeHash := ravel dim g.gridSize k
    shapeVal := ∏ d, basis1 ker (basePos g x d - (k d : K))
    shapeGrad := pad3 (tensorGrad dim (fun d => basis1 ker (basePos g x d - (k d : K)))
      (fun d => dbasis1 g.invCellSize ker (basePos g x d - (k d : K))))
    relDist := pad3 fun d => basePos g x d - (k d : K) }

theorem nodeInter_grad_zero (hdim : dim = 2 ∨ dim = 3) (ker : Kernel) (g : GridDomain K dim) (x : Fin dim → K)
    (k : Fin dim → ℕ) (h : (nodeInter ker g x k).shapeVal = 0) : (nodeInter ker g x k).shapeGrad = fun _ => 0 := by
  have h : ∏ d, basis1 ker (basePos g x d - (k d : K)) = 0 := h
  obtain ⟨d, -, hd⟩ := Finset.prod_eq_zero_iff.mp h
  funext i
  show pad3 _ i = 0
  by_cases hk : i.val < dim
  · rw [pad3_lt _ i hk, tensorGrad_eq hdim]
    apply Finset.prod_eq_zero (Finset.mem_univ d)
    split_ifs
    · exact dbasis_eq_zero_of_basis ker _ _ hd
    · exact hd
  · exact pad3_ge _ i hk

/-- A sum over the stencil of a quantity that vanishes where the weight does is a sum over all nodes of the grid. -/
theorem slot_sum (hdim : dim = 2 ∨ dim = 3) (ker : Kernel) (g : GridDomain K dim) (hg : ∀ d, 0 < g.gridSize d)
    (x : Fin dim → K) (F : Interaction K → K)
    (hF : ∀ I : Interaction K, I.shapeVal = 0 → (I.shapeGrad = fun _ => 0) → F I = 0) :
    ∑ s : Fin (windowSize ker dim), F (computeSingle ker g x s)
      = ∑ k : GridIdx g.gridSize, F (nodeInter ker g x fun d => k d) := by
  have h1 : ∀ s : Fin (windowSize ker dim), F (computeSingle ker g x s)
      = ∑ j : Fin (∏ d, g.gridSize d), if (computeSingle ker g x s).nodeHash = j then F (computeSingle ker g x s) else 0 := by
    intro s
    have hlt : (computeSingle ker g x s).nodeHash < ∏ d, g.gridSize d := clipHash_lt g hg _
    rw [Finset.sum_eq_single (⟨_, hlt⟩ : Fin (∏ d, g.gridSize d))]
    · rw [if_pos rfl]
    · intro j _ hj
      rw [if_neg]
      intro e
      exact hj (Fin.ext e.symm)
    · intro hx; exact absurd (Finset.mem_univ _) hx
  rw [Finset.sum_congr rfl fun s _ => h1 s, Finset.sum_comm, ← Equiv.sum_comp (unravelEquiv dim g.gridSize)]
  refine Finset.sum_congr rfl fun j _ => ?_
  set m : Fin dim → ℤ := fun d => (unravel dim g.gridSize j d : ℤ) with hm
  have hv : isValid g.gridSize m := fun d => by
    have := unravel_lt dim g.gridSize j j.isLt d
    constructor
    · exact Int.natCast_nonneg _
    · simp only [hm]; exact_mod_cast this
  have hj : (j : ℕ) = nodeHashOf g m := by
    unfold nodeHashOf
    simp only [hm, Int.toNat_natCast]
    exact (ravel_unravel dim g.gridSize j j.isLt).symm
  have hcast : ∀ d, ((m d : ℤ) : K) = (unravel dim g.gridSize j d : K) := fun d => by simp only [hm]; push_cast; rfl
  rw [hj]
  refine sum_slots_of_node ker g x m hv (fun s => F (computeSingle ker g x s)) _ ?_ ?_ ?_
  · intro s hs
    apply hF
    · simp [computeSingle, hs]
    · simp [computeSingle, hs]
  · intro s hs
    congr 1
    have hs' : isValid g.gridSize (nodeIdx ker g x s) := hs ▸ hv
    unfold nodeInter
    have e1 : (computeSingle ker g x s).nodeHash = nodeHashOf g m := by
      show clipHash g.gridSize (nodeIdx ker g x s) = _
      rw [clipHash_of_valid g _ hs', hs]
    have ed : distVec ker g x s = fun d => basePos g x d - (unravel dim g.gridSize j d : K) := by
      funext d; simp only [distVec, hs, hcast]
    have e2 := computeSingle_val ker g x s hs'
    have e3 := computeSingle_grad ker g x s hs'
    have e4 := computeSingle_relDist ker g x s
    rw [ed] at e2 e3 e4
    cases hI : computeSingle ker g x s with
    | mk a b c d =>
      rw [hI] at e1 e2 e3 e4
      simp only at e1 e2 e3 e4
      rw [e1, e2, e3, e4]
      rfl
  · intro h
    push Not at h
    obtain ⟨d, hd⟩ := h
    have hz : (nodeInter ker g x fun d => (unravelEquiv dim g.gridSize j d : ℕ)).shapeVal = 0 := by
      apply Finset.prod_eq_zero (Finset.mem_univ d)
      by_contra hne
      have hne' : basis1 ker (basePos g x d - ((m d : ℤ) : K)) ≠ 0 := by rw [hcast]; exact hne
      obtain ⟨i, hi⟩ := mem_stencil_of_basis_ne_zero ker _ _ hne'
      exact hd i hi
    exact hF _ hz (nodeInter_grad_zero hdim ker g x _ hz)

variable (T : LatSym K dim)

/-- Image of an interaction. -/
def Spec.LatSym.inter (T : LatSym K dim) (h : dim ≤ 3) (size : Fin dim → ℕ) (I : Interaction K) : Interaction K :=
  { nodeHash := T.row size I.nodeHash
    shapeVal := I.shapeVal
    shapeGrad := (T.mat h).mulVec I.shapeGrad
    relDist := (T.mat h).mulVec I.relDist }

theorem LatSym.axis_lt {n : ℕ} (d : Fin dim) {k : ℕ} (hk : k < n) : T.axis n d k < n := by
  unfold Spec.LatSym.axis; split_ifs <;> omega

theorem LatSym.axis_axis {n : ℕ} (d : Fin dim) {k : ℕ} (hk : k < n) : T.axis n d (T.axis n d k) = k := by
  unfold Spec.LatSym.axis; split_ifs <;> omega

theorem LatSym.node_lt {size k : Fin dim → ℕ} (hk : ∀ d, k d < size d) (a : Fin dim) :
    T.node size k a < size (T.perm.symm a) := LatSym.axis_lt T _ (hk _)

theorem LatSym.node_perm (size k : Fin dim → ℕ) (d : Fin dim) : T.node size k (T.perm d) = T.axis (size d) d (k d) := by
  simp [Spec.LatSym.node]

theorem LatSym.row_ravel {size k : Fin dim → ℕ} (hk : ∀ d, k d < size d) :
    T.row size (ravel dim size k) = ravel dim (fun a => size (T.perm.symm a)) (T.node size k) := by
  unfold Spec.LatSym.row
  rw [unravel_ravel dim size k hk]

theorem LatSym.row_lt {size : Fin dim → ℕ} {j : ℕ} (hj : j < ∏ d, size d) : T.row size j < ∏ d, size d := by
  have := ravel_lt dim (fun a => size (T.perm.symm a)) (T.node size (unravel dim size j))
    (fun a => LatSym.node_lt T (unravel_lt dim size j hj) a)
  unfold Spec.LatSym.row
  rwa [Equiv.prod_comp T.perm.symm (fun d => size d)] at this

theorem LatSym.row_inj {size : Fin dim → ℕ} {i j : ℕ} (hi : i < ∏ d, size d) (hj : j < ∏ d, size d)
    (e : T.row size i = T.row size j) : i = j := by
  have h1 := ravel_injective dim (fun a => size (T.perm.symm a)) _ _
    (fun a => LatSym.node_lt T (unravel_lt dim size i hi) a) (fun a => LatSym.node_lt T (unravel_lt dim size j hj) a) e
  have h2 : unravel dim size i = unravel dim size j := by
    funext d
    have := congrFun h1 (T.perm d)
    rw [LatSym.node_perm, LatSym.node_perm] at this
    rw [← LatSym.axis_axis T d (unravel_lt dim size i hi d), this, LatSym.axis_axis T d (unravel_lt dim size j hj d)]
  rw [← ravel_unravel dim size i hi, h2, ravel_unravel dim size j hj]

/-- The nodes of a grid and of its image. -/
def LatSym.idxEquiv (T : LatSym K dim) (size : Fin dim → ℕ) :
    GridIdx size ≃ GridIdx (fun a => size (T.perm.symm a)) where
  toFun k := fun a => ⟨T.node size (fun d => k d) a, LatSym.node_lt T (fun d => (k d).isLt) a⟩
  invFun k := fun d => ⟨T.axis (size d) d (k (T.perm d)), LatSym.axis_lt T d (by
    have := (k (T.perm d)).isLt; simpa using this)⟩
  left_inv k := by
    funext d
    ext
    simp only [LatSym.node_perm]
    exact LatSym.axis_axis T d (k d).isLt
  right_inv k := by
    funext a
    ext
    simp only [Spec.LatSym.node]
    rw [LatSym.axis_axis]
    · have e : ∀ b, b = a → (k b : ℕ) = k a := by rintro _ rfl; rfl
      exact e _ (T.perm.apply_symm_apply a)
    · have := (k (T.perm (T.perm.symm a))).isLt; simpa using this

variable {g g' : GridDomain K dim}

theorem LatSym.basePos_map (hg : T.Maps g g') (x : Fin dim → K) (d : Fin dim) {k : ℕ} (hk : k < g.gridSize d) :
    basePos g' (T.point x) (T.perm d) - (T.axis (g.gridSize d) d k : K) = T.sg d * (basePos g x d - (k : K)) := by
  have hu := hg.unit
  unfold basePos
  rw [hg.origin, hg.inv]
  simp only [Spec.LatSym.point, LatSym.vec_perm]
  unfold Spec.LatSym.axis Spec.LatSym.sg
  split_ifs
  · have e : ((g.gridSize d - 1 - k : ℕ) : K) = (g.gridSize d : K) - 1 - (k : K) := by
      rw [Nat.cast_sub (by omega), Nat.cast_sub (by omega)]; simp
    rw [e]
    linear_combination ((g.gridSize d : K) - 1) * hu
  · ring

/-- The interaction of the image of a point with the image of a node. -/
theorem LatSym.nodeInter_map (hdim : dim = 2 ∨ dim = 3) (h : dim ≤ 3) (ker : Kernel) (hg : T.Maps g g') (x : Fin dim → K)
    {k : Fin dim → ℕ} (hk : ∀ d, k d < g.gridSize d) :
    nodeInter ker g' (T.point x) (T.node g.gridSize k) = T.inter h g.gridSize (nodeInter ker g x k) := by
  have hb : ∀ d, basis1 ker (basePos g' (T.point x) (T.perm d) - (T.axis (g.gridSize d) d (k d) : K))
      = basis1 ker (basePos g x d - (k d : K)) := by
    intro d
    rw [LatSym.basePos_map T hg x d (hk d)]
    rcases LatSym.sg_cases T d with e | e
    · rw [e, one_mul]
    · rw [e, neg_one_mul, (basis1_neg ker 0 _).1]
  have hd : ∀ d, dbasis1 g'.invCellSize ker (basePos g' (T.point x) (T.perm d) - (T.axis (g.gridSize d) d (k d) : K))
      = T.sg d * dbasis1 g.invCellSize ker (basePos g x d - (k d : K)) := by
    intro d
    rw [LatSym.basePos_map T hg x d (hk d), hg.inv]
    rcases LatSym.sg_cases T d with e | e
    · rw [e, one_mul, one_mul]
    · rw [e, neg_one_mul, neg_one_mul, (basis1_neg ker _ _).2]
  unfold nodeInter Spec.LatSym.inter
  simp only [Interaction.mk.injEq]
  refine ⟨?_, ?_, ?_, ?_⟩
  · rw [LatSym.row_ravel T hk, hg.size]
  · rw [← Equiv.prod_comp T.perm]
    exact Finset.prod_congr rfl fun d _ => by rw [LatSym.node_perm]; exact hb d
  · rw [← LatSym.pad3_vec T h]
    congr 1
    apply LatSym.vec_ext T
    intro d
    rw [LatSym.vec_perm, tensorGrad_eq hdim, tensorGrad_eq hdim, ← Equiv.prod_comp T.perm]
    have e0 : ∀ i, (if T.perm i = T.perm d then
          dbasis1 g'.invCellSize ker (basePos g' (T.point x) (T.perm i) - (T.node g.gridSize k (T.perm i) : K))
        else basis1 ker (basePos g' (T.point x) (T.perm i) - (T.node g.gridSize k (T.perm i) : K)))
        = if i = d then T.sg i * dbasis1 g.invCellSize ker (basePos g x i - (k i : K))
          else basis1 ker (basePos g x i - (k i : K)) := by
      intro i
      rw [LatSym.node_perm, hb, hd]
      simp only [T.perm.apply_eq_iff_eq]
    rw [Finset.prod_congr rfl fun i _ => e0 i]
    have e : ∀ i, (if i = d then T.sg i * dbasis1 g.invCellSize ker (basePos g x i - (k i : K))
        else basis1 ker (basePos g x i - (k i : K)))
        = (if i = d then T.sg i else 1) * (if i = d then dbasis1 g.invCellSize ker (basePos g x i - (k i : K))
          else basis1 ker (basePos g x i - (k i : K))) := by
      intro i; split_ifs <;> simp
    rw [Finset.prod_congr rfl fun i _ => e i, Finset.prod_mul_distrib]
    congr 1
    simp
  · rw [← LatSym.pad3_vec T h]
    congr 1
    apply LatSym.vec_ext T
    intro d
    rw [LatSym.vec_perm, LatSym.node_perm]
    exact LatSym.basePos_map T hg x d (hk d)

/-- A sum over the stencil of the image of a point is the same sum over the images of the interactions of the point. -/
theorem LatSym.slot_sum_map (hdim : dim = 2 ∨ dim = 3) (h : dim ≤ 3) (ker : Kernel) (hg : T.Maps g g') (x : Fin dim → K)
    (F : Interaction K → K) (hF : ∀ I : Interaction K, I.shapeVal = 0 → (I.shapeGrad = fun _ => 0) → F I = 0) :
    ∑ s : Fin (windowSize ker dim), F (computeSingle ker g' (T.point x) s)
      = ∑ s : Fin (windowSize ker dim), F (T.inter h g.gridSize (computeSingle ker g x s)) := by
  have hpos' : ∀ a, 0 < g'.gridSize a := fun a => by rw [hg.size]; exact hg.pos _
  rw [slot_sum hdim ker g' hpos' (T.point x) F hF,
    slot_sum hdim ker g hg.pos x (fun I => F (T.inter h g.gridSize I)) (fun I h1 h2 => hF _ h1 (by
      show (T.mat h).mulVec I.shapeGrad = _
      rw [h2]; exact Matrix.mulVec_zero _))]
  have key : ∀ (size' : Fin dim → ℕ) (e : size' = fun a => g.gridSize (T.perm.symm a)),
      ∑ k : GridIdx size', F (nodeInter ker g' (T.point x) fun d => k d)
      = ∑ k : GridIdx (fun a => g.gridSize (T.perm.symm a)), F (nodeInter ker g' (T.point x) fun d => k d) := by
    intro size' e; subst e; rfl
  rw [key _ hg.size, ← Equiv.sum_comp (LatSym.idxEquiv T g.gridSize)]
  refine Finset.sum_congr rfl fun k _ => ?_
  rw [← LatSym.nodeInter_map T hdim h ker hg x (fun d => (k d).isLt)]
  rfl

end
end Hydrax
