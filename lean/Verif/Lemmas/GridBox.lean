import Verif.Lemmas.Stencil
import Verif.Lemmas.BSpline

/-!
# Padded grids and nodal weights (helper lemmas)
-/

set_option linter.unusedSectionVars false

namespace Hydrax

section
variable {K : Type*} [Field K] [LinearOrder K] [IsStrictOrderedRing K] [FloorRing K] {dim : ℕ}
open Spec

theorem create_rawSize (o e h : K) (hh : 0 < h) (p : ℕ) :
    (e + p * h - (o - p * h)) / h + 1 = (e - o) / h + ((2 * p + 1 : ℕ) : K) := by
  push_cast; field_simp; ring

theorem create_gridSize (o e : Fin dim → K) (h : K) (hh : 0 < h) (p : ℕ) (d : Fin dim)
    (hoe : o d ≤ e d) :
    ((GridDomain.create o e h p).gridSize d : ℤ) = ⌊(e d - o d) / h⌋ + (2 * p + 1 : ℕ) := by
  have hnn : 0 ≤ (e d - o d) / h := div_nonneg (by linarith) hh.le
  have h0 : (0 : ℤ) ≤ ⌊(e d - o d) / h⌋ := Int.floor_nonneg.mpr hnn
  simp only [GridDomain.create]
  rw [create_rawSize _ _ _ hh]
  rw [pyInt, if_pos (by positivity), Int.floor_add_natCast, Int.toNat_of_nonneg (by positivity)]

theorem create_basePos (o e : Fin dim → K) (h : K) (hh : 0 < h) (p : ℕ) (x : Fin dim → K)
    (d : Fin dim) :
    basePos (GridDomain.create o e h p) x d = (x d - o d) / h + (p : K) := by
  simp only [basePos, GridDomain.create]; field_simp; ring

/-- The padding each kernel needs for arbitrary boxes. -/
def minPad : Kernel → ℕ
  | .linear => 1
  | .quadratic => 2
  | .cubic => 2

/-- Smallest offset in the 1D window. -/
def offLo : Kernel → ℤ
  | .linear => 0
  | .quadratic => 0
  | .cubic => -1

/-- Largest offset in the 1D window. -/
def offHi : Kernel → ℤ
  | .linear => 1
  | .quadratic => 2
  | .cubic => 2

theorem off_le (ker : Kernel) (j : Fin (winLen ker)) :
    offLo ker ≤ off ker j ∧ off ker j ≤ offHi ker := by
  cases ker <;> revert j <;> decide

theorem stencilInside_of_inBox (ker : Kernel) (o e : Fin dim → K) (h : K) (hh : 0 < h) (p : ℕ)
    (hp : minPad ker ≤ p) (x : Fin dim → K) (hx : InBox o e x) :
    StencilInside ker (GridDomain.create o e h p) x := by
  intro s hs d
  have hoe : o d ≤ e d := le_trans (hx d).1 (hx d).2
  have hsz := create_gridSize o e h hh p d hoe
  have hj : unravel dim (fun _ => winLen ker) s d < winLen ker :=
    unravel_lt dim (fun _ => winLen ker) s (by simpa [windowSize] using hs) d
  have hoff : offLo ker ≤ off ker _ ∧ off ker _ ≤ offHi ker := off_le ker ⟨_, hj⟩
  have hidx : nodeIdx ker (GridDomain.create o e h p) x s d
      = baseId ker ((x d - o d) / h + (p : K)) + off ker (unravel dim (fun _ => winLen ker) s d) := by
    rw [← create_basePos o e h hh p x d]; rfl
  set q := off ker (unravel dim (fun _ => winLen ker) s d) with hq
  have hx0 : 0 ≤ (x d - o d) / h := div_nonneg (by linarith [(hx d).1]) hh.le
  have hx1 : (x d - o d) / h ≤ (e d - o d) / h :=
    (div_le_div_iff_of_pos_right hh).mpr (by linarith [(hx d).2])
  have hf0 : (0 : ℤ) ≤ ⌊(x d - o d) / h⌋ := Int.floor_nonneg.mpr hx0
  have hf1 : ⌊(x d - o d) / h⌋ ≤ ⌊(e d - o d) / h⌋ := Int.floor_le_floor hx1
  rw [hidx, hsz]
  cases ker
  · simp only [baseId, Int.floor_add_natCast, minPad, offLo, offHi] at *
    omega
  · have e1 : (x d - o d) / h + (p : K) - 1 / 2 = ((x d - o d) / h - 1 / 2) + (p : K) := by ring
    have hg0 : (-1 : ℤ) ≤ ⌊(x d - o d) / h - 1 / 2⌋ := by
      rw [Int.le_floor]; push_cast; linarith
    have hg1 : ⌊(x d - o d) / h - 1 / 2⌋ ≤ ⌊(x d - o d) / h⌋ := Int.floor_le_floor (by linarith)
    simp only [baseId, e1, Int.floor_add_natCast, minPad, offLo, offHi] at *
    omega
  · simp only [baseId, Int.floor_add_natCast, minPad, offLo, offHi] at *
    omega

/-- Padding 1 is enough for the quadratic kernel when the box is a whole number of cells. -/
theorem stencilInside_quadratic_commensurate (o e : Fin dim → K) (h : K) (hh : 0 < h) (p : ℕ)
    (hp : 1 ≤ p) (hcom : ∀ d, ∃ z : ℤ, e d - o d = z * h) (x : Fin dim → K) (hx : InBox o e x) :
    StencilInside .quadratic (GridDomain.create o e h p) x := by
  intro s hs d
  obtain ⟨z, hz⟩ := hcom d
  have hoe : o d ≤ e d := le_trans (hx d).1 (hx d).2
  have hsz := create_gridSize o e h hh p d hoe
  have hj : unravel dim (fun _ => winLen .quadratic) s d < winLen .quadratic :=
    unravel_lt dim (fun _ => winLen .quadratic) s (by simpa [windowSize] using hs) d
  have hoff := off_le .quadratic ⟨_, hj⟩
  have hidx : nodeIdx .quadratic (GridDomain.create o e h p) x s d
      = baseId .quadratic ((x d - o d) / h + (p : K))
        + off .quadratic (unravel dim (fun _ => winLen .quadratic) s d) := by
    rw [← create_basePos o e h hh p x d]; rfl
  set q := off .quadratic (unravel dim (fun _ => winLen .quadratic) s d) with hq
  have hx0 : 0 ≤ (x d - o d) / h := div_nonneg (by linarith [(hx d).1]) hh.le
  have hez : (e d - o d) / h = z := by rw [hz]; field_simp
  have hx1 : (x d - o d) / h ≤ z := by
    rw [← hez]; exact (div_le_div_iff_of_pos_right hh).mpr (by linarith [(hx d).2])
  rw [hez, Int.floor_intCast] at hsz
  rw [hidx, hsz]
  have e1 : (x d - o d) / h + (p : K) - 1 / 2 = ((x d - o d) / h - 1 / 2) + (p : K) := by ring
  have hg0 : (-1 : ℤ) ≤ ⌊(x d - o d) / h - 1 / 2⌋ := by
    rw [Int.le_floor]; push_cast; linarith
  have hg1 : ⌊(x d - o d) / h - 1 / 2⌋ < z := by
    rw [Int.floor_lt]; linarith
  simp only [baseId, e1, Int.floor_add_natCast, offLo, offHi] at *
  omega

/-- Flat index of a lattice node. -/
def nodeHashOf (g : GridDomain K dim) (m : Fin dim → ℤ) : ℕ :=
  ravel dim g.gridSize (fun d => (m d).toNat)

omit [LinearOrder K] [IsStrictOrderedRing K] [FloorRing K] in
theorem clipHash_of_valid (g : GridDomain K dim) (m : Fin dim → ℤ) (h : isValid g.gridSize m) :
    clipHash g.gridSize m = nodeHashOf g m := by
  unfold clipHash nodeHashOf
  congr 1
  funext d
  have := h d
  congr 1
  omega

omit [LinearOrder K] [IsStrictOrderedRing K] [FloorRing K] in
theorem nodeHashOf_injective (g : GridDomain K dim) (m m' : Fin dim → ℤ)
    (h : isValid g.gridSize m) (h' : isValid g.gridSize m')
    (e : nodeHashOf g m = nodeHashOf g m') : m = m' := by
  have := ravel_injective dim g.gridSize _ _ (fun d => by have := h d; omega)
    (fun d => by have := h' d; omega) e
  funext d
  have h1 := congrFun this d
  have := h d
  have := h' d
  omega

/-- Sum over the slots whose node is `m` of a quantity that vanishes off-grid and is determined by
the node. -/
theorem sum_slots_of_node (ker : Kernel) (g : GridDomain K dim) (x : Fin dim → K)
    (m : Fin dim → ℤ) (hm : isValid g.gridSize m)
    (F : ℕ → K) (V : K)
    (hinv : ∀ s, ¬ isValid g.gridSize (nodeIdx ker g x s) → F s = 0)
    (hval : ∀ s, nodeIdx ker g x s = m → F s = V)
    (hzero : (¬ ∀ d, ∃ j : Fin (winLen ker), m d = baseId ker (basePos g x d) + off ker j) → V = 0) :
    ∑ s : Fin (windowSize ker dim),
      (if clipHash g.gridSize (nodeIdx ker g x s) = nodeHashOf g m then F s else 0) = V := by
  have key : ∀ s : Fin (windowSize ker dim),
      (if clipHash g.gridSize (nodeIdx ker g x s) = nodeHashOf g m then F s else 0)
        = if nodeIdx ker g x s = m then V else 0 := by
    intro s
    by_cases hv : isValid g.gridSize (nodeIdx ker g x s)
    · rw [clipHash_of_valid g _ hv]
      by_cases he : nodeIdx ker g x s = m
      · rw [if_pos (by rw [he]), if_pos he, hval s he]
      · rw [if_neg (fun hh => he (nodeHashOf_injective g _ _ hv hm hh)), if_neg he]
    · have he : nodeIdx ker g x s ≠ m := fun hh => hv (hh ▸ hm)
      rw [if_neg he, hinv s hv]; simp
  rw [Finset.sum_congr rfl (fun s _ => key s)]
  by_cases hall : ∀ d, ∃ j : Fin (winLen ker), m d = baseId ker (basePos g x d) + off ker j
  · choose j hj using hall
    have hlt : ravel dim (fun _ => winLen ker) (fun d => (j d : ℕ)) < windowSize ker dim := by
      have := ravel_lt dim (fun _ => winLen ker) (fun d => (j d : ℕ)) (fun d => (j d).isLt)
      simpa [windowSize] using this
    have hun : unravel dim (fun _ => winLen ker)
        (ravel dim (fun _ => winLen ker) (fun d => (j d : ℕ))) = fun d => (j d : ℕ) :=
      unravel_ravel _ _ _ (fun d => (j d).isLt)
    rw [Finset.sum_eq_single (⟨_, hlt⟩ : Fin (windowSize ker dim))]
    · rw [if_pos]
      funext d
      show baseId ker (basePos g x d) + off ker (unravel dim (fun _ => winLen ker) _ d) = m d
      rw [hun, hj d]
    · intro s _ hs
      rw [if_neg]
      intro he
      apply hs
      have h1 : unravel dim (fun _ => winLen ker) s = fun d => (j d : ℕ) := by
        funext d
        have h2 : baseId ker (basePos g x d) + off ker (unravel dim (fun _ => winLen ker) s d) = m d :=
          congrFun he d
        have hlt2 : unravel dim (fun _ => winLen ker) s d < winLen ker :=
          unravel_lt dim (fun _ => winLen ker) s (by simpa [windowSize] using s.isLt) d
        have h3 := off_injective ker ⟨_, hlt2⟩ (j d) (by have := hj d; simp only; omega)
        exact congrArg Fin.val h3
      ext
      simp only
      rw [← h1, ravel_unravel _ _ _ (by simpa [windowSize] using s.isLt)]
    · intro hx; exact absurd (Finset.mem_univ _) hx
  · rw [hzero hall]; simp

/-- The total weight that `compute` gives to lattice node `m` is the tensor-product kernel. -/
theorem nodal_weight (ker : Kernel) (g : GridDomain K dim) (x : Fin dim → K) (m : Fin dim → ℤ)
    (hm : isValid g.gridSize m) :
    ∑ s : Fin (windowSize ker dim),
      (if (computeSingle ker g x s).nodeHash = nodeHashOf g m
        then (computeSingle ker g x s).shapeVal else 0)
      = ∏ d, basis1 ker (basePos g x d - (m d : K)) := by
  refine sum_slots_of_node ker g x m hm (fun s => (computeSingle ker g x s).shapeVal) _ ?_ ?_ ?_
  · intro s hs; simp [computeSingle, hs]
  · intro s hs
    rw [computeSingle_val ker g x s (hs ▸ hm)]
    simp only [distVec, hs]
  · intro h
    push Not at h
    obtain ⟨d, hd⟩ := h
    apply Finset.prod_eq_zero (Finset.mem_univ d)
    by_contra hne
    obtain ⟨j, hj⟩ := mem_stencil_of_basis_ne_zero ker _ _ hne
    exact hd j hj

/-- The total gradient that `compute` gives to lattice node `m`. -/
theorem nodal_grad (hdim : dim = 2 ∨ dim = 3) (ker : Kernel) (g : GridDomain K dim)
    (x : Fin dim → K) (m : Fin dim → ℤ) (hm : isValid g.gridSize m) (k : Fin dim) :
    ∑ s : Fin (windowSize ker dim),
      (if (computeSingle ker g x s).nodeHash = nodeHashOf g m
        then (computeSingle ker g x s).shapeGrad ⟨k, by omega⟩ else 0)
      = ∏ d, if d = k then dbasis1 g.invCellSize ker (basePos g x d - (m d : K))
          else basis1 ker (basePos g x d - (m d : K)) := by
  refine sum_slots_of_node ker g x m hm
    (fun s => (computeSingle ker g x s).shapeGrad ⟨k, by omega⟩) _ ?_ ?_ ?_
  · intro s hs; simp [computeSingle, hs]
  · intro s hs
    rw [congrFun (computeSingle_grad ker g x s (hs ▸ hm)) _, pad3_lt _ _ k.isLt, tensorGrad_eq hdim]
    simp only [distVec, hs]
  · intro h
    push Not at h
    obtain ⟨d, hd⟩ := h
    apply Finset.prod_eq_zero (Finset.mem_univ d)
    have hz : basis1 ker (basePos g x d - (m d : K)) = 0 := by
      by_contra hne
      obtain ⟨j, hj⟩ := mem_stencil_of_basis_ne_zero ker _ _ hne
      exact hd j hj
    split_ifs
    · exact dbasis_eq_zero_of_basis ker _ _ hz
    · exact hz

end
end Hydrax
