import Verif.Model.Mapping
import Mathlib.Algebra.BigOperators.Ring.Finset
import Mathlib.Algebra.Order.BigOperators.Group.Finset
import Mathlib.Data.Fintype.BigOperators
import Mathlib.Tactic.Ring
import Mathlib.Tactic.Linarith

/-!
# Row-major flattening (helper lemmas)
-/

set_option linter.unusedSectionVars false

namespace Hydrax

theorem prod_tail (d : ℕ) (size : Fin (d + 1) → ℕ) :
    ∏ k, size k = size 0 * ∏ k, Fin.tail size k := by
  rw [Fin.prod_univ_succ]; rfl

theorem ravel_lt : ∀ (dim : ℕ) (size idx : Fin dim → ℕ), (∀ d, idx d < size d) →
    ravel dim size idx < ∏ d, size d
  | 0, _, _, _ => by simp [ravel]
  | d + 1, size, idx, h => by
    have ih := ravel_lt d (Fin.tail size) (Fin.tail idx) (fun k => h k.succ)
    rw [prod_tail, ravel]
    have h0 : idx 0 + 1 ≤ size 0 := h 0
    calc idx 0 * _ + ravel d (Fin.tail size) (Fin.tail idx)
        < idx 0 * (∏ k, Fin.tail size k) + ∏ k, Fin.tail size k := by omega
      _ = (idx 0 + 1) * ∏ k, Fin.tail size k := by ring
      _ ≤ _ := Nat.mul_le_mul_right _ h0

theorem unravel_lt : ∀ (dim : ℕ) (size : Fin dim → ℕ) (r : ℕ), r < ∏ d, size d →
    ∀ d, unravel dim size r d < size d
  | 0, _, _, _, d => d.elim0
  | n + 1, size, r, h, d => by
    rw [prod_tail] at h
    have hpos : 0 < ∏ k, Fin.tail size k := by
      rcases Nat.eq_zero_or_pos (∏ k, Fin.tail size k) with h0 | h0
      · rw [h0] at h; omega
      · exact h0
    refine Fin.cases ?_ (fun k => ?_) d
    · simp only [unravel, Fin.cons_zero]
      exact Nat.div_lt_of_lt_mul (by rw [Nat.mul_comm]; exact h)
    · simp only [unravel, Fin.cons_succ]
      exact unravel_lt n (Fin.tail size) _ (Nat.mod_lt _ hpos) k

theorem unravel_ravel : ∀ (dim : ℕ) (size idx : Fin dim → ℕ), (∀ d, idx d < size d) →
    unravel dim size (ravel dim size idx) = idx
  | 0, _, _, _ => by funext d; exact d.elim0
  | n + 1, size, idx, h => by
    have ihlt := ravel_lt n (Fin.tail size) (Fin.tail idx) (fun k => h k.succ)
    have ih := unravel_ravel n (Fin.tail size) (Fin.tail idx) (fun k => h k.succ)
    have hpos : 0 < ∏ k, Fin.tail size k := by omega
    rw [unravel, ravel]
    have h1 : (idx 0 * (∏ k, Fin.tail size k) + ravel n (Fin.tail size) (Fin.tail idx)) /
        (∏ k, Fin.tail size k) = idx 0 := by
      rw [Nat.mul_comm, Nat.mul_add_div hpos, Nat.div_eq_of_lt ihlt, Nat.add_zero]
    have h2 : (idx 0 * (∏ k, Fin.tail size k) + ravel n (Fin.tail size) (Fin.tail idx)) %
        (∏ k, Fin.tail size k) = ravel n (Fin.tail size) (Fin.tail idx) := by
      rw [Nat.mul_comm, Nat.mul_add_mod, Nat.mod_eq_of_lt ihlt]
    rw [h1, h2, ih]
    exact Fin.cons_self_tail idx

theorem ravel_unravel : ∀ (dim : ℕ) (size : Fin dim → ℕ) (r : ℕ), r < ∏ d, size d →
    ravel dim size (unravel dim size r) = r
  | 0, _, r, h => by simp at h; simp [ravel, h]
  | n + 1, size, r, h => by
    rw [prod_tail] at h
    have hpos : 0 < ∏ k, Fin.tail size k := by
      rcases Nat.eq_zero_or_pos (∏ k, Fin.tail size k) with h0 | h0
      · rw [h0] at h; omega
      · exact h0
    rw [ravel, unravel, Fin.tail_cons, Fin.cons_zero,
      ravel_unravel n (Fin.tail size) _ (Nat.mod_lt _ hpos)]
    exact Nat.div_add_mod' r _

theorem ravel_injective (dim : ℕ) (size i j : Fin dim → ℕ) (hi : ∀ d, i d < size d)
    (hj : ∀ d, j d < size d) (h : ravel dim size i = ravel dim size j) : i = j := by
  rw [← unravel_ravel dim size i hi, h, unravel_ravel dim size j hj]

/-- Flat rows of an array of shape `size` correspond to multi indices. -/
def unravelEquiv (dim : ℕ) (size : Fin dim → ℕ) :
    Fin (∏ d, size d) ≃ ((d : Fin dim) → Fin (size d)) where
  toFun r := fun d => ⟨unravel dim size r d, unravel_lt dim size r r.isLt d⟩
  invFun φ := ⟨ravel dim size (fun d => φ d), ravel_lt dim size _ (fun d => (φ d).isLt)⟩
  left_inv r := by
    ext
    exact ravel_unravel dim size r r.isLt
  right_inv φ := by
    funext d
    ext
    exact congrFun (unravel_ravel dim size (fun d => (φ d : ℕ)) (fun d => (φ d).isLt)) d

variable {M : Type*} [AddCommMonoid M]

theorem sum_unravel_const (dim w : ℕ) (F : (Fin dim → ℕ) → M) :
    ∑ s : Fin (w ^ dim), F (unravel dim (fun _ => w) s)
      = ∑ φ : Fin dim → Fin w, F (fun d => φ d) := by
  have hN : w ^ dim = ∏ _d : Fin dim, w := by simp
  rw [← Equiv.sum_comp (finCongr hN).symm]
  rw [← Equiv.sum_comp (unravelEquiv dim (fun _ => w))]
  rfl

theorem sum_stencil_prod {K : Type*} [CommSemiring K] (dim w : ℕ) (f : Fin dim → ℕ → K) :
    ∑ s : Fin (w ^ dim), ∏ d, f d (unravel dim (fun _ => w) s d)
      = ∏ d, ∑ j : Fin w, f d j := by
  rw [sum_unravel_const dim w (fun φ => ∏ d, f d (φ d))]
  rw [Finset.prod_univ_sum, Fintype.piFinset_univ]

end Hydrax
