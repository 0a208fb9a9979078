import Verif.Spec.Interp
import Verif.Lemmas.Kernel1D

/-!
# The coded kernels are B-splines (helper lemmas)
-/

set_option linter.unusedSectionVars false

namespace Hydrax

/-- Degree of the spline behind each kernel name. -/
def degree : Kernel → ℕ
  | .linear => 1
  | .quadratic => 2
  | .cubic => 3

section
variable {K : Type*} [Field K] [LinearOrder K] [IsStrictOrderedRing K]
open Spec

theorem bspline1 (x : K) : bspline 1 x = tpow 1 (x + 1) - 2 * tpow 1 x + tpow 1 (x - 1) := by
  simp only [bspline, Finset.sum_range_succ, Finset.sum_range_zero, Nat.choose, Nat.factorial]
  norm_num
  ring_nf

theorem bspline2 (x : K) : bspline 2 x =
    (tpow 2 (x + 3 / 2) - 3 * tpow 2 (x + 1 / 2) + 3 * tpow 2 (x - 1 / 2) - tpow 2 (x - 3 / 2)) / 2 := by
  simp only [bspline, Finset.sum_range_succ, Finset.sum_range_zero, Nat.choose, Nat.factorial]
  have e1 : x + ((2:ℕ) + 1) / 2 - (0:ℕ) = x + 3 / 2 := by push_cast; ring
  have e2 : x + ((2:ℕ) + 1) / 2 - (1:ℕ) = x + 1 / 2 := by push_cast; ring
  have e3 : x + ((2:ℕ) + 1) / 2 - (2:ℕ) = x - 1 / 2 := by push_cast; ring
  have e4 : x + ((2:ℕ) + 1) / 2 - (3:ℕ) = x - 3 / 2 := by push_cast; ring
  rw [e1, e2, e3, e4]
  push_cast
  ring

theorem bspline3 (x : K) : bspline 3 x =
    (tpow 3 (x + 2) - 4 * tpow 3 (x + 1) + 6 * tpow 3 x - 4 * tpow 3 (x - 1) + tpow 3 (x - 2)) / 6 := by
  simp only [bspline, Finset.sum_range_succ, Finset.sum_range_zero, Nat.choose, Nat.factorial]
  have e1 : x + ((3:ℕ) + 1) / 2 - (0:ℕ) = x + 2 := by push_cast; ring
  have e2 : x + ((3:ℕ) + 1) / 2 - (1:ℕ) = x + 1 := by push_cast; ring
  have e3 : x + ((3:ℕ) + 1) / 2 - (2:ℕ) = x := by push_cast; ring
  have e4 : x + ((3:ℕ) + 1) / 2 - (3:ℕ) = x - 1 := by push_cast; ring
  have e5 : x + ((3:ℕ) + 1) / 2 - (4:ℕ) = x - 2 := by push_cast; ring
  rw [e1, e2, e3, e4, e5]
  push_cast
  ring

theorem tpow_of_nonneg {n : ℕ} {x : K} (h : 0 ≤ x) : tpow n x = x ^ n := by
  simp [tpow, max_eq_left h]

theorem tpow_of_nonpos {n : ℕ} {x : K} (hn : n ≠ 0) (h : x ≤ 0) : tpow n x = 0 := by
  simp [tpow, max_eq_right h, hn]

theorem linearBasis_eq_bspline (x : K) : linearBasis x = bspline 1 x := by
  rw [bspline1]
  unfold linearBasis
  have h1 : (1:ℕ) ≠ 0 := one_ne_zero
  rcases le_total x 0 with hx | hx
  · rw [abs_of_nonpos hx, tpow_of_nonpos h1 hx, tpow_of_nonpos h1 (show x - 1 ≤ 0 by linarith)]
    split_ifs with h
    · rw [tpow_of_nonneg (by linarith)]; ring
    · rw [tpow_of_nonpos h1 (by linarith)]; ring
  · rw [abs_of_nonneg hx, tpow_of_nonneg hx, tpow_of_nonneg (show 0 ≤ x + 1 by linarith)]
    split_ifs with h
    · rw [tpow_of_nonpos h1 (by linarith)]; ring
    · rw [tpow_of_nonneg (by linarith)]; ring

theorem quadraticBasis_eq_bspline (x : K) : quadraticBasis x = bspline 2 x := by
  rw [bspline2]
  unfold quadraticBasis
  have h1 : (2:ℕ) ≠ 0 := two_ne_zero
  split_ifs with c1 c2 c3
  · rw [tpow_of_nonneg (show 0 ≤ x + 3 / 2 by linarith [c1.1]),
      tpow_of_nonpos h1 (show x + 1 / 2 ≤ 0 by linarith [c1.2]),
      tpow_of_nonpos h1 (show x - 1 / 2 ≤ 0 by linarith [c1.2]),
      tpow_of_nonpos h1 (show x - 3 / 2 ≤ 0 by linarith [c1.2])]; ring
  · rw [tpow_of_nonneg (show 0 ≤ x + 3 / 2 by linarith [c2.1]),
      tpow_of_nonneg (show 0 ≤ x + 1 / 2 by linarith [c2.1]),
      tpow_of_nonpos h1 (show x - 1 / 2 ≤ 0 by linarith [c2.2]),
      tpow_of_nonpos h1 (show x - 3 / 2 ≤ 0 by linarith [c2.2])]; ring
  · rw [tpow_of_nonneg (show 0 ≤ x + 3 / 2 by linarith [c3.1]),
      tpow_of_nonneg (show 0 ≤ x + 1 / 2 by linarith [c3.1]),
      tpow_of_nonneg (show 0 ≤ x - 1 / 2 by linarith [c3.1]),
      tpow_of_nonpos h1 (show x - 3 / 2 ≤ 0 by linarith [c3.2])]; ring
  · rcases lt_or_ge x (-3 / 2) with h | h
    · rw [tpow_of_nonpos h1 (show x + 3 / 2 ≤ 0 by linarith),
        tpow_of_nonpos h1 (show x + 1 / 2 ≤ 0 by linarith),
        tpow_of_nonpos h1 (show x - 1 / 2 ≤ 0 by linarith),
        tpow_of_nonpos h1 (show x - 3 / 2 ≤ 0 by linarith)]; ring
    · have h2 : -1 / 2 < x := by by_contra hc; exact c1 ⟨h, not_lt.mp hc⟩
      have h3 : 1 / 2 < x := by by_contra hc; exact c2 ⟨h2, not_lt.mp hc⟩
      have h4 : 3 / 2 < x := by by_contra hc; exact c3 ⟨h3, not_lt.mp hc⟩
      rw [tpow_of_nonneg (show 0 ≤ x + 3 / 2 by linarith),
        tpow_of_nonneg (show 0 ≤ x + 1 / 2 by linarith),
        tpow_of_nonneg (show 0 ≤ x - 1 / 2 by linarith),
        tpow_of_nonneg (show 0 ≤ x - 3 / 2 by linarith)]; ring

theorem cubicBasis_eq_bspline (x : K) : cubicBasis .middle x = bspline 3 x := by
  rw [bspline3]
  unfold cubicBasis
  have h1 : (3:ℕ) ≠ 0 := three_ne_zero
  split_ifs with c1 c2 c3 c4
  · rw [tpow_of_nonneg (show 0 ≤ x + 2 by linarith [c1.1]),
      tpow_of_nonpos h1 (show x + 1 ≤ 0 by linarith [c1.2]),
      tpow_of_nonpos h1 (show x ≤ 0 by linarith [c1.2]),
      tpow_of_nonpos h1 (show x - 1 ≤ 0 by linarith [c1.2]),
      tpow_of_nonpos h1 (show x - 2 ≤ 0 by linarith [c1.2])]; ring
  · rw [tpow_of_nonneg (show 0 ≤ x + 2 by linarith [c2.1]),
      tpow_of_nonneg (show 0 ≤ x + 1 by linarith [c2.1]),
      tpow_of_nonpos h1 (show x ≤ 0 by linarith [c2.2]),
      tpow_of_nonpos h1 (show x - 1 ≤ 0 by linarith [c2.2]),
      tpow_of_nonpos h1 (show x - 2 ≤ 0 by linarith [c2.2])]; ring
  · rw [tpow_of_nonneg (show 0 ≤ x + 2 by linarith [c3.1]),
      tpow_of_nonneg (show 0 ≤ x + 1 by linarith [c3.1]),
      tpow_of_nonneg (show 0 ≤ x by linarith [c3.1]),
      tpow_of_nonpos h1 (show x - 1 ≤ 0 by linarith [c3.2]),
      tpow_of_nonpos h1 (show x - 2 ≤ 0 by linarith [c3.2])]; ring
  · rw [tpow_of_nonneg (show 0 ≤ x + 2 by linarith [c4.1]),
      tpow_of_nonneg (show 0 ≤ x + 1 by linarith [c4.1]),
      tpow_of_nonneg (show 0 ≤ x by linarith [c4.1]),
      tpow_of_nonneg (show 0 ≤ x - 1 by linarith [c4.1]),
      tpow_of_nonpos h1 (show x - 2 ≤ 0 by linarith [c4.2])]; ring
  · rcases lt_or_ge x (-2) with h | h
    · rw [tpow_of_nonpos h1 (show x + 2 ≤ 0 by linarith),
        tpow_of_nonpos h1 (show x + 1 ≤ 0 by linarith),
        tpow_of_nonpos h1 (show x ≤ 0 by linarith),
        tpow_of_nonpos h1 (show x - 1 ≤ 0 by linarith),
        tpow_of_nonpos h1 (show x - 2 ≤ 0 by linarith)]; ring
    · have h2 : -1 ≤ x := by by_contra hc; exact c1 ⟨h, not_le.mp hc⟩
      have h3 : 0 ≤ x := by by_contra hc; exact c2 ⟨h2, not_le.mp hc⟩
      have h4 : 1 ≤ x := by by_contra hc; exact c3 ⟨h3, not_le.mp hc⟩
      have h5 : 2 ≤ x := by by_contra hc; exact c4 ⟨h4, not_le.mp hc⟩
      rw [tpow_of_nonneg (show 0 ≤ x + 2 by linarith),
        tpow_of_nonneg (show 0 ≤ x + 1 by linarith),
        tpow_of_nonneg (show 0 ≤ x by linarith),
        tpow_of_nonneg (show 0 ≤ x - 1 by linarith),
        tpow_of_nonneg (show 0 ≤ x - 2 by linarith)]; ring

theorem basis1_eq_bspline (ker : Kernel) (x : K) : basis1 ker x = bspline (degree ker) x := by
  cases ker
  · exact linearBasis_eq_bspline x
  · exact quadraticBasis_eq_bspline x
  · exact cubicBasis_eq_bspline x

/-- Outside its support a kernel vanishes. -/
theorem basis1_support (ker : Kernel) (x : K) (h : basis1 ker x ≠ 0) :
    match ker with
    | .linear => -1 < x ∧ x < 1
    | .quadratic => -3 / 2 < x ∧ x < 3 / 2
    | .cubic => -2 < x ∧ x < 2 := by
  cases ker
  · simp only [basis1, linearBasis] at h ⊢
    split_ifs at h with h1
    · exact abs_lt.mp h1
    · exact absurd rfl h
  · simp only [basis1, quadraticBasis] at h ⊢
    split_ifs at h with h1 h2 h3
    · refine ⟨lt_of_le_of_ne h1.1 ?_, by linarith [h1.2]⟩
      rintro rfl; apply h; norm_num
    · exact ⟨by linarith [h2.1], by linarith [h2.2]⟩
    · refine ⟨by linarith [h3.1], lt_of_le_of_ne h3.2 ?_⟩
      rintro rfl; apply h; norm_num
    · exact absurd rfl h
  · simp only [basis1, cubicBasis] at h ⊢
    split_ifs at h with h1 h2 h3 h4
    · refine ⟨lt_of_le_of_ne h1.1 ?_, by linarith [h1.2]⟩
      rintro rfl; apply h; norm_num
    · exact ⟨by linarith [h2.1], by linarith [h2.2]⟩
    · exact ⟨by linarith [h3.1], by linarith [h3.2]⟩
    · exact ⟨by linarith [h4.1], by linarith [h4.2]⟩
    · exact absurd rfl h

variable [FloorRing K]

/-- Every lattice node with non-zero kernel value is one of the stencil nodes. -/
theorem mem_stencil_of_basis_ne_zero (ker : Kernel) (t : K) (m : ℤ)
    (h : basis1 ker (t - m) ≠ 0) :
    ∃ j : Fin (winLen ker), m = baseId ker t + off ker j := by
  have hs := basis1_support ker _ h
  cases ker
  · simp only at hs
    have h1 : ⌊t⌋ ≤ m := by
      have : (⌊t⌋ : K) ≤ t := Int.floor_le t
      have h2 : ((⌊t⌋ : ℤ) : K) < ((m + 1 : ℤ) : K) := by push_cast; linarith
      have := Int.cast_lt.mp h2; omega
    have h2 : m ≤ ⌊t⌋ + 1 := by
      have : t < (⌊t⌋ : K) + 1 := Int.lt_floor_add_one t
      have h2 : (m : K) < ((⌊t⌋ + 2 : ℤ) : K) := by push_cast; linarith
      have := Int.cast_lt.mp h2; omega
    rcases (show m = ⌊t⌋ + 0 ∨ m = ⌊t⌋ + 1 by omega) with h | h
    · exact ⟨(⟨0, by decide⟩ : Fin (winLen .linear)), h⟩
    · exact ⟨(⟨1, by decide⟩ : Fin (winLen .linear)), h⟩
  · simp only at hs
    have h1 : ⌊t - 1 / 2⌋ ≤ m := by
      have : (⌊t - 1 / 2⌋ : K) ≤ t - 1 / 2 := Int.floor_le _
      have h2 : ((⌊t - 1 / 2⌋ : ℤ) : K) < ((m + 1 : ℤ) : K) := by push_cast; linarith
      have := Int.cast_lt.mp h2; omega
    have h2 : m ≤ ⌊t - 1 / 2⌋ + 2 := by
      have : t - 1 / 2 < (⌊t - 1 / 2⌋ : K) + 1 := Int.lt_floor_add_one _
      have h2 : (m : K) < ((⌊t - 1 / 2⌋ + 3 : ℤ) : K) := by push_cast; linarith
      have := Int.cast_lt.mp h2; omega
    rcases (show m = ⌊t - 1 / 2⌋ + 0 ∨ m = ⌊t - 1 / 2⌋ + 1 ∨ m = ⌊t - 1 / 2⌋ + 2 by omega)
      with h | h | h
    · exact ⟨(⟨0, by decide⟩ : Fin (winLen .quadratic)), h⟩
    · exact ⟨(⟨1, by decide⟩ : Fin (winLen .quadratic)), h⟩
    · exact ⟨(⟨2, by decide⟩ : Fin (winLen .quadratic)), h⟩
  · simp only at hs
    have h1 : ⌊t⌋ - 1 ≤ m := by
      have : (⌊t⌋ : K) ≤ t := Int.floor_le t
      have h2 : ((⌊t⌋ : ℤ) : K) < ((m + 2 : ℤ) : K) := by push_cast; linarith
      have := Int.cast_lt.mp h2; omega
    have h2 : m ≤ ⌊t⌋ + 2 := by
      have : t < (⌊t⌋ : K) + 1 := Int.lt_floor_add_one t
      have h2 : (m : K) < ((⌊t⌋ + 3 : ℤ) : K) := by push_cast; linarith
      have := Int.cast_lt.mp h2; omega
    rcases (show m = ⌊t⌋ + (-1) ∨ m = ⌊t⌋ + 0 ∨ m = ⌊t⌋ + 1 ∨ m = ⌊t⌋ + 2 by omega)
      with h | h | h | h
    · exact ⟨(⟨0, by decide⟩ : Fin (winLen .cubic)), h⟩
    · exact ⟨(⟨1, by decide⟩ : Fin (winLen .cubic)), h⟩
    · exact ⟨(⟨2, by decide⟩ : Fin (winLen .cubic)), h⟩
    · exact ⟨(⟨3, by decide⟩ : Fin (winLen .cubic)), h⟩

theorem off_injective (ker : Kernel) (i j : Fin (winLen ker)) (h : off ker i = off ker j) :
    i = j := by
  cases ker <;> revert i j <;> decide

end
end Hydrax
