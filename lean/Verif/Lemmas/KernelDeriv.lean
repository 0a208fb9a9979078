import Verif.Lemmas.BSpline
import Mathlib.Analysis.Calculus.Deriv.Pow
import Mathlib.Analysis.Calculus.Deriv.Add
import Mathlib.Analysis.Calculus.Deriv.Mul
import Mathlib.Analysis.Calculus.Deriv.Comp
import Mathlib.Analysis.Calculus.Deriv.Abs
import Mathlib.Analysis.Calculus.Deriv.Shift

/-!
# Derivatives of the kernels (helper lemmas)
-/

set_option linter.unusedSectionVars false

namespace Hydrax
open Spec

theorem hasDerivAt_tpow (n : ℕ) (x : ℝ) :
    HasDerivAt (tpow (n + 2) : ℝ → ℝ) (((n : ℝ) + 2) * tpow (n + 1) x) x := by
  rcases lt_trichotomy x 0 with hx | rfl | hx
  · rw [tpow_of_nonpos (by omega) hx.le, mul_zero]
    refine (hasDerivAt_const x (0:ℝ)).congr_of_eventuallyEq ?_
    filter_upwards [Iio_mem_nhds hx] with y hy
    exact tpow_of_nonpos (by omega) (le_of_lt hy)
  · rw [tpow_of_nonpos (by omega) le_rfl, mul_zero]
    have h : (tpow (n + 2) : ℝ → ℝ) =O[nhds 0] fun y => ‖y - 0‖ ^ (n + 2) := by
      refine Asymptotics.IsBigO.of_bound 1 (Filter.Eventually.of_forall fun y => ?_)
      rw [one_mul, sub_zero, norm_pow, norm_norm, tpow, norm_pow]
      apply pow_le_pow_left₀ (norm_nonneg _)
      rw [Real.norm_eq_abs, Real.norm_eq_abs, abs_of_nonneg (le_max_right y 0)]
      exact max_le (le_abs_self y) (abs_nonneg y)
    have := h.hasFDerivAt (𝕜 := ℝ) (by omega)
    rw [hasDerivAt_iff_hasFDerivAt]
    refine this.congr_fderiv ?_
    ext; simp
  · rw [tpow_of_nonneg hx.le]
    have h := hasDerivAt_pow (n + 2) x
    have h2 : HasDerivAt (tpow (n + 2) : ℝ → ℝ) (((n + 2 : ℕ) : ℝ) * x ^ (n + 2 - 1)) x := by
      refine h.congr_of_eventuallyEq ?_
      filter_upwards [Ioi_mem_nhds hx] with y hy
      exact tpow_of_nonneg (le_of_lt hy)
    refine h2.congr_deriv ?_
    push_cast; rfl

theorem hasDerivAt_tpow_shift (n : ℕ) (a x : ℝ) :
    HasDerivAt (fun y : ℝ => tpow (n + 2) (y + a)) (((n : ℝ) + 2) * tpow (n + 1) (x + a)) x :=
  (hasDerivAt_tpow n (x + a)).comp_add_const x a

/-- Derivative of the quadratic B-spline as second difference of truncated powers. -/
theorem quadraticDBasis_eq (x : ℝ) : quadraticDBasis 1 x =
    tpow 1 (x + 3 / 2) - 3 * tpow 1 (x + 1 / 2) + 3 * tpow 1 (x + -1 / 2) - tpow 1 (x + -3 / 2) := by
  unfold quadraticDBasis
  have h1 : (1:ℕ) ≠ 0 := one_ne_zero
  split_ifs with c1 c2 c3
  · rw [tpow_of_nonneg (show 0 ≤ x + 3 / 2 by linarith [c1.1]),
      tpow_of_nonpos h1 (show x + 1 / 2 ≤ 0 by linarith [c1.2]),
      tpow_of_nonpos h1 (show x + -1 / 2 ≤ 0 by linarith [c1.2]),
      tpow_of_nonpos h1 (show x + -3 / 2 ≤ 0 by linarith [c1.2])]; ring
  · rw [tpow_of_nonneg (show 0 ≤ x + 3 / 2 by linarith [c2.1]),
      tpow_of_nonneg (show 0 ≤ x + 1 / 2 by linarith [c2.1]),
      tpow_of_nonpos h1 (show x + -1 / 2 ≤ 0 by linarith [c2.2]),
      tpow_of_nonpos h1 (show x + -3 / 2 ≤ 0 by linarith [c2.2])]; ring
  · rw [tpow_of_nonneg (show 0 ≤ x + 3 / 2 by linarith [c3.1]),
      tpow_of_nonneg (show 0 ≤ x + 1 / 2 by linarith [c3.1]),
      tpow_of_nonneg (show 0 ≤ x + -1 / 2 by linarith [c3.1]),
      tpow_of_nonpos h1 (show x + -3 / 2 ≤ 0 by linarith [c3.2])]; ring
  · rcases lt_or_ge x (-3 / 2) with h | h
    · rw [tpow_of_nonpos h1 (show x + 3 / 2 ≤ 0 by linarith),
        tpow_of_nonpos h1 (show x + 1 / 2 ≤ 0 by linarith),
        tpow_of_nonpos h1 (show x + -1 / 2 ≤ 0 by linarith),
        tpow_of_nonpos h1 (show x + -3 / 2 ≤ 0 by linarith)]; ring
    · have h2 : -1 / 2 < x := by by_contra hc; exact c1 ⟨h, not_lt.mp hc⟩
      have h3 : 1 / 2 < x := by by_contra hc; exact c2 ⟨h2, not_lt.mp hc⟩
      have h4 : 3 / 2 < x := by by_contra hc; exact c3 ⟨h3, not_lt.mp hc⟩
      rw [tpow_of_nonneg (show 0 ≤ x + 3 / 2 by linarith),
        tpow_of_nonneg (show 0 ≤ x + 1 / 2 by linarith),
        tpow_of_nonneg (show 0 ≤ x + -1 / 2 by linarith),
        tpow_of_nonneg (show 0 ≤ x + -3 / 2 by linarith)]; ring

theorem cubicDBasis_eq (x : ℝ) : cubicDBasis .middle 1 x =
    (tpow 2 (x + 2) - 4 * tpow 2 (x + 1) + 6 * tpow 2 (x + 0) - 4 * tpow 2 (x + -1)
      + tpow 2 (x + -2)) / 2 := by
  unfold cubicDBasis
  have h1 : (2:ℕ) ≠ 0 := two_ne_zero
  split_ifs with c1 c2 c3 c4
  · rw [tpow_of_nonneg (show 0 ≤ x + 2 by linarith [c1.1]),
      tpow_of_nonpos h1 (show x + 1 ≤ 0 by linarith [c1.2]),
      tpow_of_nonpos h1 (show x + 0 ≤ 0 by linarith [c1.2]),
      tpow_of_nonpos h1 (show x + -1 ≤ 0 by linarith [c1.2]),
      tpow_of_nonpos h1 (show x + -2 ≤ 0 by linarith [c1.2])]; ring
  · rw [tpow_of_nonneg (show 0 ≤ x + 2 by linarith [c2.1]),
      tpow_of_nonneg (show 0 ≤ x + 1 by linarith [c2.1]),
      tpow_of_nonpos h1 (show x + 0 ≤ 0 by linarith [c2.2]),
      tpow_of_nonpos h1 (show x + -1 ≤ 0 by linarith [c2.2]),
      tpow_of_nonpos h1 (show x + -2 ≤ 0 by linarith [c2.2])]; ring
  · rw [tpow_of_nonneg (show 0 ≤ x + 2 by linarith [c3.1]),
      tpow_of_nonneg (show 0 ≤ x + 1 by linarith [c3.1]),
      tpow_of_nonneg (show 0 ≤ x + 0 by linarith [c3.1]),
      tpow_of_nonpos h1 (show x + -1 ≤ 0 by linarith [c3.2]),
      tpow_of_nonpos h1 (show x + -2 ≤ 0 by linarith [c3.2])]; ring
  · rw [tpow_of_nonneg (show 0 ≤ x + 2 by linarith [c4.1]),
      tpow_of_nonneg (show 0 ≤ x + 1 by linarith [c4.1]),
      tpow_of_nonneg (show 0 ≤ x + 0 by linarith [c4.1]),
      tpow_of_nonneg (show 0 ≤ x + -1 by linarith [c4.1]),
      tpow_of_nonpos h1 (show x + -2 ≤ 0 by linarith [c4.2])]; ring
  · rcases lt_or_ge x (-2) with h | h
    · rw [tpow_of_nonpos h1 (show x + 2 ≤ 0 by linarith),
        tpow_of_nonpos h1 (show x + 1 ≤ 0 by linarith),
        tpow_of_nonpos h1 (show x + 0 ≤ 0 by linarith),
        tpow_of_nonpos h1 (show x + -1 ≤ 0 by linarith),
        tpow_of_nonpos h1 (show x + -2 ≤ 0 by linarith)]; ring
    · have h2 : -1 ≤ x := by by_contra hc; exact c1 ⟨h, not_le.mp hc⟩
      have h3 : 0 ≤ x := by by_contra hc; exact c2 ⟨h2, not_le.mp hc⟩
      have h4 : 1 ≤ x := by by_contra hc; exact c3 ⟨h3, not_le.mp hc⟩
      have h5 : 2 ≤ x := by by_contra hc; exact c4 ⟨h4, not_le.mp hc⟩
      rw [tpow_of_nonneg (show 0 ≤ x + 2 by linarith),
        tpow_of_nonneg (show 0 ≤ x + 1 by linarith),
        tpow_of_nonneg (show 0 ≤ x + 0 by linarith),
        tpow_of_nonneg (show 0 ≤ x + -1 by linarith),
        tpow_of_nonneg (show 0 ≤ x + -2 by linarith)]; ring

theorem hasDerivAt_quadraticBasis (x : ℝ) :
    HasDerivAt (quadraticBasis : ℝ → ℝ) (quadraticDBasis 1 x) x := by
  have hfun : (quadraticBasis : ℝ → ℝ) = fun y => (tpow 2 (y + 3 / 2) - 3 * tpow 2 (y + 1 / 2)
      + 3 * tpow 2 (y + -1 / 2) - tpow 2 (y + -3 / 2)) / 2 := by
    funext y
    rw [quadraticBasis_eq_bspline, bspline2]
    have e1 : y - 1 / 2 = y + -1 / 2 := by ring
    have e2 : y - 3 / 2 = y + -3 / 2 := by ring
    rw [e1, e2]
  rw [hfun, quadraticDBasis_eq]
  have h := ((((hasDerivAt_tpow_shift 0 (3 / 2) x).sub
    ((hasDerivAt_tpow_shift 0 (1 / 2) x).const_mul 3)).add
    ((hasDerivAt_tpow_shift 0 (-1 / 2) x).const_mul 3)).sub
    (hasDerivAt_tpow_shift 0 (-3 / 2) x)).div_const 2
  refine h.congr_deriv ?_
  push_cast
  ring

theorem hasDerivAt_cubicBasis (x : ℝ) :
    HasDerivAt (cubicBasis .middle : ℝ → ℝ) (cubicDBasis .middle 1 x) x := by
  have hfun : (cubicBasis .middle : ℝ → ℝ) = fun y => (tpow 3 (y + 2) - 4 * tpow 3 (y + 1)
      + 6 * tpow 3 (y + 0) - 4 * tpow 3 (y + -1) + tpow 3 (y + -2)) / 6 := by
    funext y
    rw [cubicBasis_eq_bspline, bspline3]
    simp only [add_zero, sub_eq_add_neg]
  rw [hfun, cubicDBasis_eq]
  have h := (((((hasDerivAt_tpow_shift 1 2 x).sub
    ((hasDerivAt_tpow_shift 1 1 x).const_mul 4)).add
    ((hasDerivAt_tpow_shift 1 0 x).const_mul 6)).sub
    ((hasDerivAt_tpow_shift 1 (-1) x).const_mul 4)).add
    (hasDerivAt_tpow_shift 1 (-2) x)).div_const 6
  refine h.congr_deriv ?_
  push_cast
  ring

theorem hasDerivAt_linearBasis (x : ℝ) (h0 : x ≠ 0) (h1 : |x| ≠ 1) :
    HasDerivAt (linearBasis : ℝ → ℝ) (linearDBasis 1 x) x := by
  unfold linearDBasis sgn
  rcases lt_or_gt_of_ne h1 with hl | hg
  · rw [if_pos hl]
    rcases lt_or_gt_of_ne h0 with hx | hx
    · rw [if_pos hx]
      have : HasDerivAt (fun y : ℝ => 1 + y) 1 x := (hasDerivAt_id x).const_add 1
      refine HasDerivAt.congr_deriv (this.congr_of_eventuallyEq ?_) (by ring)
      · rw [abs_lt] at hl
        filter_upwards [Ioi_mem_nhds hl.1, Iio_mem_nhds hx] with y hy1 hy2
        simp only [Set.mem_Ioi, Set.mem_Iio] at hy1 hy2
        unfold linearBasis
        rw [abs_of_neg hy2, if_pos (by linarith)]; ring
    · rw [if_neg (not_lt.mpr hx.le), if_neg h0]
      have : HasDerivAt (fun y : ℝ => 1 - y) (-1) x := (hasDerivAt_id x).const_sub 1
      refine HasDerivAt.congr_deriv (this.congr_of_eventuallyEq ?_) (by ring)
      · rw [abs_lt] at hl
        filter_upwards [Iio_mem_nhds hl.2, Ioi_mem_nhds hx] with y hy1 hy2
        simp only [Set.mem_Ioi, Set.mem_Iio] at hy1 hy2
        unfold linearBasis
        rw [abs_of_pos hy2, if_pos hy1]
  · rw [if_neg (not_lt.mpr hg.le)]
    refine (hasDerivAt_const x (0:ℝ)).congr_of_eventuallyEq ?_
    have hopen : IsOpen {y : ℝ | 1 < |y|} := isOpen_lt continuous_const continuous_abs
    filter_upwards [hopen.mem_nhds hg] with y hy
    unfold linearBasis
    rw [if_neg (not_lt.mpr (le_of_lt hy))]

theorem dbasis1_scale (ker : Kernel) (c x : ℝ) : dbasis1 c ker x = c * dbasis1 1 ker x := by
  cases ker
  · simp only [dbasis1, linearDBasis]; split_ifs <;> ring
  · simp only [dbasis1, quadraticDBasis]; split_ifs <;> ring
  · simp only [dbasis1, cubicDBasis]; split_ifs <;> ring

theorem hasDerivAt_basis1 (ker : Kernel) (x : ℝ) (h : ker = .linear → x ≠ 0 ∧ |x| ≠ 1) :
    HasDerivAt (basis1 ker : ℝ → ℝ) (dbasis1 1 ker x) x := by
  cases ker
  · exact hasDerivAt_linearBasis x (h rfl).1 (h rfl).2
  · exact hasDerivAt_quadraticBasis x
  · exact hasDerivAt_cubicBasis x

end Hydrax
