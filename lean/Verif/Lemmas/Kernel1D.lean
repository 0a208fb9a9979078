import Verif.Model.Mapping
import Mathlib.Tactic.Linarith
import Mathlib.Tactic.Ring
import Mathlib.Tactic.FieldSimp
import Mathlib.Tactic.NormNum
import Mathlib.Tactic.FinCases

/-!
# One-dimensional kernel identities (helper lemmas)
-/

set_option linter.unusedSectionVars false

namespace Hydrax

/-- Entry `j` of the 1D window. -/
def off (ker : Kernel) (j : ℕ) : ℤ := (window1d ker).getD j 0

section
variable {K : Type*} [Field K] [LinearOrder K] [IsStrictOrderedRing K]

theorem linearBasis_left {f : K} (h0 : 0 ≤ f) (h1 : f < 1) : linearBasis f = 1 - f := by
  unfold linearBasis
  rw [abs_of_nonneg h0, if_pos h1]

theorem linearBasis_right {f : K} (h0 : 0 ≤ f) (h1 : f < 1) : linearBasis (f - 1) = f := by
  unfold linearBasis
  rw [abs_of_nonpos (by linarith)]
  split_ifs <;> linarith

theorem linearDBasis_left {f c : K} (h0 : 0 ≤ f) (h1 : f < 1) :
    linearDBasis c f = if f = 0 then 0 else -c := by
  unfold linearDBasis sgn
  rw [abs_of_nonneg h0, if_pos h1, if_neg (not_lt.mpr h0)]
  split_ifs <;> ring

theorem linearDBasis_right {f c : K} (h0 : 0 ≤ f) (h1 : f < 1) :
    linearDBasis c (f - 1) = if f = 0 then 0 else c := by
  unfold linearDBasis sgn
  rw [abs_of_nonpos (by linarith), if_pos (show f - 1 < 0 by linarith)]
  by_cases hf : f = 0
  · subst hf; norm_num
  · have : 0 < f := lt_of_le_of_ne h0 (Ne.symm hf)
    rw [if_pos (by linarith), if_neg hf]; ring

theorem quadraticBasis_0 {f : K} (h0 : 0 ≤ f) (h1 : f < 1) :
    quadraticBasis (f + 1 / 2) = (1 - f) ^ 2 / 2 := by
  unfold quadraticBasis
  rw [if_neg (by rintro ⟨-, h⟩; linarith)]
  by_cases hf : f = 0
  · subst hf; norm_num
  · have : 0 < f := lt_of_le_of_ne h0 (Ne.symm hf)
    rw [if_neg (by rintro ⟨-, h⟩; linarith), if_pos ⟨by linarith, by linarith⟩]; ring

theorem quadraticBasis_1 {f : K} (h0 : 0 ≤ f) (h1 : f < 1) :
    quadraticBasis (f - 1 / 2) = 3 / 4 - (f - 1 / 2) ^ 2 := by
  unfold quadraticBasis
  by_cases hf : f = 0
  · subst hf; norm_num
  · have : 0 < f := lt_of_le_of_ne h0 (Ne.symm hf)
    rw [if_neg (by rintro ⟨-, h⟩; linarith), if_pos ⟨by linarith, by linarith⟩]; ring

theorem quadraticBasis_2 {f : K} (h0 : 0 ≤ f) (h1 : f < 1) :
    quadraticBasis (f - 3 / 2) = f ^ 2 / 2 := by
  unfold quadraticBasis
  rw [if_pos ⟨by linarith, by linarith⟩]; ring

theorem quadraticDBasis_0 {f c : K} (h0 : 0 ≤ f) (h1 : f < 1) :
    quadraticDBasis c (f + 1 / 2) = c * (f - 1) := by
  unfold quadraticDBasis
  rw [if_neg (by rintro ⟨-, h⟩; linarith)]
  by_cases hf : f = 0
  · subst hf; norm_num
  · have : 0 < f := lt_of_le_of_ne h0 (Ne.symm hf)
    rw [if_neg (by rintro ⟨-, h⟩; linarith), if_pos ⟨by linarith, by linarith⟩]; ring

theorem quadraticDBasis_1 {f c : K} (h0 : 0 ≤ f) (h1 : f < 1) :
    quadraticDBasis c (f - 1 / 2) = c * (1 - 2 * f) := by
  unfold quadraticDBasis
  by_cases hf : f = 0
  · subst hf; norm_num
  · have : 0 < f := lt_of_le_of_ne h0 (Ne.symm hf)
    rw [if_neg (by rintro ⟨-, h⟩; linarith), if_pos ⟨by linarith, by linarith⟩]; ring

theorem quadraticDBasis_2 {f c : K} (h0 : 0 ≤ f) (h1 : f < 1) :
    quadraticDBasis c (f - 3 / 2) = c * f := by
  unfold quadraticDBasis
  rw [if_pos ⟨by linarith, by linarith⟩]; ring

theorem cubicBasis_0 {f : K} (h0 : 0 ≤ f) (h1 : f < 1) :
    cubicBasis .middle (f + 1) = (1 - f) ^ 3 / 6 := by
  unfold cubicBasis
  rw [if_neg (by rintro ⟨-, h⟩; linarith), if_neg (by rintro ⟨-, h⟩; linarith),
    if_neg (by rintro ⟨-, h⟩; linarith), if_pos ⟨by linarith, by linarith⟩]; ring

theorem cubicBasis_1 {f : K} (h0 : 0 ≤ f) (h1 : f < 1) :
    cubicBasis .middle f = f ^ 3 / 2 - f ^ 2 + 2 / 3 := by
  unfold cubicBasis
  rw [if_neg (by rintro ⟨-, h⟩; linarith), if_neg (by rintro ⟨-, h⟩; linarith),
    if_pos ⟨by linarith, by linarith⟩]; ring

theorem cubicBasis_2 {f : K} (h0 : 0 ≤ f) (h1 : f < 1) :
    cubicBasis .middle (f - 1) = -f ^ 3 / 2 + f ^ 2 / 2 + f / 2 + 1 / 6 := by
  unfold cubicBasis
  rw [if_neg (by rintro ⟨-, h⟩; linarith), if_pos ⟨by linarith, by linarith⟩]; ring

theorem cubicBasis_3 {f : K} (h0 : 0 ≤ f) (h1 : f < 1) :
    cubicBasis .middle (f - 2) = f ^ 3 / 6 := by
  unfold cubicBasis
  rw [if_pos ⟨by linarith, by linarith⟩]; ring

theorem cubicDBasis_0 {f c : K} (h0 : 0 ≤ f) (h1 : f < 1) :
    cubicDBasis .middle c (f + 1) = c * (-(1 - f) ^ 2 / 2) := by
  unfold cubicDBasis
  rw [if_neg (by rintro ⟨-, h⟩; linarith), if_neg (by rintro ⟨-, h⟩; linarith),
    if_neg (by rintro ⟨-, h⟩; linarith), if_pos ⟨by linarith, by linarith⟩]; ring

theorem cubicDBasis_1 {f c : K} (h0 : 0 ≤ f) (h1 : f < 1) :
    cubicDBasis .middle c f = c * (3 / 2 * f ^ 2 - 2 * f) := by
  unfold cubicDBasis
  rw [if_neg (by rintro ⟨-, h⟩; linarith), if_neg (by rintro ⟨-, h⟩; linarith),
    if_pos ⟨by linarith, by linarith⟩]; ring

theorem cubicDBasis_2 {f c : K} (h0 : 0 ≤ f) (h1 : f < 1) :
    cubicDBasis .middle c (f - 1) = c * (-3 / 2 * f ^ 2 + f + 1 / 2) := by
  unfold cubicDBasis
  rw [if_neg (by rintro ⟨-, h⟩; linarith), if_pos ⟨by linarith, by linarith⟩]; ring

theorem cubicDBasis_3 {f c : K} (h0 : 0 ≤ f) (h1 : f < 1) :
    cubicDBasis .middle c (f - 2) = c * (f ^ 2 / 2) := by
  unfold cubicDBasis
  rw [if_pos ⟨by linarith, by linarith⟩]; ring

/-! ### Non-negativity -/

theorem linearBasis_nonneg (x : K) : 0 ≤ linearBasis x := by
  unfold linearBasis; split_ifs <;> linarith

theorem quadraticBasis_nonneg (x : K) : 0 ≤ quadraticBasis x := by
  unfold quadraticBasis
  split_ifs with h1 h2 h3
  · nlinarith [sq_nonneg (x + 3 / 2)]
  · nlinarith [h2.1, h2.2]
  · nlinarith [sq_nonneg (x - 3 / 2)]
  · exact le_refl _

theorem cubicBasis_nonneg (x : K) : 0 ≤ cubicBasis .middle x := by
  unfold cubicBasis
  split_ifs with h1 h2 h3 h4
  · have : 0 ≤ (x + 2) ^ 3 := pow_nonneg (by linarith [h1.1]) 3
    simp only; linarith [show ((1 / 6 * x + 1) * x + 2) * x + 4 / 3 = (x + 2) ^ 3 / 6 by ring]
  · have h5 : 0 ≤ (x + 1) * (x * x) := mul_nonneg (by linarith [h2.1]) (mul_self_nonneg x)
    have h6 : 0 ≤ (x + 1) * (-x) := mul_nonneg (by linarith [h2.1]) (by linarith [h2.2])
    simp only; nlinarith [h2.1, h2.2]
  · have h5 : 0 ≤ (1 - x) * (x * x) := mul_nonneg (by linarith [h3.2]) (mul_self_nonneg x)
    have h6 : 0 ≤ (1 - x) * x := mul_nonneg (by linarith [h3.2]) (by linarith [h3.1])
    simp only; nlinarith [h3.1, h3.2]
  · have : 0 ≤ (2 - x) ^ 3 := pow_nonneg (by linarith [h4.2]) 3
    simp only; linarith [show ((-1 / 6 * x + 1) * x - 2) * x + 4 / 3 = (2 - x) ^ 3 / 6 by ring]
  · exact le_refl _

theorem basis1_nonneg (ker : Kernel) (x : K) : 0 ≤ basis1 ker x := by
  cases ker
  · exact linearBasis_nonneg x
  · exact quadraticBasis_nonneg x
  · exact cubicBasis_nonneg x

variable [FloorRing K]

/-- Fraction of the point in its base cell. -/
def frac (ker : Kernel) (t : K) : K :=
  match ker with
  | .quadratic => Int.fract (t - 1 / 2)
  | _ => Int.fract t

theorem frac_nonneg (ker : Kernel) (t : K) : 0 ≤ frac ker t := by
  cases ker <;> exact Int.fract_nonneg _

theorem frac_lt_one (ker : Kernel) (t : K) : frac ker t < 1 := by
  cases ker <;> exact Int.fract_lt_one _

omit [IsStrictOrderedRing K] in
theorem stencil_sum_linear {M : Type*} [AddCommMonoid M] (t : K) (F : K → M) :
    ∑ j : Fin (winLen .linear), F (t - ((baseId .linear t + off .linear j : ℤ) : K))
      = F (frac .linear t) + F (frac .linear t - 1) := by
  refine (Fin.sum_univ_two (fun j : Fin 2 =>
    F (t - ((baseId .linear t + off .linear j : ℤ) : K)))).trans ?_
  have e0 : t - ((baseId .linear t + off .linear 0 : ℤ) : K) = frac .linear t := by
    show t - ((⌊t⌋ + 0 : ℤ) : K) = t - ⌊t⌋
    push_cast; ring
  have e1 : t - ((baseId .linear t + off .linear 1 : ℤ) : K) = frac .linear t - 1 := by
    show t - ((⌊t⌋ + 1 : ℤ) : K) = t - ⌊t⌋ - 1
    push_cast; ring
  exact congrArg₂ _ (congrArg F e0) (congrArg F e1)

omit [IsStrictOrderedRing K] in
theorem stencil_sum_quadratic {M : Type*} [AddCommMonoid M] [CharZero K] (t : K) (F : K → M) :
    ∑ j : Fin (winLen .quadratic), F (t - ((baseId .quadratic t + off .quadratic j : ℤ) : K))
      = F (frac .quadratic t + 1 / 2) + F (frac .quadratic t - 1 / 2)
        + F (frac .quadratic t - 3 / 2) := by
  refine (Fin.sum_univ_three (fun j : Fin 3 =>
    F (t - ((baseId .quadratic t + off .quadratic j : ℤ) : K)))).trans ?_
  have e0 : t - ((baseId .quadratic t + off .quadratic 0 : ℤ) : K) = frac .quadratic t + 1 / 2 := by
    show t - ((⌊t - 1 / 2⌋ + 0 : ℤ) : K) = t - 1 / 2 - ⌊t - 1 / 2⌋ + 1 / 2
    push_cast; ring
  have e1 : t - ((baseId .quadratic t + off .quadratic 1 : ℤ) : K) = frac .quadratic t - 1 / 2 := by
    show t - ((⌊t - 1 / 2⌋ + 1 : ℤ) : K) = t - 1 / 2 - ⌊t - 1 / 2⌋ - 1 / 2
    push_cast; ring
  have e2 : t - ((baseId .quadratic t + off .quadratic 2 : ℤ) : K) = frac .quadratic t - 3 / 2 := by
    show t - ((⌊t - 1 / 2⌋ + 2 : ℤ) : K) = t - 1 / 2 - ⌊t - 1 / 2⌋ - 3 / 2
    push_cast; ring
  exact congrArg₂ _ (congrArg₂ _ (congrArg F e0) (congrArg F e1)) (congrArg F e2)

omit [IsStrictOrderedRing K] in
theorem stencil_sum_cubic {M : Type*} [AddCommMonoid M] (t : K) (F : K → M) :
    ∑ j : Fin (winLen .cubic), F (t - ((baseId .cubic t + off .cubic j : ℤ) : K))
      = F (frac .cubic t + 1) + F (frac .cubic t) + F (frac .cubic t - 1)
        + F (frac .cubic t - 2) := by
  refine (Fin.sum_univ_four (fun j : Fin 4 =>
    F (t - ((baseId .cubic t + off .cubic j : ℤ) : K)))).trans ?_
  have e0 : t - ((baseId .cubic t + off .cubic 0 : ℤ) : K) = frac .cubic t + 1 := by
    show t - ((⌊t⌋ + (-1) : ℤ) : K) = t - ⌊t⌋ + 1
    push_cast; ring
  have e1 : t - ((baseId .cubic t + off .cubic 1 : ℤ) : K) = frac .cubic t := by
    show t - ((⌊t⌋ + 0 : ℤ) : K) = t - ⌊t⌋
    push_cast; ring
  have e2 : t - ((baseId .cubic t + off .cubic 2 : ℤ) : K) = frac .cubic t - 1 := by
    show t - ((⌊t⌋ + 1 : ℤ) : K) = t - ⌊t⌋ - 1
    push_cast; ring
  have e3 : t - ((baseId .cubic t + off .cubic 3 : ℤ) : K) = frac .cubic t - 2 := by
    show t - ((⌊t⌋ + 2 : ℤ) : K) = t - ⌊t⌋ - 2
    push_cast; ring
  exact congrArg₂ _ (congrArg₂ _ (congrArg₂ _ (congrArg F e0) (congrArg F e1)) (congrArg F e2))
    (congrArg F e3)

/-- Partition of unity in 1D. -/
theorem sum_basis (ker : Kernel) (t : K) :
    ∑ j : Fin (winLen ker), basis1 ker (t - ((baseId ker t + off ker j : ℤ) : K)) = 1 := by
  have h0 := frac_nonneg ker t
  have h1 := frac_lt_one ker t
  cases ker
  · rw [stencil_sum_linear t (basis1 .linear)]
    simp only [basis1]
    rw [linearBasis_left h0 h1, linearBasis_right h0 h1]; ring
  · rw [stencil_sum_quadratic t (basis1 .quadratic)]
    simp only [basis1]
    rw [quadraticBasis_0 h0 h1, quadraticBasis_1 h0 h1, quadraticBasis_2 h0 h1]; ring
  · rw [stencil_sum_cubic t (basis1 .cubic)]
    simp only [basis1]
    rw [cubicBasis_0 h0 h1, cubicBasis_1 h0 h1, cubicBasis_2 h0 h1, cubicBasis_3 h0 h1]; ring

/-- Derivatives sum to zero in 1D. -/
theorem sum_dbasis (ker : Kernel) (c t : K) :
    ∑ j : Fin (winLen ker), dbasis1 c ker (t - ((baseId ker t + off ker j : ℤ) : K)) = 0 := by
  have h0 := frac_nonneg ker t
  have h1 := frac_lt_one ker t
  cases ker
  · rw [stencil_sum_linear t (dbasis1 c .linear)]
    simp only [dbasis1]
    rw [linearDBasis_left h0 h1, linearDBasis_right h0 h1]; split_ifs <;> ring
  · rw [stencil_sum_quadratic t (dbasis1 c .quadratic)]
    simp only [dbasis1]
    rw [quadraticDBasis_0 h0 h1, quadraticDBasis_1 h0 h1, quadraticDBasis_2 h0 h1]; ring
  · rw [stencil_sum_cubic t (dbasis1 c .cubic)]
    simp only [dbasis1]
    rw [cubicDBasis_0 h0 h1, cubicDBasis_1 h0 h1, cubicDBasis_2 h0 h1, cubicDBasis_3 h0 h1]; ring

/-- First moments vanish in 1D (linear reproduction). -/
theorem sum_dist_basis (ker : Kernel) (t : K) :
    ∑ j : Fin (winLen ker), (t - ((baseId ker t + off ker j : ℤ) : K)) *
      basis1 ker (t - ((baseId ker t + off ker j : ℤ) : K)) = 0 := by
  have h0 := frac_nonneg ker t
  have h1 := frac_lt_one ker t
  cases ker
  · rw [stencil_sum_linear t (fun x => x * basis1 .linear x)]
    simp only [basis1]
    rw [linearBasis_left h0 h1, linearBasis_right h0 h1]; ring
  · rw [stencil_sum_quadratic t (fun x => x * basis1 .quadratic x)]
    simp only [basis1]
    rw [quadraticBasis_0 h0 h1, quadraticBasis_1 h0 h1, quadraticBasis_2 h0 h1]; ring
  · rw [stencil_sum_cubic t (fun x => x * basis1 .cubic x)]
    simp only [basis1]
    rw [cubicBasis_0 h0 h1, cubicBasis_1 h0 h1, cubicBasis_2 h0 h1, cubicBasis_3 h0 h1]; ring

/-- Second moments in 1D: `1/4` for the quadratic, `1/3` for the cubic kernel and `f(1-f)` for the
linear one. -/
def secondMoment (ker : Kernel) (t : K) : K :=
  match ker with
  | .linear => frac .linear t * (1 - frac .linear t)
  | .quadratic => 1 / 4
  | .cubic => 1 / 3

theorem sum_sq_basis (ker : Kernel) (t : K) :
    ∑ j : Fin (winLen ker), (t - ((baseId ker t + off ker j : ℤ) : K)) ^ 2 *
      basis1 ker (t - ((baseId ker t + off ker j : ℤ) : K)) = secondMoment ker t := by
  have h0 := frac_nonneg ker t
  have h1 := frac_lt_one ker t
  cases ker
  · rw [stencil_sum_linear t (fun x => x ^ 2 * basis1 .linear x)]
    simp only [basis1, secondMoment]
    rw [linearBasis_left h0 h1, linearBasis_right h0 h1]; ring
  · rw [stencil_sum_quadratic t (fun x => x ^ 2 * basis1 .quadratic x)]
    simp only [basis1, secondMoment]
    rw [quadraticBasis_0 h0 h1, quadraticBasis_1 h0 h1, quadraticBasis_2 h0 h1]; ring
  · rw [stencil_sum_cubic t (fun x => x ^ 2 * basis1 .cubic x)]
    simp only [basis1, secondMoment]
    rw [cubicBasis_0 h0 h1, cubicBasis_1 h0 h1, cubicBasis_2 h0 h1, cubicBasis_3 h0 h1]; ring

/-- First moment of the derivative: `-1/h` (gradient reproduction); for the linear kernel only off the
grid lines. -/
theorem sum_dist_dbasis (ker : Kernel) (c t : K) (ht : ker = .linear → frac ker t ≠ 0) :
    ∑ j : Fin (winLen ker), (t - ((baseId ker t + off ker j : ℤ) : K)) *
      dbasis1 c ker (t - ((baseId ker t + off ker j : ℤ) : K)) = -c := by
  have h0 := frac_nonneg ker t
  have h1 := frac_lt_one ker t
  cases ker
  · rw [stencil_sum_linear t (fun x => x * dbasis1 c .linear x)]
    simp only [dbasis1]
    rw [linearDBasis_left h0 h1, linearDBasis_right h0 h1, if_neg (ht rfl), if_neg (ht rfl)]; ring
  · rw [stencil_sum_quadratic t (fun x => x * dbasis1 c .quadratic x)]
    simp only [dbasis1]
    rw [quadraticDBasis_0 h0 h1, quadraticDBasis_1 h0 h1, quadraticDBasis_2 h0 h1]; ring
  · rw [stencil_sum_cubic t (fun x => x * dbasis1 c .cubic x)]
    simp only [dbasis1]
    rw [cubicDBasis_0 h0 h1, cubicDBasis_1 h0 h1, cubicDBasis_2 h0 h1, cubicDBasis_3 h0 h1]; ring

/-- A zero value comes with a zero derivative (1D). -/
theorem dbasis_eq_zero_of_basis (ker : Kernel) (c x : K) (h : basis1 ker x = 0) :
    dbasis1 c ker x = 0 := by
  cases ker
  · simp only [basis1, linearBasis, dbasis1, linearDBasis] at *
    split_ifs at * with h1
    · exfalso; linarith
    · rfl
  · simp only [basis1, quadraticBasis, dbasis1, quadraticDBasis] at *
    split_ifs at * with h1 h2 h3
    · have : (x + 3 / 2) ^ 2 = 0 := by linarith [show (x + 3/2)^2 = 2 * ((1 / 2) * x * x + (3 / 2) * x + 9 / 8) by ring]
      rw [pow_eq_zero_iff two_ne_zero] at this; rw [this]; ring
    · exfalso; nlinarith [h2.1, h2.2]
    · have : (x - 3 / 2) ^ 2 = 0 := by linarith [show (x - 3/2)^2 = 2 * ((1 / 2) * x * x - (3 / 2) * x + 9 / 8) by ring]
      rw [pow_eq_zero_iff two_ne_zero] at this; rw [this]; ring
    · rfl
  · simp only [basis1, cubicBasis, dbasis1, cubicDBasis] at *
    split_ifs at * with h1 h2 h3 h4
    · have : (x + 2) ^ 3 = 0 := by
        linarith [show (x + 2) ^ 3 = 6 * (((1 / 6 * x + 1) * x + 2) * x + 4 / 3) by ring]
      rw [pow_eq_zero_iff three_ne_zero] at this
      have hx : x = -2 := by linarith
      subst hx; norm_num
    · exfalso
      have h5 : 0 ≤ (x + 1) * (x * x) := mul_nonneg (by linarith [h2.1]) (mul_self_nonneg x)
      have h6 : 0 ≤ (x + 1) * (-x) := mul_nonneg (by linarith [h2.1]) (by linarith [h2.2])
      nlinarith [h2.1, h2.2]
    · exfalso
      have h5 : 0 ≤ (1 - x) * (x * x) := mul_nonneg (by linarith [h3.2]) (mul_self_nonneg x)
      have h6 : 0 ≤ (1 - x) * x := mul_nonneg (by linarith [h3.2]) (by linarith [h3.1])
      nlinarith [h3.1, h3.2]
    · exfalso
      have : 0 < (2 - x) ^ 3 := pow_pos (by linarith [h4.2]) 3
      linarith [show (2 - x) ^ 3 = 6 * (((-1 / 6 * x + 1) * x - 2) * x + 4 / 3) by ring]
    · rfl

end
end Hydrax
