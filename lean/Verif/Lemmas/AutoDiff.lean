import Mathlib.Analysis.Calculus.FDeriv.Add
import Mathlib.Analysis.Calculus.FDeriv.Mul
import Mathlib.Analysis.Calculus.Deriv.Inv
import Mathlib.Analysis.SpecialFunctions.ExpDeriv
import Mathlib.Analysis.SpecialFunctions.Log.Deriv
import Mathlib.Analysis.SpecialFunctions.Sqrt
import Mathlib.Analysis.Calculus.FDeriv.Pi
import Mathlib.Analysis.Calculus.FDeriv.Const
import Mathlib.Analysis.Calculus.FDeriv.Comp
import Mathlib.Tactic.LinearCombination
import Mathlib.Tactic.FieldSimp
import Verif.Model.AutoDiff
import Verif.Lemmas.RealFns

/-!
# Lemmas on automatic differentiation in exact arithmetic
-/

namespace Hydrax

/-- Exact real arithmetic. -/
noncomputable def realAd : AdOps ℝ := fieldAd realFns

@[simp] theorem realAd_zero : realAd.zero = 0 := rfl
@[simp] theorem realAd_half : realAd.half = 1 / 2 := rfl
@[simp] theorem realAd_one : realAd.one = 1 := rfl
@[simp] theorem realAd_neg (a : ℝ) : realAd.neg a = -a := rfl
@[simp] theorem realAd_add (a b : ℝ) : realAd.add a b = a + b := rfl
@[simp] theorem realAd_sub (a b : ℝ) : realAd.sub a b = a - b := rfl
@[simp] theorem realAd_mul (a b : ℝ) : realAd.mul a b = a * b := rfl
@[simp] theorem realAd_div (a b : ℝ) : realAd.div a b = a / b := rfl
@[simp] theorem realAd_exp (a : ℝ) : realAd.exp a = Real.exp a := rfl
@[simp] theorem realAd_log (a : ℝ) : realAd.log a = Real.log a := rfl
@[simp] theorem realAd_sqrt (a : ℝ) : realAd.sqrt a = √a := rfl
@[simp] theorem realAd_max (a b : ℝ) : realAd.max a b = max a b := rfl
@[simp] theorem realAd_min (a b : ℝ) : realAd.min a b = min a b := rfl
@[simp] theorem realAd_ge (a b : ℝ) : (realAd.ge a b = true) ↔ b ≤ a := by
  change decide (b ≤ a) = true ↔ _
  exact decide_eq_true_iff
@[simp] theorem realAd_eq (a b : ℝ) : (realAd.eq a b = true) ↔ a = b := by
  change decide (a = b) = true ↔ _
  exact decide_eq_true_iff

/-- The weights of `maximum` and `minimum`. -/
theorem realAd_bal (x z y : ℝ) : realAd.bal x z y = if x = z then (if y = z then 1 / 2 else 1) else 0 := by
  simp only [AdOps.bal, realAd_eq, realAd_half, realAd_one, realAd_zero]

/-- The derivative to the right of a maximum at a tie is the larger one. -/
theorem max_deriv_right {f g : ℝ → ℝ} {A B : ℝ} (hf : HasDerivAt f A 0) (hg : HasDerivAt g B 0) (h : f 0 = g 0) :
    HasDerivWithinAt (fun s => max (f s) (g s)) (max A B) (Set.Ici 0) 0 := by
  wlog hAB : A ≤ B generalizing f g A B
  · have := this hg hf h.symm (not_le.mp hAB).le
    rw [max_comm]
    exact this.congr (fun y _ => max_comm _ _) (max_comm _ _)
  rw [max_eq_right hAB]
  rw [hasDerivWithinAt_iff_isLittleO] at *
  have h1 := (hasDerivAt_iff_isLittleO.mp hf).mono (nhdsWithin_le_nhds (s := Set.Ici (0 : ℝ)))
  have h2 := (hasDerivAt_iff_isLittleO.mp hg).mono (nhdsWithin_le_nhds (s := Set.Ici (0 : ℝ)))
  rw [Asymptotics.isLittleO_iff] at h1 h2 ⊢
  intro c hc
  filter_upwards [h1 hc, h2 hc, self_mem_nhdsWithin] with y e1 e2 hy
  have hy0 : 0 ≤ y := hy
  simp only [sub_zero, smul_eq_mul, Real.norm_eq_abs, h, max_self, abs_of_nonneg hy0] at e1 e2 ⊢
  rw [abs_le] at *
  have : y * A ≤ y * B := mul_le_mul_of_nonneg_left hAB hy0
  constructor
  · have := le_max_right (f y) (g y)
    linarith
  · have : max (f y) (g y) ≤ g 0 + y * B + c * y := max_le (by linarith) (by linarith)
    linarith

/-- The derivative to the left of a maximum at a tie is the smaller one. -/
theorem max_deriv_left {f g : ℝ → ℝ} {A B : ℝ} (hf : HasDerivAt f A 0) (hg : HasDerivAt g B 0) (h : f 0 = g 0) :
    HasDerivWithinAt (fun s => max (f s) (g s)) (min A B) (Set.Iic 0) 0 := by
  wlog hAB : A ≤ B generalizing f g A B
  · have := this hg hf h.symm (not_le.mp hAB).le
    rw [min_comm]
    exact this.congr (fun y _ => max_comm _ _) (max_comm _ _)
  rw [min_eq_left hAB]
  rw [hasDerivWithinAt_iff_isLittleO] at *
  have h1 := (hasDerivAt_iff_isLittleO.mp hf).mono (nhdsWithin_le_nhds (s := Set.Iic (0 : ℝ)))
  have h2 := (hasDerivAt_iff_isLittleO.mp hg).mono (nhdsWithin_le_nhds (s := Set.Iic (0 : ℝ)))
  rw [Asymptotics.isLittleO_iff] at h1 h2 ⊢
  intro c hc
  filter_upwards [h1 hc, h2 hc, self_mem_nhdsWithin] with y e1 e2 hy
  have hy0 : y ≤ 0 := hy
  simp only [sub_zero, smul_eq_mul, Real.norm_eq_abs, h, max_self, abs_of_nonpos hy0] at e1 e2 ⊢
  rw [abs_le] at *
  have : y * B ≤ y * A := mul_le_mul_of_nonpos_left hAB hy0
  constructor
  · have := le_max_left (f y) (g y)
    linarith
  · have : max (f y) (g y) ≤ g 0 + y * A + c * (-y) := max_le (by linarith) (by linarith)
    linarith

set_option linter.unusedSectionVars false

/-- Where a program has no kink, pole or edge: no division by zero, no root or logarithm at or below zero, no tie of a maximum or of
a comparison, and no `stop_gradient`. -/
def Spec.SmoothProg {ι : Type*} (x : ι → ℝ) : Ex ℝ ι → Prop
  | .var _ => True
  | .const _ => True
  | .neg a => SmoothProg x a
  | .add a b => SmoothProg x a ∧ SmoothProg x b
  | .sub a b => SmoothProg x a ∧ SmoothProg x b
  | .mul a b => SmoothProg x a ∧ SmoothProg x b
  | .div a b => SmoothProg x a ∧ SmoothProg x b ∧ b.eval realAd x ≠ 0
  | .exp a => SmoothProg x a
  | .log a => SmoothProg x a ∧ 0 < a.eval realAd x
  | .sqrt a => SmoothProg x a ∧ 0 < a.eval realAd x
  | .max a b => SmoothProg x a ∧ SmoothProg x b ∧ a.eval realAd x ≠ b.eval realAd x
  | .min a b => SmoothProg x a ∧ SmoothProg x b ∧ a.eval realAd x ≠ b.eval realAd x
  | .sel c d a b => SmoothProg x c ∧ SmoothProg x d ∧ c.eval realAd x ≠ d.eval realAd x ∧ SmoothProg x a ∧ SmoothProg x b
  | .stop _ => False

section
variable {ι : Type*} [Fintype ι]

/-- The derivative of a maximum away from the tie. -/
theorem hasFDerivAt_max {f g : (ι → ℝ) → ℝ} {f' g' : (ι → ℝ) →L[ℝ] ℝ} {x : ι → ℝ} (hf : HasFDerivAt f f' x)
    (hg : HasFDerivAt g g' x) (h : f x ≠ g x) :
    HasFDerivAt (fun y => max (f y) (g y)) (if g x < f x then f' else g') x := by
  rcases lt_or_gt_of_ne h with h | h
  · rw [if_neg h.not_gt]
    refine hg.congr_of_eventuallyEq ?_
    filter_upwards [hf.continuousAt.eventually_lt hg.continuousAt h] with y hy
    exact max_eq_right hy.le
  · rw [if_pos h]
    refine hf.congr_of_eventuallyEq ?_
    filter_upwards [hg.continuousAt.eventually_lt hf.continuousAt h] with y hy
    exact max_eq_left hy.le

theorem hasFDerivAt_min {f g : (ι → ℝ) → ℝ} {f' g' : (ι → ℝ) →L[ℝ] ℝ} {x : ι → ℝ} (hf : HasFDerivAt f f' x)
    (hg : HasFDerivAt g g' x) (h : f x ≠ g x) :
    HasFDerivAt (fun y => min (f y) (g y)) (if f x < g x then f' else g') x := by
  rcases lt_or_gt_of_ne h with h | h
  · rw [if_pos h]
    refine hf.congr_of_eventuallyEq ?_
    filter_upwards [hf.continuousAt.eventually_lt hg.continuousAt h] with y hy
    exact min_eq_left hy.le
  · rw [if_neg h.not_gt]
    refine hg.congr_of_eventuallyEq ?_
    filter_upwards [hg.continuousAt.eventually_lt hf.continuousAt h] with y hy
    exact min_eq_right hy.le

/-- Forward mode returns the derivative of the program in every direction. -/
def Spec.Exact (x : ι → ℝ) (e : Ex ℝ ι) : Prop :=
  ∃ D : (ι → ℝ) →L[ℝ] ℝ, HasFDerivAt (fun y => e.eval realAd y) D x ∧ ∀ v, D v = e.tan realAd x v

variable {x : ι → ℝ} {a b c d : Ex ℝ ι}

theorem exact_var (i : ι) : Spec.Exact x (.var i) := ⟨ContinuousLinearMap.proj i, hasFDerivAt_apply i x, fun _ => rfl⟩

theorem exact_const (c : ℝ) : Spec.Exact x (.const c) := ⟨0, hasFDerivAt_const c x, fun _ => rfl⟩

theorem exact_neg (ha : Spec.Exact x a) : Spec.Exact x (.neg a) := by
  obtain ⟨A, hA, eA⟩ := ha
  exact ⟨-A, hA.neg, fun v => by simp [Ex.tan, eA]⟩

theorem exact_add (ha : Spec.Exact x a) (hb : Spec.Exact x b) : Spec.Exact x (.add a b) := by
  obtain ⟨A, hA, eA⟩ := ha
  obtain ⟨B, hB, eB⟩ := hb
  exact ⟨A + B, hA.add hB, fun v => by simp [Ex.tan, eA, eB]⟩

theorem exact_sub (ha : Spec.Exact x a) (hb : Spec.Exact x b) : Spec.Exact x (.sub a b) := by
  obtain ⟨A, hA, eA⟩ := ha
  obtain ⟨B, hB, eB⟩ := hb
  exact ⟨A - B, hA.sub hB, fun v => by simp [Ex.tan, eA, eB]⟩

theorem exact_mul (ha : Spec.Exact x a) (hb : Spec.Exact x b) : Spec.Exact x (.mul a b) := by
  obtain ⟨A, hA, eA⟩ := ha
  obtain ⟨B, hB, eB⟩ := hb
  refine ⟨_, hA.mul hB, fun v => ?_⟩
  simp [Ex.tan, eA, eB]; ring

theorem exact_div (ha : Spec.Exact x a) (hb : Spec.Exact x b) (h : b.eval realAd x ≠ 0) : Spec.Exact x (.div a b) := by
  obtain ⟨A, hA, eA⟩ := ha
  obtain ⟨B, hB, eB⟩ := hb
  have hi := (hasDerivAt_inv h).comp_hasFDerivAt x hB
  refine ⟨_, (hA.mul hi).congr_of_eventuallyEq (Filter.Eventually.of_forall fun y => ?_), fun v => ?_⟩
  · simp [Ex.eval, div_eq_mul_inv]
  · simp [Ex.tan, eA, eB]
    field_simp
    ring

theorem exact_exp (ha : Spec.Exact x a) : Spec.Exact x (.exp a) := by
  obtain ⟨A, hA, eA⟩ := ha
  refine ⟨_, (Real.hasDerivAt_exp _).comp_hasFDerivAt x hA, fun v => ?_⟩
  simp [Ex.tan, eA]; ring

theorem exact_log (ha : Spec.Exact x a) (h : 0 < a.eval realAd x) : Spec.Exact x (.log a) := by
  obtain ⟨A, hA, eA⟩ := ha
  refine ⟨_, (Real.hasDerivAt_log h.ne').comp_hasFDerivAt x hA, fun v => ?_⟩
  simp [Ex.tan, eA]; ring

theorem exact_sqrt (ha : Spec.Exact x a) (h : 0 < a.eval realAd x) : Spec.Exact x (.sqrt a) := by
  obtain ⟨A, hA, eA⟩ := ha
  refine ⟨_, (Real.hasDerivAt_sqrt h.ne').comp_hasFDerivAt x hA, fun v => ?_⟩
  simp [Ex.tan, eA]; ring

theorem exact_max (ha : Spec.Exact x a) (hb : Spec.Exact x b) (h : a.eval realAd x ≠ b.eval realAd x) :
    Spec.Exact x (.max a b) := by
  obtain ⟨A, hA, eA⟩ := ha
  obtain ⟨B, hB, eB⟩ := hb
  refine ⟨_, hasFDerivAt_max hA hB h, fun v => ?_⟩
  simp only [Ex.tan, realAd_bal, realAd_add, realAd_mul, realAd_max]
  rcases lt_or_gt_of_ne h with l | l
  · rw [if_neg l.not_gt, max_eq_right l.le, if_neg l.ne, if_pos rfl, if_neg l.ne, eB]; ring
  · rw [if_pos l, max_eq_left l.le, if_pos rfl, if_neg l.ne, if_neg l.ne, eA]; ring

theorem exact_min (ha : Spec.Exact x a) (hb : Spec.Exact x b) (h : a.eval realAd x ≠ b.eval realAd x) :
    Spec.Exact x (.min a b) := by
  obtain ⟨A, hA, eA⟩ := ha
  obtain ⟨B, hB, eB⟩ := hb
  refine ⟨_, hasFDerivAt_min hA hB h, fun v => ?_⟩
  simp only [Ex.tan, realAd_bal, realAd_add, realAd_mul, realAd_min]
  rcases lt_or_gt_of_ne h with l | l
  · rw [if_pos l, min_eq_left l.le, if_pos rfl, if_neg l.ne', if_neg l.ne', eA]; ring
  · rw [if_neg l.not_gt, min_eq_right l.le, if_neg l.ne', if_pos rfl, if_neg l.ne', eB]; ring

theorem exact_sel (hc : Spec.Exact x c) (hd : Spec.Exact x d) (ha : Spec.Exact x a) (hb : Spec.Exact x b)
    (h : c.eval realAd x ≠ d.eval realAd x) : Spec.Exact x (.sel c d a b) := by
  obtain ⟨C, hC, eC⟩ := hc
  obtain ⟨D, hD, eD⟩ := hd
  obtain ⟨A, hA, eA⟩ := ha
  obtain ⟨B, hB, eB⟩ := hb
  rcases lt_or_gt_of_ne h with l | l
  · refine ⟨B, hB.congr_of_eventuallyEq ?_, fun v => ?_⟩
    · filter_upwards [hC.continuousAt.eventually_lt hD.continuousAt l] with y hy
      simp only [Ex.eval, realAd_ge, if_neg hy.not_ge]
    · simp only [Ex.tan, realAd_ge, if_neg l.not_ge, eB]
  · refine ⟨A, hA.congr_of_eventuallyEq ?_, fun v => ?_⟩
    · filter_upwards [hD.continuousAt.eventually_lt hC.continuousAt l] with y hy
      simp only [Ex.eval, realAd_ge, if_pos hy.le]
    · simp only [Ex.tan, realAd_ge, if_pos l.le, eA]

/-- A factor that vanishes makes the product differentiable whatever kink the other factor has. -/
theorem exact_mul_zero (ha : Spec.Exact x a) (h : a.eval realAd x = 0) (hb : ContinuousAt (fun y => b.eval realAd y) x) :
    Spec.Exact x (.mul a b) := by
  obtain ⟨A, hA, eA⟩ := ha
  refine ⟨b.eval realAd x • A, ?_, fun v => ?_⟩
  · have h1 : HasFDerivAt (fun y => a.eval realAd y * b.eval realAd x) (b.eval realAd x • A) x := hA.mul_const _
    rw [hasFDerivAt_iff_isLittleO] at h1 ⊢
    have h2 : (fun y => a.eval realAd y * (b.eval realAd y - b.eval realAd x)) =o[nhds x] fun y => y - x := by
      have e1 : (fun y => a.eval realAd y) =O[nhds x] fun y => y - x := by
        have := hA.isBigO_sub
        simpa only [h, sub_zero] using this
      have e2 : (fun y => b.eval realAd y - b.eval realAd x) =o[nhds x] fun _ => (1 : ℝ) := by
        rw [Asymptotics.isLittleO_one_iff]
        have e : Filter.Tendsto (fun y => b.eval realAd y - b.eval realAd x) (nhds x) (nhds (b.eval realAd x - b.eval realAd x)) :=
          Filter.Tendsto.sub hb tendsto_const_nhds
        simpa using e
      have e3 := e1.norm_right.mul_isLittleO e2
      simpa using e3
    refine (h1.add h2).congr_left fun y => ?_
    simp only [Ex.eval, realAd_mul, h]
    ring
  · simp [Ex.tan, eA, h]; ring

theorem exact_zero_mul (hb : Spec.Exact x b) (h : b.eval realAd x = 0) (ha : ContinuousAt (fun y => a.eval realAd y) x) :
    Spec.Exact x (.mul a b) := by
  obtain ⟨D, hD, eD⟩ := exact_mul_zero hb h ha
  refine ⟨D, hD.congr_of_eventuallyEq (Filter.Eventually.of_forall fun y => ?_), fun v => ?_⟩
  · simp only [Ex.eval, realAd_mul]; ring
  · rw [eD]; simp only [Ex.tan, realAd_mul, realAd_add]; ring

end
end Hydrax
