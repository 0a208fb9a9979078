import Verif.Model.Laws
import Verif.Spec.Stress
import Mathlib.Tactic.Ring
import Mathlib.Tactic.FieldSimp
import Mathlib.Tactic.Linarith
import Mathlib.Tactic.Positivity
import Mathlib.Tactic.NormNum
import Mathlib.Tactic.FinCases

/-!
# Small facts about 3×3 tensors (helper lemmas)
-/

set_option linter.unusedSectionVars false

namespace Hydrax

section
variable {K : Type*} [Field K] [LinearOrder K] [IsStrictOrderedRing K]

theorem trace3 (A : Mat3 K) : A.trace = A 0 0 + A 1 1 + A 2 2 := by
  simp only [Matrix.trace, Matrix.diag, Fin.sum_univ_three]

theorem pressureOf_eq (σ : Mat3 K) : pressureOf σ = Spec.meanStress σ := by
  unfold pressureOf Spec.meanStress; rw [trace3]; ring

theorem isoT_apply (c : K) (i j : Fin 3) : isoT c i j = if i = j then c else 0 := by
  simp [isoT, Matrix.one_apply]

theorem meanStress_add (A B : Mat3 K) :
    Spec.meanStress (A + B) = Spec.meanStress A + Spec.meanStress B := by
  simp only [Spec.meanStress, Matrix.add_apply]; ring

theorem meanStress_smul (c : K) (A : Mat3 K) : Spec.meanStress (c • A) = c * Spec.meanStress A := by
  simp only [Spec.meanStress, Matrix.smul_apply, smul_eq_mul]; ring

theorem meanStress_isoT (c : K) : Spec.meanStress (isoT c) = c := by
  simp only [Spec.meanStress, isoT_apply, if_true]; ring

theorem meanStress_trace (A : Mat3 K) : Spec.meanStress A = A.trace / 3 := by
  rw [trace3]; rfl

theorem meanStress_zero : Spec.meanStress (0 : Mat3 K) = 0 := by simp [Spec.meanStress]

theorem dev_zero : Spec.dev (0 : Mat3 K) = 0 := by
  ext i j; simp [Spec.dev, meanStress_zero]

theorem devStress_eq (σ : Mat3 K) : devStress σ = Spec.dev σ := by
  ext i j
  simp only [devStress, devStressP, Spec.dev, pressureOf_eq, Matrix.sub_apply, Matrix.smul_apply,
    Matrix.one_apply, smul_eq_mul, mul_ite, mul_one, mul_zero]

theorem dcontr_eq (A B : Mat3 K) : dcontr A B = Spec.ddot A B := rfl

theorem ddot_smul (a b : K) (A B : Mat3 K) : Spec.ddot (a • A) (b • B) = a * b * Spec.ddot A B := by
  simp only [Spec.ddot, Matrix.smul_apply, smul_eq_mul, Finset.mul_sum]
  refine Finset.sum_congr rfl fun i _ => Finset.sum_congr rfl fun j _ => by ring

theorem ddot_self_nonneg (A : Mat3 K) : 0 ≤ Spec.ddot A A :=
  Finset.sum_nonneg fun _ _ => Finset.sum_nonneg fun _ _ => mul_self_nonneg _

/-- The mean of a deviator is zero. -/
theorem meanStress_dev (A : Mat3 K) : Spec.meanStress (Spec.dev A) = 0 := by
  simp only [Spec.meanStress, Spec.dev, if_true]; ring

/-- The deviator of `s + p I` with a trace-free `s` is `s`. -/
theorem dev_add_iso {s : Mat3 K} (hs : Spec.meanStress s = 0) (p : K) : Spec.dev (s + isoT p) = s := by
  ext i j
  simp only [Spec.dev, meanStress_add, hs, meanStress_isoT, Matrix.add_apply, isoT_apply, zero_add]
  ring

theorem mean_add_iso {s : Mat3 K} (hs : Spec.meanStress s = 0) (p : K) :
    Spec.meanStress (s + isoT p) = p := by
  rw [meanStress_add, hs, meanStress_isoT, zero_add]

theorem J2_add_iso {s : Mat3 K} (hs : Spec.meanStress s = 0) (p : K) :
    Spec.J2 (s + isoT p) = Spec.ddot s s / 2 := by
  rw [Spec.J2, dev_add_iso hs]

theorem J2dev_eq (s : Mat3 K) : J2dev s = Spec.ddot s s / 2 := by
  unfold J2dev; rw [dcontr_eq]; ring

theorem dev_isoT (p : K) : Spec.dev (isoT p) = 0 := by
  have := dev_add_iso (s := (0 : Mat3 K)) meanStress_zero p
  rwa [zero_add] at this

theorem J2_isoT (p : K) : Spec.J2 (isoT p) = 0 := by
  rw [Spec.J2, dev_isoT]; simp [Spec.ddot]

/-- Splitting a tensor into deviator and mean. -/
theorem dev_add_mean (A : Mat3 K) : Spec.dev A + isoT (Spec.meanStress A) = A := by
  ext i j
  simp only [Matrix.add_apply, Spec.dev, isoT_apply]
  ring

theorem devStrainV_eq (e : Mat3 K) : devStrainV e (volStrain e) = Spec.dev e := by
  ext i j
  simp only [devStrainV, volStrain, Spec.dev, Matrix.sub_apply, Matrix.smul_apply, Matrix.one_apply,
    smul_eq_mul, mul_ite, mul_one, mul_zero, meanStress_trace]

theorem ddot_comm (A B : Mat3 K) : Spec.ddot A B = Spec.ddot B A := by
  simp only [Spec.ddot, mul_comm]

/-- A trace-free tensor does not see the spherical part of the other factor. -/
theorem ddot_dev_right {s : Mat3 K} (hs : Spec.meanStress s = 0) (A : Mat3 K) :
    Spec.ddot s (Spec.dev A) = Spec.ddot s A := by
  have h3 : s 0 0 + s 1 1 + s 2 2 = 0 := by
    unfold Spec.meanStress at hs
    have := (div_eq_zero_iff.mp hs).resolve_right (by norm_num)
    exact this
  simp only [Spec.ddot, Spec.dev, Fin.sum_univ_three]
  simp only [if_true, Fin.reduceEq, if_false, sub_zero]
  linear_combination (-Spec.meanStress A) * h3

end
end Hydrax
