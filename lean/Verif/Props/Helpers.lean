import Verif.Lemmas.Tensor
import Verif.Lemmas.RealFns
import Mathlib.Tactic.LinearCombination

/-!
# Stress measures, conversions, small inverses and rotations (C42-C45)
-/

set_option linter.unusedSectionVars false

namespace Hydrax

open Spec

/-! ### C42: stress measures -/

section
variable {K : Type*} [Field K] [LinearOrder K] [IsStrictOrderedRing K]

/-- A rotation of space (or a reflection). -/
def Spec.Orthogonal3 (R : Matrix (Fin 3) (Fin 3) K) : Prop := R.transpose * R = 1

/-- The stress seen in rotated axes. -/
def Spec.rotated (R σ : Matrix (Fin 3) (Fin 3) K) : Matrix (Fin 3) (Fin 3) K := R * σ * R.transpose

/-- Every stress is the sum of a trace-free part and a pressure. -/
theorem stress_split (σ : Mat3 K) :
    (∀ i j, devStress σ i j + (if i = j then pressureOf σ else 0) = σ i j) ∧
    devStress σ 0 0 + devStress σ 1 1 + devStress σ 2 2 = 0 := by
  constructor
  · intro i j
    rw [devStress_eq, pressureOf_eq]
    simp only [dev]
    ring
  · have := meanStress_dev σ
    rw [← devStress_eq] at this
    unfold meanStress at this
    exact (div_eq_zero_iff.mp this).resolve_right (by norm_num)

/-- The split is the only one into a trace-free and a spherical part. -/
theorem stress_split_unique (σ s : Mat3 K) (p : K) (hs : s 0 0 + s 1 1 + s 2 2 = 0)
    (h : ∀ i j, s i j + (if i = j then p else 0) = σ i j) : s = devStress σ ∧ p = pressureOf σ := by
  have hm : meanStress s = 0 := by unfold meanStress; rw [hs, zero_div]
  have e : σ = s + isoT p := by
    ext i j
    rw [← h i j, Matrix.add_apply, isoT_apply]
  rw [devStress_eq, pressureOf_eq, e, dev_add_iso hm, mean_add_iso hm]
  exact ⟨rfl, rfl⟩

/-- A trace-free shear on top of a pressure of 7. -/
example : (!![1, 2, 0; 3, -1, 0; 0, 0, 0] : Mat3 ℚ) = devStress !![8, 2, 0; 3, 6, 0; 0, 0, 7] ∧
    (7 : ℚ) = pressureOf !![8, 2, 0; 3, 6, 0; 0, 0, 7] :=
  stress_split_unique !![8, 2, 0; 3, 6, 0; 0, 0, 7] !![1, 2, 0; 3, -1, 0; 0, 0, 0] 7 (by decide +kernel)
    (by intro i j; fin_cases i <;> fin_cases j <;> decide +kernel)

/-- All ways of calling `get_J2` give the second invariant, and it is not negative. -/
theorem getJ2_value (σ : Mat3 K) :
    getJ2 (some σ) none none = .ok (J2 σ) ∧
    getJ2 none (some (devStress σ)) none = .ok (J2 σ) ∧
    getJ2 (some σ) none (some (pressureOf σ)) = .ok (J2 σ) ∧
    getJ2 (none : Option (Mat3 K)) none none = .error .valueError ∧ 0 ≤ J2 σ := by
  have h : J2dev (devStress σ) = J2 σ := by rw [J2dev_eq, devStress_eq]; rfl
  refine ⟨?_, ?_, ?_, rfl, ?_⟩
  · simp only [getJ2, Option.getD_none]; exact congrArg _ h
  · simp only [getJ2]; exact congrArg _ h
  · simp only [getJ2, Option.getD_some]; exact congrArg _ h
  · unfold J2; exact div_nonneg (ddot_self_nonneg _) (by norm_num)

theorem orth_mul_transpose {R : Mat3 K} (h : Orthogonal3 R) : R * R.transpose = 1 := mul_eq_one_comm.mp h

theorem ddot_trace (A B : Mat3 K) : ddot A B = (A * B.transpose).trace := by
  simp only [ddot, Matrix.trace, Matrix.diag, Matrix.mul_apply, Matrix.transpose_apply]

theorem trace_rotated {R : Mat3 K} (h : Orthogonal3 R) (σ : Mat3 K) : (rotated R σ).trace = σ.trace := by
  rw [rotated, Matrix.trace_mul_comm, ← mul_assoc, h, one_mul]

theorem meanStress_rotated {R : Mat3 K} (h : Orthogonal3 R) (σ : Mat3 K) : meanStress (rotated R σ) = meanStress σ := by
  rw [meanStress_trace, meanStress_trace, trace_rotated h]

theorem rotated_isoT {R : Mat3 K} (h : Orthogonal3 R) (p : K) : rotated R (isoT p) = isoT p := by
  rw [rotated, isoT, mul_smul_comm, mul_one, smul_mul_assoc, orth_mul_transpose h]

theorem dev_rotated {R : Mat3 K} (h : Orthogonal3 R) (σ : Mat3 K) : dev (rotated R σ) = rotated R (dev σ) := by
  have h1 : rotated R σ = rotated R (dev σ) + isoT (meanStress σ) := by
    have h2 : rotated R (dev σ + isoT (meanStress σ)) = rotated R (dev σ) + rotated R (isoT (meanStress σ)) := by
      simp only [rotated, mul_add, add_mul]
    rwa [dev_add_mean, rotated_isoT h] at h2
  rw [h1]
  exact dev_add_iso (by rw [meanStress_rotated h, meanStress_dev]) _

theorem ddot_rotated {R : Mat3 K} (h : Orthogonal3 R) (A B : Mat3 K) : ddot (rotated R A) (rotated R B) = ddot A B := by
  rw [ddot_trace, ddot_trace, rotated, rotated]
  rw [Matrix.transpose_mul, Matrix.transpose_mul, Matrix.transpose_transpose]
  rw [show R * A * R.transpose * (R * (B.transpose * R.transpose)) = R * (A * (R.transpose * R) * B.transpose) * R.transpose by
    simp only [mul_assoc]]
  rw [h, mul_one, Matrix.trace_mul_comm, ← mul_assoc, h, one_mul]

/-- Pressure and `J2` do not depend on the orientation of the axes. -/
theorem invariants_rotated {R : Mat3 K} (h : Orthogonal3 R) (σ : Mat3 K) :
    pressureOf (rotated R σ) = pressureOf σ ∧ J2dev (devStress (rotated R σ)) = J2dev (devStress σ) := by
  refine ⟨by rw [pressureOf_eq, pressureOf_eq, meanStress_rotated h], ?_⟩
  rw [J2dev_eq, J2dev_eq, devStress_eq, devStress_eq, dev_rotated h, ddot_rotated h]

/-- A rotation by the angle with cosine 3/5 about the third axis. -/
example (σ : Mat3 ℚ) : pressureOf (rotated !![3 / 5, -4 / 5, 0; 4 / 5, 3 / 5, 0; 0, 0, 1] σ) = pressureOf σ :=
  (invariants_rotated (by unfold Orthogonal3; decide +kernel) σ).1

end

/-- The von Mises stress is the non-negative number with `q² = 3 J2`; it does not depend on the orientation of the axes and
vanishes exactly for isotropic stresses. -/
theorem qVm_value (σ : Mat3 ℝ) :
    0 ≤ qVm realFns σ ∧ qVm realFns σ ^ 2 = 3 * J2 σ ∧
    (∀ R, Orthogonal3 R → qVm realFns (rotated R σ) = qVm realFns σ) ∧
    (qVm realFns σ = 0 ↔ ∀ i j, σ i j = if i = j then meanStress σ else 0) := by
  have hJ : J2dev (devStress σ) = J2 σ := by rw [J2dev_eq, devStress_eq]; rfl
  have h0 : 0 ≤ J2 σ := (getJ2_value σ).2.2.2.2
  have hq : qVm realFns σ = Real.sqrt (3 * J2 σ) := by rw [qVm, qVmDev, hJ]; rfl
  refine ⟨?_, ?_, fun R hR => ?_, ?_⟩
  · rw [hq]; exact Real.sqrt_nonneg _
  · rw [hq, Real.sq_sqrt (by positivity)]
  · rw [qVm, qVm, qVmDev, qVmDev, (invariants_rotated hR σ).2]
  · rw [hq, Real.sqrt_eq_zero (by positivity)]
    constructor
    · intro h i j
      have h1 : ddot (dev σ) (dev σ) = 0 := by unfold J2 at h; linarith
      have h2 : ∀ i j, dev σ i j = 0 := by
        intro i j
        have a1 := (Finset.sum_eq_zero_iff_of_nonneg (fun i _ => Finset.sum_nonneg fun j _ => mul_self_nonneg _)).mp h1 i
          (Finset.mem_univ _)
        have a2 := (Finset.sum_eq_zero_iff_of_nonneg (fun j _ => mul_self_nonneg _)).mp a1 j (Finset.mem_univ _)
        exact mul_self_eq_zero.mp a2
      have := h2 i j
      simp only [dev] at this
      linarith
    · intro h
      have : dev σ = 0 := by
        ext i j
        simp only [dev, h i j, sub_self, Matrix.zero_apply]
      simp [J2, this, ddot]

/-- `get_scalar_shear_stress` is `q / √3`. -/
theorem tau_value (σ : Mat3 ℝ) : 0 ≤ tauDev realFns (devStress σ) ∧ tauDev realFns (devStress σ) ^ 2 = J2 σ ∧
    qVm realFns σ = Real.sqrt 3 * tauDev realFns (devStress σ) := by
  have hJ : J2dev (devStress σ) = J2 σ := by rw [J2dev_eq, devStress_eq]; rfl
  have h0 : 0 ≤ J2 σ := (getJ2_value σ).2.2.2.2
  refine ⟨Real.sqrt_nonneg _, ?_, ?_⟩
  · rw [tauDev, hJ]; exact Real.sq_sqrt h0
  · rw [qVm, qVmDev, tauDev]
    simp only [realFns_sqrt]
    rw [Real.sqrt_mul (by norm_num)]

/-- The triaxial stress with invariants `(p, q)` has them. -/
theorem triaxial_roundtrip (p q : ℝ) :
    pressureOf (triaxialStress p q) = p ∧ qVm realFns (triaxialStress p q) = |q| ∧
    triaxialStress p q 2 2 - triaxialStress p q 0 0 = q ∧ triaxialStress p q 0 0 = triaxialStress p q 1 1 := by
  have hm : meanStress (triaxialStress p q) = p := by
    simp [meanStress, triaxialStress]; ring
  refine ⟨by rw [pressureOf_eq, hm], ?_, ?_, ?_⟩
  · have hJ : J2 (triaxialStress p q) = q ^ 2 / 3 := by
      simp only [J2, ddot, dev, hm, Fin.sum_univ_three]
      simp [triaxialStress, Matrix.diagonal]
      ring
    have h := (qVm_value (triaxialStress p q)).2.1
    rw [hJ] at h
    have h2 : qVm realFns (triaxialStress p q) ^ 2 = |q| ^ 2 := by rw [h, sq_abs]; ring
    exact (pow_left_inj₀ (qVm_value _).1 (abs_nonneg q) (by norm_num)).mp h2
  · simp [triaxialStress]; ring
  · simp [triaxialStress]

/-- `get_shear_strain_vm` up to its regularisation: its square is `2/3 e:e` of the deviator plus 1e-16. -/
theorem shearStrainVm_value (e : Mat3 ℝ) :
    0 ≤ shearStrainVm realFns e ∧ shearStrainVm realFns e ^ 2 = 2 / 3 * ddot (dev e) (dev e) + 1 / 10 ^ 16 := by
  refine ⟨Real.sqrt_nonneg _, ?_⟩
  rw [shearStrainVm, devStrain, devStrainV_eq, dcontr_eq]
  have := ddot_self_nonneg (dev e)
  exact Real.sq_sqrt (by positivity)

/-- A rotation by the angle with cosine 3/5 about the third axis, for which `qVm_value` applies. -/
example : Orthogonal3 (!![3 / 5, -4 / 5, 0; 4 / 5, 3 / 5, 0; 0, 0, 1] : Mat3 ℚ) ∧
    rotated (!![3 / 5, -4 / 5, 0; 4 / 5, 3 / 5, 0; 0, 0, 1] : Mat3 ℚ) !![25, 0, 0; 0, 0, 0; 0, 0, 0] =
      !![9, 12, 0; 12, 16, 0; 0, 0, 0] := by unfold Orthogonal3 rotated; decide +kernel

/-! ### C43: solid fraction -/

section
variable {K : Type*} [Field K] [LinearOrder K] [IsStrictOrderedRing K]

/-- Solid fraction of grains of density `rhoS` packed to bulk density `rhoB`. -/
def Spec.solidFraction (rhoS rhoB : K) : K := rhoB / rhoS

/-- Void ratio: void volume over solid volume. -/
def Spec.voidRatio (phi : K) : K := (1 - phi) / phi

theorem phi_e_roundtrip {phi e : K} (hphi : phi ≠ 0) (_he : 1 + e ≠ 0) :
    eToPhi (phiToE phi) = phi ∧ phiToE (eToPhi e) = e ∧ phiToE phi = voidRatio phi := by
  refine ⟨?_, ?_, ?_⟩
  · unfold eToPhi phiToE; field_simp; ring
  · unfold eToPhi phiToE; field_simp; ring
  · unfold phiToE voidRatio; field_simp

example : eToPhi (phiToE (3 / 5 : ℚ)) = 3 / 5 ∧ phiToE (eToPhi (2 / 3 : ℚ)) = 2 / 3 ∧ phiToE (3 / 5 : ℚ) = voidRatio (3 / 5) :=
  phi_e_roundtrip (by norm_num) (by norm_num)

/-- The conversions map solid fractions in (0, 1] to void ratios ≥ 0 and back. -/
theorem phi_e_range {phi e : K} : (0 < phi → phi ≤ 1 → 0 ≤ phiToE phi) ∧ (0 ≤ e → 0 < eToPhi e ∧ eToPhi e ≤ 1) := by
  refine ⟨fun h0 h1 => ?_, fun h => ⟨by unfold eToPhi; positivity, ?_⟩⟩
  · unfold phiToE
    have := (one_le_div h0).mpr h1
    linarith
  · unfold eToPhi
    rw [div_le_one (by positivity)]
    linarith

/-- The update of the solid fraction conserves the solid volume `phi V` of a cell whose volume is updated linearly,
`V' = V (1 - dt tr L)` (`L` is compression-positive). -/
theorem phiFromL_conserves_solid (L : Mat3 K) (phi dt V : K) (h : 1 - dt * (L 0 0 + L 1 1 + L 2 2) ≠ 0) :
    phiFromL L phi dt * (V * (1 - dt * (L 0 0 + L 1 1 + L 2 2))) = phi * V := by
  have e : volStrain (dt • symTensor L) = dt * (L 0 0 + L 1 1 + L 2 2) := by
    simp only [volStrain, symTensor, trace3, Matrix.smul_apply, Matrix.add_apply, Matrix.transpose_apply, smul_eq_mul]
    ring
  rw [phiFromL, e]
  field_simp

/-- Compression by three tenths. -/
example : phiFromL (!![1, 5, 0; 0, 2, 0; 0, 0, 0] : Mat3 ℚ) (1 / 2) (1 / 10) * (3 * (1 - 1 / 10 * (1 + 2 + 0))) = 1 / 2 * 3 :=
  phiFromL_conserves_solid !![1, 5, 0; 0, 2, 0; 0, 0, 0] (1 / 2) (1 / 10) 3 (by decide +kernel)

example : (phiFromL (!![1, 5, 0; 0, 2, 0; 0, 0, 0] : Mat3 ℚ) (1 / 2) (1 / 10)) = 5 / 7 := by decide +kernel

/-- `get_e_from_bulk_density` and `get_phi_from_bulk_density` do not compute the void ratio and the solid fraction of any
positive densities: the void ratio is too large by one. -/
theorem phi_from_bulk_density_wrong {rhoS rhoB : K} (hs : 0 < rhoS) (hb : 0 < rhoB) :
    eFromBulkDensity rhoS rhoB = voidRatio (solidFraction rhoS rhoB) + 1 ∧
    phiFromBulkDensity rhoS rhoB = rhoB / (rhoB + rhoS) ∧
    phiFromBulkDensity rhoS rhoB < solidFraction rhoS rhoB ∧
    eFromBulkDensity rhoS rhoB ≠ voidRatio (solidFraction rhoS rhoB) := by
  have h1 : eFromBulkDensity rhoS rhoB = voidRatio (solidFraction rhoS rhoB) + 1 := by
    unfold eFromBulkDensity voidRatio solidFraction; field_simp; ring
  have h2 : phiFromBulkDensity rhoS rhoB = rhoB / (rhoB + rhoS) := by
    unfold phiFromBulkDensity eToPhi eFromBulkDensity; field_simp
  refine ⟨h1, h2, ?_, by rw [h1]; simp⟩
  rw [h2, solidFraction]
  exact div_lt_div_of_pos_left hb hs (by linarith)

/-- Sand of grain density 2650 at bulk density 1590: the helper says 3/8, the solid fraction is 3/5. -/
example : phiFromBulkDensity (2650 : ℚ) 1590 < solidFraction 2650 1590 ∧ phiFromBulkDensity (2650 : ℚ) 1590 = 3 / 8 ∧
    solidFraction (2650 : ℚ) 1590 = 3 / 5 :=
  ⟨(phi_from_bulk_density_wrong (by norm_num) (by norm_num)).2.2.1, by decide +kernel, by unfold solidFraction; norm_num⟩

/-- `get_phi_from_bulk_density` is still increasing in the bulk density, and stays below 1/2 for material less dense than its
grains. -/
theorem phi_from_bulk_density_partial {rhoS b b' : K} (hs : 0 < rhoS) (hb : 0 < b) (h : b < b') :
    phiFromBulkDensity rhoS b < phiFromBulkDensity rhoS b' ∧ (b ≤ rhoS → phiFromBulkDensity rhoS b ≤ 1 / 2) := by
  rw [(phi_from_bulk_density_wrong hs hb).2.1, (phi_from_bulk_density_wrong hs (hb.trans h)).2.1]
  constructor
  · rw [div_lt_div_iff₀ (by linarith) (by linarith)]
    nlinarith
  · intro hle
    rw [div_le_div_iff₀ (by linarith) (by norm_num)]
    linarith

example : phiFromBulkDensity (2650 : ℚ) 1590 < phiFromBulkDensity 2650 1600 :=
  (phi_from_bulk_density_partial (by norm_num) (by norm_num) (by norm_num)).1

/-! ### C44: robust inverses -/

/-- The denominator used by `safe_inv_scalar_clamped`. -/
def Spec.regularised (d : K) : K := if 0 ≤ d then d + 1 / 10 ^ 20 else d - 1 / 10 ^ 20

theorem regularised_ne (d : K) : regularised d ≠ 0 := by
  have : (0 : K) < 1 / 10 ^ 20 := by positivity
  unfold regularised
  split_ifs with h
  · exact (by linarith : (0 : K) < _).ne'
  · exact (by linarith [not_le.mp h] : _ < (0 : K)).ne

/-- The value is the reciprocal of the regularised number whatever the gradient clip; no denominator vanishes. -/
theorem safeInv_value (clip d : K) : safeInv clip d = 1 / regularised d ∧ regularised d ≠ 0 ∧
    ∀ x : K, |x| + 1 / 10 ^ 12 ≠ 0 := by
  refine ⟨?_, regularised_ne d, fun x => ?_⟩
  · have e : d + 1 / 10 ^ 20 * (if d ≥ 0 then 1 else -1) = regularised d := by
      unfold regularised
      by_cases h : 0 ≤ d
      · rw [if_pos h, if_pos h, mul_one]
      · rw [if_neg h, if_neg h]; ring
    simp only [safeInv, e]
    ring
  · have : (0 : K) < 1 / 10 ^ 12 := by positivity
    exact (by linarith [abs_nonneg x] : (0 : K) < _).ne'

/-- `inv_2x2_robust` is a two-sided inverse up to the regularisation factor. -/
theorem inv2_inverse (clip : K) (m : Matrix (Fin 2) (Fin 2) K) :
    m * inv2 clip m = (m.det / regularised m.det) • (1 : Matrix (Fin 2) (Fin 2) K) ∧
    inv2 clip m * m = (m.det / regularised m.det) • (1 : Matrix (Fin 2) (Fin 2) K) := by
  have hd : m 0 0 * m 1 1 - m 0 1 * m 1 0 = m.det := (Matrix.det_fin_two m).symm
  simp only [inv2, hd, (safeInv_value clip m.det).1]
  have hd' := hd.symm
  set r := regularised m.det
  constructor
  all_goals
    ext i j
    fin_cases i <;> fin_cases j <;>
    simp only [Fin.zero_eta, Fin.mk_one, Matrix.mul_apply, Fin.sum_univ_two, Matrix.smul_apply, smul_eq_mul, Matrix.one_apply,
      Fin.isValue, Matrix.of_apply, Matrix.cons_val', Matrix.cons_val_zero, Matrix.cons_val_one, Matrix.cons_val_fin_one,
      if_true, if_false, one_ne_zero, zero_ne_one]
    all_goals
      rw [hd']
      ring

/-- `inv_3x3_robust` is a two-sided inverse up to the regularisation factor. -/
theorem inv3_inverse (clip : K) (m : Mat3 K) :
    m * inv3 clip m = (m.det / regularised m.det) • (1 : Mat3 K) ∧
    inv3 clip m * m = (m.det / regularised m.det) • (1 : Mat3 K) := by
  have hd : m 0 0 * (m 1 1 * m 2 2 - m 1 2 * m 2 1) + m 0 1 * -(m 1 0 * m 2 2 - m 1 2 * m 2 0) +
      m 0 2 * (m 1 0 * m 2 1 - m 1 1 * m 2 0) = m.det := by
    rw [Matrix.det_fin_three]; ring
  simp only [inv3, hd, (safeInv_value clip m.det).1]
  have hd' := hd.symm
  set r := regularised m.det
  constructor
  all_goals
    ext i j
    fin_cases i <;> fin_cases j <;>
    simp only [Fin.zero_eta, Fin.mk_one, Fin.reduceFinMk, Matrix.mul_apply, Fin.sum_univ_three, Matrix.smul_apply, smul_eq_mul,
      Matrix.one_apply, Fin.isValue, Matrix.of_apply, Matrix.cons_val', Matrix.cons_val_zero, Matrix.cons_val_one,
      Matrix.cons_val_fin_one, Matrix.cons_val, if_true, Fin.reduceEq, if_false]
    all_goals
      rw [hd']
      ring

/-- The factor is within `1e-20 / |det|` of one. -/
theorem regularised_factor (d : K) (h : d ≠ 0) : |d / regularised d - 1| ≤ 1 / 10 ^ 20 / |d| := by
  have hr := regularised_ne d
  have he : (0 : K) < 1 / 10 ^ 20 := by positivity
  have key : |d| ≤ |regularised d| ∧ |d - regularised d| = 1 / 10 ^ 20 := by
    unfold regularised
    split_ifs with h0
    · rw [abs_of_nonneg h0, abs_of_nonneg (by linarith)]
      refine ⟨by linarith, ?_⟩
      rw [show d - (d + 1 / 10 ^ 20) = -(1 / 10 ^ 20) by ring, abs_neg, abs_of_pos he]
    · have h0 := not_le.mp h0
      rw [abs_of_neg h0, abs_of_neg (by linarith)]
      refine ⟨by linarith, ?_⟩
      rw [show d - (d - 1 / 10 ^ 20) = 1 / 10 ^ 20 by ring, abs_of_pos he]
  rw [show d / regularised d - 1 = (d - regularised d) / regularised d by field_simp, abs_div, key.2]
  exact div_le_div_of_nonneg_left he.le (abs_pos.mpr h) key.1

example : |(-1 / 1000 : ℚ) / regularised (-1 / 1000) - 1| ≤ 1 / 10 ^ 20 / |(-1 / 1000 : ℚ)| :=
  regularised_factor (-1 / 1000) (by norm_num)

/-- A non-symmetric matrix with determinant 1 and its robust inverse. -/
example : (inv3 1 (!![2, 1, 0; 1, 1, 3; 0, 0, 1] : Mat3 ℚ)) 0 2 = 3 / (1 + 1 / 10 ^ 20) := by decide +kernel

end

/-! ### C45: rotations -/

section
variable {K : Type*} [Field K] [LinearOrder K] [IsStrictOrderedRing K]

/-- Inner product in space. -/
def Spec.inner3 (u v : Fin 3 → K) : K := u 0 * v 0 + u 1 * v 1 + u 2 * v 2

/-- Hamilton's product of `[w, x, y, z]` quaternions. -/
def Spec.qmul (a b : Fin 4 → K) : Fin 4 → K :=
  ![a 0 * b 0 - a 1 * b 1 - a 2 * b 2 - a 3 * b 3,
    a 0 * b 1 + a 1 * b 0 + a 2 * b 3 - a 3 * b 2,
    a 0 * b 2 - a 1 * b 3 + a 2 * b 0 + a 3 * b 1,
    a 0 * b 3 + a 1 * b 2 - a 2 * b 1 + a 3 * b 0]

/-- Unit quaternions. -/
def Spec.UnitQuat (q : Fin 4 → K) : Prop := q 0 ^ 2 + q 1 ^ 2 + q 2 ^ 2 + q 3 ^ 2 = 1

/-- Vector product. -/
def Spec.vcross (u v : Fin 3 → K) : Fin 3 → K :=
  ![u 1 * v 2 - u 2 * v 1, u 2 * v 0 - u 0 * v 2, u 0 * v 1 - u 1 * v 0]

/-- The rotation matrix of a quaternion applied to a vector (`q v q̄`). -/
def Spec.quatApply (q : Fin 4 → K) (v : Fin 3 → K) : Fin 3 → K :=
  ![(q 0 ^ 2 + q 1 ^ 2 - q 2 ^ 2 - q 3 ^ 2) * v 0 + 2 * (q 1 * q 2 - q 0 * q 3) * v 1 + 2 * (q 1 * q 3 + q 0 * q 2) * v 2,
    2 * (q 1 * q 2 + q 0 * q 3) * v 0 + (q 0 ^ 2 - q 1 ^ 2 + q 2 ^ 2 - q 3 ^ 2) * v 1 + 2 * (q 2 * q 3 - q 0 * q 1) * v 2,
    2 * (q 1 * q 3 - q 0 * q 2) * v 0 + 2 * (q 2 * q 3 + q 0 * q 1) * v 1 + (q 0 ^ 2 - q 1 ^ 2 - q 2 ^ 2 + q 3 ^ 2) * v 2]

theorem fin3_ext {u v : Fin 3 → K} (h0 : u 0 = v 0) (h1 : u 1 = v 1) (h2 : u 2 = v 2) : u = v := by
  funext k; fin_cases k <;> assumption

theorem fin4_ext {u v : Fin 4 → K} (h0 : u 0 = v 0) (h1 : u 1 = v 1) (h2 : u 2 = v 2) (h3 : u 3 = v 3) : u = v := by
  funext k; fin_cases k <;> assumption

/-- `quaternion_rotate` is the rotation matrix of the quaternion, for unit quaternions. -/
theorem quatRotate_eq {q : Fin 4 → K} (hq : UnitQuat q) (v : Fin 3 → K) : quatRotate q v = quatApply q v := by
  unfold UnitQuat at hq
  apply fin3_ext
  · simp [quatRotate, cross3, qVec, quatApply]
    linear_combination (-v 0) * hq
  · simp [quatRotate, cross3, qVec, quatApply]
    linear_combination (-v 1) * hq
  · simp [quatRotate, cross3, qVec, quatApply]
    linear_combination (-v 2) * hq

/-- A turn by 120 degrees. -/
example (v : Fin 3 → ℚ) : quatRotate ![1 / 2, 1 / 2, -1 / 2, 1 / 2] v = quatApply ![1 / 2, 1 / 2, -1 / 2, 1 / 2] v :=
  quatRotate_eq (by unfold UnitQuat; decide +kernel) v

/-- Rotation by a unit quaternion preserves inner products and vector products: it is a proper rotation. -/
theorem quatRotate_rigid {q : Fin 4 → K} (hq : UnitQuat q) (u v : Fin 3 → K) :
    inner3 (quatRotate q u) (quatRotate q v) = inner3 u v ∧
    vcross (quatRotate q u) (quatRotate q v) = quatRotate q (vcross u v) := by
  simp only [quatRotate_eq hq]
  unfold UnitQuat at hq
  constructor
  · have h : inner3 (quatApply q u) (quatApply q v) = (q 0 ^ 2 + q 1 ^ 2 + q 2 ^ 2 + q 3 ^ 2) ^ 2 * inner3 u v := by
      simp [inner3, quatApply]
      ring
    rw [h, hq]; ring
  · apply fin3_ext
    · have h : vcross (quatApply q u) (quatApply q v) 0 = (q 0 ^ 2 + q 1 ^ 2 + q 2 ^ 2 + q 3 ^ 2) * quatApply q (vcross u v) 0 := by
        simp [vcross, quatApply]
        ring
      rw [h, hq, one_mul]
    · have h : vcross (quatApply q u) (quatApply q v) 1 = (q 0 ^ 2 + q 1 ^ 2 + q 2 ^ 2 + q 3 ^ 2) * quatApply q (vcross u v) 1 := by
        simp [vcross, quatApply]
        ring
      rw [h, hq, one_mul]
    · have h : vcross (quatApply q u) (quatApply q v) 2 = (q 0 ^ 2 + q 1 ^ 2 + q 2 ^ 2 + q 3 ^ 2) * quatApply q (vcross u v) 2 := by
        simp [vcross, quatApply]
        ring
      rw [h, hq, one_mul]

example (u v : Fin 3 → ℚ) :
    inner3 (quatRotate ![1 / 2, 1 / 2, -1 / 2, 1 / 2] u) (quatRotate ![1 / 2, 1 / 2, -1 / 2, 1 / 2] v) = inner3 u v :=
  (quatRotate_rigid (by unfold UnitQuat; decide +kernel) u v).1

theorem unitQuat_inv {q : Fin 4 → K} (hq : UnitQuat q) : UnitQuat (quatInv q) := by
  unfold UnitQuat at *
  simp [quatInv]
  linarith

theorem unitQuat_mul {p q : Fin 4 → K} (hp : UnitQuat p) (hq : UnitQuat q) : UnitQuat (qmul p q) := by
  unfold UnitQuat at *
  have : qmul p q 0 ^ 2 + qmul p q 1 ^ 2 + qmul p q 2 ^ 2 + qmul p q 3 ^ 2 =
      (p 0 ^ 2 + p 1 ^ 2 + p 2 ^ 2 + p 3 ^ 2) * (q 0 ^ 2 + q 1 ^ 2 + q 2 ^ 2 + q 3 ^ 2) := by
    simp [qmul]
    ring
  rw [this, hp, hq, one_mul]

/-- Rotating by `q` and then by `p` is rotating by the product `p q`. -/
theorem quatRotate_mul {p q : Fin 4 → K} (hp : UnitQuat p) (hq : UnitQuat q) (v : Fin 3 → K) :
    quatRotate p (quatRotate q v) = quatRotate (qmul p q) v := by
  rw [quatRotate_eq hp, quatRotate_eq hq, quatRotate_eq (unitQuat_mul hp hq)]
  apply fin3_ext <;>
  · simp [quatApply, qmul]
    ring

example (v : Fin 3 → ℚ) : quatRotate ![3 / 5, 4 / 5, 0, 0] (quatRotate ![1 / 2, 1 / 2, -1 / 2, 1 / 2] v) =
    quatRotate (qmul ![3 / 5, 4 / 5, 0, 0] ![1 / 2, 1 / 2, -1 / 2, 1 / 2]) v :=
  quatRotate_mul (by unfold UnitQuat; decide +kernel) (by unfold UnitQuat; decide +kernel) v

/-- The inverse helper gives the inverse quaternion and undoes the rotation, on both sides. -/
theorem quatRotate_inv {q : Fin 4 → K} (hq : UnitQuat q) (v : Fin 3 → K) :
    quatRotate (quatInv q) (quatRotate q v) = v ∧ quatRotate q (quatRotate (quatInv q) v) = v ∧
    qmul q (quatInv q) = ![1, 0, 0, 0] := by
  have e1 : ∀ v : Fin 3 → K, quatRotate ![1, 0, 0, 0] v = v := by
    intro v
    apply fin3_ext <;> simp [quatRotate, cross3, qVec]
  have h := hq
  unfold UnitQuat at h
  have e2 : qmul q (quatInv q) = ![1, 0, 0, 0] := by
    apply fin4_ext <;> simp [qmul, quatInv]
    · linarith
    · ring
    · ring
    · ring
  have e3 : qmul (quatInv q) q = ![1, 0, 0, 0] := by
    apply fin4_ext <;> simp [qmul, quatInv]
    · linarith
    · ring
    · ring
    · ring
  exact ⟨by rw [quatRotate_mul (unitQuat_inv hq) hq, e3, e1], by rw [quatRotate_mul hq (unitQuat_inv hq), e2, e1], e2⟩

example (v : Fin 3 → ℚ) :
    quatRotate (quatInv ![1 / 2, 1 / 2, -1 / 2, 1 / 2]) (quatRotate ![1 / 2, 1 / 2, -1 / 2, 1 / 2] v) = v :=
  (quatRotate_inv (by unfold UnitQuat; decide +kernel) v).1

/-- For quaternions that are not of unit length `quaternion_rotate` is not rigid. -/
theorem quatRotate_not_rigid : ∃ q : Fin 4 → ℚ, ∃ v, inner3 (quatRotate q v) (quatRotate q v) ≠ inner3 v v :=
  ⟨![1, 1, 0, 0], ![0, 1, 0], by decide +kernel⟩

example : UnitQuat (![1 / 2, 1 / 2, -1 / 2, 1 / 2] : Fin 4 → ℚ) ∧
    quatRotate (![1 / 2, 1 / 2, -1 / 2, 1 / 2] : Fin 4 → ℚ) ![1, 2, 3] = ![-2, -3, 1] := by
  unfold UnitQuat; decide +kernel

end

/-- The planar rotation is the counter-clockwise rotation by the angle: it preserves inner products and areas, the inverse
helper undoes it, and angles add up. -/
theorem rot2_rigid (θ φ : ℝ) (u v : Fin 2 → ℝ) :
    rot2 realFns θ u 0 * rot2 realFns θ v 0 + rot2 realFns θ u 1 * rot2 realFns θ v 1 = u 0 * v 0 + u 1 * v 1 ∧
    rot2 realFns θ u 0 * rot2 realFns θ v 1 - rot2 realFns θ u 1 * rot2 realFns θ v 0 = u 0 * v 1 - u 1 * v 0 ∧
    rot2Inv realFns θ (rot2 realFns θ u) = u ∧ rot2 realFns θ (rot2Inv realFns θ u) = u ∧
    rot2 realFns θ (rot2 realFns φ u) = rot2 realFns (θ + φ) u ∧ rot2Inv realFns θ u = rot2 realFns (-θ) u ∧
    rot2 realFns θ ![1, 0] = ![Real.cos θ, Real.sin θ] := by
  have h := Real.sin_sq_add_cos_sq θ
  refine ⟨?_, ?_, ?_, ?_, ?_, ?_, ?_⟩
  · simp [rot2]
    linear_combination (u 0 * v 0 + u 1 * v 1) * h
  · simp [rot2]
    linear_combination (u 0 * v 1 - u 1 * v 0) * h
  · funext k
    fin_cases k
    · simp [rot2, rot2Inv]
      linear_combination (u 0) * h
    · simp [rot2, rot2Inv]
      linear_combination (u 1) * h
  · funext k
    fin_cases k
    · simp [rot2, rot2Inv]
      linear_combination (u 0) * h
    · simp [rot2, rot2Inv]
      linear_combination (u 1) * h
  · funext k
    fin_cases k
    · simp [rot2, Real.cos_add, Real.sin_add]
      ring
    · simp [rot2, Real.cos_add, Real.sin_add]
      ring
  · funext k
    fin_cases k <;> simp [rot2, rot2Inv]
  · funext k
    fin_cases k <;> simp [rot2]

end Hydrax
