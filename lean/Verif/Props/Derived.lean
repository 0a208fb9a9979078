import Verif.Model.Derived
import Verif.Props.Helpers
import Mathlib.Analysis.Normed.Algebra.MatrixExponential
import Mathlib.Analysis.SpecialFunctions.Log.Basic
import Mathlib.Analysis.SpecialFunctions.Exponential
import Mathlib.Analysis.SpecialFunctions.ContinuousFunctionalCalculus.ExpLog.Basic
import Mathlib.Analysis.Matrix.HermitianFunctionalCalculus
import Mathlib.Analysis.Matrix.Order
import Mathlib.Analysis.CStarAlgebra.Matrix

/-!
# Derived quantities: Hencky strain, point invariants, lithostatic stress (C78, C79, C80)
-/

set_option linter.unusedSectionVars false

namespace Hydrax

open Spec

/-! ### C78: Hencky strain -/

/-- What a singular value decomposition is. -/
def Spec.IsSvd (F u : Matrix (Fin 3) (Fin 3) ℝ) (s : Fin 3 → ℝ) (vh : Matrix (Fin 3) (Fin 3) ℝ) : Prop :=
  Orthogonal3 u ∧ Orthogonal3 vh ∧ (∀ k, 0 ≤ s k) ∧ F = u * Matrix.diagonal s * vh

/-- No direction is compressed by more than 1e-12. -/
def Spec.NotFlat (F : Matrix (Fin 3) (Fin 3) ℝ) : Prop :=
  ∀ x : Fin 3 → ℝ, (1 / 10 ^ 12) ^ 2 * (x ⬝ᵥ x) ≤ (F.mulVec x) ⬝ᵥ (F.mulVec x)

/-- Compression positive logarithmic strain: the symmetric `e` with `exp (-2 e) = F Fᵀ`. -/
def Spec.IsLogStrain (F e : Matrix (Fin 3) (Fin 3) ℝ) : Prop :=
  e.transpose = e ∧ NormedSpace.exp ((-2 : ℝ) • e) = F * F.transpose

theorem hencky_matrix (d : Svd ℝ) :
    hencky realFns d = d.u * Matrix.diagonal (fun k => -Real.log (max (d.s k) (1 / 10 ^ 12))) * d.u.transpose := by
  ext i j
  rw [Matrix.mul_apply]
  simp only [Matrix.mul_diagonal, Matrix.transpose_apply, hencky]
  rfl

theorem dot_orth {R : Mat3 ℝ} (h : Orthogonal3 R) (x : Fin 3 → ℝ) : (R.mulVec x) ⬝ᵥ (R.mulVec x) = x ⬝ᵥ x := by
  rw [Matrix.dotProduct_mulVec, Matrix.vecMul_mulVec, h, Matrix.vecMul_one]

theorem singular_ge {F : Mat3 ℝ} {d : Svd ℝ} (hd : IsSvd F d.u d.s d.vh) (hF : NotFlat F) (k : Fin 3) : 1 / 10 ^ 12 ≤ d.s k := by
  obtain ⟨hu, hv, hs, rfl⟩ := hd
  have h := hF (d.vh.transpose.mulVec (Pi.single k 1))
  have hvt : Orthogonal3 d.vh.transpose := by
    unfold Orthogonal3
    rw [Matrix.transpose_transpose]
    exact orth_mul_transpose hv
  rw [dot_orth hvt, ← Matrix.mulVec_mulVec, ← Matrix.mulVec_mulVec, Matrix.mulVec_mulVec _ d.vh, orth_mul_transpose hv,
    Matrix.one_mulVec, dot_orth hu] at h
  have e : (Matrix.diagonal d.s).mulVec (Pi.single k 1) = Pi.single k (d.s k) := by
    ext i
    rw [Matrix.mulVec_diagonal]
    by_cases hi : i = k
    · subst hi; simp
    · simp [hi]
  rw [e] at h
  simp only [single_dotProduct, Pi.single_eq_same, mul_one] at h
  rw [← sq] at h
  exact (sq_le_sq₀ (by positivity) (hs k)).mp h

theorem exp_diag (v : Fin 3 → ℝ) :
    (NormedSpace.exp (Matrix.diagonal v) : Mat3 ℝ) = Matrix.diagonal fun i => Real.exp (v i) := by
  rw [Matrix.exp_diagonal]
  congr 1
  funext i
  rw [Pi.coe_exp, Real.exp_eq_exp_ℝ]

theorem exp_orth {R : Mat3 ℝ} (h : Orthogonal3 R) (A : Mat3 ℝ) :
    NormedSpace.exp (R * A * R.transpose) = R * NormedSpace.exp A * R.transpose := by
  have hi : R⁻¹ = R.transpose := Matrix.inv_eq_left_inv h
  have hU : IsUnit R := (Matrix.isUnit_iff_isUnit_det R).mpr (Matrix.isUnit_det_of_left_inverse h)
  rw [← hi]
  exact Matrix.exp_conj R A hU

/-- **C78**: the reported strain is the logarithmic strain, whatever decomposition the library returns. -/
theorem hencky_log_strain {F : Mat3 ℝ} {d : Svd ℝ} (hd : IsSvd F d.u d.s d.vh) (hF : NotFlat F) :
    IsLogStrain F (hencky realFns d) := by
  have hs := singular_ge hd hF
  obtain ⟨hu, hv, -, hFe⟩ := hd
  have hm : hencky realFns d = d.u * Matrix.diagonal (fun k => -Real.log (d.s k)) * d.u.transpose := by
    rw [hencky_matrix]
    congr 3
    funext k
    rw [max_eq_left (hs k)]
  constructor
  · rw [hm, Matrix.transpose_mul, Matrix.transpose_mul, Matrix.transpose_transpose, Matrix.diagonal_transpose, mul_assoc]
  · have e : (-2 : ℝ) • hencky realFns d = d.u * Matrix.diagonal (fun k => 2 * Real.log (d.s k)) * d.u.transpose := by
      rw [hm, ← Matrix.smul_mul, ← Matrix.mul_smul, ← Matrix.diagonal_smul]
      congr 3
      funext k
      simp only [Pi.smul_apply, smul_eq_mul]
      ring
    rw [e, exp_orth hu, exp_diag]
    have e2 : (fun k => Real.exp (2 * Real.log (d.s k))) = fun k => d.s k * d.s k := by
      funext k
      have : 0 < d.s k := lt_of_lt_of_le (by positivity) (hs k)
      rw [two_mul, Real.exp_add, Real.exp_log this]
    rw [e2, hFe, Matrix.transpose_mul, Matrix.transpose_mul, Matrix.diagonal_transpose, ← Matrix.diagonal_mul_diagonal]
    simp only [mul_assoc]
    rw [← mul_assoc d.vh, orth_mul_transpose hv, one_mul]

section
open scoped Matrix.Norms.L2Operator

theorem symm_exp_inj {A B : Mat3 ℝ} (hA : A.transpose = A) (hB : B.transpose = B)
    (h : NormedSpace.exp A = NormedSpace.exp B) : A = B := by
  have sA : IsSelfAdjoint A := by rw [IsSelfAdjoint, Matrix.star_eq_conjTranspose, Matrix.conjTranspose_eq_transpose_of_trivial, hA]
  have sB : IsSelfAdjoint B := by rw [IsSelfAdjoint, Matrix.star_eq_conjTranspose, Matrix.conjTranspose_eq_transpose_of_trivial, hB]
  rw [← CFC.log_exp A sA, ← CFC.log_exp B sB, h]

end

/-- The logarithmic strain is unique. -/
theorem logStrain_unique {F e e' : Mat3 ℝ} (h : IsLogStrain F e) (h' : IsLogStrain F e') : e = e' := by
  have := symm_exp_inj (A := (-2 : ℝ) • e) (B := (-2 : ℝ) • e') (by rw [Matrix.transpose_smul, h.1])
    (by rw [Matrix.transpose_smul, h'.1]) (h.2.trans h'.2.symm)
  exact smul_right_injective _ (by norm_num : (-2 : ℝ) ≠ 0) this

theorem notFlat_left {R F : Mat3 ℝ} (hR : Orthogonal3 R) (hF : NotFlat F) : NotFlat (R * F) := by
  intro x
  rw [← Matrix.mulVec_mulVec, dot_orth hR]
  exact hF x

theorem notFlat_right {R F : Mat3 ℝ} (hR : Orthogonal3 R) (hF : NotFlat F) : NotFlat (F * R) := by
  intro x
  rw [← Matrix.mulVec_mulVec, ← dot_orth hR x]
  exact hF _

/-- **C78**: rotating the body rotates its strain; rotating the reference configuration does not change it. Both leave the
scalar shear strain alone. -/
theorem hencky_objective {F R : Mat3 ℝ} (hR : Orthogonal3 R) (hF : NotFlat F) {d d' d'' : Svd ℝ} (hd : IsSvd F d.u d.s d.vh)
    (hd' : IsSvd (R * F) d'.u d'.s d'.vh) (hd'' : IsSvd (F * R) d''.u d''.s d''.vh) :
    hencky realFns d' = rotated R (hencky realFns d) ∧ hencky realFns d'' = hencky realFns d ∧
    shearStrainVm realFns (hencky realFns d') = shearStrainVm realFns (hencky realFns d) := by
  have h := hencky_log_strain hd hF
  have e1 : hencky realFns d' = rotated R (hencky realFns d) := by
    refine logStrain_unique (hencky_log_strain hd' (notFlat_left hR hF)) ⟨?_, ?_⟩
    · unfold rotated
      rw [Matrix.transpose_mul, Matrix.transpose_mul, Matrix.transpose_transpose, h.1, mul_assoc]
    · unfold rotated
      rw [← Matrix.smul_mul, ← Matrix.mul_smul, exp_orth hR, h.2, Matrix.transpose_mul]
      simp only [mul_assoc]
  refine ⟨e1, ?_, ?_⟩
  · refine logStrain_unique (hencky_log_strain hd'' (notFlat_right hR hF)) ⟨h.1, ?_⟩
    rw [h.2, Matrix.transpose_mul, mul_assoc, ← mul_assoc R, orth_mul_transpose hR, one_mul]
  · have a := shearStrainVm_value (hencky realFns d')
    have b := shearStrainVm_value (hencky realFns d)
    rw [e1, dev_rotated hR, ddot_rotated hR, ← b.2, ← e1] at a
    exact (sq_eq_sq₀ a.1 b.1).mp a.2

theorem det_orth {R : Mat3 ℝ} (h : Orthogonal3 R) : |R.det| = 1 := by
  have := congrArg Matrix.det h
  rw [Matrix.det_mul, Matrix.det_transpose, Matrix.det_one] at this
  rw [← sq_eq_sq₀ (abs_nonneg _) (by norm_num), sq_abs, sq, this, one_pow]

/-- **C78**: the volumetric strain is minus the logarithm of the volume ratio. -/
theorem hencky_trace {F : Mat3 ℝ} {d : Svd ℝ} (hd : IsSvd F d.u d.s d.vh) (hF : NotFlat F) :
    volStrain (hencky realFns d) = -Real.log |F.det| := by
  have hs := singular_ge hd hF
  have hpos : ∀ k, d.s k ≠ 0 := fun k => (lt_of_lt_of_le (by positivity) (hs k)).ne'
  obtain ⟨hu, hv, h0, hFe⟩ := hd
  rw [hencky_matrix, volStrain, Matrix.trace_mul_comm, ← mul_assoc, hu, one_mul, Matrix.trace_diagonal]
  have hdet : |F.det| = ∏ k, d.s k := by
    rw [hFe, Matrix.det_mul, Matrix.det_mul, abs_mul, abs_mul, det_orth hu, det_orth hv, Matrix.det_diagonal, one_mul, mul_one,
      abs_of_nonneg (Finset.prod_nonneg fun k _ => h0 k)]
  rw [hdet, Real.log_prod fun k _ => hpos k, Finset.sum_neg_distrib]
  congr 1
  exact Finset.sum_congr rfl fun k _ => by rw [max_eq_left (hs k)]

/-- **C78**: for a point whose volume follows its deformation gradient (C16), `eps_v_stack` is the logarithm of the initial
over the current volume. -/
theorem eps_v_volume {dim n : ℕ} (svd : Mat3 ℝ → Svd ℝ) (hsvd : ∀ F, IsSvd F (svd F).u (svd F).s (svd F).vh)
    (s : MPState ℝ dim n) (p : Fin n) (hF : NotFlat (s.F p)) (hdet : 0 < (s.F p).det) (h0 : 0 < s.volume0 p)
    (hv : s.volume p = (s.F p).det * s.volume0 p) : s.epsV realFns svd p = Real.log (s.volume0 p / s.volume p) := by
  rw [MPState.epsV, MPState.eps, hencky_trace (hsvd _) hF, abs_of_pos hdet, ← Real.log_inv]
  congr 1
  rw [hv]
  field_simp

/-- **C78**: the strain of a point is the logarithmic strain of its current deformation gradient, the stored strain that of its
stored gradient, if there is one. -/
theorem reported_strains {dim n : ℕ} (svd : Mat3 ℝ → Svd ℝ) (hsvd : ∀ F, IsSvd F (svd F).u (svd F).s (svd F).vh)
    (s : MPState ℝ dim n) (p : Fin n) : (NotFlat (s.F p) → IsLogStrain (s.F p) (s.eps realFns svd p)) ∧
      (s.FStore = none ↔ s.storedEps realFns svd p = none) ∧
      ∀ f e, s.FStore = some f → NotFlat (f p) → s.storedEps realFns svd p = some e → IsLogStrain (f p) e := by
  refine ⟨fun h => hencky_log_strain (hsvd _) h, ?_, ?_⟩
  · cases h : s.FStore <;> simp [MPState.storedEps, h]
  · intro f e hf hn he
    rw [MPState.storedEps, hf] at he
    cases he
    exact hencky_log_strain (hsvd _) hn

/-- Compression by half along the first axis, followed by a quarter turn. -/
noncomputable def exSvd : Svd ℝ := { u := !![0, -1, 0; 1, 0, 0; 0, 0, 1], s := ![1 / 2, 1, 1], vh := 1 }

theorem exSvd_svd : IsSvd (!![0, -1, 0; 1 / 2, 0, 0; 0, 0, 1] : Mat3 ℝ) exSvd.u exSvd.s exSvd.vh := by
  refine ⟨?_, ?_, ?_, ?_⟩
  · ext i j
    fin_cases i <;> fin_cases j <;> simp [exSvd, Matrix.mul_apply, Fin.sum_univ_three]
  · simp [exSvd, Orthogonal3]
  · intro k
    fin_cases k <;> simp [exSvd]
  · ext i j
    simp only [exSvd, mul_one, Matrix.mul_diagonal]
    fin_cases i <;> fin_cases j <;> simp

theorem exSvd_notFlat : NotFlat (!![0, -1, 0; 1 / 2, 0, 0; 0, 0, 1] : Mat3 ℝ) := by
  intro x
  simp only [dotProduct, Matrix.mulVec, Fin.sum_univ_three, Matrix.of_apply, Matrix.cons_val_zero, Matrix.cons_val_one,
    Matrix.cons_val]
  nlinarith [mul_self_nonneg (x 0), mul_self_nonneg (x 1), mul_self_nonneg (x 2)]

/-- A quarter turn after compressing the first axis to one half: its logarithmic strain, and the volumetric part `ln 2`. -/
example : IsLogStrain (!![0, -1, 0; 1 / 2, 0, 0; 0, 0, 1] : Mat3 ℝ) (hencky realFns exSvd) ∧
    volStrain (hencky realFns exSvd) = -Real.log |(!![0, -1, 0; 1 / 2, 0, 0; 0, 0, 1] : Mat3 ℝ).det| ∧
    ∀ e, IsLogStrain (!![0, -1, 0; 1 / 2, 0, 0; 0, 0, 1] : Mat3 ℝ) e → e = hencky realFns exSvd :=
  ⟨hencky_log_strain exSvd_svd exSvd_notFlat, hencky_trace exSvd_svd exSvd_notFlat,
    fun _ h => logStrain_unique h (hencky_log_strain exSvd_svd exSvd_notFlat)⟩

/-- The same motion seen by an observer at rest (the turn by the identity): the strain is the same. -/
example : hencky realFns exSvd = rotated 1 (hencky realFns exSvd) :=
  (hencky_objective (R := 1) (by simp [Orthogonal3]) exSvd_notFlat exSvd_svd (by rw [one_mul]; exact exSvd_svd)
    (by rw [mul_one]; exact exSvd_svd)).1

/-! ### C79: lithostatic stress -/

/-- Stress at a depth below a slope: `sv` on planes along the slope, `k0 sv` across, shear `tau`. -/
def Spec.slopeStress (sv k0 tau : ℝ) : Matrix (Fin 3) (Fin 3) ℝ := !![k0 * sv, 0, tau; 0, k0 * sv, 0; tau, 0, sv]

/-- **C79**: the invariants returned are those of the stress under a slope. -/
theorem lithostatic_invariants (rho depth g θ k0 : ℝ) :
    let S := slopeStress (rho * g * depth * Real.cos θ) k0 (rho * g * depth * Real.sin θ)
    (lithostatic realFns rho depth g θ k0).1 = meanStress S ∧ 0 ≤ (lithostatic realFns rho depth g θ k0).2 ∧
    (lithostatic realFns rho depth g θ k0).2 ^ 2 = 3 * J2 S := by
  intro S
  refine ⟨?_, Real.sqrt_nonneg _, ?_⟩
  · simp only [S, lithostatic, meanStress, slopeStress, Matrix.of_apply, Matrix.cons_val_zero, Matrix.cons_val_one,
      Matrix.cons_val]
    change (rho * g * depth * Real.cos θ + 2 * (k0 * (rho * g * depth * Real.cos θ))) / 3 = _
    ring
  · have e : (lithostatic realFns rho depth g θ k0).2 ^ 2 =
        (rho * g * depth * Real.cos θ - k0 * (rho * g * depth * Real.cos θ)) ^ 2 + 3 * (rho * g * depth * Real.sin θ) ^ 2 :=
      Real.sq_sqrt (by positivity)
    rw [e]
    simp only [S, J2, ddot, dev, meanStress, slopeStress, Fin.sum_univ_three, Matrix.of_apply, Matrix.cons_val_zero,
      Matrix.cons_val_one, Matrix.cons_val]
    simp
    ring

/-- **C79**: on level ground with `k0 ≤ 1` the tensor rebuilt from the invariants is the lithostatic stress. -/
theorem lithostatic_stress_partial {rho depth g k0 : ℝ} (h0 : 0 ≤ rho * g * depth) (hk : k0 ≤ 1) :
    triaxialStress (lithostatic realFns rho depth g 0 k0).1 (lithostatic realFns rho depth g 0 k0).2 =
      slopeStress (rho * g * depth) k0 0 := by
  have hq : (lithostatic realFns rho depth g 0 k0).2 = rho * g * depth - k0 * (rho * g * depth) := by
    change Real.sqrt ((rho * g * depth * Real.cos 0 - k0 * (rho * g * depth * Real.cos 0)) ^ 2 +
      3 * (rho * g * depth * Real.sin 0) ^ 2) = _
    rw [Real.cos_zero, Real.sin_zero, mul_one, mul_zero, zero_pow two_ne_zero, mul_zero, add_zero]
    exact Real.sqrt_sq (by nlinarith)
  have hp : (lithostatic realFns rho depth g 0 k0).1 = (rho * g * depth + 2 * (k0 * (rho * g * depth))) / 3 := by
    change (rho * g * depth * Real.cos 0 + 2 * (k0 * (rho * g * depth * Real.cos 0))) / 3 = _
    rw [Real.cos_zero, mul_one]
  rw [hq, hp]
  ext i j
  fin_cases i <;> fin_cases j <;> simp [triaxialStress, slopeStress, Matrix.diagonal] <;> ring

/-- Sand of density 1600 at a depth of 3 m. -/
example : triaxialStress (lithostatic realFns 1600 3 10 0 (1 / 2)).1 (lithostatic realFns 1600 3 10 0 (1 / 2)).2 =
    slopeStress (1600 * 10 * 3) (1 / 2) 0 := lithostatic_stress_partial (by norm_num) (by norm_num)

/-- **C79** (refuted): for `k0 > 1` (overconsolidated ground) the rebuilt vertical stress is larger than the weight above. -/
theorem lithostatic_overconsolidated_wrong {rho depth g k0 : ℝ} (h0 : 0 < rho * g * depth) (hk : 1 < k0) :
    rho * g * depth <
      triaxialStress (lithostatic realFns rho depth g 0 k0).1 (lithostatic realFns rho depth g 0 k0).2 2 2 := by
  have hq : (lithostatic realFns rho depth g 0 k0).2 = k0 * (rho * g * depth) - rho * g * depth := by
    change Real.sqrt ((rho * g * depth * Real.cos 0 - k0 * (rho * g * depth * Real.cos 0)) ^ 2 +
      3 * (rho * g * depth * Real.sin 0) ^ 2) = _
    rw [Real.cos_zero, Real.sin_zero, mul_one, mul_zero, zero_pow two_ne_zero, mul_zero, add_zero, ← neg_sub, neg_sq]
    exact Real.sqrt_sq (by nlinarith)
  have hp : (lithostatic realFns rho depth g 0 k0).1 = (rho * g * depth + 2 * (k0 * (rho * g * depth))) / 3 := by
    change (rho * g * depth * Real.cos 0 + 2 * (k0 * (rho * g * depth * Real.cos 0))) / 3 = _
    rw [Real.cos_zero, mul_one]
  rw [hq, hp]
  simp [triaxialStress]
  nlinarith

example : (1600 : ℝ) * 10 * 3 < triaxialStress (lithostatic realFns 1600 3 10 0 2).1 (lithostatic realFns 1600 3 10 0 2).2 2 2 :=
  lithostatic_overconsolidated_wrong (by norm_num) (by norm_num)

/-- **C79** (refuted): under a slope the rebuilt tensor has no shear stress, although the slope needs one. -/
theorem lithostatic_slope_wrong {rho depth g θ k0 : ℝ} (h0 : 0 < rho * g * depth) (hθ : 0 < θ) (hθ' : θ < Real.pi) :
    triaxialStress (lithostatic realFns rho depth g θ k0).1 (lithostatic realFns rho depth g θ k0).2 0 2 = 0 ∧
    slopeStress (rho * g * depth * Real.cos θ) k0 (rho * g * depth * Real.sin θ) 0 2 > 0 := by
  refine ⟨by simp [triaxialStress, Matrix.diagonal], ?_⟩
  simp only [slopeStress, Matrix.of_apply, Matrix.cons_val_zero, Matrix.cons_val]
  exact mul_pos h0 (Real.sin_pos_of_pos_of_lt_pi hθ hθ')

/-- A slope of half a radian. -/
example : triaxialStress (lithostatic realFns 1600 3 10 (1 / 2) (1 / 2)).1 (lithostatic realFns 1600 3 10 (1 / 2) (1 / 2)).2 0 2 = 0 :=
  (lithostatic_slope_wrong (by norm_num) (by norm_num) (by linarith [Real.two_le_pi])).1

/-! ### C80: properties of the points -/

section
variable {K : Type*} [Field K] [LinearOrder K] [IsStrictOrderedRing K] {dim n : ℕ}

/-- **C80**: densities times volumes give back the mass, up to the regularisation 1e-16 of the volume. -/
theorem density_mass (s : MPState K dim n) (p : Fin n) (hm : 0 ≤ s.mass p) (hV : 0 < s.volume p) (h0 : 0 < s.volume0 p) :
    0 ≤ s.mass p - s.density p * s.volume p ∧ s.mass p - s.density p * s.volume p ≤ s.density p / 10 ^ 16 ∧
    0 ≤ s.mass p - s.densityRef p * s.volume0 p ∧ s.mass p - s.densityRef p * s.volume0 p ≤ s.densityRef p / 10 ^ 16 := by
  have key : ∀ m V : K, 0 ≤ m → 0 < V → 0 ≤ m - m / (V + 1 / 10 ^ 16) * V ∧
      m - m / (V + 1 / 10 ^ 16) * V ≤ m / (V + 1 / 10 ^ 16) / 10 ^ 16 := by
    intro m V hm hV
    have hpos : 0 < V + 1 / 10 ^ 16 := by positivity
    have e : m - m / (V + 1 / 10 ^ 16) * V = m / (V + 1 / 10 ^ 16) / 10 ^ 16 := by
      have h := div_mul_cancel₀ m hpos.ne'
      rw [mul_add] at h
      rw [div_eq_mul_one_div (m / (V + 1 / 10 ^ 16)) (10 ^ 16)]
      linarith
    exact ⟨by rw [e]; positivity, e.le⟩
  exact ⟨(key _ _ hm hV).1, (key _ _ hm hV).2, (key _ _ hm h0).1, (key _ _ hm h0).2⟩

/-- A point of mass 2 compressed from volume 1 to 1/2. -/
example (s : MPState ℚ 2 1) (hm : s.mass = fun _ => 2) (hV : s.volume = fun _ => 1 / 2) (h0 : s.volume0 = fun _ => 1) :
    0 ≤ s.mass 0 - s.density 0 * s.volume 0 :=
  (density_mass s 0 (by rw [hm]; norm_num) (by rw [hV]; norm_num) (by rw [h0]; norm_num)).1

/-- **C80**: the density changes inversely to the volume, exactly in terms of the regularised volumes. -/
theorem density_ratio (s : MPState K dim n) (p : Fin n) (hV : 0 < s.volume p) (h0 : 0 < s.volume0 p) :
    s.density p * (s.volume p + 1 / 10 ^ 16) = s.densityRef p * (s.volume0 p + 1 / 10 ^ 16) := by
  unfold MPState.density MPState.densityRef
  have h1 : s.volume p + 1 / 10 ^ 16 ≠ 0 := by positivity
  have h2 : s.volume0 p + 1 / 10 ^ 16 ≠ 0 := by positivity
  rw [div_mul_cancel₀ _ h1, div_mul_cancel₀ _ h2]

example (s : MPState ℚ 2 1) (hV : s.volume = fun _ => 1 / 2) (h0 : s.volume0 = fun _ => 1) :
    s.density 0 * (s.volume 0 + 1 / 10 ^ 16) = s.densityRef 0 * (s.volume0 0 + 1 / 10 ^ 16) :=
  density_ratio s 0 (by rw [hV]; norm_num) (by rw [h0]; norm_num)

/-- **C80**: kinetic energies are nonnegative and vanish only at rest. -/
theorem ke_zero_iff (s : MPState K dim n) (p : Fin n) (hm : 0 < s.mass p) :
    0 ≤ s.KE p ∧ (s.KE p = 0 ↔ ∀ a, s.velocity p a = 0) := by
  have hs : 0 ≤ ∑ a, s.velocity p a ^ 2 := Finset.sum_nonneg fun a _ => sq_nonneg _
  refine ⟨by unfold MPState.KE; positivity, ?_⟩
  unfold MPState.KE
  rw [mul_eq_zero, or_iff_right (by positivity), Finset.sum_eq_zero_iff_of_nonneg fun a _ => sq_nonneg _]
  simp

/-- A point of mass 2 moving with velocity (3, 0) on a body whose other point rests. -/
example (s : MPState ℚ 2 2) (hm : s.mass = fun _ => 2) (hv : s.velocity = ![![3, 0], ![0, 0]]) : s.KE 0 ≠ 0 ∧ s.KE 1 = 0 := by
  refine ⟨fun h => ?_, (ke_zero_iff s 1 (by rw [hm]; norm_num)).2.mpr fun a => ?_⟩
  · have := (ke_zero_iff s 0 (by rw [hm]; norm_num)).2.mp h 0
    rw [hv] at this
    norm_num at this
  · rw [hv]; fin_cases a <;> rfl

/-- **C80**: the kinetic energy of a moving frame splits as usual (König), so it is that of the velocities. -/
theorem ke_boost (s : MPState K dim n) (p : Fin n) (c : Fin dim → K) :
    ({ s with velocity := fun q a => s.velocity q a + c a } : MPState K dim n).KE p =
      s.KE p + s.mass p * ∑ a, s.velocity p a * c a + 1 / 2 * s.mass p * ∑ a, c a * c a := by
  unfold MPState.KE
  dsimp only
  have e : ∑ a, (s.velocity p a + c a) ^ 2 = ∑ a, s.velocity p a ^ 2 + 2 * ∑ a, s.velocity p a * c a + ∑ a, c a * c a := by
    rw [Finset.mul_sum, ← Finset.sum_add_distrib, ← Finset.sum_add_distrib]
    exact Finset.sum_congr rfl fun a _ => by ring
  rw [e]; ring

end

/-- **C80**: pressure and shear stress of the points are the invariants of their stress. -/
theorem point_invariants {dim n : ℕ} (s : MPState ℝ dim n) (p : Fin n) :
    s.pressure p = meanStress (s.stress p) ∧ 0 ≤ s.q realFns p ∧ s.q realFns p ^ 2 = 3 * J2 (s.stress p) :=
  ⟨by simp [MPState.pressure, meanStress, Matrix.trace, Fin.sum_univ_three], (qVm_value _).1, (qVm_value _).2.1⟩

/-- **C80**: the reported strain rate is symmetric and gives the rate of stretching along every direction; a spin has none. -/
theorem strain_rate_stretch {dim n : ℕ} (s : MPState ℝ dim n) (p : Fin n) : (s.depsDt p).transpose = s.depsDt p ∧
    (∀ x : Fin 3 → ℝ, x ⬝ᵥ (s.depsDt p).mulVec x = x ⬝ᵥ (s.L p).mulVec x) ∧
    ((s.L p).transpose = -s.L p → s.depsDt p = 0) := by
  refine ⟨?_, fun x => ?_, fun h => ?_⟩
  · simp [MPState.depsDt, symTensor, add_comm]
  · simp only [MPState.depsDt, symTensor, dotProduct, Matrix.mulVec, Fin.sum_univ_three, Matrix.smul_apply, Matrix.add_apply,
      Matrix.transpose_apply, smul_eq_mul]
    ring
  · simp [MPState.depsDt, symTensor, h]

/-- **C80**: the shear strain rate of a point measures the deviatoric part of the stretching, so a spinning or swelling point
reports its floor 1e-8. -/
theorem shear_strain_rate_value {dim n : ℕ} (s : MPState ℝ dim n) (p : Fin n) :
    0 ≤ s.shearStrainRate realFns p ∧
    s.shearStrainRate realFns p ^ 2 = 2 / 3 * ddot (dev (s.depsDt p)) (dev (s.depsDt p)) + 1 / 10 ^ 16 :=
  shearStrainVm_value _

/-- **C80** (refuted): two of the documented properties never return anything. -/
theorem point_properties_missing {dim n : ℕ} (s : MPState ℝ dim n) : ¬∃ v, s.noValue = some v := by
  rintro ⟨v, h⟩
  cases h

end Hydrax
