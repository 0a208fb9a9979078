import Verif.Lemmas.Tensor
import Verif.Lemmas.RealFns
import Verif.Model.LawTable

/-!
# Properties C32, C33, C34: Drucker-Prager
-/

set_option linter.unusedSectionVars false

namespace Hydrax

section
variable {K : Type*} [Field K] [LinearOrder K] [IsStrictOrderedRing K]

theorem dpTrial_sTr (fn : MathFns K) (pr : DPParams K) (L e : Mat3 K) (epsP p0 dt : K) :
    (dpTrial fn pr L e epsP p0 dt).sTr =
      (2 * pr.shear) • Spec.dev (dpTrial fn pr L e epsP p0 dt).epsETr := by
  rw [← devStrainV_eq]; rfl

theorem dpTrial_mean (fn : MathFns K) (pr : DPParams K) (L e : Mat3 K) (epsP p0 dt : K) :
    Spec.meanStress (dpTrial fn pr L e epsP p0 dt).sTr = 0 := by
  rw [dpTrial_sTr, meanStress_smul, meanStress_dev, mul_zero]

/-- **C33.** For a connected point the returned stress is the elastic stress of the returned elastic strain, in
every branch; a disconnected point has zero stress and zero elastic strain. -/
theorem dp_stress_strain_consistent (fn : MathFns K) (pr : DPParams K) (hK : pr.bulk ≠ 0)
    (hG : pr.shear ≠ 0) (L e : Mat3 K) (epsP p0 rho dt : K) :
    (pr.rho0 ≤ rho → (dpUpdate fn pr L e epsP p0 rho dt).stress =
      (2 * pr.shear) • Spec.dev (dpUpdate fn pr L e epsP p0 rho dt).epsE +
        (pr.bulk * (dpUpdate fn pr L e epsP p0 rho dt).epsE.trace + p0) • (1 : Mat3 K)) ∧
    (rho < pr.rho0 → (dpUpdate fn pr L e epsP p0 rho dt).stress = 0 ∧
      (dpUpdate fn pr L e epsP p0 rho dt).epsE = 0) := by
  have hm := dpTrial_mean fn pr L e epsP p0 dt
  have tr_iso : ∀ c : K, (isoT c).trace = 3 * c := by
    intro c; rw [trace3]; simp only [isoT_apply, if_true]; ring
  constructor
  · intro hr
    unfold dpUpdate
    simp only
    rw [if_pos hr]
    split_ifs
    · -- apex
      simp only [dpApex]
      rw [dev_isoT, smul_zero, zero_add, tr_iso]
      unfold isoT
      congr 1
      field_simp
      ring
    · -- cone
      simp only [dpCone]
      have hz : Spec.meanStress ((1 / (2 * pr.shear)) •
          (1 - pr.shear * dpMulti pr (dpTrial fn pr L e epsP p0 dt) /
            (dpTrial fn pr L e epsP p0 dt).sqrtJ2) • (dpTrial fn pr L e epsP p0 dt).sTr) = 0 := by
        rw [meanStress_smul, meanStress_smul, hm]; ring
      rw [dev_add_iso hz, Matrix.trace_add, tr_iso]
      have ht : Matrix.trace ((1 / (2 * pr.shear)) •
          (1 - pr.shear * dpMulti pr (dpTrial fn pr L e epsP p0 dt) /
            (dpTrial fn pr L e epsP p0 dt).sqrtJ2) • (dpTrial fn pr L e epsP p0 dt).sTr) = 0 := by
        rw [meanStress_trace] at hz
        exact (div_eq_zero_iff.mp hz).resolve_right (by norm_num)
      rw [ht, smul_smul (2 * pr.shear), mul_one_div_cancel (mul_ne_zero two_ne_zero hG), one_smul]
      unfold isoT
      congr 2
      field_simp
      ring
    · -- elastic
      simp only [dpElastic]
      rw [dpTrial_sTr]
      rfl
  · intro hr
    unfold dpUpdate
    simp only
    rw [if_neg (not_le.mpr hr)]
    exact ⟨rfl, rfl⟩

/-- Every point of a body under the Drucker-Prager law gets its own `dpUpdate`, with its own density, and the
initial pressures are kept. -/
theorem dpLaw_point {dim n : ℕ} (fn : MathFns K) (pr : DPParams K) (reset : Bool) (s : MPState K dim n)
    (e : ℕ → Mat3 K) (epsP p0 : ℕ → K) (dt : K) :
    ∃ s' e' epsP', (dpLaw fn pr reset).update s (.dp e epsP p0) dt = .ok (s', .dp e' epsP' p0) ∧
      ∀ p : Fin n, DPResult.mk (s'.stress p) (e' p.val) (epsP' p.val) =
        dpUpdate fn pr (s.L p) (e p.val) (epsP p.val) (p0 p.val) (s.mass p / (s.volume p + 1 / 10 ^ 16)) dt := by
  refine ⟨_, _, _, rfl, fun p => ?_⟩
  simp only [ofFin, p.isLt, dite_true]
  rfl

end

section

/-- Distance of the trial state from the regularised cone. -/
theorem dpTrial_yf (pr : DPParams ℝ) (L e : Mat3 ℝ) (epsP p0 dt : ℝ) :
    (dpTrial realFns pr L e epsP p0 dt).yf = (dpTrial realFns pr L e epsP p0 dt).sqrtJ2 -
      pr.mu1 * (dpTrial realFns pr L e epsP p0 dt).pTr - pr.mu2 * (pr.c0 + pr.H * epsP) := rfl

theorem dpTrial_sqrtJ2 (pr : DPParams ℝ) (L e : Mat3 ℝ) (epsP p0 dt : ℝ) :
    (dpTrial realFns pr L e epsP p0 dt).sqrtJ2 =
      Real.sqrt (max (Spec.ddot (dpTrial realFns pr L e epsP p0 dt).sTr
        (dpTrial realFns pr L e epsP p0 dt).sTr / 2) (1 / 10 ^ 12)) := by
  rw [← J2dev_eq]; rfl

theorem dpTrial_sqrtJ2_pos (pr : DPParams ℝ) (L e : Mat3 ℝ) (epsP p0 dt : ℝ) :
    0 < (dpTrial realFns pr L e epsP p0 dt).sqrtJ2 := by
  rw [dpTrial_sqrtJ2]
  exact Real.sqrt_pos.mpr (lt_max_of_lt_right (by norm_num))

theorem sqrt_J2_scale {s : Mat3 ℝ} (hs : Spec.meanStress s = 0) {f : ℝ} (hf : 0 ≤ f) (p : ℝ) :
    Real.sqrt (Spec.J2 (f • s + isoT p)) = f * Real.sqrt (Spec.ddot s s / 2) := by
  rw [J2_add_iso (by rw [meanStress_smul, hs, mul_zero]), ddot_smul, mul_div_assoc,
    Real.sqrt_mul (mul_self_nonneg f), Real.sqrt_mul_self hf]

/-- The exact value of the yield function after a return to the cone. -/
theorem dp_cone_residual (pr : DPParams ℝ) (L e : Mat3 ℝ) (epsP p0 rho dt : ℝ)
    (hD : pr.shear + pr.bulk * pr.mu1 * pr.mu1Hat + pr.H * pr.mu2 * pr.mu2 ≠ 0)
    (hr : pr.rho0 ≤ rho) (hy : 0 < (dpTrial realFns pr L e epsP p0 dt).yf)
    (hc : 0 ≤ (dpTrial realFns pr L e epsP p0 dt).sqrtJ2 -
      pr.shear * dpMulti pr (dpTrial realFns pr L e epsP p0 dt))
    (hJ : 1 / 10 ^ 12 ≤ Spec.ddot (dpTrial realFns pr L e epsP p0 dt).sTr
        (dpTrial realFns pr L e epsP p0 dt).sTr / 2) :
    Spec.dpYield pr.mu1 pr.mu2
      (pr.c0 + pr.H * (dpUpdate realFns pr L e epsP p0 rho dt).epsP)
      (dpUpdate realFns pr L e epsP p0 rho dt).stress =
    2 * pr.bulk * pr.mu1 * pr.mu1Hat * dpMulti pr (dpTrial realFns pr L e epsP p0 dt) := by
  have hm := dpTrial_mean realFns pr L e epsP p0 dt
  have hp := dpTrial_sqrtJ2_pos pr L e epsP p0 dt
  have hyf := dpTrial_yf pr L e epsP p0 dt
  have hs := dpTrial_sqrtJ2 pr L e epsP p0 dt
  rw [max_eq_left hJ] at hs
  unfold dpUpdate
  simp only
  rw [if_pos hr, if_pos hy, if_neg (not_lt.mpr hc)]
  set t := dpTrial realFns pr L e epsP p0 dt with ht
  have hf : 0 ≤ 1 - pr.shear * dpMulti pr t / t.sqrtJ2 := by
    rw [sub_nonneg, div_le_one hp]; linarith
  have hpm : dpMulti pr t * (pr.shear + pr.bulk * pr.mu1 * pr.mu1Hat + pr.H * pr.mu2 * pr.mu2) = t.yf := by
    unfold dpMulti; exact div_mul_cancel₀ _ hD
  simp only [dpCone, Spec.dpYield]
  rw [sqrt_J2_scale hm hf, ← hs, mean_add_iso (by rw [meanStress_smul, hm, mul_zero])]
  have e1 : (1 - pr.shear * dpMulti pr t / t.sqrtJ2) * t.sqrtJ2 = t.sqrtJ2 - pr.shear * dpMulti pr t := by
    field_simp
  rw [e1]
  linear_combination -hyf - hpm

/-- **C32** (partial): with `mu_1_hat = 0` (no dilation; the default) and inactive apex regularisation the
yield function at the returned stress and hardening state is at most zero, for every connected update.
Missing: `mu_1_hat ≠ 0`, where it is false (`dp_dilatant_inadmissible`). -/
theorem dp_admissible_partial (pr : DPParams ℝ) (hG : 0 < pr.shear) (hH : 0 ≤ pr.H)
    (hhat : pr.mu1Hat = 0) (hmu1 : 1 / 10 ^ 8 ≤ pr.mu1)
    (hapex : 1 / 10 ^ 12 ≤ pr.bulk * pr.mu1 - pr.H * pr.mu2 * (pr.mu2 / pr.mu1))
    (L e : Mat3 ℝ) (epsP p0 rho dt : ℝ) (hr : pr.rho0 ≤ rho) :
    Spec.dpYield pr.mu1 pr.mu2
      (pr.c0 + pr.H * (dpUpdate realFns pr L e epsP p0 rho dt).epsP)
      (dpUpdate realFns pr L e epsP p0 rho dt).stress ≤ 0 := by
  have hm := dpTrial_mean realFns pr L e epsP p0 dt
  have hp := dpTrial_sqrtJ2_pos pr L e epsP p0 dt
  have hyf := dpTrial_yf pr L e epsP p0 dt
  have hs : Real.sqrt (Spec.ddot (dpTrial realFns pr L e epsP p0 dt).sTr
        (dpTrial realFns pr L e epsP p0 dt).sTr / 2) ≤ (dpTrial realFns pr L e epsP p0 dt).sqrtJ2 := by
    rw [dpTrial_sqrtJ2]; exact Real.sqrt_le_sqrt (le_max_left _ _)
  unfold dpUpdate
  simp only
  rw [if_pos hr]
  set t := dpTrial realFns pr L e epsP p0 dt with ht
  have hD : 0 < pr.shear + pr.bulk * pr.mu1 * pr.mu1Hat + pr.H * pr.mu2 * pr.mu2 := by
    rw [hhat]
    have : 0 ≤ pr.H * pr.mu2 * pr.mu2 := by nlinarith [mul_nonneg hH (mul_self_nonneg pr.mu2)]
    linarith
  split_ifs with hy ha
  · -- apex
    have hm1 : (0 : ℝ) < pr.mu1 := lt_of_lt_of_le (by norm_num) hmu1
    have hd : 0 < pr.bulk * pr.mu1 - pr.H * pr.mu2 * (pr.mu2 / pr.mu1) :=
      lt_of_lt_of_le (by norm_num) hapex
    simp only [dpApex, Spec.dpYield, J2_isoT, Real.sqrt_zero, meanStress_isoT, max_eq_left hmu1,
      max_eq_left hapex]
    set d := (pr.mu1 * t.pTr + pr.mu2 * (pr.c0 + pr.H * epsP)) /
      (pr.bulk * pr.mu1 - pr.H * pr.mu2 * (pr.mu2 / pr.mu1)) with hdd
    have : d * (pr.bulk * pr.mu1 - pr.H * pr.mu2 * (pr.mu2 / pr.mu1)) =
      pr.mu1 * t.pTr + pr.mu2 * (pr.c0 + pr.H * epsP) := div_mul_cancel₀ _ hd.ne'
    apply le_of_eq
    linear_combination this
  · -- cone
    have hf : 0 ≤ 1 - pr.shear * dpMulti pr t / t.sqrtJ2 := by
      rw [sub_nonneg, div_le_one hp]; linarith
    have hpm : dpMulti pr t * (pr.shear + pr.bulk * pr.mu1 * pr.mu1Hat + pr.H * pr.mu2 * pr.mu2) = t.yf := by
      unfold dpMulti; exact div_mul_cancel₀ _ hD.ne'
    simp only [dpCone, Spec.dpYield]
    rw [sqrt_J2_scale hm hf, mean_add_iso (by rw [meanStress_smul, hm, mul_zero])]
    have e1 : (1 - pr.shear * dpMulti pr t / t.sqrtJ2) * t.sqrtJ2 = t.sqrtJ2 - pr.shear * dpMulti pr t := by
      field_simp
    have e2 := mul_le_mul_of_nonneg_left hs hf
    rw [e1] at e2
    rw [hhat] at hpm ⊢
    linarith
  · -- elastic
    simp only [dpElastic, Spec.dpYield]
    rw [J2_add_iso hm, mean_add_iso hm]
    linarith

/-- **C32** refuted for dilatant materials: every return to the cone with `K, mu_1, mu_1_hat > 0` ends
strictly outside the yield surface. -/
theorem dp_dilatant_inadmissible (pr : DPParams ℝ) (hG : 0 < pr.shear) (hH : 0 ≤ pr.H)
    (hK : 0 < pr.bulk) (hmu1 : 0 < pr.mu1) (hhat : 0 < pr.mu1Hat) (L e : Mat3 ℝ)
    (epsP p0 rho dt : ℝ) (hr : pr.rho0 ≤ rho) (hy : 0 < (dpTrial realFns pr L e epsP p0 dt).yf)
    (hc : 0 ≤ (dpTrial realFns pr L e epsP p0 dt).sqrtJ2 -
      pr.shear * dpMulti pr (dpTrial realFns pr L e epsP p0 dt))
    (hJ : 1 / 10 ^ 12 ≤ Spec.ddot (dpTrial realFns pr L e epsP p0 dt).sTr
        (dpTrial realFns pr L e epsP p0 dt).sTr / 2) :
    0 < Spec.dpYield pr.mu1 pr.mu2
      (pr.c0 + pr.H * (dpUpdate realFns pr L e epsP p0 rho dt).epsP)
      (dpUpdate realFns pr L e epsP p0 rho dt).stress := by
  have hD : 0 < pr.shear + pr.bulk * pr.mu1 * pr.mu1Hat + pr.H * pr.mu2 * pr.mu2 := by
    have h1 : 0 ≤ pr.H * pr.mu2 * pr.mu2 := by nlinarith [mul_nonneg hH (mul_self_nonneg pr.mu2)]
    have h2 : 0 < pr.bulk * pr.mu1 * pr.mu1Hat := by positivity
    linarith
  rw [dp_cone_residual pr L e epsP p0 rho dt hD.ne' hr hy hc hJ]
  have : 0 < dpMulti pr (dpTrial realFns pr L e epsP p0 dt) := div_pos hy hD
  positivity

/-- **C34** (partial): the accumulated plastic strain does not decrease in an elastic step, on the cone or on
disconnection. Missing: the apex return, where it strictly decreases (`dp_apex_decreases`). -/
theorem dp_plastic_strain_monotone_partial (pr : DPParams ℝ)
    (hD : 0 < pr.shear + pr.bulk * pr.mu1 * pr.mu1Hat + pr.H * pr.mu2 * pr.mu2) (hmu2 : 0 ≤ pr.mu2)
    (L e : Mat3 ℝ) (epsP p0 rho dt : ℝ)
    (hna : rho < pr.rho0 ∨ (dpTrial realFns pr L e epsP p0 dt).yf ≤ 0 ∨
      0 ≤ (dpTrial realFns pr L e epsP p0 dt).sqrtJ2 -
      pr.shear * dpMulti pr (dpTrial realFns pr L e epsP p0 dt)) :
    epsP ≤ (dpUpdate realFns pr L e epsP p0 rho dt).epsP := by
  unfold dpUpdate
  simp only
  split_ifs with hr hy ha
  · rcases hna with h | h | h
    · exact absurd hr (not_le.mpr h)
    · exact absurd hy (not_lt.mpr h)
    · exact absurd ha (not_lt.mpr h)
  · simp only [dpCone]
    have : 0 < dpMulti pr (dpTrial realFns pr L e epsP p0 dt) := div_pos hy hD
    have := mul_nonneg hmu2 this.le
    linarith
  · exact le_rfl
  · exact le_rfl

/-- **C34** refuted at the apex: for a non-dilatant cohesive material every apex return strictly decreases the
accumulated plastic strain. -/
theorem dp_apex_decreases (pr : DPParams ℝ) (hG : 0 < pr.shear) (hH : 0 ≤ pr.H) (hhat : pr.mu1Hat = 0)
    (hmu2 : 0 < pr.mu2) (L e : Mat3 ℝ) (epsP p0 rho dt : ℝ) (hr : pr.rho0 ≤ rho)
    (hy : 0 < (dpTrial realFns pr L e epsP p0 dt).yf)
    (ha : (dpTrial realFns pr L e epsP p0 dt).sqrtJ2 -
      pr.shear * dpMulti pr (dpTrial realFns pr L e epsP p0 dt) < 0) :
    (dpUpdate realFns pr L e epsP p0 rho dt).epsP < epsP := by
  have hp := dpTrial_sqrtJ2_pos pr L e epsP p0 dt
  have hyf := dpTrial_yf pr L e epsP p0 dt
  unfold dpUpdate
  simp only
  rw [if_pos hr, if_pos hy, if_pos ha]
  set t := dpTrial realFns pr L e epsP p0 dt with ht
  have hHm : 0 ≤ pr.H * pr.mu2 * pr.mu2 := by nlinarith [mul_nonneg hH (mul_self_nonneg pr.mu2)]
  have hD : 0 < pr.shear + pr.bulk * pr.mu1 * pr.mu1Hat + pr.H * pr.mu2 * pr.mu2 := by
    rw [hhat]; linarith
  have hpm : dpMulti pr t * (pr.shear + pr.bulk * pr.mu1 * pr.mu1Hat + pr.H * pr.mu2 * pr.mu2) = t.yf := by
    unfold dpMulti; exact div_mul_cancel₀ _ hD.ne'
  rw [hhat] at hpm
  have hpm0 : 0 < dpMulti pr t := div_pos hy (by exact hD)
  have hneg : pr.mu1 * t.pTr + pr.mu2 * (pr.c0 + pr.H * epsP) < 0 := by
    nlinarith [mul_nonneg hHm hpm0.le]
  simp only [dpApex]
  have h1 : 0 < pr.mu2 / max pr.mu1 (1 / 10 ^ 8) :=
    div_pos hmu2 (lt_max_of_lt_right (by norm_num))
  have h2 : (pr.mu1 * t.pTr + pr.mu2 * (pr.c0 + pr.H * epsP)) /
      max (pr.bulk * pr.mu1 - pr.H * pr.mu2 * (pr.mu2 / max pr.mu1 (1 / 10 ^ 8))) (1 / 10 ^ 12) < 0 :=
    div_neg_of_neg_of_pos hneg (lt_max_of_lt_right (by norm_num))
  have := mul_neg_of_pos_of_neg h1 h2
  linarith

/-! ### Concrete cases -/

/-- Simple shear. -/
def exShear : Mat3 ℝ := !![0, 2, 0; 0, 0, 0; 0, 0, 0]

/-- `K = G = 1`, `mu_1 = 1/2`, `mu_2 = 1/4`, `c0 = 0`, no hardening. -/
noncomputable def exDP (hat : ℝ) : DPParams ℝ :=
  { bulk := 1, shear := 1, mu1 := 1 / 2, mu2 := 1 / 4, c0 := 0, mu1Hat := hat, H := 0, rho0 := 1000 }

theorem exDP_eps (hat p0 : ℝ) : (dpTrial realFns (exDP hat) exShear 0 0 p0 1).epsETr =
    !![0, 1, 0; 1, 0, 0; 0, 0, 0] := by
  simp only [dpTrial, jaumann, symTensor, exShear]
  ext i j
  fin_cases i <;> fin_cases j <;> norm_num [Matrix.transpose_apply]

theorem exDP_s (hat p0 : ℝ) : (dpTrial realFns (exDP hat) exShear 0 0 p0 1).sTr =
    !![0, 2, 0; 2, 0, 0; 0, 0, 0] := by
  rw [dpTrial_sTr, exDP_eps]
  ext i j
  fin_cases i <;> fin_cases j <;> simp [Spec.dev, Spec.meanStress, exDP]

theorem exDP_ddot (hat p0 : ℝ) : Spec.ddot (dpTrial realFns (exDP hat) exShear 0 0 p0 1).sTr
    (dpTrial realFns (exDP hat) exShear 0 0 p0 1).sTr = 8 := by
  rw [exDP_s]; simp [Spec.ddot, Fin.sum_univ_three]; norm_num

theorem exDP_sqrtJ2 (hat p0 : ℝ) : (dpTrial realFns (exDP hat) exShear 0 0 p0 1).sqrtJ2 = 2 := by
  rw [dpTrial_sqrtJ2, exDP_ddot, max_eq_left (by norm_num)]
  rw [show (8 / 2 : ℝ) = 2 ^ 2 by norm_num, Real.sqrt_sq (by norm_num)]

theorem exDP_pTr (hat p0 : ℝ) : (dpTrial realFns (exDP hat) exShear 0 0 p0 1).pTr = p0 := by
  have h : (dpTrial realFns (exDP hat) exShear 0 0 p0 1).pTr =
    (exDP hat).bulk * (dpTrial realFns (exDP hat) exShear 0 0 p0 1).epsETr.trace + p0 := rfl
  rw [h, exDP_eps, trace3]; simp

theorem exDP_yf (hat p0 : ℝ) : (dpTrial realFns (exDP hat) exShear 0 0 p0 1).yf = 2 - p0 / 2 := by
  rw [dpTrial_yf, exDP_sqrtJ2, exDP_pTr]; norm_num [exDP]; ring

/-- Non-dilatant: shear at pressure 1 yields and ends on the yield surface. -/
example : Spec.dpYield (1 / 2) (1 / 4) ((0 : ℝ) + 0 * (dpUpdate realFns (exDP 0) exShear 0 0 1 1000 1).epsP)
    (dpUpdate realFns (exDP 0) exShear 0 0 1 1000 1).stress ≤ 0 :=
  dp_admissible_partial (exDP 0) (by norm_num [exDP]) (by norm_num [exDP]) rfl (by norm_num [exDP])
    (by norm_num [exDP]) exShear 0 0 1 1000 1 (by norm_num [exDP])

/-- **C32** refuted: with `mu_1_hat = 1` the same step ends with yield value 1. -/
theorem dp_admissible_fails : Spec.dpYield (exDP 1).mu1 (exDP 1).mu2
      ((exDP 1).c0 + (exDP 1).H * (dpUpdate realFns (exDP 1) exShear 0 0 1 1000 1).epsP)
      (dpUpdate realFns (exDP 1) exShear 0 0 1 1000 1).stress = 1 := by
  have hm : dpMulti (exDP 1) (dpTrial realFns (exDP 1) exShear 0 0 1 1) = 1 := by
    unfold dpMulti; rw [exDP_yf]; norm_num [exDP]
  rw [dp_cone_residual (exDP 1) exShear 0 0 1 1000 1 (by norm_num [exDP]) (by norm_num [exDP])
    (by rw [exDP_yf]; norm_num) (by rw [hm, exDP_sqrtJ2]; norm_num [exDP]) (by rw [exDP_ddot]; norm_num), hm]
  norm_num [exDP]

/-- On the cone the accumulated plastic strain grows. -/
example : (0 : ℝ) ≤ (dpUpdate realFns (exDP 0) exShear 0 0 1 1000 1).epsP :=
  dp_plastic_strain_monotone_partial (exDP 0) (by norm_num [exDP]) (by norm_num [exDP]) exShear 0 0 1 1000 1
    (Or.inr (Or.inr (by rw [exDP_sqrtJ2]; unfold dpMulti; rw [exDP_yf]; norm_num [exDP])))

/-- **C34** refuted: at pressure −2 the step returns to the apex with negative accumulated plastic strain. -/
theorem dp_plastic_strain_monotone_fails :
    (dpUpdate realFns (exDP 0) exShear 0 0 (-2) 1000 1).epsP < 0 :=
  dp_apex_decreases (exDP 0) (by norm_num [exDP]) (by norm_num [exDP]) rfl (by norm_num [exDP]) exShear
    0 0 (-2) 1000 1 (by norm_num [exDP]) (by rw [exDP_yf]; norm_num)
    (by rw [exDP_sqrtJ2]; unfold dpMulti; rw [exDP_yf]; norm_num [exDP])

/-- C33 at the apex. -/
example := (dp_stress_strain_consistent realFns (exDP 0) (by norm_num [exDP]) (by norm_num [exDP]) exShear
    0 0 (-2) 1000 1).1 (by norm_num [exDP])

end
end Hydrax
