import Verif.Props.DruckerPrager
import Verif.Props.Symmetry
import Mathlib.Analysis.SpecialFunctions.Trigonometric.Arctan
import Mathlib.Tactic.Linarith
import Mathlib.Tactic.FieldSimp

/-!
# Property C155: Coulomb's law of failure for Drucker-Prager material

Coulomb's law speaks about planes: on each plane through a point the shear stress is at most the friction
coefficient times the normal stress plus the cohesion.  The Drucker-Prager law limits invariants of the stress
instead.  Here the two are compared, and with them the slopes on which such material stands.
-/

namespace Hydrax

namespace Spec

/-- Normal stress on the plane with unit normal `n`, compression positive. -/
def planeNormal (n : Fin 3 → ℝ) (σ : Matrix (Fin 3) (Fin 3) ℝ) : ℝ := ∑ i, ∑ j, n i * σ i j * n j

/-- Shear stress on the plane with unit normal `n` in the direction `t` of the plane. -/
def planeShear (n t : Fin 3 → ℝ) (σ : Matrix (Fin 3) (Fin 3) ℝ) : ℝ := ∑ i, ∑ j, t i * σ i j * n j

/-- `n` is a unit normal and `t` a unit direction in its plane. -/
structure PlaneFrame (n t : Fin 3 → ℝ) : Prop where
  unitN : ∑ i, n i * n i = 1
  unitT : ∑ i, t i * t i = 1
  perp : ∑ i, n i * t i = 0

/-- Coulomb's law with friction coefficient `f` and cohesion `c` on every plane. -/
def CoulombLaw (f c : ℝ) (σ : Matrix (Fin 3) (Fin 3) ℝ) : Prop :=
  ∀ n t, PlaneFrame n t → |planeShear n t σ| ≤ f * planeNormal n σ + c

/-- By what Drucker-Prager exceeds its coefficient on planes. -/
noncomputable def coneFactor (mu : ℝ) : ℝ := 1 / Real.sqrt (1 - 4 * mu ^ 2 / 3)

end Spec

open Spec

/-- `compute_mu` of the collapse example: friction coefficient `mu_1` from the friction angle
(projects/collapse/collapse.py:19-27, collapse_setup.py:115-119). -/
noncomputable def collapseMu (phi : ℝ) : ℝ := 6 * Real.sin phi / (Real.sqrt 3 * (3 + Real.sin phi))

/-- The stress on a plane is seen by the second invariant. -/
theorem plane_le_J2 {σ : Mat3 ℝ} (hs : σ.IsSymm) {n t : Fin 3 → ℝ} (h : PlaneFrame n t) :
    3 / 4 * (planeNormal n σ - meanStress σ) ^ 2 + planeShear n t σ ^ 2 ≤ J2 σ := by
  obtain ⟨h1, h2, h3⟩ := h
  have s01 : σ 1 0 = σ 0 1 := hs.apply 0 1
  have s02 : σ 2 0 = σ 0 2 := hs.apply 0 2
  have s12 : σ 2 1 = σ 1 2 := hs.apply 1 2
  set N := planeNormal n σ - meanStress σ with hN
  set τ := planeShear n t σ with hτ
  -- test tensor
  let A : Fin 3 → Fin 3 → ℝ := fun i j =>
    3 / 2 * N * (n i * n j - if i = j then 1 / 3 else 0) + τ * (n i * t j + t i * n j)
  have key : 0 ≤ ∑ i, ∑ j, (dev σ i j - A i j) ^ 2 :=
    Finset.sum_nonneg fun i _ => Finset.sum_nonneg fun j _ => sq_nonneg _
  have hsA : ∑ i, ∑ j, dev σ i j * A i j = 3 / 2 * N * N + 2 * τ * τ := by
    have e1 : N = ∑ i, ∑ j, n i * dev σ i j * n j := by
      simp only [hN, planeNormal, dev, Fin.sum_univ_three] at h1 ⊢
      simp
      linear_combination meanStress σ * h1
    have e2 : τ = ∑ i, ∑ j, t i * dev σ i j * n j := by
      simp only [hτ, planeShear, dev, Fin.sum_univ_three] at h3 ⊢
      simp
      linear_combination meanStress σ * h3
    have e3 : dev σ 0 0 + dev σ 1 1 + dev σ 2 2 = 0 := by
      simp only [dev, meanStress]; simp; ring
    have d01 : dev σ 1 0 = dev σ 0 1 := by simp [dev, s01]
    have d02 : dev σ 2 0 = dev σ 0 2 := by simp [dev, s02]
    have d12 : dev σ 2 1 = dev σ 1 2 := by simp [dev, s12]
    have e4 : ∑ i, ∑ j, dev σ i j * A i j =
        3 / 2 * N * (∑ i, ∑ j, n i * dev σ i j * n j) + 2 * τ * (∑ i, ∑ j, t i * dev σ i j * n j) := by
      simp only [A, Fin.sum_univ_three]
      simp
      rw [d01, d02, d12]
      linear_combination (-(1 / 2) * N) * e3
    rw [e4, ← e1, ← e2]
  have hAA : ∑ i, ∑ j, A i j * A i j = 3 / 2 * N * N + 2 * τ * τ := by
    have e : ∑ i, ∑ j, A i j * A i j = (3 / 2 * N) ^ 2 *
        ((∑ i, n i * n i) ^ 2 - 2 / 3 * ∑ i, n i * n i + 1 / 3) +
        2 * (3 / 2 * N) * τ * (2 * (∑ i, n i * n i) * (∑ i, n i * t i) - 2 / 3 * ∑ i, n i * t i) +
        τ ^ 2 * (2 * (∑ i, n i * n i) * (∑ i, t i * t i) + 2 * (∑ i, n i * t i) ^ 2) := by
      simp only [A, Fin.sum_univ_three]
      simp
      ring
    rw [e, h1, h2, h3]
    ring
  have hJ : J2 σ = (∑ i, ∑ j, dev σ i j * dev σ i j) / 2 := rfl
  have ex : ∑ i, ∑ j, (dev σ i j - A i j) ^ 2 =
      ∑ i, ∑ j, dev σ i j * dev σ i j - 2 * ∑ i, ∑ j, dev σ i j * A i j + ∑ i, ∑ j, A i j * A i j := by
    simp only [Fin.sum_univ_three]; ring
  rw [ex, hsA, hAA] at key
  rw [hJ]
  nlinarith [key]

/-- **C155**, stresses: a stress on or within the Drucker-Prager cone obeys Coulomb's law on every plane, with the
friction and the cohesion of the cone raised by the same factor. -/
theorem cone_coulomb {mu1 mu2 c : ℝ} (h0 : 0 ≤ mu1) (h1 : 4 * mu1 ^ 2 < 3) {σ : Mat3 ℝ} (hs : σ.IsSymm)
    (hy : dpYield mu1 mu2 c σ ≤ 0) :
    CoulombLaw (mu1 * coneFactor mu1) (mu2 * c * coneFactor mu1) σ := by
  intro n t h
  have hJ := plane_le_J2 hs h
  set N := planeNormal n σ
  set τ := planeShear n t σ
  set p := meanStress σ with hp
  have hJ0 : 0 ≤ J2 σ := le_trans (by positivity) hJ
  have hy' : Real.sqrt (J2 σ) ≤ mu1 * p + mu2 * c := by unfold dpYield at hy; linarith
  have hsq : J2 σ ≤ (mu1 * p + mu2 * c) ^ 2 := by
    rw [← Real.sq_sqrt hJ0]
    exact pow_le_pow_left₀ (Real.sqrt_nonneg _) hy' 2
  have hR : 0 ≤ mu1 * p + mu2 * c := le_trans (Real.sqrt_nonneg _) hy'
  set D := 1 - 4 * mu1 ^ 2 / 3 with hD
  have hDp : 0 < D := by rw [hD]; linarith
  set B := mu1 * N + mu2 * c with hB
  -- the shear stress against the line
  have hline : D * τ ^ 2 ≤ B ^ 2 := by
    have e : mu1 * p + mu2 * c = B - mu1 * (N - p) := by rw [hB]; ring
    rw [e] at hsq
    have h3 : τ ^ 2 ≤ (B - mu1 * (N - p)) ^ 2 - 3 / 4 * (N - p) ^ 2 := by linarith
    have h4 : D * ((B - mu1 * (N - p)) ^ 2 - 3 / 4 * (N - p) ^ 2) ≤ B ^ 2 := by
      have : B ^ 2 - D * ((B - mu1 * (N - p)) ^ 2 - 3 / 4 * (N - p) ^ 2) =
          (2 * mu1 / Real.sqrt 3 * B + Real.sqrt 3 / 2 * D * (N - p)) ^ 2 := by
        have h3s : Real.sqrt 3 ^ 2 = 3 := Real.sq_sqrt (by norm_num)
        have h3n : Real.sqrt 3 ≠ 0 := by positivity
        rw [hD]
        field_simp
        rw [h3s]
        ring
      nlinarith [sq_nonneg (2 * mu1 / Real.sqrt 3 * B + Real.sqrt 3 / 2 * D * (N - p))]
    exact le_trans (mul_le_mul_of_nonneg_left h3 hDp.le) h4
  -- the line is positive
  have hB0 : 0 ≤ B := by
    have e : mu1 * p + mu2 * c = B - mu1 * (N - p) := by rw [hB]; ring
    rw [e] at hsq hR
    by_contra hneg
    push Not at hneg
    have h5 : 3 / 4 * (N - p) ^ 2 ≤ (B - mu1 * (N - p)) ^ 2 := by nlinarith [sq_nonneg τ]
    have h6 : (B - mu1 * (N - p)) ^ 2 ≤ (mu1 * (N - p)) ^ 2 :=
      pow_le_pow_left₀ hR (by linarith) 2 |>.trans (by rw [neg_sq] : (-(mu1 * (N - p))) ^ 2 ≤ _ )
    have h7 : N - p ≠ 0 := by
      intro h; rw [h, mul_zero] at hR; linarith
    have h8 : 0 < (N - p) ^ 2 := by positivity
    nlinarith
  have hsD : 0 < Real.sqrt D := Real.sqrt_pos.mpr hDp
  have hle : |τ| ≤ B / Real.sqrt D := by
    rw [le_div_iff₀ hsD]
    apply abs_le_of_sq_le_sq' _ hB0 |>.2
    rw [mul_pow, sq_abs, Real.sq_sqrt hDp.le]
    linarith
  calc |τ| ≤ B / Real.sqrt D := hle
    _ = mu1 * coneFactor mu1 * N + mu2 * c * coneFactor mu1 := by
      rw [hB, coneFactor]; ring

/-- **C155**, law: whatever the deformation, the stress returned for connected material without dilatancy obeys
Coulomb's law on every plane. -/
theorem dp_coulomb_partial (pr : DPParams ℝ) (hG : 0 < pr.shear) (hH : 0 ≤ pr.H) (hhat : pr.mu1Hat = 0)
    (hmu1 : 1 / 10 ^ 8 ≤ pr.mu1) (hlt : 4 * pr.mu1 ^ 2 < 3)
    (hapex : 1 / 10 ^ 12 ≤ pr.bulk * pr.mu1 - pr.H * pr.mu2 * (pr.mu2 / pr.mu1))
    (L e : Mat3 ℝ) (he : e.IsSymm) (epsP p0 rho dt : ℝ) (hr : pr.rho0 ≤ rho) :
    CoulombLaw (pr.mu1 * coneFactor pr.mu1)
      (pr.mu2 * (pr.c0 + pr.H * (dpUpdate realFns pr L e epsP p0 rho dt).epsP) * coneFactor pr.mu1)
      (dpUpdate realFns pr L e epsP p0 rho dt).stress :=
  cone_coulomb (le_trans (by norm_num) hmu1) hlt (dpUpdate_symm _ _ _ _ _ _ _ _ he).1
    (dp_admissible_partial pr hG hH hhat hmu1 hapex L e epsP p0 rho dt hr)

/-! ### Stresses that material holds at rest -/

/-- The elastic strain that belongs to a stress. -/
noncomputable def dpStrainOf (pr : DPParams ℝ) (p0 : ℝ) (σ : Mat3 ℝ) : Mat3 ℝ :=
  (1 / (2 * pr.shear)) • dev σ + isoT ((meanStress σ - p0) / (3 * pr.bulk))

/-- Material at rest keeps a stress on or within the cone, for any step. -/
theorem dp_holds (pr : DPParams ℝ) (hK : pr.bulk ≠ 0) (hG : pr.shear ≠ 0) (σ : Mat3 ℝ) (epsP p0 rho dt : ℝ)
    (hy : dpYield pr.mu1 pr.mu2 (pr.c0 + pr.H * epsP) σ ≤ 0) (hJ : 1 / 10 ^ 12 ≤ J2 σ) (hr : pr.rho0 ≤ rho) :
    dpUpdate realFns pr 0 (dpStrainOf pr p0 σ) epsP p0 rho dt =
      { stress := σ, epsE := dpStrainOf pr p0 σ, epsP := epsP } := by
  have he : (dpTrial realFns pr 0 (dpStrainOf pr p0 σ) epsP p0 dt).epsETr = dpStrainOf pr p0 σ := by
    change jaumann _ (spinTensor 0) dt + dt • symTensor 0 = _
    simp [jaumann, spinTensor, symTensor]
  have hsT : (dpTrial realFns pr 0 (dpStrainOf pr p0 σ) epsP p0 dt).sTr = dev σ := by
    rw [dpTrial_sTr, he, dpStrainOf, dev_add_iso (by rw [meanStress_smul, meanStress_dev, mul_zero]), smul_smul]
    rw [show 2 * pr.shear * (1 / (2 * pr.shear)) = 1 by field_simp, one_smul]
  have hpT : (dpTrial realFns pr 0 (dpStrainOf pr p0 σ) epsP p0 dt).pTr = meanStress σ := by
    have : (dpTrial realFns pr 0 (dpStrainOf pr p0 σ) epsP p0 dt).pTr =
      pr.bulk * (dpTrial realFns pr 0 (dpStrainOf pr p0 σ) epsP p0 dt).epsETr.trace + p0 := rfl
    rw [this, he, dpStrainOf]
    have : ((1 / (2 * pr.shear)) • dev σ + isoT ((meanStress σ - p0) / (3 * pr.bulk))).trace =
        (meanStress σ - p0) / pr.bulk := by
      rw [Matrix.trace_fin_three]
      simp [dev, isoT_apply, meanStress]
      field_simp
      ring
    rw [this]
    field_simp
    ring
  have hq : (dpTrial realFns pr 0 (dpStrainOf pr p0 σ) epsP p0 dt).sqrtJ2 = Real.sqrt (J2 σ) := by
    rw [dpTrial_sqrtJ2, hsT, max_eq_left (by exact hJ)]
    rfl
  have hyf : ¬ (dpTrial realFns pr 0 (dpStrainOf pr p0 σ) epsP p0 dt).yf > 0 := by
    rw [dpTrial_yf, hq, hpT, not_lt]
    exact hy
  unfold dpUpdate
  simp only
  rw [if_pos hr, if_neg hyf, dpElastic, hsT, hpT, he, dev_add_mean]

/-- A stress that loads the plane across the second axis with the normal stress `N` and the shear stress `τ`, and
the other two directions by `u` more. -/
def slopeStress (N u τ : ℝ) : Mat3 ℝ := !![N + u, τ, 0; τ, N, 0; 0, 0, N + u]

theorem slopeStress_J2 (N u τ : ℝ) : J2 (slopeStress N u τ) = u ^ 2 / 3 + τ ^ 2 := by
  simp [J2, ddot, dev, meanStress, slopeStress, Fin.sum_univ_three]
  ring

theorem slopeStress_mean (N u τ : ℝ) : meanStress (slopeStress N u τ) = N + 2 * u / 3 := by
  simp [meanStress, slopeStress]; ring

/-- **C155**, standing: every slope and every load within the raised Coulomb line is held at rest, so the line is
the limit. -/
theorem slope_held (pr : DPParams ℝ) (hK : pr.bulk ≠ 0) (hG : pr.shear ≠ 0) (h0 : 0 ≤ pr.mu1)
    (h1 : 4 * pr.mu1 ^ 2 < 3) (epsP p0 rho N τ : ℝ) (hr : pr.rho0 ≤ rho) (hτ0 : 1 / 10 ^ 12 ≤ τ ^ 2)
    (hτ : |τ| ≤ pr.mu1 * coneFactor pr.mu1 * N + pr.mu2 * (pr.c0 + pr.H * epsP) * coneFactor pr.mu1) :
    ∃ σ e : Mat3 ℝ, σ 1 1 = N ∧ σ 0 1 = τ ∧ σ.IsSymm ∧ e.IsSymm ∧
      ∀ dt, dpUpdate realFns pr 0 e epsP p0 rho dt = { stress := σ, epsE := e, epsP := epsP } := by
  set k := pr.mu2 * (pr.c0 + pr.H * epsP) with hk
  set D := 1 - 4 * pr.mu1 ^ 2 / 3 with hD
  have hDp : 0 < D := by rw [hD]; linarith
  have hsD : 0 < Real.sqrt D := Real.sqrt_pos.mpr hDp
  set B := pr.mu1 * N + k with hB
  have hτ' : |τ| ≤ B / Real.sqrt D := by
    refine hτ.trans (le_of_eq ?_)
    rw [hB, coneFactor]; ring
  have hB0 : 0 ≤ B := by
    have := (abs_nonneg τ).trans hτ'
    by_contra h
    push Not at h
    have := div_neg_of_neg_of_pos h hsD
    linarith
  have hτs : τ ^ 2 ≤ B ^ 2 / D := by
    rw [← sq_abs]
    refine (pow_le_pow_left₀ (abs_nonneg _) hτ' 2).trans (le_of_eq ?_)
    rw [div_pow, Real.sq_sqrt hDp.le]
  set u := 2 * pr.mu1 * B / D with hu
  have hsym : (slopeStress N u τ).IsSymm := by
    ext i j; fin_cases i <;> fin_cases j <;> simp [slopeStress]
  refine ⟨slopeStress N u τ, dpStrainOf pr p0 (slopeStress N u τ), by simp [slopeStress], by simp [slopeStress],
    hsym, ?_, fun dt => ?_⟩
  · ext i j; fin_cases i <;> fin_cases j <;> simp [slopeStress, dpStrainOf, dev, isoT_apply]
  · refine dp_holds pr hK hG _ epsP p0 rho dt ?_ ?_ hr
    · unfold dpYield
      rw [slopeStress_J2, slopeStress_mean]
      have hR : 0 ≤ B + 2 * pr.mu1 * u / 3 := by
        have : 0 ≤ u := by rw [hu]; positivity
        positivity
      have : Real.sqrt (u ^ 2 / 3 + τ ^ 2) ≤ B + 2 * pr.mu1 * u / 3 := by
        rw [Real.sqrt_le_left hR]
        have e : (B + 2 * pr.mu1 * u / 3) ^ 2 - u ^ 2 / 3 = B ^ 2 / D := by
          have : 4 * pr.mu1 ^ 2 = 3 - 3 * D := by rw [hD]; ring
          rw [hu]
          field_simp
          ring
        linarith
      rw [hB] at this
      linarith
    · rw [slopeStress_J2]; nlinarith [sq_nonneg u]

/-- The plane across the second axis, sheared along the first. -/
theorem layer_frame : PlaneFrame ![0, 1, 0] ![1, 0, 0] :=
  ⟨by simp [Fin.sum_univ_three], by simp [Fin.sum_univ_three], by simp [Fin.sum_univ_three]⟩

/-- **C155**, failing: no deformation makes the law return a stress that carries a steeper slope. -/
theorem slope_fails (pr : DPParams ℝ) (hG : 0 < pr.shear) (hH : 0 ≤ pr.H) (hhat : pr.mu1Hat = 0)
    (hmu1 : 1 / 10 ^ 8 ≤ pr.mu1) (hlt : 4 * pr.mu1 ^ 2 < 3) (hmu2 : pr.mu2 = 0)
    (hapex : 1 / 10 ^ 12 ≤ pr.bulk * pr.mu1) (T : ℝ) (hT : pr.mu1 * coneFactor pr.mu1 < T)
    (L e : Mat3 ℝ) (he : e.IsSymm) (epsP p0 rho dt : ℝ) (hr : pr.rho0 ≤ rho)
    (hN : 0 < (dpUpdate realFns pr L e epsP p0 rho dt).stress 1 1) :
    (dpUpdate realFns pr L e epsP p0 rho dt).stress 0 1 <
      T * (dpUpdate realFns pr L e epsP p0 rho dt).stress 1 1 := by
  have h := dp_coulomb_partial pr hG hH hhat hmu1 hlt (by rw [hmu2]; simpa using hapex) L e he epsP p0 rho dt hr
    _ _ layer_frame
  have e1 : planeShear ![0, 1, 0] ![1, 0, 0] (dpUpdate realFns pr L e epsP p0 rho dt).stress =
      (dpUpdate realFns pr L e epsP p0 rho dt).stress 0 1 := by
    simp [planeShear, Fin.sum_univ_three]
  have e2 : planeNormal ![0, 1, 0] (dpUpdate realFns pr L e epsP p0 rho dt).stress =
      (dpUpdate realFns pr L e epsP p0 rho dt).stress 1 1 := by
    simp [planeNormal, Fin.sum_univ_three]
  rw [e1, e2, hmu2, zero_mul, zero_mul, add_zero] at h
  exact lt_of_le_of_lt ((le_abs_self _).trans h) (mul_lt_mul_of_pos_right hT hN)

/-! ### Friction angles of the collapse example -/

theorem collapseMu_sq {phi : ℝ} : collapseMu phi ^ 2 = 12 * Real.sin phi ^ 2 / (3 + Real.sin phi) ^ 2 := by
  have h3s : Real.sqrt 3 ^ 2 = 3 := Real.sq_sqrt (by norm_num)
  unfold collapseMu
  rw [div_pow, mul_pow, mul_pow, h3s]
  have : 3 + Real.sin phi ≠ 0 := by have := Real.neg_one_le_sin phi; linarith
  field_simp
  ring

theorem collapse_sin {phi : ℝ} (h0 : 0 < phi) (h1 : phi < Real.pi / 2) :
    0 < Real.sin phi ∧ Real.sin phi < 1 := by
  refine ⟨Real.sin_pos_of_pos_of_lt_pi h0 (by linarith [Real.pi_pos]), ?_⟩
  have := Real.sin_lt_sin_of_lt_of_le_pi_div_two (by linarith) le_rfl h1
  rwa [Real.sin_pi_div_two] at this

theorem collapse_valid {phi : ℝ} (h0 : 0 < phi) (h1 : phi < Real.pi / 2) :
    0 < collapseMu phi ∧ 4 * collapseMu phi ^ 2 < 3 := by
  obtain ⟨s0, s1⟩ := collapse_sin h0 h1
  constructor
  · unfold collapseMu; positivity
  · rw [collapseMu_sq, ← mul_div_assoc, div_lt_iff₀ (by positivity)]
    nlinarith

/-- The calibration of the collapse example lets material stand on slopes steeper than its friction angle. -/
theorem collapse_exceeds {phi : ℝ} (h0 : 0 < phi) (h1 : phi < Real.pi / 2) :
    Real.tan phi < collapseMu phi * coneFactor (collapseMu phi) := by
  obtain ⟨s0, s1⟩ := collapse_sin h0 h1
  obtain ⟨m0, m1⟩ := collapse_valid h0 h1
  have hDp : 0 < 1 - 4 * collapseMu phi ^ 2 / 3 := by linarith
  have hc : 0 < Real.cos phi := Real.cos_pos_of_mem_Ioo ⟨by linarith [Real.pi_pos], h1⟩
  have hc2 : Real.cos phi ^ 2 = 1 - Real.sin phi ^ 2 := by linarith [Real.sin_sq_add_cos_sq phi]
  have hR : 0 ≤ collapseMu phi * coneFactor (collapseMu phi) := by unfold coneFactor; positivity
  refine lt_of_pow_lt_pow_left₀ 2 hR ?_
  rw [mul_pow, coneFactor, div_pow, one_pow, Real.sq_sqrt hDp.le, Real.tan_eq_sin_div_cos, div_pow, hc2,
    mul_one_div, collapseMu_sq]
  set s := Real.sin phi
  have a1 : 0 < 1 - s ^ 2 := by nlinarith
  have a2 : 12 * s ^ 2 / (3 + s) ^ 2 / (1 - 4 * (12 * s ^ 2 / (3 + s) ^ 2) / 3) =
      4 * s ^ 2 / ((1 - s) * (3 + 5 * s)) := by
    have b1 : (3 + s) ≠ 0 := by positivity
    have b2 : (1 - s) ≠ 0 := by linarith
    have b3 : (3 + 5 * s) ≠ 0 := by positivity
    have b4 : 1 - 4 * (12 * s ^ 2 / (3 + s) ^ 2) / 3 = 3 * (1 - s) * (3 + 5 * s) / (3 + s) ^ 2 := by
      field_simp; ring
    rw [b4]
    field_simp
    ring
  rw [a2, div_lt_div_iff₀ a1 (by nlinarith)]
  have : 0 < s ^ 2 * (1 - s) := by nlinarith [mul_pos s0 s0]
  nlinarith [mul_pos this (show (0 : ℝ) < 1 - s by linarith)]

/-- **C155**, refuted for angles: with the calibration of the collapse example, cohesionless material of every
friction angle stands on slopes up to that angle, and also on steeper ones. -/
theorem steeper_slopes_stand (pr : DPParams ℝ) (hK : pr.bulk ≠ 0) (hG : pr.shear ≠ 0) (hmu2 : pr.mu2 = 0)
    {phi : ℝ} (h0 : 0 < phi) (h1 : phi < Real.pi / 2) (hmu : pr.mu1 = collapseMu phi) (epsP p0 rho : ℝ)
    (hr : pr.rho0 ≤ rho) :
    ∃ limit, phi < limit ∧ limit < Real.pi / 2 ∧ ∀ theta, 0 < theta → theta ≤ limit →
      ∀ N, 0 < N → 1 / 10 ^ 6 ≤ Real.tan theta * N →
        ∃ σ e : Mat3 ℝ, σ 1 1 = N ∧ σ 0 1 = Real.tan theta * N ∧ e.IsSymm ∧
          ∀ dt, dpUpdate realFns pr 0 e epsP p0 rho dt = { stress := σ, epsE := e, epsP := epsP } := by
  obtain ⟨m0, m1⟩ := collapse_valid h0 h1
  have hex := collapse_exceeds h0 h1
  set f := collapseMu phi * coneFactor (collapseMu phi) with hf
  refine ⟨Real.arctan f, ?_, Real.arctan_lt_pi_div_two f, fun theta ht hl N hN hb => ?_⟩
  · have := Real.arctan_strictMono hex
    rwa [Real.arctan_tan (by linarith [Real.pi_pos]) h1] at this
  · have htan : Real.tan theta ≤ f := by
      have hlt := lt_of_le_of_lt hl (Real.arctan_lt_pi_div_two f)
      have hm := Real.strictMonoOn_tan.monotoneOn ⟨by linarith [Real.pi_pos], hlt⟩
        ⟨Real.neg_pi_div_two_lt_arctan f, Real.arctan_lt_pi_div_two f⟩ hl
      rwa [Real.tan_arctan] at hm
    obtain ⟨σ, e, a, b, -, c, d⟩ := slope_held pr hK hG (by rw [hmu]; exact m0.le) (by rw [hmu]; exact m1) epsP p0
      rho N (Real.tan theta * N) hr (by nlinarith) (by
        rw [hmu, ← hf, hmu2, zero_mul, zero_mul, add_zero, abs_of_nonneg (by linarith)]
        exact mul_le_mul_of_nonneg_right htan hN.le)
    exact ⟨σ, e, a, b, c, d⟩

/-- **C155**, refuted for wide cones: from `mu_1 = sqrt 3 / 2` on the law has no friction angle, it holds every
shear stress under every positive normal stress. -/
theorem wide_cone_no_angle (pr : DPParams ℝ) (hK : pr.bulk ≠ 0) (hG : pr.shear ≠ 0) (hmu2 : pr.mu2 = 0)
    (h0 : 0 < pr.mu1) (h1 : 3 ≤ 4 * pr.mu1 ^ 2) (epsP p0 rho N τ : ℝ) (hr : pr.rho0 ≤ rho) (hN : 0 < N)
    (hτ0 : 1 / 10 ^ 12 ≤ τ ^ 2) :
    ∃ σ e : Mat3 ℝ, σ 1 1 = N ∧ σ 0 1 = τ ∧ e.IsSymm ∧
      ∀ dt, dpUpdate realFns pr 0 e epsP p0 rho dt = { stress := σ, epsE := e, epsP := epsP } := by
  set B := pr.mu1 * N with hB
  have hB0 : 0 < B := mul_pos h0 hN
  set u := τ ^ 2 / (pr.mu1 * B) with hu
  have hu0 : 0 ≤ u := by rw [hu]; positivity
  have hue : pr.mu1 * B * u = τ ^ 2 := by rw [hu]; field_simp
  refine ⟨slopeStress N u τ, dpStrainOf pr p0 (slopeStress N u τ), by simp [slopeStress], by simp [slopeStress],
    ?_, fun dt => ?_⟩
  · ext i j; fin_cases i <;> fin_cases j <;> simp [slopeStress, dpStrainOf, dev, isoT_apply]
  · refine dp_holds pr hK hG _ epsP p0 rho dt ?_ ?_ hr
    · unfold dpYield
      rw [slopeStress_J2, slopeStress_mean, hmu2]
      have : Real.sqrt (u ^ 2 / 3 + τ ^ 2) ≤ B + 2 * pr.mu1 * u / 3 := by
        rw [Real.sqrt_le_left (by positivity)]
        nlinarith [mul_nonneg (sq_nonneg u) (sub_nonneg.mpr h1), sq_nonneg B, sq_nonneg τ]
      rw [hB] at this
      linarith
    · rw [slopeStress_J2]; nlinarith [sq_nonneg u]

/-! ### Cases -/

/-- The material of the collapse example, with friction angle 30 degrees for round numbers. -/
noncomputable def exCollapse : DPParams ℝ :=
  { bulk := 700000, shear := 323077, mu1 := collapseMu (Real.pi / 6), mu2 := 0, c0 := 0, mu1Hat := 0, H := 0,
    rho0 := 2650 }

example : ∃ limit, Real.pi / 6 < limit ∧ limit < Real.pi / 2 ∧ ∀ theta, 0 < theta → theta ≤ limit →
      ∀ N, 0 < N → 1 / 10 ^ 6 ≤ Real.tan theta * N →
        ∃ σ e : Mat3 ℝ, σ 1 1 = N ∧ σ 0 1 = Real.tan theta * N ∧ e.IsSymm ∧
          ∀ dt, dpUpdate realFns exCollapse 0 e 0 0 2700 dt = { stress := σ, epsE := e, epsP := 0 } :=
  steeper_slopes_stand exCollapse (by norm_num [exCollapse]) (by norm_num [exCollapse]) rfl
    (by linarith [Real.pi_pos]) (by linarith [Real.pi_pos]) rfl 0 0 2700 (by norm_num [exCollapse])

/-- Sheared material of the Drucker-Prager examples obeys Coulomb's law with friction `sqrt 6 / 4 ≈ 0.61` where
`mu_1 = 0.5`. -/
example : CoulombLaw (1 / 2 * coneFactor (1 / 2))
    (1 / 4 * (0 + 0 * (dpUpdate realFns (exDP 0) exShear 0 0 1 1000 1).epsP) * coneFactor (1 / 2))
    (dpUpdate realFns (exDP 0) exShear 0 0 1 1000 1).stress :=
  dp_coulomb_partial (exDP 0) (by norm_num [exDP]) (by norm_num [exDP]) rfl (by norm_num [exDP])
    (by norm_num [exDP]) (by norm_num [exDP]) exShear 0 (by simp [Matrix.IsSymm]) 0 1 1000 1 (by norm_num [exDP])

/-- Material with `mu_1 = 0.5` that holds a gentle slope, and cannot be made to carry one of 45 degrees. -/
example : (dpUpdate realFns { exCollapse with mu1 := 1 / 2 } 0
      (dpStrainOf { exCollapse with mu1 := 1 / 2 } 0 (slopeStress 10 0 1)) 0 0 2700 1).stress 0 1 <
    1 * (dpUpdate realFns { exCollapse with mu1 := 1 / 2 } 0
      (dpStrainOf { exCollapse with mu1 := 1 / 2 } 0 (slopeStress 10 0 1)) 0 0 2700 1).stress 1 1 := by
  have h := dp_holds { exCollapse with mu1 := 1 / 2 } (by norm_num [exCollapse]) (by norm_num [exCollapse])
    (slopeStress 10 0 1) 0 0 2700 1
    (by unfold dpYield; rw [slopeStress_J2, slopeStress_mean]; norm_num [exCollapse])
    (by rw [slopeStress_J2]; norm_num) (by norm_num [exCollapse])
  refine slope_fails { exCollapse with mu1 := 1 / 2 } (by norm_num [exCollapse]) (by norm_num [exCollapse]) rfl
    (by norm_num) (by norm_num) rfl (by norm_num [exCollapse]) 1 ?_ _ _ ?_ 0 0 2700 1 (by norm_num [exCollapse]) ?_
  · have : (1 / 2 : ℝ) < Real.sqrt (1 - 4 * (1 / 2) ^ 2 / 3) := by
      rw [Real.lt_sqrt (by norm_num)]; norm_num
    change 1 / 2 * (1 / Real.sqrt (1 - 4 * (1 / 2) ^ 2 / 3)) < 1
    rw [← div_eq_mul_one_div, div_lt_one (by linarith)]
    exact this
  · ext i j; fin_cases i <;> fin_cases j <;> simp [slopeStress, dpStrainOf, dev, isoT_apply]
  · rw [h]; simp [slopeStress]

/-- A wide cone holds a wall: shear stress a thousand times the normal stress. -/
example : ∃ σ e : Mat3 ℝ, σ 1 1 = 1 ∧ σ 0 1 = 1000 ∧ e.IsSymm ∧
      ∀ dt, dpUpdate realFns { exCollapse with mu1 := 1 } 0 e 0 0 2700 dt =
        { stress := σ, epsE := e, epsP := 0 } :=
  wide_cone_no_angle { exCollapse with mu1 := 1 } (by norm_num [exCollapse]) (by norm_num [exCollapse]) rfl
    (by norm_num) (by norm_num) 0 0 2700 1 1000 (by norm_num [exCollapse]) (by norm_num) (by norm_num)

end Hydrax
