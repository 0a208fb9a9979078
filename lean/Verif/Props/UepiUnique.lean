import Verif.Props.UepiSolution
import Verif.Model.ElementTest
import Mathlib.Analysis.Complex.ExponentialBounds

/-!
# The solution of a yielding step of the elasto-plastic-inertial law: unique where the material contracts (C126)
-/

namespace Hydrax

/-! ### The scalars of a step -/

/-- Scalars of an exact step: shear stress, pressure, plastic volume strain and inertial number in terms of the multiplier. -/
theorem uepi_scalars {pr : UepiParams ℝ} (h : pr.Good) {G dt : ℝ} (hG : 0 < G) (hdt : 0 < dt) {σr Δε σ' ep : Mat3 ℝ} {ps ps' I I' Λ : ℝ}
    (s : Spec.UepiStep pr G dt σr Δε σ' ep ps ps' I I' Λ 0 0) :
    (1 + 6 * G * (Λ / pr.Mcsl ^ 2)) • Spec.dev σ' = Spec.dev σr + (2 * G) • Spec.dev Δε ∧
    (1 + 6 * G * (Λ / pr.Mcsl ^ 2)) * Spec.qVM σ' = Spec.qVM (Spec.dev σr + (2 * G) • Spec.dev Δε) ∧
    I' = 2 * (Λ / pr.Mcsl ^ 2) * Spec.qVM σ' / dt * pr.d * Real.sqrt (pr.rhoP / max ps' pr.pRef) ∧
    (Spec.qVM σ' / pr.Mcsl) ^ 2 = Spec.inertialStrength pr.IM pr.Mcsl pr.Minf I' ^ 2 *
      (ps' ^ 2 - (Spec.meanStress σ' - ps') ^ 2) := by
  have hM := h.Mcsl
  have hΛ := s.multiplier
  have h1 : (1 + 6 * G * (Λ / pr.Mcsl ^ 2)) • Spec.dev σ' = Spec.dev σr + (2 * G) • Spec.dev Δε := by
    have := s.elasticDev
    rw [dev_sub', s.flowDev, smul_sub, smul_smul] at this
    rw [add_smul, one_smul]
    nth_rewrite 1 [this]
    rw [show 2 * G * (Λ * (3 / pr.Mcsl ^ 2)) = 6 * G * (Λ / pr.Mcsl ^ 2) by ring]
    abel
  have hf : 0 ≤ 1 + 6 * G * (Λ / pr.Mcsl ^ 2) := by positivity
  have hq : Spec.qVM (Spec.dev σ') = Spec.qVM σ' := by
    have h2 : σ' = Spec.dev σ' + isoT (Spec.meanStress σ') := (dev_add_mean σ').symm
    conv_rhs => rw [h2, qVM_add_iso (meanStress_dev _)]
  refine ⟨h1, ?_, ?_, ?_⟩
  · rw [← h1, qVM_smul hf, hq]
  · rw [s.inertial, shearEq_smul (c := 2 * (Λ / pr.Mcsl ^ 2)) (by positivity) (σ := σ') (by rw [s.flowDev]; congr 1; ring)]
  · have hI : 0 ≤ I' := by
      rw [s.inertial]
      have := h.d
      have : 0 ≤ Spec.shearEq ep := Real.sqrt_nonneg _
      positivity
    have hs : 0 < Spec.inertialStrength pr.IM pr.Mcsl pr.Minf I' := lt_of_lt_of_le one_pos (strength_bounds hI h.IM hM h.Minf).1
    have := s.onSurface
    rw [Spec.inertialF, mul_pow, ← div_div] at this
    have e : (Spec.qVM σ' / pr.Mcsl) ^ 2 = Spec.qVM σ' ^ 2 / pr.Mcsl ^ 2 := div_pow _ _ _
    rw [e]
    generalize Spec.qVM σ' ^ 2 / pr.Mcsl ^ 2 = a at *
    generalize Spec.inertialStrength pr.IM pr.Mcsl pr.Minf I' = m at *
    have h2 : a / m ^ 2 = ps' ^ 2 - (Spec.meanStress σ' - ps') ^ 2 := by linarith
    rw [← h2]; field_simp

section
variable {pr : UepiParams ℝ} (h : pr.Good) {G dt : ℝ} (hG : 0 < G) (hdt : 0 < dt) {σr Δε σ₁ σ₂ e₁ e₂ : Mat3 ℝ}
  {ps ps₁ ps₂ I I₁ I₂ Λ₁ Λ₂ : ℝ} (s₁ : Spec.UepiStep pr G dt σr Δε σ₁ e₁ ps ps₁ I I₁ Λ₁ 0 0)
  (s₂ : Spec.UepiStep pr G dt σr Δε σ₂ e₂ ps ps₂ I I₂ Λ₂ 0 0)
include h hG hdt s₁ s₂

/-- A larger multiplier means less shear stress and more plastic shear. -/
theorem uepi_more_shear (hΛ : Λ₁ ≤ Λ₂) : Spec.qVM σ₂ ≤ Spec.qVM σ₁ ∧ Λ₁ * Spec.qVM σ₁ ≤ Λ₂ * Spec.qVM σ₂ ∧
    (Spec.qVM σ₁ ≤ Spec.qVM σ₂ → Λ₁ < Λ₂ → Spec.qVM σ₁ = 0) := by
  have hM := h.Mcsl
  have a := (uepi_scalars h hG hdt s₁).2.1
  have b := (uepi_scalars h hG hdt s₂).2.1
  rw [← b] at a
  have hk : 0 < 6 * G / pr.Mcsl ^ 2 := by positivity
  have e : ∀ x : ℝ, 6 * G * (x / pr.Mcsl ^ 2) = 6 * G / pr.Mcsl ^ 2 * x := fun x => by ring
  rw [e, e] at a
  generalize 6 * G / pr.Mcsl ^ 2 = k at *
  have q1 := qVM_nonneg σ₁
  have q2 := qVM_nonneg σ₂
  have l1 := s₁.multiplier
  generalize Spec.qVM σ₁ = x at *
  generalize Spec.qVM σ₂ = y at *
  have h1 : y ≤ x := by
    have : (1 + k * Λ₁) * y ≤ (1 + k * Λ₁) * x := by
      rw [a]; exact mul_le_mul_of_nonneg_right (by nlinarith) q2
    exact le_of_mul_le_mul_left this (by positivity)
  refine ⟨h1, ?_, ?_⟩
  · have : k * (Λ₁ * x) ≤ k * (Λ₂ * y) := by nlinarith
    exact le_of_mul_le_mul_left this hk
  · intro h2 h3
    have : x = y := le_antisymm h2 h1
    subst this
    have : k * (Λ₂ - Λ₁) * x = 0 := by linarith
    rcases mul_eq_zero.mp this with h4 | h4
    · have : 0 < k * (Λ₂ - Λ₁) := mul_pos hk (by linarith)
      exact absurd h4 this.ne'
    · exact h4

/-- Of two contracting steps the one with the larger multiplier hardens more and ends closer to the critical state. -/
theorem uepi_order (hp : 0 < Spec.meanStress σr) (h2 : 0 < ps₂) (c₁ : ps₁ ≤ Spec.meanStress σ₁) (hΛ : Λ₁ ≤ Λ₂) :
    ps₁ ≤ ps₂ ∧ Spec.meanStress σ₂ - ps₂ ≤ Spec.meanStress σ₁ - ps₁ := by
  have hk := h.kap
  have hcp : 0 < pr.lam - pr.kap := sub_pos.mpr h.lam
  have v₁ := s₁.flowVol
  have v₂ := s₂.flowVol
  have l1 := s₁.multiplier
  rw [sub_zero] at v₁ v₂
  have w₁ := s₁.elasticVol
  have w₂ := s₂.elasticVol
  rw [Matrix.trace_sub] at w₁ w₂
  rcases lt_or_ge (Spec.meanStress σ₁) (Spec.meanStress σ₂) with hc | hc
  · have h3 : e₂.trace < e₁.trace := by
      rw [w₁, w₂] at hc
      have := (div_lt_div_iff_of_pos_right hk).mp (Real.exp_lt_exp.mp (lt_of_mul_lt_mul_left hc hp.le))
      linarith
    rw [v₁, v₂] at h3
    have h4 : Spec.meanStress σ₂ - ps₂ < Spec.meanStress σ₁ - ps₁ := by
      by_contra hn
      have hn := not_lt.mp hn
      have : Λ₁ * (2 * Spec.meanStress σ₁ - 2 * ps₁) ≤ Λ₂ * (2 * Spec.meanStress σ₂ - 2 * ps₂) :=
        mul_le_mul hΛ (by linarith) (by linarith) (by linarith)
      linarith
    exact ⟨by linarith, h4.le⟩
  · have h3 : e₁.trace ≤ e₂.trace := by
      rw [w₁, w₂] at hc
      have := (div_le_div_iff_of_pos_right hk).mp (Real.exp_le_exp.mp (le_of_mul_le_mul_left hc hp))
      linarith
    have h4 : ps₁ ≤ ps₂ := by
      by_contra hn
      have hn := not_le.mp hn
      have hI : I₁ ≤ I₂ := by
        rw [(uepi_scalars h hG hdt s₁).2.2.1, (uepi_scalars h hG hdt s₂).2.2.1]
        have hg := (uepi_more_shear h hG hdt s₁ s₂ hΛ).2.1
        have hM := h.Mcsl
        have hd := h.d
        have hr := h.rhoP
        have hpr : 0 < pr.pRef := lt_of_lt_of_le one_pos h.pRef
        have q2 := qVM_nonneg σ₂
        have l2 := s₂.multiplier
        apply mul_le_mul
        · apply mul_le_mul_of_nonneg_right _ hd.le
          apply div_le_div_of_nonneg_right _ hdt.le
          have e : ∀ x y : ℝ, 2 * (x / pr.Mcsl ^ 2) * y = 2 / pr.Mcsl ^ 2 * (x * y) := fun x y => by ring
          rw [e, e]
          exact mul_le_mul_of_nonneg_left hg (by positivity)
        · exact Real.sqrt_le_sqrt (div_le_div_of_nonneg_left hr.le (lt_max_of_lt_right hpr) (max_le_max hn.le le_rfl))
        · exact Real.sqrt_nonneg _
        · positivity
      have g₁ := s₁.hardening
      have g₂ := s₂.hardening
      have h5 : (I₁ - I) / pr.Iv ≤ (I₂ - I) / pr.Iv := div_le_div_of_nonneg_right (by linarith) h.Iv.le
      have h6 : (pr.lam - pr.kap) * (Real.log ps₂ - Real.log ps) < (pr.lam - pr.kap) * (Real.log ps₁ - Real.log ps) :=
        mul_lt_mul_of_pos_left (by linarith [Real.log_lt_log h2 hn]) hcp
      linarith
    exact ⟨h4, by linarith⟩

/-- Where the hardening pressure does not fall with the multiplier, the strengthened surface does not shrink. -/
theorem uepi_grows (h1 : 0 < ps₁) (h2 : 0 < ps₂) (o1 : ps₁ ≤ ps₂) (hΛ : Λ₁ ≤ Λ₂) :
    Spec.inertialStrength pr.IM pr.Mcsl pr.Minf I₁ ^ 2 * ps₁ ≤ Spec.inertialStrength pr.IM pr.Mcsl pr.Minf I₂ ^ 2 * ps₂ := by
  obtain ⟨m1, m2, -⟩ := uepi_more_shear h hG hdt s₁ s₂ hΛ
  obtain ⟨-, -, i1, -⟩ := uepi_scalars h hG hdt s₁
  obtain ⟨-, -, i2, -⟩ := uepi_scalars h hG hdt s₂
  have hM := h.Mcsl
  have hd := h.d
  have hr := h.rhoP
  have hpr : 0 < pr.pRef := lt_of_lt_of_le one_pos h.pRef
  have q1 := qVM_nonneg σ₁
  have q2 := qVM_nonneg σ₂
  have l1 := s₁.multiplier
  have l2 := s₂.multiplier
  have hI1 : 0 ≤ I₁ := by rw [i1]; positivity
  have hI2 : 0 ≤ I₂ := by rw [i2]; positivity
  have b1 := (strength_bounds hI1 h.IM hM h.Minf).1
  have b2 := (strength_bounds hI2 h.IM hM h.Minf).1
  have hinf : 1 ≤ pr.Minf / pr.Mcsl := (one_le_div hM).mpr h.Minf
  have hIM := h.IM
  rcases le_or_gt I₁ I₂ with hI | hI
  · have : Spec.inertialStrength pr.IM pr.Mcsl pr.Minf I₁ ≤ Spec.inertialStrength pr.IM pr.Mcsl pr.Minf I₂ := by
      unfold Spec.inertialStrength
      rw [div_le_div_iff₀ (by positivity) (by positivity)]
      nlinarith [mul_nonneg (mul_nonneg hIM.le (sub_nonneg.mpr hI)) (sub_nonneg.mpr hinf)]
    gcongr
  · have hm : Spec.inertialStrength pr.IM pr.Mcsl pr.Minf I₁ * I₂ ≤ Spec.inertialStrength pr.IM pr.Mcsl pr.Minf I₂ * I₁ := by
      unfold Spec.inertialStrength
      rw [div_mul_eq_mul_div, div_mul_eq_mul_div, div_le_div_iff₀ (by positivity) (by positivity)]
      generalize pr.Minf / pr.Mcsl = m at *
      have e1 : (pr.IM * 1 + I₁ * m) * I₂ * (pr.IM + I₂) = pr.IM ^ 2 * I₂ + pr.IM * I₂ ^ 2 + m * I₁ * I₂ * pr.IM + m * I₁ * I₂ * I₂ := by
        ring
      have e2 : (pr.IM * 1 + I₂ * m) * I₁ * (pr.IM + I₁) = pr.IM ^ 2 * I₁ + pr.IM * I₁ ^ 2 + m * I₁ * I₂ * pr.IM + m * I₁ * I₂ * I₁ := by
        ring
      rw [e1, e2]
      have : 0 ≤ m * I₁ * I₂ := by positivity
      gcongr
    have hsq : I₁ ^ 2 * ps₁ ≤ I₂ ^ 2 * ps₂ := by
      set X₁ := max ps₁ pr.pRef with hX₁
      set X₂ := max ps₂ pr.pRef with hX₂
      have x1 : 0 < X₁ := lt_max_of_lt_left h1
      have x2 : 0 < X₂ := lt_max_of_lt_left h2
      have hX : X₂ * ps₁ ≤ X₁ * ps₂ := by
        rcases le_total ps₂ pr.pRef with hb | hb
        · rw [hX₂, max_eq_right hb, hX₁, max_eq_right (o1.trans hb)]
          exact mul_le_mul_of_nonneg_left o1 hpr.le
        · rw [hX₂, max_eq_left hb, mul_comm]
          exact mul_le_mul_of_nonneg_right (le_max_left _ _) h2.le
      set g₁ := 2 * (Λ₁ / pr.Mcsl ^ 2) * Spec.qVM σ₁ / dt * pr.d with hg₁
      set g₂ := 2 * (Λ₂ / pr.Mcsl ^ 2) * Spec.qVM σ₂ / dt * pr.d with hg₂
      have hg : g₁ ≤ g₂ := by
        have e : ∀ x y : ℝ, 2 * (x / pr.Mcsl ^ 2) * y / dt * pr.d = 2 / pr.Mcsl ^ 2 / dt * pr.d * (x * y) := fun x y => by ring
        rw [hg₁, hg₂, e, e]
        exact mul_le_mul_of_nonneg_left m2 (by positivity)
      have hg0 : 0 ≤ g₁ := by positivity
      rw [i1, i2, mul_pow g₁, mul_pow g₂, Real.sq_sqrt (by positivity), Real.sq_sqrt (by positivity)]
      have h3 : g₁ ^ 2 ≤ g₂ ^ 2 := pow_le_pow_left₀ hg0 hg 2
      have h4 : pr.rhoP / X₁ * ps₁ ≤ pr.rhoP / X₂ * ps₂ := by
        rw [div_mul_eq_mul_div, div_mul_eq_mul_div, div_le_div_iff₀ x1 x2]
        nlinarith
      rw [mul_assoc, mul_assoc]
      exact mul_le_mul h3 h4 (by positivity) (sq_nonneg _)
    have hI1' : 0 < I₁ ^ 2 := by have : 0 < I₁ := by linarith
                                 positivity
    have h3 : (Spec.inertialStrength pr.IM pr.Mcsl pr.Minf I₁ * I₂) ^ 2 ≤ (Spec.inertialStrength pr.IM pr.Mcsl pr.Minf I₂ * I₁) ^ 2 :=
      pow_le_pow_left₀ (by positivity) hm 2
    generalize Spec.inertialStrength pr.IM pr.Mcsl pr.Minf I₁ = a at *
    generalize Spec.inertialStrength pr.IM pr.Mcsl pr.Minf I₂ = b at *
    have h4 : I₁ ^ 2 * (a ^ 2 * ps₁) ≤ I₁ ^ 2 * (b ^ 2 * ps₂) := by
      calc I₁ ^ 2 * (a ^ 2 * ps₁) = a ^ 2 * (I₁ ^ 2 * ps₁) := by ring
        _ ≤ a ^ 2 * (I₂ ^ 2 * ps₂) := mul_le_mul_of_nonneg_left hsq (sq_nonneg _)
        _ = (a * I₂) ^ 2 * ps₂ := by ring
        _ ≤ (b * I₁) ^ 2 * ps₂ := mul_le_mul_of_nonneg_right h3 h2.le
        _ = I₁ ^ 2 * (b ^ 2 * ps₂) := by ring
    exact le_of_mul_le_mul_left h4 hI1'

/-- Two contracting steps have the same multiplier. -/
theorem uepi_multiplier_le (hp : 0 < Spec.meanStress σr) (h1 : 0 < ps₁) (h2 : 0 < ps₂) (c₁ : ps₁ ≤ Spec.meanStress σ₁)
    (c₂ : ps₂ ≤ Spec.meanStress σ₂) : Λ₂ ≤ Λ₁ := by
  by_contra hn
  have hn := not_le.mp hn
  obtain ⟨o1, o2⟩ := uepi_order h hG hdt s₁ s₂ hp h2 c₁ hn.le
  obtain ⟨m1, m2, m3⟩ := uepi_more_shear h hG hdt s₁ s₂ hn.le
  obtain ⟨-, -, i1, y1⟩ := uepi_scalars h hG hdt s₁
  obtain ⟨-, -, i2, y2⟩ := uepi_scalars h hG hdt s₂
  have hM := h.Mcsl
  have hd := h.d
  have hr := h.rhoP
  have hpr : 0 < pr.pRef := lt_of_lt_of_le one_pos h.pRef
  have q1 := qVM_nonneg σ₁
  have q2 := qVM_nonneg σ₂
  have l1 := s₁.multiplier
  have l2 := s₂.multiplier
  have hI1 : 0 ≤ I₁ := by rw [i1]; positivity
  have hI2 : 0 ≤ I₂ := by rw [i2]; positivity
  obtain ⟨b1, -⟩ := strength_bounds hI1 h.IM hM h.Minf
  obtain ⟨b2, -⟩ := strength_bounds hI2 h.IM hM h.Minf
  have key := uepi_grows h hG hdt s₁ s₂ h1 h2 o1 hn.le
  -- so the shear stress is the same, hence zero
  generalize Spec.inertialStrength pr.IM pr.Mcsl pr.Minf I₁ = a at *
  generalize Spec.inertialStrength pr.IM pr.Mcsl pr.Minf I₂ = b at *
  have g₁ : 0 ≤ ps₁ ^ 2 - (Spec.meanStress σ₁ - ps₁) ^ 2 := by
    have : 0 ≤ a ^ 2 * (ps₁ ^ 2 - (Spec.meanStress σ₁ - ps₁) ^ 2) := by rw [← y1]; positivity
    exact nonneg_of_mul_nonneg_right this (by positivity)
  have hle : (Spec.qVM σ₁ / pr.Mcsl) ^ 2 ≤ (Spec.qVM σ₂ / pr.Mcsl) ^ 2 := by
    rw [y1, y2]
    have e : ∀ m s g : ℝ, 0 < s → m ^ 2 * (s ^ 2 - g ^ 2) = m ^ 2 * s * (s - g ^ 2 / s) := by
      intro m s g hs; field_simp
    rw [e _ _ _ h1, e _ _ _ h2]
    have hg : (Spec.meanStress σ₂ - ps₂) ^ 2 / ps₂ ≤ (Spec.meanStress σ₁ - ps₁) ^ 2 / ps₁ :=
      div_le_div₀ (sq_nonneg _) (pow_le_pow_left₀ (by linarith) o2 2) h1 o1
    have h0 : 0 ≤ ps₁ - (Spec.meanStress σ₁ - ps₁) ^ 2 / ps₁ := by
      rw [sub_nonneg, div_le_iff₀ h1, ← sq]; linarith
    exact mul_le_mul key (by linarith) h0 (by positivity)
  have hqq : Spec.qVM σ₁ ≤ Spec.qVM σ₂ := by
    have := (pow_le_pow_iff_left₀ (by positivity) (by positivity) two_ne_zero).mp hle
    exact (div_le_div_iff_of_pos_right hM).mp this
  have z1 := m3 hqq hn
  have z2 : Spec.qVM σ₂ = 0 := le_antisymm (by linarith) q2
  rw [z1, zero_div, zero_pow two_ne_zero] at y1
  rw [z2, zero_div, zero_pow two_ne_zero] at y2
  have f1 : ps₁ ^ 2 - (Spec.meanStress σ₁ - ps₁) ^ 2 = 0 := by
    rcases mul_eq_zero.mp y1.symm with h3 | h3
    · exact absurd h3 (by positivity)
    · exact h3
  have f2 : ps₂ ^ 2 - (Spec.meanStress σ₂ - ps₂) ^ 2 = 0 := by
    rcases mul_eq_zero.mp y2.symm with h3 | h3
    · exact absurd h3 (by positivity)
    · exact h3
  have e1 : Spec.meanStress σ₁ - ps₁ = ps₁ := by
    have := (pow_left_inj₀ (by linarith) h1.le two_ne_zero).mp (show (Spec.meanStress σ₁ - ps₁) ^ 2 = ps₁ ^ 2 by linarith)
    exact this
  have e2 : Spec.meanStress σ₂ - ps₂ = ps₂ := by
    have := (pow_left_inj₀ (by linarith) h2.le two_ne_zero).mp (show (Spec.meanStress σ₂ - ps₂) ^ 2 = ps₂ ^ 2 by linarith)
    exact this
  have e3 : ps₁ = ps₂ := by linarith
  have e4 : Spec.meanStress σ₁ = Spec.meanStress σ₂ := by linarith
  have w := s₁.elasticVol
  rw [e4, s₂.elasticVol, Matrix.trace_sub, Matrix.trace_sub] at w
  have w' := Real.exp_injective (mul_left_cancel₀ hp.ne' w)
  have w2 : e₁.trace = e₂.trace := by
    have := (div_left_inj' h.kap.ne').mp w'
    linarith
  rw [s₁.flowVol, s₂.flowVol, e4, e3, sub_zero, sub_zero] at w2
  have h5 : 2 * Spec.meanStress σ₂ - 2 * ps₂ = 2 * ps₂ := by linarith
  rw [h5] at w2
  have := mul_right_cancel₀ (by positivity) w2
  linarith

/-- **C126**: a step of the law has at most one contracting solution. -/
theorem uepi_contracting_unique (hp : 0 < Spec.meanStress σr) (h1 : 0 < ps₁) (h2 : 0 < ps₂)
    (c₁ : ps₁ ≤ Spec.meanStress σ₁) (c₂ : ps₂ ≤ Spec.meanStress σ₂) :
    σ₁ = σ₂ ∧ e₁ = e₂ ∧ ps₁ = ps₂ ∧ I₁ = I₂ ∧ Λ₁ = Λ₂ := by
  have hΛ : Λ₁ = Λ₂ := le_antisymm (uepi_multiplier_le h hG hdt s₂ s₁ hp h2 h1 c₂ c₁) (uepi_multiplier_le h hG hdt s₁ s₂ hp h1 h2 c₁ c₂)
  obtain ⟨o1, o2⟩ := uepi_order h hG hdt s₁ s₂ hp h2 c₁ hΛ.le
  obtain ⟨o3, o4⟩ := uepi_order h hG hdt s₂ s₁ hp h1 c₂ hΛ.ge
  have hps : ps₁ = ps₂ := le_antisymm o1 o3
  have hpp : Spec.meanStress σ₁ = Spec.meanStress σ₂ := by linarith
  have hM := h.Mcsl
  have l1 := s₁.multiplier
  have d1 := (uepi_scalars h hG hdt s₁).1
  have d2 := (uepi_scalars h hG hdt s₂).1
  rw [← d2, ← hΛ] at d1
  have hf : 1 + 6 * G * (Λ₁ / pr.Mcsl ^ 2) ≠ 0 := by positivity
  have hdev : Spec.dev σ₁ = Spec.dev σ₂ := by
    have := congrArg (fun A => (1 + 6 * G * (Λ₁ / pr.Mcsl ^ 2))⁻¹ • A) d1
    simpa [smul_smul, inv_mul_cancel₀ hf] using this
  have hσ : σ₁ = σ₂ := by rw [← dev_add_mean σ₁, ← dev_add_mean σ₂, hdev, hpp]
  have he : e₁ = e₂ := by
    have t1 : e₁.trace = e₂.trace := by rw [s₁.flowVol, s₂.flowVol, hΛ, hpp, hps]
    have t2 : Spec.dev e₁ = Spec.dev e₂ := by rw [s₁.flowDev, s₂.flowDev, hΛ, hdev]
    rw [← dev_add_mean e₁, ← dev_add_mean e₂, t2, meanStress_trace, meanStress_trace, t1]
  refine ⟨hσ, he, hps, ?_, hΛ⟩
  rw [s₁.inertial, s₂.inertial, he, hps]

end

/-! ### Wet steps -/

/-- The inertial number that a step gets if the whole trial shear stress is spent on plastic shear at the reference pressure. -/
noncomputable def Spec.mostInertial (pr : UepiParams ℝ) (q G dt : ℝ) : ℝ := q / (3 * G) / dt * pr.d * Real.sqrt (pr.rhoP / pr.pRef)

theorem uepi_mostInertial {pr : UepiParams ℝ} (h : pr.Good) {G dt : ℝ} (hG : 0 < G) (hdt : 0 < dt) {σr Δε σ' ep : Mat3 ℝ}
    {ps ps' I I' Λ : ℝ} (s : Spec.UepiStep pr G dt σr Δε σ' ep ps ps' I I' Λ 0 0) :
    I' ≤ Spec.mostInertial pr (Spec.qVM (Spec.dev σr + (2 * G) • Spec.dev Δε)) G dt := by
  obtain ⟨-, a, b, -⟩ := uepi_scalars h hG hdt s
  have hM := h.Mcsl
  have hd := h.d
  have hr := h.rhoP
  have hpr : 0 < pr.pRef := lt_of_lt_of_le one_pos h.pRef
  have hΛ := s.multiplier
  have hq := qVM_nonneg σ'
  rw [b, Spec.mostInertial, ← a]
  have h1 : 2 * (Λ / pr.Mcsl ^ 2) * Spec.qVM σ' ≤ (1 + 6 * G * (Λ / pr.Mcsl ^ 2)) * Spec.qVM σ' / (3 * G) := by
    rw [le_div_iff₀ (by positivity)]
    nlinarith
  have h2 : Real.sqrt (pr.rhoP / max ps' pr.pRef) ≤ Real.sqrt (pr.rhoP / pr.pRef) :=
    Real.sqrt_le_sqrt (div_le_div_of_nonneg_left hr.le hpr (le_max_right _ _))
  gcongr

/-- **C126**: a step whose trial pressure is not below the hardening pressure, shifted by the largest inertial number of the
step, contracts. -/
theorem uepi_wet_contracts {pr : UepiParams ℝ} (h : pr.Good) {G dt : ℝ} (hG : 0 < G) (hdt : 0 < dt) {σr Δε σ' ep : Mat3 ℝ}
    {ps ps' I I' Λ : ℝ} (hp : 0 < Spec.meanStress σr) (hps : 0 < ps) (hps' : 0 < ps')
    (hw : ps * Real.exp ((Spec.mostInertial pr (Spec.qVM (Spec.dev σr + (2 * G) • Spec.dev Δε)) G dt - I) / pr.Iv / (pr.lam - pr.kap)) ≤
      Spec.meanStress σr * Real.exp (Δε.trace / pr.kap))
    (s : Spec.UepiStep pr G dt σr Δε σ' ep ps ps' I I' Λ 0 0) : ps' ≤ Spec.meanStress σ' := by
  have hcp : 0 < pr.lam - pr.kap := sub_pos.mpr h.lam
  have hIv := h.Iv
  rcases uepi_between h hp hps hps' s with ⟨-, h2, -⟩ | ⟨h1, h2, h3⟩
  · exact h2
  · have hm := uepi_mostInertial h hG hdt s
    have h4 : ps * Real.exp ((I' - I) / pr.Iv / (pr.lam - pr.kap)) ≤
        ps * Real.exp ((Spec.mostInertial pr (Spec.qVM (Spec.dev σr + (2 * G) • Spec.dev Δε)) G dt - I) / pr.Iv / (pr.lam - pr.kap)) := by
      gcongr
    linarith

/-- **C126**: a wet yielding step has exactly one solution. -/
theorem uepi_wet_unique (pr : UepiParams ℝ) (h : pr.Good) (σref L : Mat3 ℝ) (dt : ℝ) (hdt : 0 < dt) (st : UepiState ℝ)
    (hp : 1 ≤ Spec.meanStress st.stress) (hps : 1 ≤ st.ps) (hI : 0 ≤ st.I) (hs : st.stress.IsSymm)
    (hy : 0 < (uepiTrial realFns pr L st σref dt).yf) (hq : 1 / 10 ^ 6 ≤ (uepiTrial realFns pr L st σref dt).qTr)
    (hw : st.ps * Real.exp ((Spec.mostInertial pr (uepiTrial realFns pr L st σref dt).qTr (uepiTrial realFns pr L st σref dt).Gc dt - st.I) /
      pr.Iv / (pr.lam - pr.kap)) ≤ (uepiTrial realFns pr L st σref dt).pTr) :
    ∃! r : Mat3 ℝ × Mat3 ℝ × ℝ × ℝ × ℝ, 0 < r.2.2.1 ∧
      Spec.UepiStep pr (uepiTrial realFns pr L st σref dt).Gc dt (Spec.jaumannRotated L st.stress dt) (Spec.strainInc L dt) r.1 r.2.1
        st.ps r.2.2.1 st.I r.2.2.2.1 r.2.2.2.2 0 0 := by
  have hp0 : 0 < Spec.meanStress st.stress := by linarith
  have hG := uepiTrial_Gc pr L σref st dt h hp0
  have hm : Spec.meanStress (Spec.jaumannRotated L st.stress dt) = Spec.meanStress st.stress := by
    rw [← jaumannRotated_eq, jaumann_mean]
  rw [uepiTrial_pTr, uepiTrial_qTr, uepiTrial_sTr, ← hm] at hw
  rw [← hm] at hp0
  obtain ⟨σ', ep, ps', I', Λ, -, h1, -, -, h2⟩ := uepi_step_exists_partial pr h σref L dt hdt st hp hps hI hs hy hq
  refine ⟨(σ', ep, ps', I', Λ), ⟨h1, h2⟩, ?_⟩
  rintro ⟨σ₂, e₂, ps₂, I₂, Λ₂⟩ ⟨g1, g2⟩
  obtain ⟨a, b, c, d, e⟩ := uepi_contracting_unique h hG hdt g2 h2 hp0 g1 h1
    (uepi_wet_contracts h hG hdt hp0 (by linarith) g1 hw g2) (uepi_wet_contracts h hG hdt hp0 (by linarith) h1 hw h2)
  simp only at a b c d e
  rw [a, b, c, d, e]

/-- **C126**: the result of a wet step does not depend on how the Newton loop went, as long as it solved the equations. -/
theorem uepi_wet_determined (ops ops' : NewtonOps ℝ) (pr : UepiParams ℝ) (h : pr.Good) (σref L : Mat3 ℝ) (dt : ℝ) (hdt : 0 < dt)
    (st : UepiState ℝ) (hp : 1 ≤ Spec.meanStress st.stress) (hps : 1 ≤ st.ps)
    (hy : 0 < (uepiTrial realFns pr L st σref dt).yf) (hq : 1 / 10 ^ 6 ≤ (uepiTrial realFns pr L st σref dt).qTr)
    (hw : st.ps * Real.exp ((Spec.mostInertial pr (uepiTrial realFns pr L st σref dt).qTr (uepiTrial realFns pr L st σref dt).Gc dt - st.I) /
      pr.Iv / (pr.lam - pr.kap)) ≤ (uepiTrial realFns pr L st σref dt).pTr)
    (hr : uepiLeft ops pr (uepiTrial realFns pr L st σref dt) st dt = 0)
    (hr' : uepiLeft ops' pr (uepiTrial realFns pr L st σref dt) st dt = 0) :
    (uepiUpdate realFns ops pr σref L dt st).stress = (uepiUpdate realFns ops' pr σref L dt st).stress ∧
    (uepiUpdate realFns ops pr σref L dt st).ps = (uepiUpdate realFns ops' pr σref L dt st).ps ∧
    (uepiUpdate realFns ops pr σref L dt st).I = (uepiUpdate realFns ops' pr σref L dt st).I := by
  have hp0 : 0 < Spec.meanStress st.stress := by linarith
  have hG := uepiTrial_Gc pr L σref st dt h hp0
  have hm : Spec.meanStress (Spec.jaumannRotated L st.stress dt) = Spec.meanStress st.stress := by
    rw [← jaumannRotated_eq, jaumann_mean]
  rw [uepiTrial_pTr, uepiTrial_qTr, uepiTrial_sTr, ← hm] at hw
  obtain ⟨Λ, e, h1⟩ := uepi_return_map ops pr h σref L dt hdt st hp hps hy hq
  obtain ⟨Λ', e', h2⟩ := uepi_return_map ops' pr h σref L dt hdt st hp hps hy hq
  rw [hr] at h1
  rw [hr'] at h2
  simp only [Pi.zero_apply, zero_div] at h1 h2
  rw [← hm] at hp0
  have pos : ∀ o, 0 < (uepiUpdate realFns o pr σref L dt st).ps := by
    intro o
    have : uepiUpdate realFns o pr σref L dt st = uepiPlastic realFns o pr (uepiTrial realFns pr L st σref dt) st dt := by
      unfold uepiUpdate; simp only; rw [if_pos hy]
    rw [this]
    exact Real.exp_pos _
  obtain ⟨a, -, b, c, -⟩ := uepi_contracting_unique h hG hdt h1 h2 hp0 (pos _) (pos _)
    (uepi_wet_contracts h hG hdt hp0 (by linarith) (pos _) hw h1) (uepi_wet_contracts h hG hdt hp0 (by linarith) (pos _) hw h2)
  exact ⟨a, b, c⟩

/-! ### Dry steps -/

/-- Ratio of the shear to the bulk modulus of `exTwinPr`. -/
noncomputable def exTwinRatio : ℝ := 21875 / 5767168 / Real.log (5 / 4)

/-- A stiff material without strengthening. -/
noncomputable def exTwinPr : UepiParams ℝ :=
  { pRef := 10000, nu := (3 - 2 * exTwinRatio) / (6 + 2 * exTwinRatio),
    lam := 21 / 40000 / Real.log (5 / 4) + 291 / 680000 / Real.log (233 / 205), kap := 21 / 40000 / Real.log (5 / 4),
    Mcsl := 1, gamma := 3, Minf := 1, Iv := 1 / 10, IM := 1 / 100, rhoP := 2500, d := 3 / 1360 }

theorem exTwin_logs : 0 < Real.log (5 / 4) ∧ 0 < Real.log (233 / 205) :=
  ⟨Real.log_pos (by norm_num), Real.log_pos (by norm_num)⟩

theorem exTwinRatio_pos : 0 < exTwinRatio := by
  have := exTwin_logs.1
  unfold exTwinRatio; positivity

theorem exTwinPr_good : exTwinPr.Good := by
  obtain ⟨h1, h2⟩ := exTwin_logs
  have h3 := exTwinRatio_pos
  refine ⟨?_, ?_, ?_, ?_, by norm_num [exTwinPr], by norm_num [exTwinPr], by norm_num [exTwinPr], by norm_num [exTwinPr],
    by norm_num [exTwinPr], by norm_num [exTwinPr], by norm_num [exTwinPr], by norm_num [exTwinPr]⟩
  · change -1 < (3 - 2 * exTwinRatio) / (6 + 2 * exTwinRatio)
    rw [lt_div_iff₀ (by positivity)]; linarith
  · change (3 - 2 * exTwinRatio) / (6 + 2 * exTwinRatio) < 1 / 2
    rw [div_lt_iff₀ (by positivity)]; linarith
  · change 0 < 21 / 40000 / Real.log (5 / 4); positivity
  · change 21 / 40000 / Real.log (5 / 4) < 21 / 40000 / Real.log (5 / 4) + 291 / 680000 / Real.log (233 / 205)
    have : 0 < 291 / 680000 / Real.log (233 / 205) := by positivity
    linarith

/-- Overconsolidated, sheared almost to the surface, at rest. -/
noncomputable def exTwinSt : UepiState ℝ :=
  { stress := triaxialStress (32768 / 25) 6000, epsE := 0, ps := 233000 / 32 * (233 / 205) ^ 6, I := 0 }

/-- A triaxial step at constant volume of about one percent. -/
noncomputable def exTwinL : Mat3 ℝ := triaxialL (-(57 / 5000)) (2 * (57 / 5000))

theorem exTwin_inc : Spec.strainInc exTwinL 1 = exTwinL := by
  have : exTwinL.transpose = exTwinL := Matrix.diagonal_transpose _
  rw [Spec.strainInc, this, ← two_smul ℝ exTwinL, smul_smul]; norm_num

theorem exTwin_trace : exTwinL.trace = 0 := by
  rw [trace3]; simp [exTwinL, triaxialL]; norm_num

theorem exTwin_mean : Spec.meanStress exTwinSt.stress = 32768 / 25 := triaxial_mean _ _

theorem exTwin_rot : Spec.jaumannRotated exTwinL exTwinSt.stress 1 = exTwinSt.stress := by
  have : exTwinL.transpose = exTwinL := Matrix.diagonal_transpose _
  simp [Spec.jaumannRotated, this]

theorem exTwin_pTr (σref : Mat3 ℝ) : (uepiTrial realFns exTwinPr exTwinL exTwinSt σref 1).pTr = 32768 / 25 := by
  rw [uepiTrial_pTr, exTwin_mean, exTwin_inc, exTwin_trace, zero_div, Real.exp_zero, mul_one]

theorem exTwin_G (σref : Mat3 ℝ) : (uepiTrial realFns exTwinPr exTwinL exTwinSt σref 1).Gc = 312500 / 33 := by
  have h1 : (uepiTrial realFns exTwinPr exTwinL exTwinSt σref 1).Gc = 3 * (1 - 2 * exTwinPr.nu) / (2 * (1 + exTwinPr.nu)) *
      (1 / 2 * ((uepiTrial realFns exTwinPr exTwinL exTwinSt σref 1).pPrev +
        (uepiTrial realFns exTwinPr exTwinL exTwinSt σref 1).pTr) / exTwinPr.kap) := rfl
  rw [h1, uepiTrial_pPrev, exTwin_pTr, exTwin_mean]
  have h2 := exTwinRatio_pos
  have h3 : 3 * (1 - 2 * exTwinPr.nu) / (2 * (1 + exTwinPr.nu)) = exTwinRatio := by
    change 3 * (1 - 2 * ((3 - 2 * exTwinRatio) / (6 + 2 * exTwinRatio))) / (2 * (1 + (3 - 2 * exTwinRatio) / (6 + 2 * exTwinRatio))) = _
    generalize exTwinRatio = r at *
    have : 6 + 2 * r ≠ 0 := by positivity
    have e1 : 1 - 2 * ((3 - 2 * r) / (6 + 2 * r)) = 6 * r / (6 + 2 * r) := by field_simp; ring
    have e2 : 1 + (3 - 2 * r) / (6 + 2 * r) = 9 / (6 + 2 * r) := by field_simp; ring
    rw [e1, e2]; field_simp; norm_num
  rw [h3]
  have h4 : exTwinPr.kap = 21 / 40000 / Real.log (5 / 4) := rfl
  rw [h4, exTwinRatio]
  have := exTwin_logs.1
  field_simp
  norm_num

theorem exTwin_q (σref : Mat3 ℝ) : (uepiTrial realFns exTwinPr exTwinL exTwinSt σref 1).qTr = 73125 / 11 := by
  have h1 : (uepiTrial realFns exTwinPr exTwinL exTwinSt σref 1).sTr = Spec.dev (triaxialStress (32768 / 25) (73125 / 11)) := by
    rw [uepiTrial_sTr, exTwin_G, exTwin_rot, exTwin_inc]
    ext i j
    fin_cases i <;> fin_cases j <;>
      simp [Spec.dev, Spec.meanStress, exTwinSt, exTwinL, triaxialStress, triaxialL] <;> norm_num
  rw [uepiTrial_qTr, h1]
  have h2 : triaxialStress (32768 / 25) (73125 / 11 : ℝ) = Spec.dev (triaxialStress (32768 / 25) (73125 / 11)) + isoT (32768 / 25) := by
    have := dev_add_mean (triaxialStress (32768 / 25) (73125 / 11 : ℝ))
    rw [triaxial_mean] at this
    exact this.symm
  have h3 := triaxial_qVM (32768 / 25) (73125 / 11)
  rw [h2, qVM_add_iso (meanStress_dev _)] at h3
  rw [h3, abs_of_pos (by norm_num)]

theorem exTwin_yields (σref : Mat3 ℝ) : 0 < (uepiTrial realFns exTwinPr exTwinL exTwinSt σref 1).yf := by
  have h : (uepiTrial realFns exTwinPr exTwinL exTwinSt σref 1).yf =
      uYield (uepiTrial realFns exTwinPr exTwinL exTwinSt σref 1).pTr (233000 / 32 * (233 / 205) ^ 6)
        (uepiTrial realFns exTwinPr exTwinL exTwinSt σref 1).qTr 1 1 := rfl
  rw [h, exTwin_q, exTwin_pTr]
  norm_num [uYield]

/-- Where the residuals of `exTwin` vanish. -/
theorem exTwin_zero (σref : Mat3 ℝ) {pm p ps q v n : ℝ} (hps : 0 < ps) (hpr : ps ≤ 10000)
    (hq : 73125 / 11 * (1 / (1 + 625000 / 11 * pm)) = q)
    (hl : Real.log ps = Real.log (233000 / 32 * (233 / 205) ^ 6) - n * Real.log (233 / 205))
    (hv : v = -(n * (291 / 680000)) - 3 / 136 * (pm * q))
    (hp : 32768 / 25 * Real.exp (-v / (21 / 40000 / Real.log (5 / 4))) = p)
    (hy : q ^ 2 + p ^ 2 - 2 * ps * p = 0) (hf : 2 * pm * (p - ps) = v) :
    (uepiResiduals realFns exTwinPr (uepiTrial realFns exTwinPr exTwinL exTwinSt σref 1) exTwinSt 1 ![pm, Real.log ps]).res = 0 := by
  set t := uepiTrial realFns exTwinPr exTwinL exTwinSt σref 1 with ht
  have hqt : max t.qTr (1 / 10 ^ 6) = 73125 / 11 := by rw [ht, exTwin_q]; norm_num
  have hpp : max t.pPrev 1 = 32768 / 25 := by rw [ht, uepiTrial_pPrev, exTwin_mean]; norm_num
  have hG : 6 * t.Gc = 625000 / 11 := by rw [ht, exTwin_G]; norm_num
  have hdv : t.deV = 0 := by rw [ht, uepiTrial_deV, exTwin_inc, exTwin_trace]
  have hpp0 : max exTwinSt.ps 1 = 233000 / 32 * (233 / 205) ^ 6 := max_eq_left (by norm_num [exTwinSt])
  have hM : exTwinPr.Mcsl = 1 := rfl
  have hMI : ∀ i, uMI i exTwinPr.IM 1 exTwinPr.Minf = 1 := by
    intro i; simp [uMI, exTwinPr]
  have hsq : Real.sqrt (exTwinPr.rhoP / max (max ps exTwinPr.pRef) (1 / 10 ^ 12)) = 1 / 2 := by
    have h1 : max ps exTwinPr.pRef = 10000 := max_eq_right hpr
    rw [h1, max_eq_left (by norm_num)]
    rw [show exTwinPr.rhoP / 10000 = (1 / 2) ^ 2 by norm_num [exTwinPr], Real.sqrt_sq (by norm_num)]
  have hd : exTwinPr.d = 3 / 1360 := rfl
  have hIv : exTwinPr.Iv = 1 / 10 := rfl
  have hk : exTwinPr.kap = 21 / 40000 / Real.log (5 / 4) := rfl
  have hI0 : exTwinSt.I = 0 := rfl
  have hcp : exTwinPr.lam - 21 / 40000 / Real.log (5 / 4) = 291 / 680000 / Real.log (233 / 205) := by
    change 21 / 40000 / Real.log (5 / 4) + 291 / 680000 / Real.log (233 / 205) - 21 / 40000 / Real.log (5 / 4) = _
    ring
  have hw : 291 / 680000 / Real.log (233 / 205) * (Real.log ps - Real.log (233000 / 32 * (233 / 205) ^ 6)) -
      (2 * pm * q / 1 * (3 / 1360) * (1 / 2) - 0) / (1 / 10) = v := by
    rw [hl, hv]
    have := exTwin_logs.2
    field_simp
    ring
  have hF : q * q / (1 * 1 * (1 * 1)) + p * p - ps * 2 * p = 0 := by linarith
  have hR : (pm * (2 * (p - ps)) * 1 ^ 2 - v) * 10 ^ 4 = 0 := by rw [← hf]; ring
  rw [show -v = 0 - v by ring] at hp
  funext i
  fin_cases i
  · simp only [uepiResiduals, uIp, uYield, Matrix.cons_val_zero, Matrix.cons_val_one, realFns_exp, realFns_log, realFns_sqrt, Fin.zero_eta,
      hqt, hpp, hG, hdv, hpp0, hM, hMI, hd, hIv, hk, hI0, hcp, Real.exp_log hps, hq, hsq, hw, hp, Pi.zero_apply]
    exact hF
  · simp only [uepiResiduals, uIp, uYield, Matrix.cons_val_zero, Matrix.cons_val_one, realFns_exp, realFns_log, realFns_sqrt, Fin.mk_one,
      hqt, hpp, hG, hdv, hpp0, hM, hMI, hd, hIv, hk, hI0, hcp, Real.exp_log hps, hq, hsq, hw, hp, Pi.zero_apply]
    exact hR

/-- Refutation of uniqueness for dilating material: the equations of a yielding step of overconsolidated material have two
solutions; one leaves the material at a shear stress of 6500, the other at 6250. -/
theorem uepi_dry_not_unique (σref : Mat3 ℝ) : exTwinPr.Good ∧ 0 < (uepiTrial realFns exTwinPr exTwinL exTwinSt σref 1).yf ∧
    ∃ x y : Fin 2 → ℝ, 0 < x 0 ∧ 0 < y 0 ∧
      (uepiResiduals realFns exTwinPr (uepiTrial realFns exTwinPr exTwinL exTwinSt σref 1) exTwinSt 1 x).res = 0 ∧
      (uepiResiduals realFns exTwinPr (uepiTrial realFns exTwinPr exTwinL exTwinSt σref 1) exTwinSt 1 y).res = 0 ∧
      (uepiTrial realFns exTwinPr exTwinL exTwinSt σref 1).qTr *
        (uepiResiduals realFns exTwinPr (uepiTrial realFns exTwinPr exTwinL exTwinSt σref 1) exTwinSt 1 x).factor = 6500 ∧
      (uepiTrial realFns exTwinPr exTwinL exTwinSt σref 1).qTr *
        (uepiResiduals realFns exTwinPr (uepiTrial realFns exTwinPr exTwinL exTwinSt σref 1) exTwinSt 1 y).factor = 6250 := by
  have hl54 := exTwin_logs.1
  have he : ∀ n : ℕ, Real.exp (n * Real.log (5 / 4)) = (5 / 4) ^ n := by
    intro n; rw [Real.exp_nat_mul, Real.exp_log (by norm_num)]
  have hG : ∀ z : ℝ, 1 / (1 + 6 * (uepiTrial realFns exTwinPr exTwinL exTwinSt σref 1).Gc * z) = 1 / (1 + 625000 / 11 * z) := by
    intro z; rw [exTwin_G]; norm_num
  refine ⟨exTwinPr_good, exTwin_yields σref, ![4 / 10 ^ 7, Real.log (233000 / 32)], ![112 / 10 ^ 8, Real.log (205000 / 32)],
    by norm_num, by norm_num, ?_, ?_, ?_, ?_⟩
  · refine exTwin_zero σref (p := 4000) (q := 6500) (v := -(21 / 8000)) (n := 6) (by norm_num) (by norm_num) (by norm_num) ?_ (by norm_num)
      ?_ (by norm_num) (by norm_num)
    · rw [Real.log_mul (by norm_num) (by norm_num), Real.log_pow]; push_cast; ring
    · have : - -(21 / 8000 : ℝ) / (21 / 40000 / Real.log (5 / 4)) = (5 : ℕ) * Real.log (5 / 4) := by push_cast; field_simp; norm_num
      rw [this, he]; norm_num
  · refine exTwin_zero σref (p := 5000) (q := 6250) (v := -(63 / 20000)) (n := 7) (by norm_num) (by norm_num) (by norm_num) ?_ (by norm_num)
      ?_ (by norm_num) (by norm_num)
    · rw [show (205000 / 32 : ℝ) = 233000 / 32 / (233 / 205) by norm_num, Real.log_div (by norm_num) (by norm_num),
        Real.log_mul (by norm_num) (by norm_num), Real.log_pow]; push_cast; ring
    · have : - -(63 / 20000 : ℝ) / (21 / 40000 / Real.log (5 / 4)) = (6 : ℕ) * Real.log (5 / 4) := by push_cast; field_simp; norm_num
      rw [this, he]; norm_num
  · rw [exTwin_q]
    change 73125 / 11 * (1 / (1 + 6 * (uepiTrial realFns exTwinPr exTwinL exTwinSt σref 1).Gc * (4 / 10 ^ 7))) = 6500
    rw [hG]; norm_num
  · rw [exTwin_q]
    change 73125 / 11 * (1 / (1 + 6 * (uepiTrial realFns exTwinPr exTwinL exTwinSt σref 1).Gc * (112 / 10 ^ 8))) = 6250
    rw [hG]; norm_num

/-! ### Examples -/

theorem exShear_wet : exUepiSt.ps * Real.exp ((Spec.mostInertial exUepi (uepiTrial realFns exUepi exShearL exUepiSt (isoT 2000) 1).qTr
    (uepiTrial realFns exUepi exShearL exUepiSt (isoT 2000) 1).Gc 1 - exUepiSt.I) / exUepi.Iv / (exUepi.lam - exUepi.kap)) ≤
    (uepiTrial realFns exUepi exShearL exUepiSt (isoT 2000) 1).pTr := by
  have hG : (uepiTrial realFns exUepi exShearL exUepiSt (isoT 2000) 1).Gc = 24000 := by
    have h1 : (uepiTrial realFns exUepi exShearL exUepiSt (isoT 2000) 1).Gc = 3 * (1 - 2 * exUepi.nu) / (2 * (1 + exUepi.nu)) *
        (1 / 2 * ((uepiTrial realFns exUepi exShearL exUepiSt (isoT 2000) 1).pPrev +
          (uepiTrial realFns exUepi exShearL exUepiSt (isoT 2000) 1).pTr) / exUepi.kap) := rfl
    rw [h1, uepiTrial_pPrev, uepiTrial_pTr, exUepiSt_mean, exShear_inc, exShear_trace, zero_div, Real.exp_zero]
    norm_num [exUepi]
  rw [exShear_q, hG, uepiTrial_pTr, exUepiSt_mean, exShear_inc, exShear_trace, zero_div, Real.exp_zero, mul_one]
  have h1 : Spec.mostInertial exUepi 1440 24000 1 ≤ 4 / 100000 := by
    have : Real.sqrt (exUepi.rhoP / exUepi.pRef) ≤ 2 := by
      rw [show (2 : ℝ) = Real.sqrt (2 ^ 2) by rw [Real.sqrt_sq (by norm_num)]]
      exact Real.sqrt_le_sqrt (by norm_num [exUepi])
    have e : exUepi.d = 1 / 1000 := rfl
    rw [Spec.mostInertial, e]
    linarith
  have h2 : (Spec.mostInertial exUepi 1440 24000 1 - exUepiSt.I) / exUepi.Iv / (exUepi.lam - exUepi.kap) ≤ 1 / 2 := by
    have e1 : exUepi.Iv = 1 / 10 := rfl
    have e2 : exUepi.lam - exUepi.kap = 4 / 100 := by norm_num [exUepi]
    have e3 : 0 ≤ exUepiSt.I := by norm_num [exUepiSt]
    rw [e1, e2, div_div, div_le_iff₀ (by norm_num)]
    linarith
  have h3 : Real.exp (1 / 2) ≤ 2 := by
    have : Real.exp (1 / 2) ^ 2 < 2 ^ 2 := by
      rw [← Real.exp_nat_mul]
      norm_num
      linarith [Real.exp_one_lt_d9]
    exact (lt_of_pow_lt_pow_left₀ 2 (by norm_num) this).le
  have h4 := Real.exp_le_exp.mpr h2
  have e4 : exUepiSt.ps = 1000 := rfl
  rw [e4]
  linarith

example := uepi_wet_unique exUepi exUepi_good (isoT 2000) exShearL 1 one_pos exUepiSt (by rw [exUepiSt_mean]; norm_num)
  (by norm_num [exUepiSt]) (by norm_num [exUepiSt]) exUepiSt_adm.stress exShear_yields (by rw [exShear_q]; norm_num) exShear_wet

example (ops ops' : NewtonOps ℝ) := uepi_wet_determined ops ops' exUepi exUepi_good (isoT 2000) exShearL 1 one_pos exUepiSt
  (by rw [exUepiSt_mean]; norm_num) (by norm_num [exUepiSt]) exShear_yields (by rw [exShear_q]; norm_num) exShear_wet

end Hydrax
