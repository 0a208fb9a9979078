import Verif.Model.Uepi
import Verif.Props.CamClayReturn
import Verif.Props.Symmetry
import Mathlib.Topology.Algebra.Order.Field

/-!
# Properties C101-C105: the unified elasto-plastic-inertial Cam-Clay law
-/

set_option linter.unusedSectionVars false

namespace Hydrax

/-! ### Specification -/

/-- Strength of a granular flow over the strength at critical state: the mean of 1 and `Minf/Mcsl` weighted with `IM` and `I`. -/
noncomputable def Spec.inertialStrength (IM Mcsl Minf I : ℝ) : ℝ := (IM * 1 + I * (Minf / Mcsl)) / (IM + I)

/-- The ellipse through the origin and `2 ps`, whose apex lies on the line of slope `Mcsl * m` at `p = ps`. -/
noncomputable def Spec.inertialF (Mcsl m ps : ℝ) (σ : Matrix (Fin 3) (Fin 3) ℝ) : ℝ :=
  Spec.qVM σ ^ 2 / (Mcsl * m) ^ 2 + Spec.meanStress σ ^ 2 - 2 * ps * Spec.meanStress σ

/-- Specific volume on the inertial swelling line. -/
noncomputable def Spec.inertialLine (gamma pRef lam kap Iv ps p I : ℝ) : ℝ :=
  gamma * (pRef / ps) ^ lam * (ps / p) ^ kap * Real.exp (I / Iv)

/-- Parameters in the range of the model. -/
structure UepiParams.Good (pr : UepiParams ℝ) : Prop where
  nuLo : -1 < pr.nu
  nuHi : pr.nu < 1 / 2
  kap : 0 < pr.kap
  lam : pr.kap < pr.lam
  Mcsl : 0 < pr.Mcsl
  Minf : pr.Mcsl ≤ pr.Minf
  gamma : 0 < pr.gamma
  pRef : 1 ≤ pr.pRef
  IM : 0 < pr.IM
  Iv : 0 < pr.Iv
  rhoP : 0 < pr.rhoP
  d : 0 < pr.d

/-! ### C101: the product functions -/

theorem uMI_spec {I IM Mcsl Minf : ℝ} (hI : 0 ≤ I) (hIM : 0 < IM) :
    uMI I IM Mcsl Minf = Spec.inertialStrength IM Mcsl Minf I := by
  have : IM + I ≠ 0 := by positivity
  unfold uMI Spec.inertialStrength
  field_simp
  ring

theorem strength_bounds {I IM Mcsl Minf : ℝ} (hI : 0 ≤ I) (hIM : 0 < IM) (hM : 0 < Mcsl) (hinf : Mcsl ≤ Minf) :
    1 ≤ Spec.inertialStrength IM Mcsl Minf I ∧ Spec.inertialStrength IM Mcsl Minf I ≤ Minf / Mcsl := by
  have h1 : 1 ≤ Minf / Mcsl := (one_le_div hM).mpr hinf
  have hs : 0 < IM + I := by positivity
  constructor
  · rw [Spec.inertialStrength, le_div_iff₀ hs]
    nlinarith
  · rw [Spec.inertialStrength, div_le_iff₀ hs]
    nlinarith

/-- **C101**, inertial strengthening: the factor is 1 at rest, never decreases with the inertial number, lies between the
strengths at critical state and at fast flow, and tends to the latter. -/
theorem uepi_strengthening {IM Mcsl Minf : ℝ} (hIM : 0 < IM) (hM : 0 < Mcsl) (hinf : Mcsl ≤ Minf) :
    uMI 0 IM Mcsl Minf = 1 ∧
    (∀ I J, 0 ≤ I → I ≤ J → uMI I IM Mcsl Minf ≤ uMI J IM Mcsl Minf) ∧
    (∀ I, 0 ≤ I → Mcsl ≤ uIssM I IM Mcsl Minf ∧ uIssM I IM Mcsl Minf ≤ Minf) ∧
    Filter.Tendsto (fun I => uIssM I IM Mcsl Minf) Filter.atTop (nhds Minf) := by
  have h1 : 1 ≤ Minf / Mcsl := (one_le_div hM).mpr hinf
  refine ⟨by simp [uMI], ?_, ?_, ?_⟩
  · intro I J hI hJ
    have a : 0 < IM + I := by positivity
    have b : 0 < IM + J := by linarith
    rw [uMI_spec hI hIM, uMI_spec (hI.trans hJ) hIM, Spec.inertialStrength, Spec.inertialStrength, div_le_div_iff₀ a b]
    have : 0 ≤ IM * (J - I) * (Minf / Mcsl - 1) := mul_nonneg (mul_nonneg hIM.le (sub_nonneg.mpr hJ)) (sub_nonneg.mpr h1)
    nlinarith
  · intro I hI
    obtain ⟨a, b⟩ := strength_bounds hI hIM hM hinf
    rw [uIssM, uMI_spec hI hIM]
    refine ⟨le_mul_of_one_le_right hM.le a, ?_⟩
    calc Mcsl * Spec.inertialStrength IM Mcsl Minf I ≤ Mcsl * (Minf / Mcsl) := mul_le_mul_of_nonneg_left b hM.le
      _ = Minf := by field_simp
  · have hlim : Filter.Tendsto (fun I : ℝ => IM / (IM + I)) Filter.atTop (nhds 0) :=
      Filter.Tendsto.div_atTop tendsto_const_nhds (Filter.tendsto_atTop_add_const_left _ _ Filter.tendsto_id)
    have h2 : Filter.Tendsto (fun I : ℝ => Minf + (Mcsl - Minf) * (IM / (IM + I))) Filter.atTop (nhds Minf) := by
      have := (hlim.const_mul (Mcsl - Minf)).const_add Minf
      simpa using this
    refine h2.congr' ?_
    filter_upwards [Filter.eventually_ge_atTop 0] with I hI
    have : IM + I ≠ 0 := by positivity
    unfold uIssM uMI
    field_simp
    ring

theorem uMI2_sq (I IM Mcsl Minf : ℝ) : uMI2 I IM Mcsl Minf = uMI I IM Mcsl Minf ^ 2 := rfl

/-- **C101**, yield surface: the residual form used in the return map describes the product form `q = p M(ξ, I)` of the law
(and its interior), `ξ = ps / p`. -/
theorem uepi_surface {p ps q Mcsl Minf I IM : ℝ} (hp : 0 < p) (hq : 0 ≤ q) (hM : 0 < Mcsl)
    (hinf : Mcsl ≤ Minf) (hIM : 0 < IM) (hI : 0 ≤ I) :
    (uYield p ps q Mcsl (uMI I IM Mcsl Minf) = 0 ↔ p ≤ 2 * ps ∧ q = p * uUnifiedM realFns (uXi ps p) I Mcsl Minf IM) ∧
    (uYield p ps q Mcsl (uMI I IM Mcsl Minf) ≤ 0 ↔ p ≤ 2 * ps ∧ q ≤ p * uUnifiedM realFns (uXi ps p) I Mcsl Minf IM) ∧
    (p ≤ 2 * ps → uUnifiedM realFns (uXi ps p) I Mcsl Minf IM ^ 2 = uUnifiedM2 (uXi ps p) I Mcsl Minf IM) := by
  have hm : 0 < uMI I IM Mcsl Minf := by
    rw [uMI_spec hI hIM]; linarith [(strength_bounds hI hIM hM hinf).1]
  set m := uMI I IM Mcsl Minf with hmdef
  have hA : 0 < Mcsl * m := mul_pos hM hm
  have hy : uYield p ps q Mcsl m = (q ^ 2 - p ^ 2 * ((Mcsl * m) ^ 2 * (2 * uXi ps p - 1))) / (Mcsl * m) ^ 2 := by
    unfold uYield uXi
    field_simp
    ring
  have hxi : p ≤ 2 * ps ↔ 0 ≤ 2 * uXi ps p - 1 := by
    rw [uXi, show 2 * (ps / p) - 1 = (2 * ps - p) / p by field_simp]
    rw [le_div_iff₀ hp]; constructor <;> intro h <;> linarith
  have hprod : uUnifiedM realFns (uXi ps p) I Mcsl Minf IM = Mcsl * m * Real.sqrt (2 * uXi ps p - 1) := by
    unfold uUnifiedM uMXi; simp only [realFns_sqrt]; rw [← hmdef]; ring
  have hsq : 0 ≤ 2 * uXi ps p - 1 →
      (p * (Mcsl * m * Real.sqrt (2 * uXi ps p - 1))) ^ 2 = p ^ 2 * ((Mcsl * m) ^ 2 * (2 * uXi ps p - 1)) := by
    intro h
    rw [mul_pow, mul_pow (Mcsl * m), Real.sq_sqrt h]
  have hrhs : 0 ≤ p * (Mcsl * m * Real.sqrt (2 * uXi ps p - 1)) :=
    mul_nonneg hp.le (mul_nonneg hA.le (Real.sqrt_nonneg _))
  have hneg : ¬ (0 ≤ 2 * uXi ps p - 1) → 0 < q ^ 2 - p ^ 2 * ((Mcsl * m) ^ 2 * (2 * uXi ps p - 1)) := by
    intro h
    have : p ^ 2 * ((Mcsl * m) ^ 2 * (2 * uXi ps p - 1)) < 0 :=
      mul_neg_of_pos_of_neg (by positivity) (mul_neg_of_pos_of_neg (by positivity) (not_le.mp h))
    nlinarith [sq_nonneg q]
  have hden : (0 : ℝ) < (Mcsl * m) ^ 2 := by positivity
  rw [hprod, hy, hxi]
  refine ⟨?_, ?_, ?_⟩
  · rw [div_eq_zero_iff, or_iff_left hden.ne']
    constructor
    · intro h
      have hx : 0 ≤ 2 * uXi ps p - 1 := by
        by_contra hc; linarith [hneg hc]
      refine ⟨hx, ?_⟩
      rw [← hsq hx, sub_eq_zero] at h
      exact (sq_eq_sq₀ hq hrhs).mp h
    · rintro ⟨hx, h⟩
      rw [← hsq hx, h, sub_self]
  · rw [div_le_iff₀ hden, zero_mul]
    constructor
    · intro h
      have hx : 0 ≤ 2 * uXi ps p - 1 := by
        by_contra hc; linarith [hneg hc]
      refine ⟨hx, ?_⟩
      rw [← hsq hx, sub_nonpos] at h
      exact (sq_le_sq₀ hq hrhs).mp h
    · rintro ⟨hx, h⟩
      rw [← hsq hx, sub_nonpos]
      exact (sq_le_sq₀ hq hrhs).mpr h
  · intro hx
    rw [mul_pow, Real.sq_sqrt hx, uUnifiedM2, uMXi2, uMI2_sq, ← hmdef]
    ring

/-- **C101**, the third form `get_unified_iys` (partial): a positive value means outside the surface.
Missing: it vanishes on the surface; because of the `1e-12` in the denominator it does not (`uepi_iys_fails`). -/
theorem uepi_iys_partial {p ps q Mcsl Minf I IM : ℝ} (hp : 0 < p) (hq : 0 ≤ q) (hM : 0 < Mcsl)
    (hinf : Mcsl ≤ Minf) (hIM : 0 < IM) (hI : 0 ≤ I)
    (h : 0 < uIys p q Mcsl (uMXi2 (uXi ps p)) (uMI2 I IM Mcsl Minf)) :
    0 < uYield p ps q Mcsl (uMI I IM Mcsl Minf) := by
  by_contra hc
  obtain ⟨hx, hle⟩ := (uepi_surface hp hq hM hinf hIM hI).2.1.mp (not_lt.mp hc)
  have hsq := (uepi_surface hp hq hM hinf hIM hI).2.2 hx
  have hm : 0 < uMI I IM Mcsl Minf := by
    rw [uMI_spec hI hIM]; linarith [(strength_bounds hI hIM hM hinf).1]
  have hU : 0 ≤ uUnifiedM realFns (uXi ps p) I Mcsl Minf IM :=
    mul_nonneg (mul_nonneg hM.le (Real.sqrt_nonneg _)) hm.le
  have h1 : q / (p * Mcsl + 1 / 10 ^ 12) ≤ uUnifiedM realFns (uXi ps p) I Mcsl Minf IM / Mcsl := by
    rw [div_le_div_iff₀ (by positivity) hM]
    have : 0 ≤ uUnifiedM realFns (uXi ps p) I Mcsl Minf IM * (1 / 10 ^ 12) := mul_nonneg hU (by norm_num)
    nlinarith
  have h2 : (q / (p * Mcsl + 1 / 10 ^ 12)) ^ 2 ≤ (uUnifiedM realFns (uXi ps p) I Mcsl Minf IM / Mcsl) ^ 2 :=
    pow_le_pow_left₀ (by positivity) h1 2
  rw [div_pow (uUnifiedM _ _ _ _ _ _), hsq, uUnifiedM2] at h2
  have h3 : Mcsl ^ 2 * uMXi2 (uXi ps p) * uMI2 I IM Mcsl Minf / Mcsl ^ 2 = uMXi2 (uXi ps p) * uMI2 I IM Mcsl Minf := by
    field_simp
  rw [h3] at h2
  unfold uIys at h
  linarith

/-- On the surface, at `q > 0`, `get_unified_iys` is negative. -/
theorem uepi_iys_fails {p ps q Mcsl Minf I IM : ℝ} (hp : 0 < p) (hq : 0 < q) (hM : 0 < Mcsl)
    (hinf : Mcsl ≤ Minf) (hIM : 0 < IM) (hI : 0 ≤ I) (h : uYield p ps q Mcsl (uMI I IM Mcsl Minf) = 0) :
    uIys p q Mcsl (uMXi2 (uXi ps p)) (uMI2 I IM Mcsl Minf) < 0 := by
  obtain ⟨hx, heq⟩ := (uepi_surface hp hq.le hM hinf hIM hI).1.mp h
  have hsq := (uepi_surface hp hq.le hM hinf hIM hI).2.2 hx
  have h1 : q / (p * Mcsl + 1 / 10 ^ 12) < q / (p * Mcsl) :=
    div_lt_div_of_pos_left hq (by positivity) (by linarith [show (0 : ℝ) < 1 / 10 ^ 12 by norm_num])
  have h2 : (q / (p * Mcsl + 1 / 10 ^ 12)) ^ 2 < (q / (p * Mcsl)) ^ 2 :=
    pow_lt_pow_left₀ h1 (by positivity) two_ne_zero
  have h3 : (q / (p * Mcsl)) ^ 2 = uMXi2 (uXi ps p) * uMI2 I IM Mcsl Minf := by
    have : (q / (p * Mcsl)) ^ 2 = uUnifiedM realFns (uXi ps p) I Mcsl Minf IM ^ 2 / Mcsl ^ 2 := by
      rw [heq]; field_simp
    rw [this, hsq, uUnifiedM2]; field_simp
  unfold uIys
  linarith

/-- **C101**, volumes: the swelling and critical state lines are those of the library's Cam-Clay law with the same `N`,
`p_c = 2 p_s`; at critical state (`p = p_s`) the swelling line meets the critical state line. -/
theorem uepi_lines (pr : UepiParams ℝ) (h : pr.Good) {ps p : ℝ} (hps : 0 < ps) (hp : 0 < p) :
    uMccSl realFns (uXi ps p) ps pr.pRef pr.gamma pr.lam pr.kap =
      vSl realFns (2 * ps) p pr.pRef (pr.N realFns) pr.lam pr.kap ∧
    uVCsl realFns ps pr.pRef pr.gamma pr.lam = vCsl realFns ps pr.pRef (pr.N realFns) pr.lam pr.kap ∧
    uMccSl realFns (uXi ps ps) ps pr.pRef pr.gamma pr.lam pr.kap = uVCsl realFns ps pr.pRef pr.gamma pr.lam ∧
    uIsl realFns (uXi ps p) p pr.pRef pr.gamma pr.lam pr.kap =
      uMccSl realFns (uXi ps p) ps pr.pRef pr.gamma pr.lam pr.kap := by
  have h2 : (0 : ℝ) < 2 := by norm_num
  have hN : pr.N realFns * (2 : ℝ) ^ (pr.kap - pr.lam) = pr.gamma := by
    unfold UepiParams.N; simp only [realFns_pow]
    rw [mul_assoc, ← Real.rpow_add h2]; simp
  refine ⟨?_, ?_, ?_, ?_⟩
  · unfold uMccSl uVCsl uVXi uXi vSl vNcl vKappa
    simp only [realFns_pow]
    rw [← hN, mul_comm 2 ps, ← div_div, Real.div_rpow (div_pos (one_pos.trans_le h.pRef) hps).le h2.le,
      show ps * 2 / p = ps / p * 2 by ring, Real.mul_rpow (div_pos hps hp).le h2.le, Real.rpow_sub h2]
    ring
  · unfold uVCsl vCsl; simp only [realFns_pow]; rw [hN]
  · unfold uMccSl uVXi uXi; simp only [realFns_pow]; rw [div_self hps.ne', Real.one_rpow, mul_one]
  · unfold uIsl uMccSl uXi
    rw [div_mul_cancel₀ _ hp.ne']

/-- **C101**, `N` and `Γ`: a law made with `N` reports that `N`; its `Γ` is the one of the loading programmes and converts
back; without either the constructor fails. -/
theorem uepi_gamma_N (a : UepiArgs ℝ) (hg : a.gamma = none) :
    (∀ N, a.N = some N → ∃ pr, uepiNew realFns a = .ok pr ∧ pr.N realFns = N ∧ pr.gamma = sipGamma realFns N a.lam a.kap ∧
      uConvertGammaN realFns pr.gamma a.lam a.kap = N) ∧
    (a.N = none → uepiNew realFns a = .error .typeError) := by
  have h2 : (0 : ℝ) < 2 := by norm_num
  constructor
  · intro N hN
    refine ⟨_, by simp only [uepiNew, hg, hN]; rfl, ?_, ?_, ?_⟩
    · simp only [UepiParams.N, realFns_pow]
      rw [mul_assoc, ← Real.rpow_add h2]; simp
    · simp only [sipGamma, realFns_pow]
      congr 2; ring
    · simp only [uConvertGammaN, realFns_pow]
      rw [mul_assoc, ← Real.rpow_add h2]; simp
  · intro hN
    simp only [uepiNew, hg, hN]

/-! ### The predictor -/

section
variable (pr : UepiParams ℝ) (L σref : Mat3 ℝ) (st : UepiState ℝ) (dt : ℝ)

theorem uepiTrial_pPrev : (uepiTrial realFns pr L st σref dt).pPrev = Spec.meanStress st.stress := by
  simp only [uepiTrial, pressureOf_eq, jaumann_mean]

theorem uepiTrial_deV : (uepiTrial realFns pr L st σref dt).deV = (Spec.strainInc L dt).trace := by
  rw [← strainInc_eq]; rfl

theorem uepiTrial_pTr : (uepiTrial realFns pr L st σref dt).pTr =
    Spec.meanStress st.stress * Real.exp ((Spec.strainInc L dt).trace / pr.kap) := by
  rw [← uepiTrial_pPrev pr L σref st dt, ← uepiTrial_deV pr L σref st dt]; rfl

theorem uepiTrial_sTr : (uepiTrial realFns pr L st σref dt).sTr = Spec.dev (Spec.jaumannRotated L st.stress dt) +
    (2 * (uepiTrial realFns pr L st σref dt).Gc) • Spec.dev (Spec.strainInc L dt) := by
  rw [← strainInc_eq, ← devStrainV_eq (dt • symTensor L), ← jaumannRotated_eq, ← devStress_eq (jaumann _ _ _)]
  simp only [uepiTrial, devStress]
  rw [add_comm]

theorem uepiTrial_mean : Spec.meanStress (uepiTrial realFns pr L st σref dt).sTr = 0 := by
  rw [uepiTrial_sTr, meanStress_add, meanStress_smul, meanStress_dev, meanStress_dev]; ring

theorem uepiTrial_qTr : (uepiTrial realFns pr L st σref dt).qTr = Spec.qVM (uepiTrial realFns pr L st σref dt).sTr := by
  have h : Spec.dev (uepiTrial realFns pr L st σref dt).sTr = (uepiTrial realFns pr L st σref dt).sTr := by
    have := dev_add_iso (uepiTrial_mean pr L σref st dt) 0
    rwa [show isoT (0 : ℝ) = 0 by simp [isoT], add_zero] at this
  rw [Spec.qVM, Spec.J2, h, ← J2dev_eq]; rfl

theorem uepiTrial_Gc (h : pr.Good) (hp : 0 < Spec.meanStress st.stress) : 0 < (uepiTrial realFns pr L st σref dt).Gc := by
  have h1 : (uepiTrial realFns pr L st σref dt).Gc = 3 * (1 - 2 * pr.nu) / (2 * (1 + pr.nu)) *
      (1 / 2 * ((uepiTrial realFns pr L st σref dt).pPrev + (uepiTrial realFns pr L st σref dt).pTr) / pr.kap) := rfl
  rw [h1, uepiTrial_pPrev, uepiTrial_pTr]
  have a := h.nuLo
  have b := h.nuHi
  have c := h.kap
  have : 0 < 1 - 2 * pr.nu := by linarith
  have : 0 < 1 + pr.nu := by linarith
  positivity

end

theorem uepiNewtonStep_nonneg (ops : NewtonOps ℝ) (R : (Fin 2 → ℝ) → Fin 2 → ℝ) (x : Fin 2 → ℝ) :
    0 ≤ uepiNewtonStep ops R x 0 := le_max_right _ _

theorem uepiNewton_nonneg (ops : NewtonOps ℝ) (R : (Fin 2 → ℝ) → Fin 2 → ℝ) (n : ℕ) (x : Fin 2 → ℝ) (hx : 0 ≤ x 0) :
    0 ≤ uepiNewton ops R n x 0 := by
  induction n generalizing x with
  | zero => exact hx
  | succ n ih => exact ih _ (uepiNewtonStep_nonneg ops R x)

theorem uepiFinal_nonneg (ops : NewtonOps ℝ) (pr : UepiParams ℝ) (t : UepiTrial ℝ) (st : UepiState ℝ) (dt : ℝ) :
    0 ≤ uepiFinal realFns ops pr t st dt 0 := uepiNewton_nonneg ops _ _ _ le_rfl

/-! ### C104: positive pressures, no tension, symmetric stress -/

/-- What a state of the law must satisfy. -/
structure Spec.UepiAdmissible (st : UepiState ℝ) : Prop where
  pressure : 0 < Spec.meanStress st.stress
  ps : 0 < st.ps
  inertial : 0 ≤ st.I
  stress : st.stress.IsSymm
  strain : st.epsE.IsSymm

theorem uIp_nonneg {p rate d rho : ℝ} (hr : 0 ≤ rate) (hd : 0 ≤ d) : 0 ≤ uIp realFns p rate d rho :=
  mul_nonneg (mul_nonneg hr hd) (Real.sqrt_nonneg _)

theorem qVM_nonneg (σ : Mat3 ℝ) : 0 ≤ Spec.qVM σ := Real.sqrt_nonneg _

theorem uepi_factor_pos (pr : UepiParams ℝ) (h : pr.Good) (L σref : Mat3 ℝ) (st : UepiState ℝ) (dt : ℝ)
    (hp : 0 < Spec.meanStress st.stress) (x : Fin 2 → ℝ) (hx : 0 ≤ x 0) :
    0 < 1 + 6 * (uepiTrial realFns pr L st σref dt).Gc * x 0 := by
  have := uepiTrial_Gc pr L σref st dt h hp
  positivity

theorem dev_symm {A : Mat3 ℝ} (h : A.IsSymm) : (Spec.dev A).IsSymm := by
  ext i j
  simp only [Matrix.transpose_apply, Spec.dev, h.apply i j, eq_comm (a := i)]

theorem strainInc_symm (L : Mat3 ℝ) (dt : ℝ) : (Spec.strainInc L dt).IsSymm := by
  rw [← strainInc_eq]; exact (symTensor_symm L).smul _

theorem uepiTrial_symm (pr : UepiParams ℝ) (L σref : Mat3 ℝ) (st : UepiState ℝ) (dt : ℝ) (hs : st.stress.IsSymm) :
    (uepiTrial realFns pr L st σref dt).sTr.IsSymm := by
  rw [uepiTrial_sTr]
  have h1 := dev_symm (A := Spec.jaumannRotated L st.stress dt) (by rw [← jaumannRotated_eq]; exact jaumann_symm hs L dt)
  exact h1.add ((dev_symm (strainInc_symm L dt)).smul _)

/-- **C104**: one update keeps the pressure and the shift pressure positive, the inertial number non-negative and stress and
stored strain symmetric, whatever the Newton iteration does. -/
theorem uepi_admissible_step (ops : NewtonOps ℝ) (pr : UepiParams ℝ) (h : pr.Good) (σref L : Mat3 ℝ) (hr : σref.IsSymm) (dt : ℝ)
    (hdt : 0 < dt) (st : UepiState ℝ) (hst : Spec.UepiAdmissible st) :
    Spec.UepiAdmissible (uepiUpdate realFns ops pr σref L dt st) := by
  have hm := uepiTrial_mean pr L σref st dt
  have hsT := uepiTrial_symm pr L σref st dt hst.stress
  unfold uepiUpdate
  simp only
  split_ifs with hy
  · set t := uepiTrial realFns pr L st σref dt with ht
    set x := uepiFinal realFns ops pr t st dt with hx
    have hx0 : 0 ≤ x 0 := uepiFinal_nonneg ops pr t st dt
    have hf := uepi_factor_pos pr h L σref st dt hst.pressure x hx0
    have hsm : Spec.meanStress ((uepiResiduals realFns pr t st dt x).factor • t.sTr) = 0 := by
      rw [meanStress_smul, hm, mul_zero]
    refine ⟨?_, Real.exp_pos _, ?_, ?_, ?_⟩
    · change 0 < Spec.meanStress ((uepiResiduals realFns pr t st dt x).factor • t.sTr + isoT (uepiResiduals realFns pr t st dt x).p)
      rw [mean_add_iso hsm]
      exact mul_pos (lt_max_of_lt_right one_pos) (Real.exp_pos _)
    · refine uIp_nonneg (div_nonneg ?_ hdt.le) h.d.le
      exact mul_nonneg (mul_nonneg zero_le_two hx0)
        (mul_nonneg (le_max_of_le_right (by norm_num)) (one_div_nonneg.mpr hf.le))
    · exact (hsT.smul _).add (isoT_symm _)
    · refine Matrix.IsSymm.add (Matrix.IsSymm.smul ((hsT.smul _).sub ?_) _) (isoT_symm _)
      exact hr.sub (Matrix.isSymm_one.smul _)
  · refine ⟨?_, hst.ps, by norm_num [uepiElastic], hsT.add (isoT_symm _), ?_⟩
    · simp only [uepiElastic]
      rw [mean_add_iso hm, uepiTrial_pTr]
      exact mul_pos hst.pressure (Real.exp_pos _)
    · exact (jaumann_symm hst.strain L dt).add ((symTensor_symm L).smul _)

/-- **C104**: and so does every history of updates. -/
theorem uepi_admissible_run (ops : NewtonOps ℝ) (pr : UepiParams ℝ) (h : pr.Good) (σref : Mat3 ℝ) (hr : σref.IsSymm)
    (hist : List (Mat3 ℝ × ℝ)) (hdt : ∀ e ∈ hist, 0 < e.2) (st : UepiState ℝ) (hst : Spec.UepiAdmissible st) :
    Spec.UepiAdmissible (uepiRun realFns ops pr σref st hist) := by
  induction hist generalizing st with
  | nil => exact hst
  | cons a rest ih =>
    exact ih (fun e he => hdt e (List.mem_cons_of_mem _ he)) _
      (uepi_admissible_step ops pr h σref a.1 hr a.2 (hdt a List.mem_cons_self) st hst)

/-- **C104**, elastic steps: if the trial state is inside the surface at rest, so is the result, and the step changes neither the
shift pressure nor, without strain and spin, the stress. -/
theorem uepi_elastic_inside (ops : NewtonOps ℝ) (pr : UepiParams ℝ) (σref L : Mat3 ℝ) (dt : ℝ) (st : UepiState ℝ)
    (hy : (uepiTrial realFns pr L st σref dt).yf ≤ 0) :
    Spec.inertialF pr.Mcsl 1 (uepiUpdate realFns ops pr σref L dt st).ps (uepiUpdate realFns ops pr σref L dt st).stress ≤ 0 ∧
    (uepiUpdate realFns ops pr σref L dt st).ps = st.ps ∧
    (L = 0 → (uepiUpdate realFns ops pr σref L dt st).stress = st.stress) := by
  have hm := uepiTrial_mean pr L σref st dt
  have hq := uepiTrial_qTr pr L σref st dt
  have hyf : (uepiTrial realFns pr L st σref dt).yf = uYield (uepiTrial realFns pr L st σref dt).pTr st.ps
    (uepiTrial realFns pr L st σref dt).qTr pr.Mcsl 1 := rfl
  have he : uepiUpdate realFns ops pr σref L dt st = uepiElastic (uepiTrial realFns pr L st σref dt) st := by
    unfold uepiUpdate; simp only; rw [if_neg (not_lt.mpr hy)]
  rw [he]
  refine ⟨?_, rfl, ?_⟩
  · rw [hyf, hq] at hy
    have hdev : Spec.qVM ((uepiTrial realFns pr L st σref dt).sTr + isoT (uepiTrial realFns pr L st σref dt).pTr) =
        Spec.qVM (uepiTrial realFns pr L st σref dt).sTr := by
      have h0 : Spec.dev (uepiTrial realFns pr L st σref dt).sTr = (uepiTrial realFns pr L st σref dt).sTr := by
        have := dev_add_iso hm 0
        rwa [show isoT (0 : ℝ) = 0 by simp [isoT], add_zero] at this
      rw [Spec.qVM, Spec.qVM, Spec.J2, dev_add_iso hm, Spec.J2, h0]
    simp only [uepiElastic, Spec.inertialF]
    rw [mean_add_iso hm, hdev]
    unfold uYield at hy
    simp only at hy
    rw [← sq, ← sq] at hy
    linarith [hy]
  · rintro rfl
    have h0 : Spec.strainInc 0 dt = 0 := by simp [Spec.strainInc]
    have h1 : Spec.jaumannRotated 0 st.stress dt = st.stress := by simp [Spec.jaumannRotated]
    simp only [uepiElastic]
    rw [uepiTrial_sTr, uepiTrial_pTr, h0, h1, dev_zero, smul_zero, add_zero, Matrix.trace_zero, zero_div, Real.exp_zero, mul_one]
    exact dev_add_mean _

/-! ### C103: what a yielding step solves -/

/-- The two residuals left over at the end of the Newton loop of a yielding step. -/
noncomputable def uepiLeft (ops : NewtonOps ℝ) (pr : UepiParams ℝ) (t : UepiTrial ℝ) (st : UepiState ℝ) (dt : ℝ) : Fin 2 → ℝ :=
  (uepiResiduals realFns pr t st dt (uepiFinal realFns ops pr t st dt)).res

/-- Equivalent plastic shear strain of a plastic strain increment. -/
noncomputable def Spec.shearEq (e : Matrix (Fin 3) (Fin 3) ℝ) : ℝ := Real.sqrt (2 / 3 * Spec.ddot (Spec.dev e) (Spec.dev e))

/-- A backward Euler step of the law from `(σ, ps, I)` to `(σ', ps', I')` with strain increment `Δε` and plastic part `Δεp`,
multiplier `Λ`; `r0` and `r1` are the errors in the yield condition and in the volumetric flow rule. -/
structure Spec.UepiStep (pr : UepiParams ℝ) (G dt : ℝ) (σr Δε σ' ep : Matrix (Fin 3) (Fin 3) ℝ) (ps ps' I I' Λ r0 r1 : ℝ) : Prop where
  multiplier : 0 ≤ Λ
  /-- The end state lies on the yield surface of the current inertial number. -/
  onSurface : Spec.inertialF pr.Mcsl (Spec.inertialStrength pr.IM pr.Mcsl pr.Minf I') ps' σ' = r0
  /-- Plastic flow along the gradient of the surface at rest. -/
  flowDev : Spec.dev ep = (Λ * (3 / pr.Mcsl ^ 2)) • Spec.dev σ'
  flowVol : ep.trace = Λ * (2 * Spec.meanStress σ' - 2 * ps') - r1
  /-- Elasticity of the rest of the increment. -/
  elasticDev : Spec.dev σ' = Spec.dev σr + (2 * G) • Spec.dev (Δε - ep)
  elasticVol : Spec.meanStress σ' = Spec.meanStress σr * Real.exp ((Δε - ep).trace / pr.kap)
  /-- Hardening with the plastic volume strain and the change of the inertial number. -/
  hardening : ep.trace = (pr.lam - pr.kap) * (Real.log ps' - Real.log ps) - (I' - I) / pr.Iv
  /-- The inertial number belongs to the plastic shear strain rate. -/
  inertial : I' = Spec.shearEq ep / dt * pr.d * Real.sqrt (pr.rhoP / max ps' pr.pRef)

theorem qVM_smul {c : ℝ} (hc : 0 ≤ c) (s : Mat3 ℝ) : Spec.qVM (c • s) = c * Spec.qVM s := by
  have hd : Spec.dev (c • s) = c • Spec.dev s := by
    ext i j
    simp only [Spec.dev, meanStress_smul, Matrix.smul_apply, smul_eq_mul]
    split_ifs <;> ring
  rw [Spec.qVM, Spec.J2, hd, ddot_smul, Spec.qVM, Spec.J2,
    show 3 * (c * c * Spec.ddot (Spec.dev s) (Spec.dev s) / 2) = c ^ 2 * (3 * (Spec.ddot (Spec.dev s) (Spec.dev s) / 2)) by ring,
    Real.sqrt_mul (sq_nonneg c), Real.sqrt_sq hc]

theorem shearEq_smul {c : ℝ} (hc : 0 ≤ c) {e σ : Mat3 ℝ} (h : Spec.dev e = (3 / 2 * c) • Spec.dev σ) :
    Spec.shearEq e = c * Spec.qVM σ := by
  rw [Spec.shearEq, h, ddot_smul, Spec.qVM, Spec.J2,
    show 2 / 3 * (3 / 2 * c * (3 / 2 * c) * Spec.ddot (Spec.dev σ) (Spec.dev σ)) =
      c ^ 2 * (3 * (Spec.ddot (Spec.dev σ) (Spec.dev σ) / 2)) by ring,
    Real.sqrt_mul (sq_nonneg c), Real.sqrt_sq hc]

theorem qVM_add_iso {s : Mat3 ℝ} (hs : Spec.meanStress s = 0) (p : ℝ) : Spec.qVM (s + isoT p) = Spec.qVM s := by
  have h0 : Spec.dev s = s := by
    have := dev_add_iso hs 0
    rwa [show isoT (0 : ℝ) = 0 by simp [isoT], add_zero] at this
  rw [Spec.qVM, Spec.qVM, Spec.J2, dev_add_iso hs, Spec.J2, h0]

theorem dev_sub' (A B : Mat3 ℝ) : Spec.dev (A - B) = Spec.dev A - Spec.dev B := by
  ext i j
  simp only [Spec.dev, Spec.meanStress, Matrix.sub_apply]
  split_ifs <;> ring

/-- Any pair of unknowns describes a backward Euler step up to its residuals. -/
theorem uepi_unknowns_step (pr : UepiParams ℝ) (h : pr.Good) (σref L : Mat3 ℝ) (dt : ℝ) (hdt : 0 < dt)
    (st : UepiState ℝ) (hp : 1 ≤ Spec.meanStress st.stress) (hps : 1 ≤ st.ps)
    (hq : 1 / 10 ^ 6 ≤ (uepiTrial realFns pr L st σref dt).qTr) (x : Fin 2 → ℝ) (hx0 : 0 ≤ x 0) :
    let t := uepiTrial realFns pr L st σref dt
    let a := uepiResiduals realFns pr t st dt x
    ∃ ep : Mat3 ℝ, Spec.UepiStep pr t.Gc dt (Spec.jaumannRotated L st.stress dt) (Spec.strainInc L dt)
      (a.factor • t.sTr + isoT a.p) ep st.ps (Real.exp (x 1)) st.I a.I (x 0 * pr.Mcsl ^ 2) (a.res 0) (a.res 1 / 10 ^ 4) := by
  intro t a
  have hp0 : 0 < Spec.meanStress st.stress := by linarith
  set sg := a.factor • t.sTr + isoT a.p with hsig
  have hf := uepi_factor_pos pr h L σref st dt hp0 x hx0
  have hM := h.Mcsl
  have hk := h.kap
  have hfac : a.factor = 1 / (1 + 6 * t.Gc * x 0) := rfl
  have hfac0 : 0 < a.factor := by rw [hfac]; exact one_div_pos.mpr hf
  have hm : Spec.meanStress (a.factor • t.sTr) = 0 := by rw [meanStress_smul, uepiTrial_mean, mul_zero]
  have hdev : Spec.dev sg = a.factor • t.sTr := by rw [hsig, dev_add_iso hm]
  have hmean : Spec.meanStress sg = a.p := by rw [hsig, mean_add_iso hm]
  have hqv : Spec.qVM sg = t.qTr * a.factor := by
    rw [hsig, qVM_add_iso hm, qVM_smul hfac0.le, ← uepiTrial_qTr, mul_comm]
  have hmaxq : max t.qTr (1 / 10 ^ 6) = t.qTr := max_eq_left hq
  have hdsp : a.depsSP = 2 * x 0 * Spec.qVM sg := by
    rw [hqv, ← hmaxq, hfac]; rfl
  have hI : a.I = uIp realFns (max (Real.exp (x 1)) pr.pRef) (a.depsSP / dt) pr.d pr.rhoP := rfl
  have hI0 : 0 ≤ a.I := by
    rw [hI]
    exact uIp_nonneg (div_nonneg (by rw [hdsp]; exact mul_nonneg (mul_nonneg zero_le_two hx0) (qVM_nonneg _)) hdt.le) h.d.le
  have hdpv : a.depsPV = (pr.lam - pr.kap) * (x 1 - Real.log st.ps) - (a.I - st.I) / pr.Iv := by
    rw [show st.ps = max st.ps 1 from (max_eq_left hps).symm]; rfl
  have hpv : a.p = Spec.meanStress st.stress * Real.exp (((Spec.strainInc L dt).trace - a.depsPV) / pr.kap) := by
    rw [← uepiTrial_deV pr L σref st dt, ← max_eq_left hp, ← uepiTrial_pPrev pr L σref st dt]; rfl
  have hleft0 : a.res 0 = uYield a.p (Real.exp (x 1)) (t.qTr * a.factor) pr.Mcsl (uMI a.I pr.IM pr.Mcsl pr.Minf) := by
    rw [show t.qTr = max t.qTr (1 / 10 ^ 6) from hmaxq.symm]; rfl
  have hleft1 : a.res 1 = (x 0 * (2 * (a.p - Real.exp (x 1))) * pr.Mcsl ^ 2 - a.depsPV) * 10 ^ 4 := rfl
  -- the plastic strain
  refine ⟨(3 * x 0) • Spec.dev sg + (a.depsPV / 3) • (1 : Mat3 ℝ), ?_⟩
  have hepdev : Spec.dev ((3 * x 0) • Spec.dev sg + (a.depsPV / 3) • (1 : Mat3 ℝ)) = (3 * x 0) • Spec.dev sg :=
    dev_smul_add _ _ _
  have heptr : ((3 * x 0) • Spec.dev sg + (a.depsPV / 3) • (1 : Mat3 ℝ)).trace = a.depsPV := by
    rw [trace_smul_add]; ring
  refine ⟨mul_nonneg hx0 (sq_nonneg _), ?_, ?_, ?_, ?_, ?_, ?_, ?_⟩
  · rw [hleft0, Spec.inertialF, hqv, hmean, ← uMI_spec hI0 h.IM]
    unfold uYield; ring
  · rw [hepdev]; congr 1; field_simp
  · rw [heptr, hmean, hleft1]; ring
  · rw [dev_sub', hepdev, hdev]
    have h1 := sub_smul_one_eq a.factor t.Gc (x 0) (by rw [hfac]; exact one_div_mul_cancel hf.ne') t.sTr
    have h2 : t.sTr = Spec.dev (Spec.jaumannRotated L st.stress dt) + (2 * t.Gc) • Spec.dev (Spec.strainInc L dt) :=
      uepiTrial_sTr pr L σref st dt
    rw [smul_sub, h1]
    nth_rewrite 1 [h2]
    rw [← h1]; abel
  · rw [Matrix.trace_sub, heptr, hmean, hpv, ← jaumannRotated_eq, jaumann_mean]
  · rw [heptr, hdpv, Real.log_exp]
  · have hse : Spec.shearEq ((3 * x 0) • Spec.dev sg + (a.depsPV / 3) • (1 : Mat3 ℝ)) = a.depsSP := by
      rw [shearEq_smul (c := 2 * x 0) (by linarith) (σ := sg) (by rw [hepdev]; congr 1; ring), hdsp]
    rw [hse, hI]
    unfold uIp
    simp only [realFns_sqrt]
    rw [max_eq_left (le_max_of_le_right (le_trans (by norm_num) h.pRef))]

/-- **C103**: a yielding step from pressures of at least 1 is a backward Euler step of the elasto-plastic-inertial equations, up
to the residuals the Newton loop leaves over (`uepiLeft`; the second one is scaled by `1e4`). -/
theorem uepi_return_map (ops : NewtonOps ℝ) (pr : UepiParams ℝ) (h : pr.Good) (σref L : Mat3 ℝ) (dt : ℝ) (hdt : 0 < dt)
    (st : UepiState ℝ) (hp : 1 ≤ Spec.meanStress st.stress) (hps : 1 ≤ st.ps)
    (hy : 0 < (uepiTrial realFns pr L st σref dt).yf) (hq : 1 / 10 ^ 6 ≤ (uepiTrial realFns pr L st σref dt).qTr) :
    let t := uepiTrial realFns pr L st σref dt
    let r := uepiUpdate realFns ops pr σref L dt st
    ∃ (Λ : ℝ) (ep : Mat3 ℝ), Spec.UepiStep pr t.Gc dt (Spec.jaumannRotated L st.stress dt) (Spec.strainInc L dt) r.stress ep st.ps r.ps
      st.I r.I Λ (uepiLeft ops pr t st dt 0) (uepiLeft ops pr t st dt 1 / 10 ^ 4) := by
  intro t r
  have hr : r = uepiPlastic realFns ops pr t st dt := by
    change uepiUpdate realFns ops pr σref L dt st = _
    unfold uepiUpdate; simp only; rw [if_pos hy]
  rw [hr]
  exact ⟨_, uepi_unknowns_step pr h σref L dt hdt st hp hps hq _ (uepiFinal_nonneg ops pr t st dt)⟩

/-- Plastic work of a step that ends on the surface. -/
theorem uepi_work {Mcsl m ps Λ : ℝ} {σ ep : Mat3 ℝ} (hM : 0 < Mcsl) (hm : 0 < m)
    (hd : Spec.dev ep = (Λ * (3 / Mcsl ^ 2)) • Spec.dev σ) (ht : ep.trace = Λ * (2 * Spec.meanStress σ - 2 * ps))
    (hF : Spec.inertialF Mcsl m ps σ = 0) :
    Spec.ddot σ ep = 2 * Λ * Spec.meanStress σ * (Spec.meanStress σ * (1 - m ^ 2) + ps * (2 * m ^ 2 - 1)) := by
  have hep : ep = (Λ * (3 / Mcsl ^ 2)) • Spec.dev σ + isoT (Λ * (2 * Spec.meanStress σ - 2 * ps) / 3) := by
    rw [← dev_add_mean ep, hd, meanStress_trace ep, ht]
  have hσ : Spec.ddot σ ep = Λ * (3 / Mcsl ^ 2) * (2 * Spec.J2 σ) + Spec.meanStress σ * (Λ * (2 * Spec.meanStress σ - 2 * ps)) := by
    rw [hep]
    simp only [Spec.ddot, Spec.J2, Spec.dev, Spec.meanStress, Matrix.add_apply, Matrix.smul_apply, smul_eq_mul, isoT_apply,
      Fin.sum_univ_three]
    simp
    ring
  have hq : 3 * Spec.J2 σ = (Mcsl * m) ^ 2 * (2 * ps * Spec.meanStress σ - Spec.meanStress σ ^ 2) := by
    rw [Spec.inertialF, qVM_sq] at hF
    have : (Mcsl * m) ^ 2 ≠ 0 := by positivity
    field_simp at hF
    linarith
  have h2 : Λ * (3 / Mcsl ^ 2) * (2 * Spec.J2 σ) = 2 * Λ * (3 * Spec.J2 σ) / Mcsl ^ 2 := by ring
  rw [hσ, h2, hq]
  field_simp
  ring

/-- **C103**: a yielding step whose residuals vanish dissipates: the stress does at least the work `2 Λ p ps ≥ 0` on the plastic
strain. -/
theorem uepi_return_dissipates {pr : UepiParams ℝ} (h : pr.Good) {G dt : ℝ} {σr Δε σ' ep : Mat3 ℝ} {ps ps' I I' Λ : ℝ}
    (hs : Spec.UepiStep pr G dt σr Δε σ' ep ps ps' I I' Λ 0 0) (hp : 0 < Spec.meanStress σ') (hI : 0 ≤ I') :
    2 * Λ * Spec.meanStress σ' * ps' ≤ Spec.ddot σ' ep ∧ (0 < ps' → 0 ≤ Spec.ddot σ' ep) := by
  have hb := strength_bounds hI h.IM h.Mcsl h.Minf
  set m := Spec.inertialStrength pr.IM pr.Mcsl pr.Minf I'
  have hm : 0 < m := by linarith [hb.1]
  have hw := uepi_work h.Mcsl hm hs.flowDev (by rw [hs.flowVol]; ring) hs.onSurface
  have hF := hs.onSurface
  have hle : Spec.meanStress σ' ≤ 2 * ps' := by
    rw [Spec.inertialF] at hF
    have h0 : 0 ≤ Spec.qVM σ' ^ 2 / (pr.Mcsl * m) ^ 2 := by positivity
    by_contra hc
    nlinarith [not_le.mp hc]
  have hΛ := hs.multiplier
  have h1 : (1 : ℝ) ≤ m ^ 2 := by nlinarith [hb.1]
  have h2 : ps' ≤ Spec.meanStress σ' * (1 - m ^ 2) + ps' * (2 * m ^ 2 - 1) := by nlinarith
  have h3 : 2 * Λ * Spec.meanStress σ' * ps' ≤ Spec.ddot σ' ep := by
    rw [hw]
    exact mul_le_mul_of_nonneg_left h2 (mul_nonneg (mul_nonneg zero_le_two hΛ) hp.le)
  exact ⟨h3, fun hps => (mul_nonneg (mul_nonneg (mul_nonneg zero_le_two hΛ) hp.le) hps.le).trans h3⟩

/-- Why C103 is partial: as soon as the inertial strengthening differs from 1 the plastic strain is not normal to the yield
surface the state is returned to, unless the state is isotropic, at critical state or not flowing. -/
theorem uepi_not_associated {Mcsl m ps Λ : ℝ} {σ ep : Mat3 ℝ} (hM : 0 < Mcsl) (hm : 1 < m) (hΛ : 0 < Λ)
    (hd : Spec.dev ep = (Λ * (3 / Mcsl ^ 2)) • Spec.dev σ) (ht : ep.trace = Λ * (2 * Spec.meanStress σ - 2 * ps))
    (hs : Spec.dev σ ≠ 0) (hp : Spec.meanStress σ ≠ ps) : ¬ ∃ c : ℝ, ep = c • Spec.mccGrad (Mcsl * m) (2 * ps) σ := by
  rintro ⟨c, hc⟩
  have h1 : Spec.dev ep = (c * (3 / (Mcsl * m) ^ 2)) • Spec.dev σ := by
    rw [hc, Spec.mccGrad, smul_add, smul_smul, smul_smul, dev_smul_add]
  have h2 : ep.trace = c * (2 * Spec.meanStress σ - 2 * ps) := by
    rw [hc, Spec.mccGrad, smul_add, smul_smul, smul_smul, trace_smul_add]; ring
  have hcΛ : c = Λ := by
    rw [ht] at h2
    exact (mul_right_cancel₀ (fun h0 => hp (by linarith)) h2).symm
  obtain ⟨i, j, hij⟩ : ∃ i j, Spec.dev σ i j ≠ 0 := by
    by_contra hn
    push Not at hn
    exact hs (by ext i j; exact hn i j)
  have h3 : Λ * (3 / Mcsl ^ 2) = c * (3 / (Mcsl * m) ^ 2) := by
    have := congrFun (congrFun (hd.symm.trans h1) i) j
    simp only [Matrix.smul_apply, smul_eq_mul] at this
    exact mul_right_cancel₀ hij this
  rw [hcΛ] at h3
  have h4 := mul_left_cancel₀ hΛ.ne' h3
  have h5 : m ^ 2 = 1 := by
    have hm0 : 0 < m := by linarith
    field_simp at h4
    linarith
  nlinarith

/-- **C103**, the helpers for plotting the flow rule and the hardening law are those of the return map: same direction, and the
same hardening strain if `p_s` does not fall by a factor of more than `1e12`. -/
theorem uepi_helpers {p xi q M pm ps ps' dI Iv lam kap : ℝ} (hM : 0 < M) (hps : 0 < p * xi) (h0 : 0 < ps) (h1 : ps / 10 ^ 12 ≤ ps') :
    (∃ c, (0 < pm → 0 < c) ∧ uDepsVP p xi pm = c * (2 * (p - p * xi) * M ^ 2) ∧ uDepsSP p xi q M pm = c * (2 * q)) ∧
    uHardening realFns ps' ps dI Iv lam kap = (lam - kap) * (Real.log ps' - Real.log ps) - dI / Iv := by
  constructor
  · refine ⟨pm / (M * (p * xi)) ^ 2, fun h => by positivity, ?_, ?_⟩
    · unfold uDepsVP; field_simp
    · unfold uDepsSP; rw [mul_assoc M p xi]; field_simp
  · have : 0 < ps' := lt_of_lt_of_le (by positivity) h1
    unfold uHardening
    simp only [realFns_log]
    rw [max_eq_left, Real.log_div this.ne' h0.ne']
    rw [le_div_iff₀ h0]
    linarith

/-! ### C102: volumes stay on the inertial swelling line -/

theorem inertialLine_log {gamma pRef lam kap Iv ps p I : ℝ} (hg : 0 < gamma) (hr : 0 < pRef) (hs : 0 < ps) (hp : 0 < p) :
    Real.log (Spec.inertialLine gamma pRef lam kap Iv ps p I) = Real.log gamma + lam * Real.log pRef -
      (kap * Real.log p + (lam - kap) * Real.log ps - I / Iv) := by
  unfold Spec.inertialLine
  have h1 : 0 < pRef / ps := div_pos hr hs
  have h2 : 0 < ps / p := div_pos hs hp
  have a1 := Real.rpow_pos_of_pos h1 lam
  have a2 := Real.rpow_pos_of_pos h2 kap
  rw [Real.log_mul (by positivity) (Real.exp_pos _).ne', Real.log_mul (by positivity) a2.ne', Real.log_mul hg.ne' a1.ne',
    Real.log_rpow h1, Real.log_rpow h2, Real.log_div hr.ne' hs.ne', Real.log_div hs.ne' hp.ne', Real.log_exp]
  ring

theorem inertialLine_pos {gamma pRef lam kap Iv ps p I : ℝ} (hg : 0 < gamma) (hr : 0 < pRef) (hs : 0 < ps) (hp : 0 < p) :
    0 < Spec.inertialLine gamma pRef lam kap Iv ps p I := by
  have h1 := Real.rpow_pos_of_pos (div_pos hr hs) lam
  have h2 := Real.rpow_pos_of_pos (div_pos hs hp) kap
  unfold Spec.inertialLine
  positivity

/-- **C102**, the plotted lines: the swelling line times the inertial factor is the inertial swelling line, the steady line is where it meets
`p = p_s`; at rest it is the critical state line, and flow dilates. -/
theorem uepi_steady_volume {gamma pRef lam kap Iv ps p : ℝ} (hg : 0 < gamma) (hr : 0 < pRef) (hs : 0 < ps) (hp : 0 < p) (hIv : 0 < Iv) :
    (∀ I, uIsl realFns (uXi ps p) p pRef gamma lam kap * uVI realFns I Iv = Spec.inertialLine gamma pRef lam kap Iv ps p I) ∧
    (∀ I, uIssV realFns (uVCsl realFns ps pRef gamma lam) I Iv = Spec.inertialLine gamma pRef lam kap Iv ps ps I) ∧
    uIssV realFns (uVCsl realFns ps pRef gamma lam) 0 Iv = gamma * (pRef / ps) ^ lam ∧
    StrictMono fun I => uIssV realFns (uVCsl realFns ps pRef gamma lam) I Iv := by
  have h1 := Real.rpow_pos_of_pos (div_pos hr hs) lam
  refine ⟨fun I => ?_, fun I => ?_, ?_, fun I J hIJ => ?_⟩
  · unfold uIsl uVCsl uVXi uXi uVI Spec.inertialLine
    simp only [realFns_pow, realFns_exp]
    rw [div_mul_cancel₀ _ hp.ne']
  · unfold uIssV uVCsl uVI Spec.inertialLine
    simp only [realFns_pow, realFns_exp]
    rw [div_self hs.ne', Real.one_rpow, mul_one]
  · unfold uIssV uVCsl uVI
    simp only [realFns_pow, realFns_exp]
    simp
  · unfold uIssV uVCsl uVI
    simp only [realFns_pow, realFns_exp]
    have : Real.exp (I / Iv) < Real.exp (J / Iv) := Real.exp_lt_exp.mpr (div_lt_div_of_pos_right hIJ hIv)
    exact mul_lt_mul_of_pos_left this (mul_pos hg h1)

/-- `uepi_steady_volume` for `Γ = 2`, `I_v = 1/10`: at `p = p_ref` the volume at rest is 2. -/
example : uIssV realFns (uVCsl realFns 1000 1000 2 (1 / 5)) 0 (1 / 10) = 2 := by
  rw [(uepi_steady_volume (kap := 1 / 20) (p := 1000) (by norm_num) (by norm_num) (by norm_num) (by norm_num) (by norm_num)).2.2.1]
  norm_num

/-- Yielding steps, converged or not. -/
theorem uepi_line_yield (ops : NewtonOps ℝ) (pr : UepiParams ℝ) (h : pr.Good) (σref L : Mat3 ℝ) (dt : ℝ) (st : UepiState ℝ)
    (hp : 1 ≤ Spec.meanStress st.stress) (hps : 1 ≤ st.ps) (hy : 0 < (uepiTrial realFns pr L st σref dt).yf) :
    let r := uepiUpdate realFns ops pr σref L dt st
    pr.kap * (Real.log (Spec.meanStress r.stress) - Real.log (Spec.meanStress st.stress)) +
      (pr.lam - pr.kap) * (Real.log r.ps - Real.log st.ps) - (r.I - st.I) / pr.Iv = (Spec.strainInc L dt).trace := by
  intro r
  set t := uepiTrial realFns pr L st σref dt with ht
  set x := uepiFinal realFns ops pr t st dt with hx
  set a := uepiResiduals realFns pr t st dt x with ha
  have hr : r = uepiPlastic realFns ops pr t st dt := by
    change uepiUpdate realFns ops pr σref L dt st = _
    unfold uepiUpdate; simp only; rw [if_pos hy]
  have hk := h.kap
  have hm : Spec.meanStress (a.factor • t.sTr) = 0 := by rw [meanStress_smul, uepiTrial_mean, mul_zero]
  have hsig : r.stress = a.factor • t.sTr + isoT a.p := by rw [hr]; rfl
  have hmean : Spec.meanStress r.stress = a.p := by rw [hsig, mean_add_iso hm]
  have hrps : r.ps = Real.exp (x 1) := by rw [hr]; rfl
  have hrI : r.I = a.I := by rw [hr]; rfl
  have hdpv : a.depsPV = (pr.lam - pr.kap) * (x 1 - Real.log st.ps) - (a.I - st.I) / pr.Iv := by
    rw [show st.ps = max st.ps 1 from (max_eq_left hps).symm]; rfl
  have hpv : a.p = Spec.meanStress st.stress * Real.exp (((Spec.strainInc L dt).trace - a.depsPV) / pr.kap) := by
    rw [← uepiTrial_deV pr L σref st dt, ← max_eq_left hp, ← uepiTrial_pPrev pr L σref st dt]; rfl
  rw [hmean, hpv, Real.log_mul (by linarith) (Real.exp_pos _).ne', Real.log_exp, hrps, Real.log_exp, hrI, hdpv]
  field_simp
  ring

/-- Elastic steps. -/
theorem uepi_line_elastic (ops : NewtonOps ℝ) (pr : UepiParams ℝ) (h : pr.Good) (σref L : Mat3 ℝ) (dt : ℝ) (st : UepiState ℝ)
    (hp : 0 < Spec.meanStress st.stress) (hy : (uepiTrial realFns pr L st σref dt).yf ≤ 0) :
    let r := uepiUpdate realFns ops pr σref L dt st
    pr.kap * (Real.log (Spec.meanStress r.stress) - Real.log (Spec.meanStress st.stress)) = (Spec.strainInc L dt).trace ∧
    r.ps = st.ps ∧ r.I = 1 / 10 ^ 22 := by
  intro r
  have hr : r = uepiElastic (uepiTrial realFns pr L st σref dt) st := by
    change uepiUpdate realFns ops pr σref L dt st = _
    unfold uepiUpdate; simp only; rw [if_neg (not_lt.mpr hy)]
  have hk := h.kap
  refine ⟨?_, by rw [hr]; rfl, by rw [hr]; rfl⟩
  have hmean : Spec.meanStress r.stress = Spec.meanStress st.stress * Real.exp ((Spec.strainInc L dt).trace / pr.kap) := by
    rw [hr]
    simp only [uepiElastic]
    rw [mean_add_iso (uepiTrial_mean pr L σref st dt), uepiTrial_pTr]
  rw [hmean, Real.log_mul hp.ne' (Real.exp_pos _).ne', Real.log_exp]
  field_simp
  ring

/-- **C102** (partial): along a history whose specific volume `w` follows the strain, `w` keeps its ratio to the inertial
swelling line of the current state - in particular a state on its line stays on it - provided yielding steps start with pressures
of at least 1 and every elastic step starts with the inertial number `1e-22` of a state at rest.
Missing: elastic steps after a flow, where it is false (`uepi_line_lost`). -/
theorem uepi_line_run_partial (ops : NewtonOps ℝ) (pr : UepiParams ℝ) (h : pr.Good) (σref : Mat3 ℝ) (hr : σref.IsSymm)
    (L : ℕ → Mat3 ℝ) (dt : ℕ → ℝ) (st : ℕ → UepiState ℝ) (w : ℕ → ℝ) (n : ℕ) (hdt : ∀ k < n, 0 < dt k)
    (hst : ∀ k < n, st (k + 1) = uepiUpdate realFns ops pr σref (L k) (dt k) (st k))
    (hw : ∀ k < n, w (k + 1) = w k * Real.exp (-(Spec.strainInc (L k) (dt k)).trace))
    (h0 : Spec.UepiAdmissible (st 0))
    (hyield : ∀ k < n, 0 < (uepiTrial realFns pr (L k) (st k) σref (dt k)).yf →
      1 ≤ Spec.meanStress (st k).stress ∧ 1 ≤ (st k).ps)
    (hrest : ∀ k < n, (uepiTrial realFns pr (L k) (st k) σref (dt k)).yf ≤ 0 → (st k).I = 1 / 10 ^ 22) :
    w n / Spec.inertialLine pr.gamma pr.pRef pr.lam pr.kap pr.Iv (st n).ps (Spec.meanStress (st n).stress) (st n).I =
      w 0 / Spec.inertialLine pr.gamma pr.pRef pr.lam pr.kap pr.Iv (st 0).ps (Spec.meanStress (st 0).stress) (st 0).I := by
  have hpr : 0 < pr.pRef := one_pos.trans_le h.pRef
  have key : ∀ m ≤ n, Spec.UepiAdmissible (st m) ∧
      w m / Spec.inertialLine pr.gamma pr.pRef pr.lam pr.kap pr.Iv (st m).ps (Spec.meanStress (st m).stress) (st m).I =
      w 0 / Spec.inertialLine pr.gamma pr.pRef pr.lam pr.kap pr.Iv (st 0).ps (Spec.meanStress (st 0).stress) (st 0).I := by
    intro m
    induction m with
    | zero => exact fun _ => ⟨h0, rfl⟩
    | succ m ih =>
      intro hm
      have hlt : m < n := by omega
      obtain ⟨ha, he⟩ := ih hlt.le
      have ha' : Spec.UepiAdmissible (st (m + 1)) := by
        rw [hst m hlt]; exact uepi_admissible_step ops pr h σref (L m) hr (dt m) (hdt m hlt) (st m) ha
      refine ⟨ha', ?_⟩
      rw [← he, hw m hlt]
      have hrel : pr.kap * (Real.log (Spec.meanStress (st (m + 1)).stress) - Real.log (Spec.meanStress (st m).stress)) +
          (pr.lam - pr.kap) * (Real.log (st (m + 1)).ps - Real.log (st m).ps) - ((st (m + 1)).I - (st m).I) / pr.Iv =
          (Spec.strainInc (L m) (dt m)).trace := by
        by_cases hy : 0 < (uepiTrial realFns pr (L m) (st m) σref (dt m)).yf
        · obtain ⟨a, b⟩ := hyield m hlt hy
          rw [hst m hlt]
          exact uepi_line_yield ops pr h σref (L m) (dt m) (st m) a b hy
        · obtain ⟨a, b, c⟩ := uepi_line_elastic ops pr h σref (L m) (dt m) (st m) ha.pressure (not_lt.mp hy)
          rw [← hst m hlt] at a b c
          rw [b, c, hrest m hlt (not_lt.mp hy), sub_self, sub_self, mul_zero, zero_div, add_zero, sub_zero]
          exact a
      have p1 := inertialLine_pos (lam := pr.lam) (kap := pr.kap) (Iv := pr.Iv) (I := (st m).I) h.gamma hpr ha.ps ha.pressure
      have p2 := inertialLine_pos (lam := pr.lam) (kap := pr.kap) (Iv := pr.Iv) (I := (st (m + 1)).I) h.gamma hpr ha'.ps ha'.pressure
      have hl : Spec.inertialLine pr.gamma pr.pRef pr.lam pr.kap pr.Iv (st (m + 1)).ps (Spec.meanStress (st (m + 1)).stress)
          (st (m + 1)).I = Spec.inertialLine pr.gamma pr.pRef pr.lam pr.kap pr.Iv (st m).ps (Spec.meanStress (st m).stress)
          (st m).I * Real.exp (-(Spec.strainInc (L m) (dt m)).trace) := by
        apply Real.log_injOn_pos (Set.mem_Ioi.mpr p2) (Set.mem_Ioi.mpr (mul_pos p1 (Real.exp_pos _)))
        rw [Real.log_mul p1.ne' (Real.exp_pos _).ne', Real.log_exp, inertialLine_log h.gamma hpr ha'.ps ha'.pressure,
          inertialLine_log h.gamma hpr ha.ps ha.pressure, ← hrel]
        ring
      rw [hl, mul_div_mul_right _ _ (Real.exp_pos _).ne']
  exact (key n le_rfl).2

/-- Why C102 is partial: an elastic step forgets the inertial number, so the state leaves its line whenever it was flowing: the
volume changes by `exp(-tr Δε)`, the volume on the line by another factor. -/
theorem uepi_line_lost (ops : NewtonOps ℝ) (pr : UepiParams ℝ) (h : pr.Good) (σref L : Mat3 ℝ) (dt : ℝ) (st : UepiState ℝ)
    (hp : 0 < Spec.meanStress st.stress) (hps : 0 < st.ps) (hy : (uepiTrial realFns pr L st σref dt).yf ≤ 0)
    (hI : 1 / 10 ^ 22 < st.I) :
    let r := uepiUpdate realFns ops pr σref L dt st
    Spec.inertialLine pr.gamma pr.pRef pr.lam pr.kap pr.Iv r.ps (Spec.meanStress r.stress) r.I <
      Spec.inertialLine pr.gamma pr.pRef pr.lam pr.kap pr.Iv st.ps (Spec.meanStress st.stress) st.I *
        Real.exp (-(Spec.strainInc L dt).trace) := by
  intro r
  have hpr : 0 < pr.pRef := one_pos.trans_le h.pRef
  obtain ⟨a, b, c⟩ := uepi_line_elastic ops pr h σref L dt st hp hy
  change pr.kap * (Real.log (Spec.meanStress r.stress) - _) = _ at a
  change r.ps = _ at b
  change r.I = _ at c
  have hr0 : 0 < Spec.meanStress r.stress := by
    have hr : r = uepiElastic (uepiTrial realFns pr L st σref dt) st := by
      change uepiUpdate realFns ops pr σref L dt st = _
      unfold uepiUpdate; simp only; rw [if_neg (not_lt.mpr hy)]
    rw [hr]
    simp only [uepiElastic]
    rw [mean_add_iso (uepiTrial_mean pr L σref st dt), uepiTrial_pTr]
    exact mul_pos hp (Real.exp_pos _)
  have hrs : 0 < r.ps := by rw [b]; exact hps
  have p1 := inertialLine_pos (lam := pr.lam) (kap := pr.kap) (Iv := pr.Iv) (I := st.I) h.gamma hpr hps hp
  have p2 := inertialLine_pos (lam := pr.lam) (kap := pr.kap) (Iv := pr.Iv) (I := r.I) h.gamma hpr hrs hr0
  refine (Real.log_lt_log_iff p2 (mul_pos p1 (Real.exp_pos _))).mp ?_
  rw [Real.log_mul p1.ne' (Real.exp_pos _).ne', Real.log_exp, inertialLine_log h.gamma hpr hrs hr0,
    inertialLine_log h.gamma hpr hps hp, b, c, ← a]
  have : 1 / 10 ^ 22 / pr.Iv < st.I / pr.Iv := div_lt_div_of_pos_right hI h.Iv
  linarith

/-! ### C105: initial states -/

/-- The library's Cam-Clay law with the same parameters. -/
noncomputable def UepiParams.toMCC (pr : UepiParams ℝ) : MCCParams ℝ :=
  { nu := pr.nu, M := pr.Mcsl, lam := pr.lam, kap := pr.kap, N := pr.N realFns, pRef := pr.pRef, KMin := none, KMax := none,
    pMin := 1, rhoP := pr.rhoP }

/-- **C105** (partial): the initial state has the requested pressure and over-consolidation, lies inside the surface at rest, and
agrees with the initial state of the library's Cam-Clay law. Missing: a requested deviatoric stress, which is ignored
(`uepi_init_q_fails`). -/
theorem uepi_init_partial (pr : UepiParams ℝ) (h : pr.Good) (p ocr : ℝ) (hp : 0 < p) (ho : 1 ≤ ocr) (q : Option ℝ) :
    let i := uepiFromOcr realFns pr p ocr q
    Spec.UepiAdmissible i.st ∧ Spec.meanStress i.st.stress = p ∧ 2 * i.st.ps = p * ocr ∧ i.stressRef = i.st.stress ∧
    Spec.inertialF pr.Mcsl 1 i.st.ps i.st.stress ≤ 0 ∧
    i.st.stress = (mccFromOcr realFns pr.toMCC p ocr none).stress ∧
    2 * i.st.ps = (mccFromOcr realFns pr.toMCC p ocr none).pc ∧
    i.density = (mccFromOcr realFns pr.toMCC p ocr none).density := by
  intro i
  have hs : i.st.stress = triaxialStress p 0 := rfl
  have hps : i.st.ps = p * ocr / 2 := rfl
  have hps0 : 0 < i.st.ps := by rw [hps]; have : 0 < ocr := by linarith
                                positivity
  refine ⟨⟨?_, hps0, ?_, ?_, ?_⟩, ?_, ?_, rfl, ?_, rfl, ?_, ?_⟩
  · rw [hs, triaxial_mean]; exact hp
  · change (0 : ℝ) ≤ 1 / 10 ^ 22; norm_num
  · rw [hs]; exact Matrix.isSymm_diagonal _
  · change (0 : Mat3 ℝ).IsSymm; exact Matrix.isSymm_zero
  · rw [hs, triaxial_mean]
  · rw [hps]; ring
  · rw [Spec.inertialF, hs, triaxial_qVM, triaxial_mean, hps, abs_zero]
    have : p ^ 2 * 1 ≤ p ^ 2 * ocr := mul_le_mul_of_nonneg_left ho (sq_nonneg p)
    ring_nf at this ⊢
    linarith
  · change 2 * i.st.ps = p * ocr; rw [hps]; ring
  · have hl := (uepi_lines pr h hps0 hp).1
    change pr.rhoP / uMccSl realFns (uXi i.st.ps p) i.st.ps pr.pRef pr.gamma pr.lam pr.kap =
      pr.rhoP / vSl realFns (p * ocr) p pr.pRef (pr.N realFns) pr.lam pr.kap
    rw [hl, show 2 * i.st.ps = p * ocr by rw [hps]; ring]

/-- Why C105 is partial: whatever deviatoric stress is requested, the state is isotropic. -/
theorem uepi_init_q_fails (pr : UepiParams ℝ) (p ocr q : ℝ) :
    Spec.qVM (uepiFromOcr realFns pr p ocr (some q)).st.stress = 0 := by
  change Spec.qVM (triaxialStress p 0) = 0
  rw [triaxial_qVM, abs_zero]

/-! ### Examples -/

/-- Parameters of a clay (`sip_setup.py`), with round numbers. -/
noncomputable def exUepi : UepiParams ℝ :=
  { pRef := 1000, nu := 1 / 4, lam := 9 / 100, kap := 5 / 100, Mcsl := 89 / 100, gamma := 3, Minf := 135 / 100, Iv := 1 / 10, IM := 1 / 100,
    rhoP := 2700, d := 1 / 1000 }

theorem exUepi_good : exUepi.Good := by constructor <;> norm_num [exUepi]

/-- Normally consolidated at 2000 Pa. -/
noncomputable def exUepiSt : UepiState ℝ := { stress := isoT 2000, epsE := 0, ps := 1000, I := 1 / 10 ^ 22 }

/-- Triaxial shearing at constant volume. -/
noncomputable def exShearL : Mat3 ℝ := Matrix.diagonal ![-(1 / 100), -(1 / 100), 2 / 100]

theorem exUepiSt_mean : Spec.meanStress exUepiSt.stress = 2000 := meanStress_isoT _

theorem exUepiSt_adm : Spec.UepiAdmissible exUepiSt :=
  ⟨by rw [exUepiSt_mean]; norm_num, by norm_num [exUepiSt], by norm_num [exUepiSt], isoT_symm _, Matrix.isSymm_zero⟩

theorem exShear_inc : Spec.strainInc exShearL 1 = exShearL := by
  have : exShearL.transpose = exShearL := Matrix.diagonal_transpose _
  rw [Spec.strainInc, this, ← two_smul ℝ exShearL, smul_smul]; norm_num

theorem exShear_trace : exShearL.trace = 0 := by
  rw [trace3]; simp [exShearL]; norm_num

theorem exShear_q : (uepiTrial realFns exUepi exShearL exUepiSt (isoT 2000) 1).qTr = 1440 := by
  have hd : Spec.dev exShearL = exShearL := by
    have hm : Spec.meanStress exShearL = 0 := by rw [meanStress_trace, exShear_trace, zero_div]
    have := dev_add_iso hm 0
    rwa [show isoT (0 : ℝ) = 0 by simp [isoT], add_zero] at this
  have hG : (uepiTrial realFns exUepi exShearL exUepiSt (isoT 2000) 1).Gc = 24000 := by
    have h1 : (uepiTrial realFns exUepi exShearL exUepiSt (isoT 2000) 1).Gc = 3 * (1 - 2 * exUepi.nu) / (2 * (1 + exUepi.nu)) *
        (1 / 2 * ((uepiTrial realFns exUepi exShearL exUepiSt (isoT 2000) 1).pPrev +
          (uepiTrial realFns exUepi exShearL exUepiSt (isoT 2000) 1).pTr) / exUepi.kap) := rfl
    rw [h1, uepiTrial_pPrev, uepiTrial_pTr, exUepiSt_mean, exShear_inc, exShear_trace, zero_div, Real.exp_zero]
    norm_num [exUepi]
  have hW : Spec.jaumannRotated exShearL exUepiSt.stress 1 = isoT 2000 := by
    have : exShearL.transpose = exShearL := Matrix.diagonal_transpose _
    simp [Spec.jaumannRotated, this, exUepiSt]
  rw [uepiTrial_qTr, uepiTrial_sTr, hG, hW, dev_isoT, zero_add, exShear_inc, hd, qVM_smul (by norm_num), Spec.qVM, Spec.J2, hd]
  have : Spec.ddot exShearL exShearL = 6 / 10000 := by
    simp [Spec.ddot, exShearL, Fin.sum_univ_three, Matrix.diagonal_apply]; norm_num
  rw [this, show (3 : ℝ) * (6 / 10000 / 2) = (3 / 100) ^ 2 by norm_num, Real.sqrt_sq (by norm_num)]
  norm_num

theorem exShear_yields : 0 < (uepiTrial realFns exUepi exShearL exUepiSt (isoT 2000) 1).yf := by
  have h : (uepiTrial realFns exUepi exShearL exUepiSt (isoT 2000) 1).yf =
      uYield (uepiTrial realFns exUepi exShearL exUepiSt (isoT 2000) 1).pTr 1000
        (uepiTrial realFns exUepi exShearL exUepiSt (isoT 2000) 1).qTr (89 / 100) 1 := rfl
  rw [h, exShear_q, uepiTrial_pTr, exUepiSt_mean, exShear_inc, exShear_trace, zero_div, Real.exp_zero]
  norm_num [uYield]

example := uepi_strengthening (IM := 1 / 100) (Mcsl := 89 / 100) (Minf := 135 / 100) (by norm_num) (by norm_num) (by norm_num)

example := uepi_surface (p := 1500) (ps := 1000) (q := 700) (Mcsl := 89 / 100) (Minf := 135 / 100) (I := 1 / 10) (IM := 1 / 100)
  (by norm_num) (by norm_num) (by norm_num) (by norm_num) (by norm_num) (by norm_num)

example := uepi_iys_partial (p := 1000) (ps := 1000) (q := 4000) (Mcsl := 1) (Minf := 2) (I := 1) (IM := 1)
  (by norm_num) (by norm_num) (by norm_num) (by norm_num) (by norm_num) (by norm_num)
  (by norm_num [uIys, uMXi2, uXi, uMI2])

example := uepi_iys_fails (p := 1000) (ps := 1000) (q := 1500) (Mcsl := 1) (Minf := 2) (I := 1) (IM := 1)
  (by norm_num) (by norm_num) (by norm_num) (by norm_num) (by norm_num) (by norm_num)
  (by norm_num [uYield, uMI])

example := uepi_lines exUepi exUepi_good (ps := 1000) (p := 1500) (by norm_num) (by norm_num)

example := uepi_gamma_N { nu := 1 / 4, Mcsl := 89 / 100, lam := 9 / 100, kap := 5 / 100, N := some 3 } rfl

example (ops : NewtonOps ℝ) := uepi_admissible_run ops exUepi exUepi_good (isoT 2000) (isoT_symm _) [(exShearL, 1), (-exShearL, 1 / 10)]
  (by intro e he; fin_cases he <;> norm_num) exUepiSt exUepiSt_adm

example (ops : NewtonOps ℝ) := uepi_return_map ops exUepi exUepi_good (isoT 2000) exShearL 1 one_pos exUepiSt
  (by rw [exUepiSt_mean]; norm_num) (by norm_num [exUepiSt]) exShear_yields (by rw [exShear_q]; norm_num)

/-- Parameters without inertial strengthening. -/
noncomputable def exUepi0 : UepiParams ℝ := { exUepi with Minf := 89 / 100 }

theorem exUepi0_good : exUepi0.Good := by constructor <;> norm_num [exUepi0, exUepi]

/-- Plastic strain of a steady flow at critical state, and its inertial number. -/
noncomputable def exFlow : Mat3 ℝ := (3 / (89 / 100) ^ 2 : ℝ) • Spec.dev (triaxialStress (1000 : ℝ) 890)

noncomputable def exFlowI : ℝ := Spec.shearEq exFlow / 1 * exUepi0.d * Real.sqrt (exUepi0.rhoP / max 1000 exUepi0.pRef)

theorem exFlowI_nonneg : 0 ≤ exFlowI :=
  mul_nonneg (mul_nonneg (div_nonneg (Real.sqrt_nonneg _) zero_le_one) (by norm_num [exUepi0, exUepi])) (Real.sqrt_nonneg _)

/-- Steady flow at critical state satisfies the equations of a step. -/
theorem exSteady : Spec.UepiStep exUepi0 1 1 (triaxialStress 1000 890) exFlow (triaxialStress 1000 890) exFlow 1000 1000
    exFlowI exFlowI 1 0 0 := by
  have htr : exFlow.trace = 0 := by rw [exFlow, Matrix.trace_smul, trace_dev, smul_zero]
  have hdev : Spec.dev exFlow = exFlow := by
    have := dev_smul_add (3 / (89 / 100) ^ 2) 0 (triaxialStress (1000 : ℝ) 890)
    rwa [zero_smul, add_zero] at this
  refine ⟨zero_le_one, ?_, ?_, ?_, ?_, ?_, ?_, rfl⟩
  · have : Spec.inertialStrength exUepi0.IM exUepi0.Mcsl exUepi0.Minf exFlowI = 1 := by
      have hb := strength_bounds exFlowI_nonneg exUepi0_good.IM exUepi0_good.Mcsl exUepi0_good.Minf
      have : exUepi0.Minf / exUepi0.Mcsl = 1 := by norm_num [exUepi0, exUepi]
      rw [this] at hb
      exact le_antisymm hb.2 hb.1
    rw [this, Spec.inertialF, triaxial_qVM, triaxial_mean, show exUepi0.Mcsl = 89 / 100 from rfl, abs_of_nonneg (by norm_num)]
    norm_num
  · rw [hdev, exFlow, show exUepi0.Mcsl = 89 / 100 from rfl, one_mul]
  · rw [htr, triaxial_mean]; norm_num
  · rw [sub_self, dev_zero, smul_zero, add_zero]
  · rw [sub_self, Matrix.trace_zero, zero_div, Real.exp_zero, mul_one]
  · rw [htr, sub_self, sub_self, mul_zero, zero_div, sub_zero]

example := uepi_return_dissipates exUepi0_good exSteady (by rw [triaxial_mean]; norm_num) exFlowI_nonneg

example := uepi_helpers (p := 1500) (xi := 2 / 3) (q := 700) (M := 89 / 100) (pm := 1) (ps := 1000) (ps' := 1100) (dI := 0) (Iv := 1)
  (lam := 9 / 100) (kap := 5 / 100) (by norm_num) (by norm_num) (by norm_num) (by norm_num)

example := uepi_not_associated (Mcsl := 1) (m := 2) (ps := 1000) (Λ := 1) (σ := triaxialStress 1500 300)
  (ep := (3 : ℝ) • Spec.dev (triaxialStress 1500 300) + (1000 / 3 : ℝ) • (1 : Mat3 ℝ)) one_pos (by norm_num) one_pos
  (by rw [dev_smul_add]; norm_num) (by rw [trace_smul_add, triaxial_mean]; norm_num)
  (by
    intro h0
    have := congrFun (congrFun h0 2) 2
    simp [Spec.dev, Spec.meanStress, triaxialStress] at this
    norm_num at this)
  (by rw [triaxial_mean]; norm_num)

/-- Isotropic extension does not yield. -/
theorem exExtension (I : ℝ) :
    (uepiTrial realFns exUepi ((-1 / 300 : ℝ) • 1) { exUepiSt with I := I } (isoT 2000) 1).yf ≤ 0 := by
  set st : UepiState ℝ := { exUepiSt with I := I }
  have hm : Spec.meanStress st.stress = 2000 := exUepiSt_mean
  have h : (uepiTrial realFns exUepi ((-1 / 300 : ℝ) • 1) st (isoT 2000) 1).yf =
      uYield (uepiTrial realFns exUepi ((-1 / 300 : ℝ) • 1) st (isoT 2000) 1).pTr 1000
        (uepiTrial realFns exUepi ((-1 / 300 : ℝ) • 1) st (isoT 2000) 1).qTr (89 / 100) 1 := rfl
  have hinc : Spec.strainInc ((-1 / 300 : ℝ) • (1 : Mat3 ℝ)) 1 = isoT (-1 / 300) := by
    rw [Spec.strainInc, Matrix.transpose_smul, Matrix.transpose_one, ← two_smul ℝ, smul_smul, smul_smul, isoT]; norm_num
  have hW : Spec.jaumannRotated ((-1 / 300 : ℝ) • (1 : Mat3 ℝ)) st.stress 1 = isoT 2000 := by
    have : st.stress = isoT 2000 := rfl
    rw [this]
    simp [Spec.jaumannRotated]
  have hq : (uepiTrial realFns exUepi ((-1 / 300 : ℝ) • 1) st (isoT 2000) 1).qTr = 0 := by
    rw [uepiTrial_qTr, uepiTrial_sTr, hW, hinc, dev_isoT, dev_isoT, smul_zero, add_zero, Spec.qVM, Spec.J2, dev_zero]
    simp [Spec.ddot]
  rw [h, hq, uepiTrial_pTr, hm, hinc]
  set E := Real.exp ((isoT (-1 / 300 : ℝ)).trace / exUepi.kap) with hE
  have h0 : 0 < E := Real.exp_pos _
  have h1 : E ≤ 1 := by
    rw [hE]
    refine Real.exp_le_one_iff.mpr ?_
    rw [trace3]; norm_num [isoT_apply, exUepi]
  unfold uYield
  simp only [mul_zero, zero_div, zero_add]
  nlinarith

example (ops : NewtonOps ℝ) := uepi_line_lost ops exUepi exUepi_good (isoT 2000) ((-1 / 300 : ℝ) • 1) 1 { exUepiSt with I := 1 }
  (by rw [exUepiSt_mean]; norm_num) (by norm_num [exUepiSt]) (exExtension 1) (by norm_num)

example (ops : NewtonOps ℝ) := uepi_elastic_inside ops exUepi (isoT 2000) ((-1 / 300 : ℝ) • 1) 1 exUepiSt (exExtension _)

/-- A yielding step as a history. -/
example (ops : NewtonOps ℝ) (w : ℝ) := uepi_line_run_partial ops exUepi exUepi_good (isoT 2000) (isoT_symm _) (fun _ => exShearL)
  (fun _ => 1) (fun k => Nat.rec exUepiSt (fun _ r => uepiUpdate realFns ops exUepi (isoT 2000) exShearL 1 r) k)
  (fun k => Nat.rec w (fun _ u => u * Real.exp (-(Spec.strainInc exShearL 1).trace)) k) 1 (fun _ _ => one_pos) (fun _ _ => rfl)
  (fun _ _ => rfl) exUepiSt_adm
  (by
    intro k hk _
    obtain rfl : k = 0 := by omega
    change 1 ≤ Spec.meanStress exUepiSt.stress ∧ 1 ≤ exUepiSt.ps
    exact ⟨by rw [exUepiSt_mean]; norm_num, by norm_num [exUepiSt]⟩)
  (by
    intro k hk h0
    obtain rfl : k = 0 := by omega
    exact absurd exShear_yields (not_lt.mpr h0))

example := uepi_init_partial exUepi exUepi_good 2000 2 (by norm_num) (by norm_num) none

end Hydrax
