import Verif.Lemmas.Tensor
import Verif.Lemmas.RealFns
import Verif.Model.LawTable
import Mathlib.Analysis.Complex.ExponentialBounds

/-!
# Properties C38, C39, C40 and the Cam-Clay part of C37
-/

set_option linter.unusedSectionVars false

namespace Hydrax

/-- Von Mises equivalent stress. -/
noncomputable def Spec.qVM (σ : Matrix (Fin 3) (Fin 3) ℝ) : ℝ := Real.sqrt (3 * Spec.J2 σ)

/-- Modified Cam-Clay yield function of a stress tensor. -/
noncomputable def Spec.mccF (M pc : ℝ) (σ : Matrix (Fin 3) (Fin 3) ℝ) : ℝ :=
  Spec.qVM σ ^ 2 / M ^ 2 + Spec.meanStress σ ^ 2 - pc * Spec.meanStress σ

section

theorem qVM_sq (σ : Mat3 ℝ) : Spec.qVM σ ^ 2 = 3 * Spec.J2 σ :=
  Real.sq_sqrt (mul_nonneg (by norm_num) (div_nonneg (ddot_self_nonneg _) (by norm_num)))

theorem triaxial_mean (p q : ℝ) : Spec.meanStress (triaxialStress p q) = p := by
  simp [Spec.meanStress, triaxialStress]
  ring

theorem triaxial_J2 (p q : ℝ) : Spec.J2 (triaxialStress p q) = q ^ 2 / 3 := by
  unfold Spec.J2
  have h : ∀ i j, Spec.dev (triaxialStress p q) i j =
      Matrix.diagonal ![-(q / 3), -(q / 3), 2 * q / 3] i j := by
    intro i j
    simp only [Spec.dev, triaxial_mean]
    fin_cases i <;> fin_cases j <;> simp [triaxialStress, Matrix.diagonal] <;> ring
  simp only [Spec.ddot, h]
  simp [Fin.sum_univ_three, Matrix.diagonal]
  ring

theorem triaxial_qVM (p q : ℝ) : Spec.qVM (triaxialStress p q) = |q| := by
  unfold Spec.qVM
  rw [triaxial_J2, show 3 * (q ^ 2 / 3) = q ^ 2 by ring, Real.sqrt_sq_eq_abs]

/-! ### C38 -/

/-- **C38** (partial): the stress returned by `create_state_from_ocr` never lies outside the yield surface
(overconsolidation ratio at least 1). Missing: that an admissible input is kept, which is false
(`mcc_ocr_inside_moved`). -/
theorem mcc_ocr_admissible_partial (pr : MCCParams ℝ) (hM : 0 < pr.M) (p ocr : ℝ) (hp : 0 < p)
    (ho : 1 ≤ ocr) (q : Option ℝ) :
    Spec.meanStress (mccFromOcr realFns pr p ocr q).stress = p ∧
    Spec.mccF pr.M (mccFromOcr realFns pr p ocr q).pc (mccFromOcr realFns pr p ocr q).stress ≤ 0 := by
  have hys : qpYs realFns (p * ocr) p pr.M = pr.M * Real.sqrt (ocr - 1) := by
    unfold qpYs; simp only [realFns_sqrt]
    rw [mul_div_cancel_left₀ _ hp.ne']
  cases q with
  | none =>
    refine ⟨triaxial_mean _ _, ?_⟩
    simp only [mccFromOcr, Spec.mccF]
    rw [qVM_sq, triaxial_J2, triaxial_mean]
    have : 0 ≤ p * p * (ocr - 1) := by nlinarith [mul_pos hp hp]
    simp
    nlinarith
  | some q =>
    refine ⟨triaxial_mean _ _, le_of_eq ?_⟩
    have hq : (if |q / p - qpYs realFns (p * ocr) p pr.M| > 0 then qpYs realFns (p * ocr) p pr.M
        else q / p) = qpYs realFns (p * ocr) p pr.M := by
      split_ifs with h
      · rfl
      · have := abs_nonpos_iff.mp (not_lt.mp h)
        linarith
    simp only [mccFromOcr, hq, Spec.mccF]
    rw [qVM_sq, triaxial_J2, triaxial_mean, hys, mul_pow, mul_pow, Real.sq_sqrt (by linarith)]
    field_simp
    ring

/-- **C38** refuted: an input strictly inside the yield surface is always moved onto it. -/
theorem mcc_ocr_inside_moved (pr : MCCParams ℝ) (hM : 0 < pr.M) (p ocr q : ℝ) (hp : 0 < p)
    (ho : 1 < ocr) (hin : Spec.mccF pr.M (p * ocr) (triaxialStress p q) < 0) :
    q < Spec.qVM (mccFromOcr realFns pr p ocr (some q)).stress := by
  have hys : qpYs realFns (p * ocr) p pr.M = pr.M * Real.sqrt (ocr - 1) := by
    unfold qpYs; simp only [realFns_sqrt]
    rw [mul_div_cancel_left₀ _ hp.ne']
  have h1 : (if |q / p - qpYs realFns (p * ocr) p pr.M| > 0 then qpYs realFns (p * ocr) p pr.M
        else q / p) = qpYs realFns (p * ocr) p pr.M := by
      split_ifs with h
      · rfl
      · have := abs_nonpos_iff.mp (not_lt.mp h)
        linarith
  simp only [mccFromOcr, h1]
  rw [triaxial_qVM, hys, abs_of_nonneg (by positivity)]
  rw [Spec.mccF, qVM_sq, triaxial_J2, triaxial_mean] at hin
  have h2 : q ^ 2 < (pr.M * Real.sqrt (ocr - 1) * p) ^ 2 := by
    rw [mul_pow, mul_pow, Real.sq_sqrt (by linarith)]
    have hM2 : 0 < pr.M ^ 2 := by positivity
    have : q ^ 2 / pr.M ^ 2 < p ^ 2 * (ocr - 1) := by
      have e : 3 * (q ^ 2 / 3) / pr.M ^ 2 = q ^ 2 / pr.M ^ 2 := by ring
      rw [e] at hin; nlinarith
    rw [div_lt_iff₀ hM2] at this
    nlinarith
  exact lt_of_pow_lt_pow_left₀ 2 (by positivity) h2

/-- The hypotheses are met: `p = 100`, `q = 10`, `OCR = 2`, `M = 1`. -/
example (pr : MCCParams ℝ) (hM : pr.M = 1) :
    10 < Spec.qVM (mccFromOcr realFns pr 100 2 (some 10)).stress := by
  refine mcc_ocr_inside_moved pr (by rw [hM]; norm_num) 100 2 10 (by norm_num) (by norm_num) ?_
  rw [Spec.mccF, qVM_sq, triaxial_J2, triaxial_mean, hM]; norm_num

/-! ### C37, Cam-Clay -/

/-- Parameters for which the compression lines are defined. -/
structure MCCParams.Lines (pr : MCCParams ℝ) : Prop where
  N : 0 < pr.N
  pRef : 0 < pr.pRef
  rhoP : 0 < pr.rhoP
  kap : pr.kap < pr.lam

theorem mcc_lines (pr : MCCParams ℝ) (h : pr.Lines) {pc p : ℝ} (hpc : 0 < pc) (hp : 0 < p) :
    pr.N * pr.pRef ^ pr.lam /
      (vSl realFns pc p pr.pRef pr.N pr.lam pr.kap * p ^ pr.kap) = pc ^ (pr.lam - pr.kap) := by
  unfold vSl vNcl vKappa
  simp only [realFns_pow]
  rw [Real.div_rpow h.pRef.le hpc.le, Real.div_rpow hpc.le hp.le, Real.rpow_sub hpc]
  have h1 := Real.rpow_pos_of_pos hpc pr.lam
  have h2 := Real.rpow_pos_of_pos hpc pr.kap
  have h3 := Real.rpow_pos_of_pos hp pr.kap
  have h4 := Real.rpow_pos_of_pos h.pRef pr.lam
  have h5 := h.N
  field_simp

theorem vSl_pos (pr : MCCParams ℝ) (h : pr.Lines) {pc p : ℝ} (hpc : 0 < pc) (hp : 0 < p) :
    0 < vSl realFns pc p pr.pRef pr.N pr.lam pr.kap := by
  unfold vSl vNcl vKappa
  simp only [realFns_pow]
  exact mul_pos (mul_pos h.N (Real.rpow_pos_of_pos (div_pos h.pRef hpc) _))
    (Real.rpow_pos_of_pos (div_pos hpc hp) _)

theorem mccFromDensity_of_line (pr : MCCParams ℝ) (h : pr.Lines) {pc p : ℝ} (hpc : 0 < pc) (hp : 0 < p) :
    (mccFromDensity realFns pr p (pr.rhoP / vSl realFns pc p pr.pRef pr.N pr.lam pr.kap)).1 = pc := by
  have hv := vSl_pos pr h hpc hp
  have : pr.rhoP / (pr.rhoP / vSl realFns pc p pr.pRef pr.N pr.lam pr.kap) =
      vSl realFns pc p pr.pRef pr.N pr.lam pr.kap := by
    have := h.rhoP; field_simp
  simp only [mccFromDensity, this, realFns_pow]
  rw [mcc_lines pr h hpc hp, ← Real.rpow_mul hpc.le, mul_one_div_cancel (by linarith [h.kap]), Real.rpow_one]

/-- **C85**, critical state: the swelling line reaches the critical state line where the preconsolidation pressure is twice
the mean stress, and that line lies below the normal compression line by the factor `2^(kap - lam)`. -/
theorem mcc_critical_line (pr : MCCParams ℝ) (h : pr.Lines) {p : ℝ} (hp : 0 < p) :
    vSl realFns (2 * p) p pr.pRef pr.N pr.lam pr.kap = vCsl realFns p pr.pRef pr.N pr.lam pr.kap ∧
    vCsl realFns p pr.pRef pr.N pr.lam pr.kap < vNcl realFns p pr.pRef pr.N pr.lam := by
  have h2 : (0 : ℝ) < 2 := by norm_num
  unfold vSl vNcl vKappa vCsl
  simp only [realFns_pow]
  have e : pr.pRef / (2 * p) = pr.pRef / p / 2 := by field_simp
  have hq := div_pos h.pRef hp
  constructor
  · rw [e, Real.div_rpow hq.le h2.le, mul_div_cancel_right₀ _ hp.ne', Real.rpow_sub h2]
    ring
  · have h1 : (2 : ℝ) ^ (pr.kap - pr.lam) < 1 := Real.rpow_lt_one_of_one_lt_of_neg (by norm_num) (by linarith [h.kap])
    have h3 := mul_pos h.N (Real.rpow_pos_of_pos hq pr.lam)
    nlinarith

/-- **C37**, Cam-Clay: the density returned by `create_state_from_ocr` is one from which
`create_state_from_density` recovers the preconsolidation pressure `p * OCR`. -/
theorem mcc_ocr_density_roundtrip (pr : MCCParams ℝ) (h : pr.Lines) (p ocr : ℝ) (hp : 0 < p) (ho : 0 < ocr)
    (q : Option ℝ) :
    (mccFromOcr realFns pr p ocr q).pc = p * ocr ∧
    (mccFromDensity realFns pr p (mccFromOcr realFns pr p ocr q).density).1 = p * ocr :=
  ⟨rfl, mccFromDensity_of_line pr h (mul_pos hp ho) hp⟩

/-- **C37**, Cam-Clay: `create_state_from_stress` puts the stress exactly on the yield surface and returns a
density consistent with `create_state_from_density`. -/
theorem mcc_stress_roundtrip (pr : MCCParams ℝ) (h : pr.Lines) (hM : 0 < pr.M) (p q : ℝ) (hp : 0 < p) :
    Spec.mccF pr.M (mccFromStress realFns pr p q).1 (triaxialStress p q) = 0 ∧
    (mccFromDensity realFns pr p (mccFromStress realFns pr p q).2).1 = (mccFromStress realFns pr p q).1 := by
  constructor
  · simp only [mccFromStress, Spec.mccF]
    rw [qVM_sq, triaxial_J2, triaxial_mean]
    field_simp
    ring
  · exact mccFromDensity_of_line pr h (by positivity) hp

/-- **C37**, Cam-Clay: the state made by `create_state_from_density` lies on the swelling line of the requested
density. -/
theorem mcc_density_roundtrip (pr : MCCParams ℝ) (h : pr.Lines) (p rho : ℝ) (hp : 0 < p) (hr : 0 < rho) :
    pr.rhoP / vSl realFns (mccFromDensity realFns pr p rho).1 p pr.pRef pr.N pr.lam pr.kap = rho := by
  have hv : 0 < pr.rhoP / rho := div_pos h.rhoP hr
  have hA : 0 < pr.N * pr.pRef ^ pr.lam / (pr.rhoP / rho * p ^ pr.kap) :=
    div_pos (mul_pos h.N (Real.rpow_pos_of_pos h.pRef _)) (mul_pos hv (Real.rpow_pos_of_pos hp _))
  have hpc : 0 < (mccFromDensity realFns pr p rho).1 := Real.rpow_pos_of_pos hA _
  have hl := mcc_lines pr h hpc hp
  have e : (mccFromDensity realFns pr p rho).1 ^ (pr.lam - pr.kap) =
      pr.N * pr.pRef ^ pr.lam / (pr.rhoP / rho * p ^ pr.kap) := by
    simp only [mccFromDensity, realFns_pow]
    rw [← Real.rpow_mul hA.le, one_div_mul_cancel (by linarith [h.kap]), Real.rpow_one]
  rw [e] at hl
  have hv' := vSl_pos pr h hpc hp
  have h3 := Real.rpow_pos_of_pos hp pr.kap
  have h4 := mul_pos h.N (Real.rpow_pos_of_pos h.pRef pr.lam)
  rw [div_eq_div_iff (by positivity) (by positivity)] at hl
  have := mul_left_cancel₀ h4.ne' hl
  have := mul_right_cancel₀ h3.ne' this
  rw [← this]
  have := h.rhoP
  field_simp

/-- States made by `create_state_from_stress` or `create_state_from_density` cannot be used: the law fails on
their missing reference stress. -/
theorem mcc_state_without_ref_fails {K : Type*} [Field K] [LinearOrder K] {dim n : ℕ} (fn : MathFns K)
    (ops : NewtonOps K) (pr : MCCParams K) (reset : Bool) (s : MPState K dim n) (pc : ℕ → K)
    (e : ℕ → Mat3 K) (dt : K) :
    (mccLaw fn ops pr reset).update s (.mcc pc none e) dt = .error .typeError := rfl

/-- A parameter set. -/
noncomputable def exMCC : MCCParams ℝ :=
  { nu := 3 / 10, M := 1, lam := 2 / 100, kap := 1 / 100, N := 2, pRef := 1000, KMin := none, KMax := none,
    pMin := 1, rhoP := 2650 }

theorem exMCC_lines : exMCC.Lines := by constructor <;> norm_num [exMCC]

example := mcc_critical_line exMCC exMCC_lines (p := 100) (by norm_num)
example := mcc_ocr_admissible_partial exMCC (by norm_num [exMCC]) 100 2 (by norm_num) (by norm_num) (some 10)

example := mcc_ocr_density_roundtrip exMCC exMCC_lines 100 2 (by norm_num) (by norm_num) (some 10)
example := mcc_stress_roundtrip exMCC exMCC_lines (by norm_num [exMCC]) 100 50 (by norm_num)
example := mcc_density_roundtrip exMCC exMCC_lines 100 1500 (by norm_num) (by norm_num)

/-! ### C39 and C40 -/

/-- Elastic constants are non-negative. -/
structure MCCParams.Elastic (pr : MCCParams ℝ) : Prop where
  kap : 0 < pr.kap
  nuLo : -1 < pr.nu
  nuHi : pr.nu ≤ 1 / 2
  KMax : ∀ b, pr.KMax = some b → 0 ≤ b

theorem clipOpt_nonneg {x : ℝ} (lo hi : Option ℝ) (hx : 0 ≤ x) (hhi : ∀ b, hi = some b → 0 ≤ b) :
    0 ≤ clipOpt lo hi x := by
  cases lo <;> cases hi <;> simp only [clipOpt]
  · exact hx
  · exact le_min hx (hhi _ rfl)
  · exact le_max_of_le_left hx
  · exact le_min (le_max_of_le_left hx) (hhi _ rfl)

theorem mccK_nonneg (pr : MCCParams ℝ) (h : pr.Elastic) (p : ℝ) : 0 ≤ mccK pr.kap p pr.KMin pr.KMax :=
  clipOpt_nonneg _ _ (mul_nonneg (one_div_nonneg.mpr h.kap.le) (le_max_of_le_right zero_le_one)) h.KMax

theorem mccG_nonneg (pr : MCCParams ℝ) (h : pr.Elastic) {k : ℝ} (hk : 0 ≤ k) : 0 ≤ mccG pr.nu k := by
  unfold mccG
  refine mul_nonneg (div_nonneg ?_ ?_) hk
  · linarith [h.nuHi]
  · linarith [h.nuLo]

theorem mccNewtonStep_nonneg (ops : NewtonOps ℝ) (R : (Fin 2 → ℝ) → Fin 2 → ℝ) (x : Fin 2 → ℝ) (i : Fin 2) :
    0 ≤ mccNewtonStep ops R x i := le_max_right _ _

/-- Whatever Jacobians are supplied, the iterates keep a non-negative plastic multiplier. -/
theorem mccNewton_nonneg (ops : NewtonOps ℝ) (R : (Fin 2 → ℝ) → Fin 2 → ℝ) (n : ℕ) (x : Fin 2 → ℝ)
    (i : Fin 2) (hx : 0 ≤ x i) : 0 ≤ mccNewton ops R n x i := by
  induction n generalizing x with
  | zero => exact hx
  | succ n ih => exact ih _ (mccNewtonStep_nonneg ops R x i)

/-- After at least one iteration both unknowns are non-negative. -/
theorem mccNewton_succ_nonneg (ops : NewtonOps ℝ) (R : (Fin 2 → ℝ) → Fin 2 → ℝ) (n : ℕ) (x : Fin 2 → ℝ)
    (i : Fin 2) : 0 ≤ mccNewton ops R (n + 1) x i :=
  mccNewton_nonneg ops R n _ i (mccNewtonStep_nonneg ops R x i)

/-- The plastic branch: the trial deviator is scaled by a factor in `(0, 1]`. -/
theorem mccPlastic_form (ops : NewtonOps ℝ) (pr : MCCParams ℝ) (h : pr.Elastic) (t : MCCTrial ℝ) (pc : ℝ) :
    ∃ f p : ℝ, 0 < f ∧ f ≤ 1 ∧ (mccPlastic realFns ops pr t pc).stress = f • t.sTr + isoT p ∧
      ((if t.yf > 0 then t.pPrev else 1) > 0 → 0 < p) := by
  set x := mccNewton ops (fun x => (mccResiduals realFns pr t pc x).res) 10
    ![0, realFns.log (if t.yf > 0 then pc else 2)] with hx
  have hpm : 0 ≤ x 0 := mccNewton_nonneg ops _ 10 _ 0 (by simp)
  set G := (mccResiduals realFns pr t pc x).G with hG
  have hG0 : 0 ≤ G := mccG_nonneg pr h (mccK_nonneg pr h _)
  have hden : 1 ≤ 1 + 6 * G * x 0 := by nlinarith [mul_nonneg hG0 hpm]
  set f := 1 / (1 + 6 * G * x 0) with hf
  have hf0 : 0 < f := by positivity
  have hf1 : f ≤ 1 := by rw [hf, div_le_one (by linarith)]; exact hden
  have hs : (mccResiduals realFns pr t pc x).s = f • t.sTr := rfl
  refine ⟨f, if (mccResiduals realFns pr t pc x).p ≠ 0 then (mccResiduals realFns pr t pc x).p
    else (if t.yf > 0 then t.pPrev else 1), hf0, hf1, ?_, ?_⟩
  · unfold mccPlastic
    simp only
    rw [← hx]
    congr 1
    ext i j
    rw [hs]
    simp only [Matrix.smul_apply, smul_eq_mul]
    split_ifs with hz
    · rfl
    · have : f * t.sTr i j = 0 := not_not.mp hz
      rw [this]
      exact (mul_eq_zero.mp this).resolve_left hf0.ne'
  · intro hp
    by_cases hz : (mccResiduals realFns pr t pc x).p ≠ 0
    · rw [if_pos hz]
      exact mul_pos hp (Real.exp_pos _)
    · rw [if_neg hz]
      exact hp

theorem mccPlastic_pc (ops : NewtonOps ℝ) (pr : MCCParams ℝ) (t : MCCTrial ℝ) (pc : ℝ) :
    (mccPlastic realFns ops pr t pc).pc =
      Real.exp (mccNewton ops (fun x => (mccResiduals realFns pr t pc x).res) 10
        ![0, realFns.log (if t.yf > 0 then pc else 2)] 1) :=
  if_pos (Real.exp_pos _).ne'

/-- **C39**, preconsolidation pressure: it stays positive in every update whatever the Newton iteration does; an
elastic or disconnected step keeps it. -/
theorem mcc_pc_pos (ops : NewtonOps ℝ) (pr : MCCParams ℝ) (L e σ : Mat3 ℝ) (pc : ℝ) (σref : Mat3 ℝ)
    (v dt : ℝ) (hpc : 0 < pc) : 0 < (mccUpdate realFns ops pr L e σ pc σref v dt).pc := by
  unfold mccUpdate
  simp only
  split_ifs
  · rw [mccPlastic_pc]
    exact Real.exp_pos _
  · exact hpc
  · exact hpc

/-- Any step from a preconsolidation pressure of 200 leaves it positive. -/
example (ops : NewtonOps ℝ) (L : Mat3 ℝ) : 0 < (mccUpdate realFns ops exMCC L 0 (isoT 100) 200 (isoT 100) (3 / 2) 1).pc :=
  mcc_pc_pos ops exMCC L 0 (isoT 100) 200 (isoT 100) (3 / 2) 1 (by norm_num)

/-- An update history of one point: inputs `(L, reference stress, specific volume, dt)`. -/
noncomputable def mccRun (ops : NewtonOps ℝ) (pr : MCCParams ℝ) (r : MCCResult ℝ) :
    List (Mat3 ℝ × Mat3 ℝ × ℝ × ℝ) → MCCResult ℝ
  | [] => r
  | (L, σref, v, dt) :: rest =>
    mccRun ops pr (mccUpdate realFns ops pr L r.epsE r.stress r.pc σref v dt) rest

/-- **C39**, preconsolidation pressure over any history. -/
theorem mcc_pc_pos_run (ops : NewtonOps ℝ) (pr : MCCParams ℝ) (r : MCCResult ℝ) (hpc : 0 < r.pc)
    (hist : List (Mat3 ℝ × Mat3 ℝ × ℝ × ℝ)) : 0 < (mccRun ops pr r hist).pc := by
  induction hist generalizing r with
  | nil => exact hpc
  | cons a rest ih =>
    obtain ⟨L, σref, v, dt⟩ := a
    exact ih _ (mcc_pc_pos ops pr L r.epsE r.stress r.pc σref v dt hpc)

/-- A plastic step never ends below `p_c = 1` in the units used: the clamp on `log p_c` is not scale free. -/
theorem mcc_pc_ge_one (ops : NewtonOps ℝ) (pr : MCCParams ℝ) (L e σ : Mat3 ℝ) (pc : ℝ) (σref : Mat3 ℝ)
    (v dt : ℝ) (hv : v ≤ pr.N * (999999 / 1000000))
    (hy : 0 < (mccTrial realFns pr L e σ pc σref dt).yf) :
    1 ≤ (mccUpdate realFns ops pr L e σ pc σref v dt).pc := by
  unfold mccUpdate
  simp only
  rw [if_pos hv, if_pos hy]
  rw [mccPlastic_pc, ← Real.exp_zero, Real.exp_le_exp]
  exact mccNewton_succ_nonneg ops _ 9 _ 1

/-- **C39**, disconnection: zero stress and unchanged `p_c`. -/
theorem mcc_disconnected (ops : NewtonOps ℝ) (pr : MCCParams ℝ) (L e σ : Mat3 ℝ) (pc : ℝ) (σref : Mat3 ℝ)
    (v dt : ℝ) (hv : pr.N * (999999 / 1000000) < v) :
    (mccUpdate realFns ops pr L e σ pc σref v dt).stress = 0 ∧
    (mccUpdate realFns ops pr L e σ pc σref v dt).pc = pc := by
  unfold mccUpdate
  simp only
  rw [if_neg (not_le.mpr hv)]
  exact ⟨rfl, rfl⟩

/-- Grains with a specific volume above `N`: no stress. -/
example (ops : NewtonOps ℝ) (L : Mat3 ℝ) : (mccUpdate realFns ops exMCC L 0 (isoT 100) 200 (isoT 100) 3 1).stress = 0 :=
  (mcc_disconnected ops exMCC L 0 (isoT 100) 200 (isoT 100) 3 1 (by norm_num [exMCC])).1

theorem jaumann_mean (T W : Mat3 ℝ) (dt : ℝ) : Spec.meanStress (jaumann T W dt) = Spec.meanStress T := by
  unfold jaumann
  rw [meanStress_add, meanStress_smul, meanStress_trace (_ - _), Matrix.trace_sub, Matrix.trace_mul_comm]
  simp

theorem mccTrial_pPrev (pr : MCCParams ℝ) (L e σ : Mat3 ℝ) (pc : ℝ) (σref : Mat3 ℝ) (dt : ℝ) :
    (mccTrial realFns pr L e σ pc σref dt).pPrev = max (Spec.meanStress σ) pr.pMin := by
  simp only [mccTrial, pressureOf_eq, jaumann_mean]

theorem mccTrial_pTr (pr : MCCParams ℝ) (L e σ : Mat3 ℝ) (pc : ℝ) (σref : Mat3 ℝ) (dt : ℝ) :
    (mccTrial realFns pr L e σ pc σref dt).pTr = max (Spec.meanStress σ) pr.pMin *
      Real.exp ((dt • symTensor L).trace / pr.kap) := by
  rw [← mccTrial_pPrev pr L e σ pc σref dt]
  rfl

/-- Mean of the trial "deviator": zero unless the previous mean stress was clamped. -/
theorem mccTrial_sMean (pr : MCCParams ℝ) (L e σ : Mat3 ℝ) (pc : ℝ) (σref : Mat3 ℝ) (dt : ℝ) :
    Spec.meanStress (mccTrial realFns pr L e σ pc σref dt).sTr =
      Spec.meanStress σ - max (Spec.meanStress σ) pr.pMin := by
  have : (mccTrial realFns pr L e σ pc σref dt).sTr =
      (2 * mccG pr.nu (mccTrial realFns pr L e σ pc σref dt).KTr) • Spec.dev (dt • symTensor L) +
      (jaumann σ (spinTensor L) dt + isoT (-(mccTrial realFns pr L e σ pc σref dt).pPrev)) := by
    rw [← devStrainV_eq]
    simp only [mccTrial, mccS, devStressP, isoT, neg_smul, sub_eq_add_neg]
  rw [this, meanStress_add, meanStress_smul, meanStress_dev, meanStress_add, meanStress_isoT, jaumann_mean,
    mccTrial_pPrev]
  ring

theorem mccTrial_qTr (pr : MCCParams ℝ) (L e σ : Mat3 ℝ) (pc : ℝ) (σref : Mat3 ℝ) (dt : ℝ) :
    (mccTrial realFns pr L e σ pc σref dt).qTr =
      Real.sqrt (3 * (Spec.ddot (mccTrial realFns pr L e σ pc σref dt).sTr
        (mccTrial realFns pr L e σ pc σref dt).sTr / 2)) := by
  rw [← J2dev_eq]; rfl

theorem mccTrial_yf (pr : MCCParams ℝ) (L e σ : Mat3 ℝ) (pc : ℝ) (σref : Mat3 ℝ) (dt : ℝ) :
    (mccTrial realFns pr L e σ pc σref dt).yf =
      (mccTrial realFns pr L e σ pc σref dt).qTr ^ 2 / pr.M ^ 2 +
      (mccTrial realFns pr L e σ pc σref dt).pTr ^ 2 -
      pc * (mccTrial realFns pr L e σ pc σref dt).pTr := by
  simp only [mccTrial, mccYield]; ring

/-- **C39**, elastic steps (partial): a connected step whose trial state does not yield keeps `p_c` and returns a
stress inside the yield surface, if the previous mean stress was at least `p_min_calc`.
Missing: smaller previous mean stresses, e.g. after disconnection, where it is false
(`mcc_reconnection_fails`). -/
theorem mcc_elastic_inside_partial (ops : NewtonOps ℝ) (pr : MCCParams ℝ) (L e σ : Mat3 ℝ) (pc : ℝ)
    (σref : Mat3 ℝ) (v dt : ℝ) (hv : v ≤ pr.N * (999999 / 1000000))
    (hy : (mccTrial realFns pr L e σ pc σref dt).yf ≤ 0) (hmin : pr.pMin ≤ Spec.meanStress σ) :
    (mccUpdate realFns ops pr L e σ pc σref v dt).pc = pc ∧
    Spec.mccF pr.M (mccUpdate realFns ops pr L e σ pc σref v dt).pc
      (mccUpdate realFns ops pr L e σ pc σref v dt).stress ≤ 0 := by
  have hm := mccTrial_sMean pr L e σ pc σref dt
  rw [max_eq_left hmin, sub_self] at hm
  have hyf := mccTrial_yf pr L e σ pc σref dt
  have hq := mccTrial_qTr pr L e σ pc σref dt
  unfold mccUpdate
  simp only
  rw [if_pos hv, if_neg (not_lt.mpr hy)]
  refine ⟨rfl, ?_⟩
  simp only [mccElastic, Spec.mccF, Spec.qVM]
  rw [J2_add_iso hm, mean_add_iso hm, ← hq]
  linarith

/-- **C39**, return map: the update never increases the deviatoric stress beyond the elastic trial, and only
scales it (no reversal). -/
theorem mcc_return_shrinks (ops : NewtonOps ℝ) (pr : MCCParams ℝ) (h : pr.Elastic) (L e σ : Mat3 ℝ) (pc : ℝ)
    (σref : Mat3 ℝ) (v dt : ℝ) (hv : v ≤ pr.N * (999999 / 1000000)) :
    ∃ f : ℝ, 0 < f ∧ f ≤ 1 ∧
      Spec.dev (mccUpdate realFns ops pr L e σ pc σref v dt).stress =
        f • Spec.dev (mccTrial realFns pr L e σ pc σref dt).sTr ∧
      Spec.J2 (mccUpdate realFns ops pr L e σ pc σref v dt).stress ≤
        Spec.J2 (mccTrial realFns pr L e σ pc σref dt).sTr := by
  have hdev : ∀ (f p : ℝ) (s : Mat3 ℝ), Spec.dev (f • s + isoT p) = f • Spec.dev s := by
    intro f p s
    ext i j
    simp only [Spec.dev, meanStress_add, meanStress_smul, meanStress_isoT, Matrix.add_apply,
      Matrix.smul_apply, isoT_apply, smul_eq_mul]
    split_ifs <;> ring
  have key : ∀ (f p : ℝ) (s τ : Mat3 ℝ), 0 < f → f ≤ 1 → τ = f • s + isoT p →
      Spec.dev τ = f • Spec.dev s ∧ Spec.J2 τ ≤ Spec.J2 s := by
    intro f p s τ f0 f1 hτ
    subst hτ
    refine ⟨hdev f p s, ?_⟩
    rw [Spec.J2, hdev, ddot_smul, Spec.J2]
    have : f * f ≤ 1 := by nlinarith
    have := mul_le_mul_of_nonneg_right this (ddot_self_nonneg (Spec.dev s))
    linarith
  unfold mccUpdate
  simp only
  rw [if_pos hv]
  split_ifs
  · obtain ⟨f, p, f0, f1, hs, -⟩ := mccPlastic_form ops pr h (mccTrial realFns pr L e σ pc σref dt) pc
    obtain ⟨k1, k2⟩ := key f p _ _ f0 f1 hs
    exact ⟨f, f0, f1, k1, k2⟩
  · obtain ⟨k1, k2⟩ := key 1 (mccTrial realFns pr L e σ pc σref dt).pTr _
      (mccElastic (mccTrial realFns pr L e σ pc σref dt) pc).stress one_pos le_rfl
      (by rw [one_smul]; rfl)
    exact ⟨1, one_pos, le_rfl, k1, k2⟩

/-- **C40** (partial): the mean stress returned by a connected update is positive if the previous mean stress was
at least `p_min_calc > 0`. Missing: previous mean stresses below `p_min_calc`, where tension can
result (`mcc_reconnection_fails`). -/
theorem mcc_no_tension_partial (ops : NewtonOps ℝ) (pr : MCCParams ℝ) (h : pr.Elastic) (L e σ : Mat3 ℝ)
    (pc : ℝ) (σref : Mat3 ℝ) (v dt : ℝ) (hv : v ≤ pr.N * (999999 / 1000000)) (hp : 0 < pr.pMin)
    (hmin : pr.pMin ≤ Spec.meanStress σ) :
    0 < Spec.meanStress (mccUpdate realFns ops pr L e σ pc σref v dt).stress := by
  have hm := mccTrial_sMean pr L e σ pc σref dt
  rw [max_eq_left hmin, sub_self] at hm
  have hpp := mccTrial_pPrev pr L e σ pc σref dt
  have hppos : 0 < (mccTrial realFns pr L e σ pc σref dt).pPrev := by
    rw [hpp]; exact lt_max_of_lt_right hp
  unfold mccUpdate
  simp only
  rw [if_pos hv]
  split_ifs with hy
  · obtain ⟨f, p, -, -, hs, hpos⟩ := mccPlastic_form ops pr h (mccTrial realFns pr L e σ pc σref dt) pc
    rw [hs, mean_add_iso (by rw [meanStress_smul, hm, mul_zero])]
    exact hpos (by rw [if_pos hy]; exact hppos)
  · simp only [mccElastic]
    rw [mean_add_iso hm, mccTrial_pTr, ← hpp]
    exact mul_pos hppos (Real.exp_pos _)

/-- Isotropic expansion by one `kappa`. -/
noncomputable def exExpand : Mat3 ℝ := Matrix.diagonal ![-(1 / 300), -(1 / 300), -(1 / 300)]

theorem exExpand_trace : ((1 : ℝ) • symTensor exExpand).trace / exMCC.kap = -1 := by
  rw [one_smul, trace3]
  simp [symTensor, exExpand, exMCC]
  norm_num

theorem exMCC_sTr (ref : Mat3 ℝ) : (mccTrial realFns exMCC exExpand 0 0 100 ref 1).sTr = isoT (-1) := by
  have h1 : Spec.dev ((1 : ℝ) • symTensor exExpand) = 0 := by
    have : (1 : ℝ) • symTensor exExpand = isoT (-(1 / 300)) := by
      ext i j
      fin_cases i <;> fin_cases j <;> simp [symTensor, exExpand, isoT] <;> norm_num
    rw [this, dev_isoT]
  have : (mccTrial realFns exMCC exExpand 0 0 100 ref 1).sTr =
      (2 * mccG exMCC.nu (mccTrial realFns exMCC exExpand 0 0 100 ref 1).KTr) •
        Spec.dev ((1 : ℝ) • symTensor exExpand) +
      (jaumann 0 (spinTensor exExpand) 1 + isoT (-(mccTrial realFns exMCC exExpand 0 0 100 ref 1).pPrev)) := by
    rw [← devStrainV_eq]
    simp only [mccTrial, mccS, devStressP, isoT, neg_smul, sub_eq_add_neg]
  rw [this, h1, smul_zero, zero_add, mccTrial_pPrev, meanStress_zero]
  have : jaumann (0 : Mat3 ℝ) (spinTensor exExpand) 1 = 0 := by simp [jaumann]
  rw [this, zero_add]
  congr 1
  norm_num [exMCC]

/-- **C40** and **C39** refuted: a stress-free point (as left by a disconnection) that expands while connected is
given tension, and the stress returned by this elastic step lies outside the yield surface. -/
theorem mcc_reconnection_fails (ops : NewtonOps ℝ) (ref : Mat3 ℝ) :
    (mccTrial realFns exMCC exExpand 0 0 100 ref 1).yf ≤ 0 ∧
    Spec.meanStress (mccUpdate realFns ops exMCC exExpand 0 0 100 ref (3 / 2) 1).stress < 0 ∧
    0 < Spec.mccF exMCC.M (mccUpdate realFns ops exMCC exExpand 0 0 100 ref (3 / 2) 1).pc
      (mccUpdate realFns ops exMCC exExpand 0 0 100 ref (3 / 2) 1).stress := by
  have hs := exMCC_sTr ref
  have hp : (mccTrial realFns exMCC exExpand 0 0 100 ref 1).pTr = Real.exp (-1) := by
    rw [mccTrial_pTr, exExpand_trace, meanStress_zero]
    norm_num [exMCC]
  have hq : (mccTrial realFns exMCC exExpand 0 0 100 ref 1).qTr ^ 2 = 9 / 2 := by
    rw [mccTrial_qTr, hs, Real.sq_sqrt]
    · simp [Spec.ddot, Fin.sum_univ_three, isoT_apply]; norm_num
    · exact mul_nonneg (by norm_num) (div_nonneg (ddot_self_nonneg _) (by norm_num))
  have he1 : Real.exp (-1) < 1 := by rw [Real.exp_lt_one_iff]; norm_num
  have he0 : (1 / 3 : ℝ) < Real.exp (-1) := by
    rw [Real.exp_neg, ← one_div]
    apply one_div_lt_one_div_of_lt (Real.exp_pos _)
    exact Real.exp_one_lt_three
  have hy : (mccTrial realFns exMCC exExpand 0 0 100 ref 1).yf ≤ 0 := by
    rw [mccTrial_yf, hq, hp]
    norm_num [exMCC]
    nlinarith
  have hst : (mccUpdate realFns ops exMCC exExpand 0 0 100 ref (3 / 2) 1).stress = isoT (Real.exp (-1) - 1) ∧
      (mccUpdate realFns ops exMCC exExpand 0 0 100 ref (3 / 2) 1).pc = 100 := by
    unfold mccUpdate
    simp only
    rw [if_pos (by norm_num [exMCC]), if_neg (not_lt.mpr hy)]
    refine ⟨?_, rfl⟩
    simp only [mccElastic, hs, hp, isoT]
    rw [← add_smul]
    congr 1
    ring
  refine ⟨hy, ?_, ?_⟩
  · rw [hst.1, meanStress_isoT]; linarith
  · rw [hst.1, hst.2, Spec.mccF, qVM_sq, J2_isoT, meanStress_isoT]
    norm_num [exMCC]
    nlinarith

theorem exMCC_elastic : exMCC.Elastic := by
  refine ⟨by norm_num [exMCC], by norm_num [exMCC], by norm_num [exMCC], fun b hb => ?_⟩
  exact absurd hb (by simp [exMCC])

/-- The hypotheses of the partial theorems hold for a loaded point. -/
example (ops : NewtonOps ℝ) : 0 <
    Spec.meanStress (mccUpdate realFns ops exMCC exExpand 0 (isoT 50) 100 (isoT 50) (3 / 2) 1).stress :=
  mcc_no_tension_partial ops exMCC exMCC_elastic exExpand 0 (isoT 50) 100 (isoT 50) (3 / 2) 1
    (by norm_num [exMCC]) (by norm_num [exMCC]) (by rw [meanStress_isoT]; norm_num [exMCC])

example (ops : NewtonOps ℝ) := mcc_return_shrinks ops exMCC exMCC_elastic exExpand 0 (isoT 50) 100 (isoT 50)
  (3 / 2) 1 (by norm_num [exMCC])

/-- Every point of a body under the Cam-Clay law gets its own `mccUpdate` with its own specific volume. -/
theorem mccLaw_point {dim n : ℕ} (ops : NewtonOps ℝ) (pr : MCCParams ℝ) (reset : Bool)
    (s : MPState ℝ dim n) (pc : ℕ → ℝ) (ref e : ℕ → Mat3 ℝ) (dt : ℝ) :
    ∃ s' pc' e', (mccLaw realFns ops pr reset).update s (.mcc pc (some ref) e) dt =
        .ok (s', .mcc pc' (some ref) e') ∧
      ∀ p : Fin n, MCCResult.mk (s'.stress p) (e' p.val) (pc' p.val) =
        mccUpdate realFns ops pr (s.L p) (e p.val) (s.stress p) (pc p.val) (ref p.val)
          (pr.rhoP / (s.mass p / (s.volume p + 1 / 10 ^ 16))) dt := by
  refine ⟨_, _, _, rfl, fun p => ?_⟩
  simp only [ofFin, p.isLt, dite_true]
  rfl

end
end Hydrax
