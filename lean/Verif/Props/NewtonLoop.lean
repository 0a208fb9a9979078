import Verif.Props.CamClaySolution
import Verif.Props.Uepi
import Mathlib.Analysis.Calculus.ContDiff.Operations
import Mathlib.Analysis.SpecialFunctions.ExpDeriv
import Mathlib.Analysis.Calculus.FDeriv.Prod
import Mathlib.Analysis.Calculus.Deriv.Prod
import Mathlib.Analysis.Calculus.Deriv.Comp
import Mathlib.Analysis.Calculus.Deriv.Inv
import Mathlib.Analysis.Normed.Module.FiniteDimension

/-!
# The Newton loops reach the solution (C125)
-/

set_option linter.unusedSectionVars false

namespace Hydrax

/-! ### Specification -/

/-- Around a zero of the residuals, within the distance `rho`: the linearisation supplied by the Jacobian misses the zero by
at most `del` times the distance, the Jacobian stretches every vector by at least `1/beta` and its determinant is well above
the regularisation of the inverse. Distances are the largest of the components. -/
structure Spec.NearRoot (R : (Fin 2 → ℝ) → Fin 2 → ℝ) (J : (Fin 2 → ℝ) → Matrix (Fin 2) (Fin 2) ℝ) (xs : Fin 2 → ℝ)
    (beta del rho : ℝ) : Prop where
  pos : 0 ≤ beta
  small : beta * del ≤ 1 / 10
  det : ∀ x, ‖x - xs‖ ≤ rho → 1 / 10 ^ 18 ≤ |(J x).det|
  stretch : ∀ x, ‖x - xs‖ ≤ rho → ∀ v, ‖v‖ ≤ beta * ‖(J x).mulVec v‖
  lin : ∀ x, ‖x - xs‖ ≤ rho → ‖R x - (J x).mulVec (x - xs)‖ ≤ del * ‖x - xs‖

/-- The regularised inverse applied to the residuals is the distance to the zero up to a tenth. -/
theorem newton_direction {R : (Fin 2 → ℝ) → Fin 2 → ℝ} {J : (Fin 2 → ℝ) → Matrix (Fin 2) (Fin 2) ℝ} {xs : Fin 2 → ℝ}
    {beta del rho : ℝ} (h : Spec.NearRoot R J xs beta del rho) (clip : ℝ) {x : Fin 2 → ℝ} (hx : ‖x - xs‖ ≤ rho) :
    ∃ (th : ℝ) (r : Fin 2 → ℝ), 99 / 100 ≤ th ∧ th ≤ 1 ∧ ‖r‖ ≤ 1 / 10 * ‖x - xs‖ ∧
      (inv2 clip (J x)).mulVec (R x) = th • (x - xs) + r := by
  obtain ⟨h1, h2⟩ := inv2_inverse clip (J x)
  have hdet := h.det x hx
  have hd0 : (J x).det ≠ 0 := by
    intro e
    rw [e, abs_zero] at hdet
    norm_num at hdet
  set th := (J x).det / Spec.regularised (J x).det with hth
  have hle : th ≤ 1 := by
    rw [hth, Spec.regularised]
    split_ifs with h0
    · rw [div_le_one (by positivity)]
      linarith [show (0 : ℝ) < 1 / 10 ^ 20 by positivity]
    · rw [not_le] at h0
      rw [div_le_one_of_neg (by linarith [show (0 : ℝ) < 1 / 10 ^ 20 by positivity])]
      linarith [show (0 : ℝ) < 1 / 10 ^ 20 by positivity]
  have hge : 99 / 100 ≤ th := by
    have h3 := regularised_factor _ hd0
    have h4 : 1 / 10 ^ 20 / |(J x).det| ≤ 1 / 100 := by
      rw [div_le_iff₀ (abs_pos.mpr hd0)]
      calc (1 : ℝ) / 10 ^ 20 = 1 / 100 * (1 / 10 ^ 18) := by norm_num
        _ ≤ _ := by gcongr
    have := (abs_le.mp (h3.trans h4)).1
    linarith
  set e := x - xs with he
  set s := R x - (J x).mulVec e with hs
  refine ⟨th, (inv2 clip (J x)).mulVec s, hge, hle, ?_, ?_⟩
  · have h5 : (J x).mulVec ((inv2 clip (J x)).mulVec s) = th • s := by
      rw [Matrix.mulVec_mulVec, h1, Matrix.smul_mulVec, Matrix.one_mulVec]
    have h6 := h.stretch x hx ((inv2 clip (J x)).mulVec s)
    rw [h5, norm_smul, Real.norm_eq_abs, abs_of_nonneg (by linarith)] at h6
    have h7 := h.lin x hx
    calc ‖(inv2 clip (J x)).mulVec s‖ ≤ beta * (th * ‖s‖) := h6
      _ ≤ beta * (1 * (del * ‖e‖)) :=
        mul_le_mul_of_nonneg_left (mul_le_mul hle h7 (norm_nonneg _) zero_le_one) h.pos
      _ = beta * del * ‖e‖ := by ring
      _ ≤ 1 / 10 * ‖e‖ := mul_le_mul_of_nonneg_right h.small (norm_nonneg _)
  · have : R x = (J x).mulVec e + s := by rw [hs]; abel
    conv_lhs => rw [this]
    rw [Matrix.mulVec_add, Matrix.mulVec_mulVec, h2, Matrix.smul_mulVec, Matrix.one_mulVec]

/-- A damped step shrinks the distance. -/
theorem damped_step {c th : ℝ} (hc0 : 0 ≤ c) (hc1 : c ≤ 1) (h1 : 99 / 100 ≤ th) (h2 : th ≤ 1) {e r : Fin 2 → ℝ}
    (hr : ‖r‖ ≤ 1 / 10 * ‖e‖) : ‖e - c • (th • e + r)‖ ≤ (1 - c * (89 / 100)) * ‖e‖ := by
  have : e - c • (th • e + r) = (1 - c * th) • e - c • r := by
    ext i; simp only [Pi.sub_apply, Pi.smul_apply, Pi.add_apply, smul_eq_mul]; ring
  rw [this]
  have h3 : 0 ≤ 1 - c * th := by nlinarith
  calc _ ≤ ‖(1 - c * th) • e‖ + ‖c • r‖ := norm_sub_le _ _
    _ = (1 - c * th) * ‖e‖ + c * ‖r‖ := by
      rw [norm_smul, norm_smul, Real.norm_eq_abs, Real.norm_eq_abs, abs_of_nonneg h3, abs_of_nonneg hc0]
    _ ≤ (1 - c * th) * ‖e‖ + c * (1 / 10 * ‖e‖) := by gcongr
    _ ≤ _ := by nlinarith [norm_nonneg e, mul_nonneg hc0 (norm_nonneg e)]

/-- **C125**, Cam-Clay: near a zero with components that are not negative, every step of the loop reduces the distance to at
most three tenths. -/
theorem mcc_newton_step {ops : NewtonOps ℝ} {R : (Fin 2 → ℝ) → Fin 2 → ℝ} {xs : Fin 2 → ℝ} {beta del rho : ℝ}
    (hbad : ∀ x, ops.bad x = false) (h : Spec.NearRoot R (ops.jac R) xs beta del rho) (h0 : ∀ i, 0 ≤ xs i)
    {x : Fin 2 → ℝ} (hx : ‖x - xs‖ ≤ rho) : ‖mccNewtonStep ops R x - xs‖ ≤ 3 / 10 * ‖x - xs‖ := by
  obtain ⟨th, r, h1, h2, hr, hw⟩ := newton_direction h (10 ^ 6) hx
  have hd := damped_step (c := 8 / 10) (by norm_num) (by norm_num) h1 h2 hr
  refine le_trans ?_ (hd.trans (by nlinarith [norm_nonneg (x - xs)]))
  rw [pi_norm_le_iff_of_nonneg (norm_nonneg _)]
  intro i
  refine le_trans ?_ (norm_le_pi_norm _ i)
  simp only [mccNewtonStep, hbad, Bool.false_eq_true, if_false, hw, Pi.sub_apply, Pi.smul_apply, Pi.add_apply, smul_eq_mul,
    Real.norm_eq_abs]
  have e : x i + 8 / 10 * -(th * (x i - xs i) + r i) - xs i = x i - xs i - 8 / 10 * (th * (x i - xs i) + r i) := by ring
  rw [← e]
  set y := x i + 8 / 10 * -(th * (x i - xs i) + r i)
  rcases le_total 0 y with hy | hy
  · rw [max_eq_left hy]
  · rw [max_eq_right hy, abs_of_nonpos (by linarith [h0 i]), abs_of_nonpos (by linarith [h0 i])]
    linarith

/-- **C125**, Cam-Clay: after `n` steps the distance is at most `0.3ⁿ` times that of the start. -/
theorem mcc_newton_converges {ops : NewtonOps ℝ} {R : (Fin 2 → ℝ) → Fin 2 → ℝ} {xs : Fin 2 → ℝ} {beta del rho : ℝ}
    (hbad : ∀ x, ops.bad x = false) (h : Spec.NearRoot R (ops.jac R) xs beta del rho) (h0 : ∀ i, 0 ≤ xs i) (n : ℕ)
    {x : Fin 2 → ℝ} (hx : ‖x - xs‖ ≤ rho) : ‖mccNewton ops R n x - xs‖ ≤ (3 / 10) ^ n * ‖x - xs‖ := by
  induction n generalizing x with
  | zero => simp [mccNewton]
  | succ n ih =>
    have h1 := mcc_newton_step hbad h h0 hx
    have h2 : ‖mccNewtonStep ops R x - xs‖ ≤ rho := h1.trans (le_trans (by nlinarith [norm_nonneg (x - xs)]) hx)
    rw [mccNewton]
    calc _ ≤ (3 / 10) ^ n * ‖mccNewtonStep ops R x - xs‖ := ih h2
      _ ≤ (3 / 10) ^ n * (3 / 10 * ‖x - xs‖) := by gcongr
      _ = _ := by ring

/-- **C125**, unified law: near a zero, closer than the limit `0.1` of a step, the loop reduces the distance to at most 65/100. -/
theorem uepi_newton_step {ops : NewtonOps ℝ} {R : (Fin 2 → ℝ) → Fin 2 → ℝ} {xs : Fin 2 → ℝ} {beta del rho : ℝ}
    (hbad : ∀ x, ops.bad x = false) (h : Spec.NearRoot R (ops.jac R) xs beta del rho) (h0 : 0 ≤ xs 0) (hrho : rho ≤ 1 / 11)
    {x : Fin 2 → ℝ} (hx : ‖x - xs‖ ≤ rho) : ‖uepiNewtonStep ops R x - xs‖ ≤ 65 / 100 * ‖x - xs‖ := by
  obtain ⟨th, r, h1, h2, hr, hw⟩ := newton_direction h (10 ^ 6) hx
  have hd := damped_step (c := 4 / 10) (by norm_num) (by norm_num) h1 h2 hr
  refine le_trans ?_ (hd.trans (by nlinarith [norm_nonneg (x - xs)]))
  have hclip : |th * (x 1 - xs 1) + r 1| ≤ 1 / 10 := by
    have e1 := norm_le_pi_norm (x - xs) 1
    have e2 := norm_le_pi_norm r 1
    rw [Real.norm_eq_abs] at e1 e2
    rw [Pi.sub_apply] at e1
    calc _ ≤ |th * (x 1 - xs 1)| + |r 1| := abs_add_le _ _
      _ = th * |x 1 - xs 1| + |r 1| := by rw [abs_mul, abs_of_nonneg (by linarith)]
      _ ≤ 1 * ‖x - xs‖ + 1 / 10 * ‖x - xs‖ := by
        refine add_le_add (mul_le_mul h2 e1 (abs_nonneg _) zero_le_one) (e2.trans hr)
      _ ≤ 1 / 10 := by linarith
  have hc : clipK (-(1 / 10)) (1 / 10) (-(th * (x 1 - xs 1) + r 1)) = -(th * (x 1 - xs 1) + r 1) := by
    obtain ⟨e1, e2⟩ := abs_le.mp hclip
    rw [clipK, max_eq_left (by linarith), min_eq_left (by linarith)]
  rw [pi_norm_le_iff_of_nonneg (norm_nonneg _)]
  have e : ∀ i, x i + 4 / 10 * -(th * (x i - xs i) + r i) - xs i = x i - xs i - 4 / 10 * (th * (x i - xs i) + r i) :=
    fun i => by ring
  intro i
  refine le_trans ?_ (norm_le_pi_norm _ i)
  simp only [uepiNewtonStep, hbad, Bool.false_eq_true, if_false, hw, Pi.sub_apply, Pi.smul_apply, Pi.add_apply, smul_eq_mul,
    Real.norm_eq_abs, hc]
  rw [← e]
  fin_cases i
  · simp only [Fin.zero_eta, Matrix.cons_val_zero]
    set y := x 0 + 4 / 10 * -(th * (x 0 - xs 0) + r 0)
    rcases le_total 0 y with hy | hy
    · rw [max_eq_left hy]
    · rw [max_eq_right hy, abs_of_nonpos (by linarith), abs_of_nonpos (by linarith)]
      linarith
  · simp

/-- **C125**, unified law: after `n` steps the distance is at most `0.65ⁿ` times that of the start. -/
theorem uepi_newton_converges {ops : NewtonOps ℝ} {R : (Fin 2 → ℝ) → Fin 2 → ℝ} {xs : Fin 2 → ℝ} {beta del rho : ℝ}
    (hbad : ∀ x, ops.bad x = false) (h : Spec.NearRoot R (ops.jac R) xs beta del rho) (h0 : 0 ≤ xs 0) (hrho : rho ≤ 1 / 11)
    (n : ℕ) {x : Fin 2 → ℝ} (hx : ‖x - xs‖ ≤ rho) : ‖uepiNewton ops R n x - xs‖ ≤ (65 / 100) ^ n * ‖x - xs‖ := by
  induction n generalizing x with
  | zero => simp [uepiNewton]
  | succ n ih =>
    have h1 := uepi_newton_step hbad h h0 hrho hx
    have h2 : ‖uepiNewtonStep ops R x - xs‖ ≤ rho := h1.trans (le_trans (by nlinarith [norm_nonneg (x - xs)]) hx)
    rw [uepiNewton]
    calc _ ≤ (65 / 100) ^ n * ‖uepiNewtonStep ops R x - xs‖ := ih h2
      _ ≤ (65 / 100) ^ n * (65 / 100 * ‖x - xs‖) := by gcongr
      _ = _ := by ring

/-! ### There is always such a neighbourhood -/

/-- A matrix as a continuous linear map. -/
noncomputable def Spec.linear (M : Matrix (Fin 2) (Fin 2) ℝ) : (Fin 2 → ℝ) →L[ℝ] (Fin 2 → ℝ) :=
  LinearMap.toContinuousLinearMap M.mulVecLin

theorem linear_apply (M : Matrix (Fin 2) (Fin 2) ℝ) (v : Fin 2 → ℝ) : Spec.linear M v = M.mulVec v := rfl

/-- Entries bound the effect of a matrix. -/
theorem mulVec_norm_le {M : Matrix (Fin 2) (Fin 2) ℝ} {b : ℝ} (hb : ∀ i j, |M i j| ≤ b) (v : Fin 2 → ℝ) :
    ‖M.mulVec v‖ ≤ 2 * b * ‖v‖ := by
  have hb0 : 0 ≤ b := (abs_nonneg _).trans (hb 0 0)
  rw [pi_norm_le_iff_of_nonneg (by positivity)]
  intro i
  rw [Matrix.mulVec, dotProduct, Fin.sum_univ_two, Real.norm_eq_abs]
  have hv : ∀ j, |v j| ≤ ‖v‖ := fun j => by rw [← Real.norm_eq_abs]; exact norm_le_pi_norm v j
  calc _ ≤ |M i 0 * v 0| + |M i 1 * v 1| := abs_add_le _ _
    _ = |M i 0| * |v 0| + |M i 1| * |v 1| := by rw [abs_mul, abs_mul]
    _ ≤ b * ‖v‖ + b * ‖v‖ := by
      gcongr
      exacts [hb i 0, hv 0, hb i 1, hv 1]
    _ = _ := by ring

/-- **C125**: if the residuals are differentiable at a zero, the supplied Jacobian is their derivative there and continuous, and
its determinant is at least `2·10⁻¹⁸`, then the loops contract in some neighbourhood of the zero. -/
theorem newton_basin {R : (Fin 2 → ℝ) → Fin 2 → ℝ} {J : (Fin 2 → ℝ) → Matrix (Fin 2) (Fin 2) ℝ} {xs : Fin 2 → ℝ}
    (hz : R xs = 0) (hd : HasFDerivAt R (Spec.linear (J xs)) xs) (hc : ContinuousAt J xs)
    (hdet : 2 / 10 ^ 18 ≤ |(J xs).det|) : ∃ beta del rho, 0 < rho ∧ Spec.NearRoot R J xs beta del rho := by
  -- a bound of the entries near the zero
  have hent : ∀ i j, ContinuousAt (fun x => J x i j) xs := fun i j =>
    (continuous_apply_apply i j).continuousAt.comp hc
  set b := 1 + ∑ i, ∑ j, |J xs i j| with hb
  have hb1 : 1 ≤ b := by
    have : 0 ≤ ∑ i, ∑ j, |J xs i j| := Finset.sum_nonneg fun i _ => Finset.sum_nonneg fun j _ => abs_nonneg _
    linarith
  have hent_le : ∀ᶠ x in nhds xs, ∀ i j, |J x i j| ≤ b := by
    rw [Filter.eventually_all]
    intro i
    rw [Filter.eventually_all]
    intro j
    have h1 : |J xs i j| < b := by
      have h2 : |J xs i j| ≤ ∑ j, |J xs i j| := Finset.single_le_sum (f := fun j => |J xs i j|) (fun _ _ => abs_nonneg _) (Finset.mem_univ j)
      have h3 : ∑ j, |J xs i j| ≤ ∑ i, ∑ j, |J xs i j| :=
        Finset.single_le_sum (f := fun i => ∑ j, |J xs i j|) (fun _ _ => Finset.sum_nonneg fun _ _ => abs_nonneg _) (Finset.mem_univ i)
      linarith
    exact ((hent i j).abs.eventually_lt continuousAt_const h1).mono fun x hx => hx.le
  have hdet_ge : ∀ᶠ x in nhds xs, 1 / 10 ^ 18 ≤ |(J x).det| := by
    have h1 : ContinuousAt (fun x => |(J x).det|) xs := by
      simp only [Matrix.det_fin_two]
      exact (((hent 0 0).mul (hent 1 1)).sub ((hent 0 1).mul (hent 1 0))).abs
    have h2 : (1 : ℝ) / 10 ^ 18 < |(J xs).det| := lt_of_lt_of_le (by norm_num) hdet
    exact (continuousAt_const.eventually_lt h1 h2).mono fun x hx => hx.le
  set beta := 2 * b * 10 ^ 18 with hbeta
  have hbeta0 : 0 < beta := by positivity
  set del := 1 / 10 / beta with hdel
  have hdel0 : 0 < del := by positivity
  -- the linearisation
  have hdiff : ∀ᶠ x in nhds xs, ∀ i j, |(J x - J xs) i j| ≤ del / 4 := by
    rw [Filter.eventually_all]
    intro i
    rw [Filter.eventually_all]
    intro j
    have h1 : ContinuousAt (fun x => |(J x - J xs) i j|) xs := by
      simp only [Matrix.sub_apply]
      exact ((hent i j).sub continuousAt_const).abs
    have h2 : |(J xs - J xs) i j| < del / 4 := by simp [hdel0]
    exact (h1.eventually_lt continuousAt_const h2).mono fun x hx => hx.le
  have hlin : ∀ᶠ x in nhds xs, ‖R x - R xs - Spec.linear (J xs) (x - xs)‖ ≤ del / 2 * ‖x - xs‖ :=
    hd.isLittleO.def (by positivity)
  obtain ⟨rho, hrho, hball⟩ := Metric.eventually_nhds_iff.mp (hent_le.and (hdet_ge.and (hdiff.and hlin)))
  refine ⟨beta, del, rho / 2, by positivity, hbeta0.le, ?_, fun x hx => ?_, fun x hx v => ?_, fun x hx => ?_⟩
  · rw [hdel]; field_simp; norm_num
  all_goals
    have hin : dist x xs < rho := by rw [dist_eq_norm]; linarith
    obtain ⟨g1, g2, g3, g4⟩ := hball hin
  · exact g2
  · have hdpos : 0 < |(J x).det| := lt_of_lt_of_le (by positivity) g2
    have hadj : (J x).adjugate.mulVec ((J x).mulVec v) = (J x).det • v := by
      rw [Matrix.mulVec_mulVec, Matrix.adjugate_mul, Matrix.smul_mulVec, Matrix.one_mulVec]
    have hbound : ∀ i j, |(J x).adjugate i j| ≤ b := by
      intro i j
      rw [Matrix.adjugate_fin_two]
      fin_cases i <;> fin_cases j <;> simp [g1]
    have h1 := mulVec_norm_le hbound ((J x).mulVec v)
    rw [hadj, norm_smul, Real.norm_eq_abs] at h1
    have h2 : 1 / 10 ^ 18 * ‖v‖ ≤ 2 * b * ‖(J x).mulVec v‖ :=
      (mul_le_mul_of_nonneg_right g2 (norm_nonneg _)).trans h1
    rw [hbeta]
    have h3 : (10 ^ 18 : ℝ) * (1 / 10 ^ 18 * ‖v‖) ≤ 10 ^ 18 * (2 * b * ‖(J x).mulVec v‖) := by gcongr
    have h4 : (10 ^ 18 : ℝ) * (1 / 10 ^ 18 * ‖v‖) = ‖v‖ := by field_simp
    linarith
  · have e : R x - (J x).mulVec (x - xs) = (R x - R xs - Spec.linear (J xs) (x - xs)) - (J x - J xs).mulVec (x - xs) := by
      rw [hz, linear_apply, Matrix.sub_mulVec]; abel
    have h5 := mulVec_norm_le g3 (x - xs)
    rw [e]
    refine (norm_sub_le _ _).trans ?_
    linarith

/-! ### The residuals of the Cam-Clay law -/

/-- The residuals without limits of the stiffness and above unit pressure, as a formula: `P` is the pressure for the second
unknown. -/
noncomputable def Spec.clayP (kap cp p0 dev u0 : ℝ) (u : ℝ) : ℝ := p0 * Real.exp ((dev - cp * (u - u0)) / kap)

/-- See `Spec.clayP`; `g` is the ratio of shear modulus and pressure, `Kt` the trial stiffness that scales the first residual. -/
noncomputable def Spec.clayR (kap cp p0 dev u0 M g qtr Kt : ℝ) (x : Fin 2 → ℝ) : Fin 2 → ℝ :=
  ![((qtr / (1 + 6 * (g * clayP kap cp p0 dev u0 (x 1)) * x 0)) ^ 2 / M ^ 2 + clayP kap cp p0 dev u0 (x 1) ^ 2 -
      Real.exp (x 1) * clayP kap cp p0 dev u0 (x 1)) / Kt,
    x 0 * (2 * clayP kap cp p0 dev u0 (x 1) - Real.exp (x 1)) * M ^ 2 - cp * (x 1 - u0)]

/-- The Jacobian of `Spec.clayR`. -/
noncomputable def Spec.clayJ (kap cp p0 dev u0 M g qtr Kt : ℝ) (x : Fin 2 → ℝ) : Matrix (Fin 2) (Fin 2) ℝ :=
  let P := clayP kap cp p0 dev u0 (x 1)
  let E := Real.exp (x 1)
  let D := 1 + 6 * (g * P) * x 0
  !![-(12 * (g * P) * (qtr / D) ^ 2 / (D * M ^ 2)) / Kt,
      (12 * (qtr / D) ^ 2 * (g * P) * x 0 * (cp / kap) / (D * M ^ 2) - (2 * P - E) * (cp / kap) * P - E * P) / Kt;
    (2 * P - E) * M ^ 2, x 0 * (-(2 * (cp / kap) * P) - E) * M ^ 2 - cp]

section
variable (kap cp p0 dev u0 M g qtr Kt : ℝ)

theorem clayR_smooth (x : Fin 2 → ℝ) (hD : 1 + 6 * (g * Spec.clayP kap cp p0 dev u0 (x 1)) * x 0 ≠ 0) :
    ContDiffAt ℝ 2 (Spec.clayR kap cp p0 dev u0 M g qtr Kt) x := by
  rw [contDiffAt_pi]
  intro i
  have hP : ContDiff ℝ 2 (fun x : Fin 2 → ℝ => Spec.clayP kap cp p0 dev u0 (x 1)) := by
    unfold Spec.clayP
    simp only [div_eq_mul_inv]
    fun_prop
  fin_cases i
  · simp only [Spec.clayR, Fin.zero_eta, Matrix.cons_val_zero, div_eq_mul_inv]
    have hden : ContDiff ℝ 2 (fun x : Fin 2 → ℝ => 1 + 6 * (g * Spec.clayP kap cp p0 dev u0 (x 1)) * x 0) := by fun_prop
    have hinv := hden.contDiffAt.inv hD
    refine ContDiffAt.mul (ContDiffAt.sub (ContDiffAt.add (ContDiffAt.mul (ContDiffAt.pow (ContDiffAt.mul contDiffAt_const
      hinv) 2) contDiffAt_const) ?_) ?_) contDiffAt_const
    · exact (hP.pow 2).contDiffAt
    · exact ContDiff.contDiffAt (by fun_prop)
  · simp only [Spec.clayR, Fin.mk_one, Matrix.cons_val_one, Matrix.cons_val_fin_one]
    exact ContDiff.contDiffAt (by fun_prop)

theorem clayP_deriv (u : ℝ) : HasDerivAt (Spec.clayP kap cp p0 dev u0) (-(cp / kap) * Spec.clayP kap cp p0 dev u0 u) u := by
  have h1 : HasDerivAt (fun u => (dev - cp * (u - u0)) / kap) (-(cp / kap)) u := by
    have := ((((hasDerivAt_id u).sub_const u0).const_mul cp).const_sub dev).div_const kap
    refine this.congr_deriv ?_
    ring
  refine ((h1.exp.const_mul p0)).congr_deriv ?_
  unfold Spec.clayP
  ring

/-- A column of a derivative. -/
theorem column_of_fderiv {R : (Fin 2 → ℝ) → Fin 2 → ℝ} {J : Matrix (Fin 2) (Fin 2) ℝ} {x : Fin 2 → ℝ}
    (h : HasFDerivAt R (Spec.linear J) x) (i : Fin 2) : HasDerivAt (fun t => R ![t, x 1] i) (J i 0) (x 0) ∧
      HasDerivAt (fun t => R ![x 0, t] i) (J i 1) (x 1) := by
  have hx : x = ![x 0, x 1] := by ext k; fin_cases k <;> rfl
  constructor
  · have hg : HasDerivAt (fun t : ℝ => (![t, x 1] : Fin 2 → ℝ)) ![1, 0] (x 0) := by
      rw [hasDerivAt_pi]
      intro k
      fin_cases k
      · exact hasDerivAt_id _
      · exact hasDerivAt_const _ _
    rw [hx] at h
    have := hasDerivAt_pi.mp (HasFDerivAt.comp_hasDerivAt (x 0) h hg) i
    refine this.congr_deriv ?_
    rw [linear_apply]
    simp [Matrix.mulVec, dotProduct, Fin.sum_univ_two]
  · have hg : HasDerivAt (fun t : ℝ => (![x 0, t] : Fin 2 → ℝ)) ![0, 1] (x 1) := by
      rw [hasDerivAt_pi]
      intro k
      fin_cases k
      · exact hasDerivAt_const _ _
      · exact hasDerivAt_id _
    rw [hx] at h
    have := hasDerivAt_pi.mp (HasFDerivAt.comp_hasDerivAt (x 1) h hg) i
    refine this.congr_deriv ?_
    rw [linear_apply]
    simp [Matrix.mulVec, dotProduct, Fin.sum_univ_two]

/-- The entries of the Jacobian of the residuals. -/
theorem clay_entries {J : Matrix (Fin 2) (Fin 2) ℝ} {x : Fin 2 → ℝ} (hkn : kap ≠ 0) (hMn : M ≠ 0) (hKn : Kt ≠ 0)
    (hDn : 1 + 6 * (g * Spec.clayP kap cp p0 dev u0 (x 1)) * x 0 ≠ 0)
    (h : HasFDerivAt (Spec.clayR kap cp p0 dev u0 M g qtr Kt) (Spec.linear J) x) :
    J = Spec.clayJ kap cp p0 dev u0 M g qtr Kt x := by
  set P := Spec.clayP kap cp p0 dev u0 (x 1) with hP
  set E := Real.exp (x 1) with hE
  set D := 1 + 6 * (g * P) * x 0 with hD
  have dP := clayP_deriv kap cp p0 dev u0 (x 1)
  rw [← hP] at dP
  -- the four derivatives
  have j00 : J 0 0 = -(12 * (g * P) * (qtr / D) ^ 2 / (D * M ^ 2)) / Kt := by
    refine (column_of_fderiv h 0).1.unique ?_
    simp only [Spec.clayR, Matrix.cons_val_zero, Matrix.cons_val_one, Matrix.cons_val_fin_one, ← hP, ← hE]
    have d1 : HasDerivAt (fun t : ℝ => 1 + 6 * (g * P) * t) (6 * (g * P)) (x 0) := by
      have := ((hasDerivAt_id (x 0)).const_mul (6 * (g * P))).const_add 1
      exact this.congr_deriv (by ring)
    have d2 := ((((((hasDerivAt_const (x 0) qtr).div d1 hDn).pow 2).div_const (M ^ 2)).add_const (P ^ 2)).sub_const
      (E * P)).div_const Kt
    refine d2.congr_deriv ?_
    simp only [Pi.div_apply, ← hD, Nat.add_one_sub_one, pow_one, Nat.cast_ofNat]
    field_simp
    ring
  have j10 : J 1 0 = (2 * P - E) * M ^ 2 := by
    refine (column_of_fderiv h 1).1.unique ?_
    simp only [Spec.clayR, Matrix.cons_val_zero, Matrix.cons_val_one, Matrix.cons_val_fin_one, ← hP, ← hE]
    have := (((hasDerivAt_id (x 0)).mul_const (2 * P - E)).mul_const (M ^ 2)).sub_const (cp * (x 1 - u0))
    exact this.congr_deriv (by ring)
  have j11 : J 1 1 = x 0 * (-(2 * (cp / kap) * P) - E) * M ^ 2 - cp := by
    refine (column_of_fderiv h 1).2.unique ?_
    simp only [Spec.clayR, Matrix.cons_val_zero, Matrix.cons_val_one, Matrix.cons_val_fin_one]
    have := ((((dP.const_mul 2).sub (Real.hasDerivAt_exp (x 1))).const_mul (x 0)).mul_const (M ^ 2)).sub
      (((hasDerivAt_id (x 1)).sub_const u0).const_mul cp)
    refine this.congr_deriv ?_
    rw [← hE]; ring
  have j01 : J 0 1 = (12 * (qtr / D) ^ 2 * (g * P) * x 0 * (cp / kap) / (D * M ^ 2) - (2 * P - E) * (cp / kap) * P - E * P) / Kt := by
    refine (column_of_fderiv h 0).2.unique ?_
    simp only [Spec.clayR, Matrix.cons_val_zero, Matrix.cons_val_one, Matrix.cons_val_fin_one]
    have d1 : HasDerivAt (fun t : ℝ => 1 + 6 * (g * Spec.clayP kap cp p0 dev u0 t) * x 0)
        (6 * (g * (-(cp / kap) * P)) * x 0) (x 1) := by
      have := ((((dP.const_mul g).const_mul 6).mul_const (x 0)).const_add 1)
      exact this
    have hD' : 1 + 6 * (g * Spec.clayP kap cp p0 dev u0 (x 1)) * x 0 ≠ 0 := hDn
    have d2 := ((((((hasDerivAt_const (x 1) qtr).div d1 hD').pow 2).div_const (M ^ 2)).add (dP.pow 2)).sub
      ((Real.hasDerivAt_exp (x 1)).mul dP)).div_const Kt
    refine d2.congr_deriv ?_
    simp only [Pi.div_apply, ← hP, ← hE, ← hD, Nat.add_one_sub_one, pow_one, Nat.cast_ofNat]
    field_simp
    ring
  ext i j
  fin_cases i <;> fin_cases j
  · exact j00
  · exact j01
  · exact j10
  · exact j11

/-- On the wet side the derivative of the residuals is invertible, with a positive determinant. -/
theorem clay_det {J : Matrix (Fin 2) (Fin 2) ℝ} {x : Fin 2 → ℝ} (hk : 0 < kap) (hcp : 0 < cp) (hp0 : 0 < p0) (hM : 0 < M)
    (hg : 0 < g) (hK : 0 < Kt) (h0 : 0 ≤ x 0) (hwet : Real.exp (x 1) < 2 * Spec.clayP kap cp p0 dev u0 (x 1))
    (h : HasFDerivAt (Spec.clayR kap cp p0 dev u0 M g qtr Kt) (Spec.linear J) x) :
    M ^ 2 * (2 * Spec.clayP kap cp p0 dev u0 (x 1) - Real.exp (x 1)) * Spec.clayP kap cp p0 dev u0 (x 1) * Real.exp (x 1) / Kt
      ≤ J.det := by
  set P := Spec.clayP kap cp p0 dev u0 (x 1) with hP
  have hP0 : 0 < P := mul_pos hp0 (Real.exp_pos _)
  set E := Real.exp (x 1) with hE
  have hE0 : 0 < E := Real.exp_pos _
  set D := 1 + 6 * (g * P) * x 0 with hD
  have hD0 : 0 < D := by positivity
  have hMn := hM.ne'
  have hKn := hK.ne'
  have hkn := hk.ne'
  have hDn := hD0.ne'
  have hJ := clay_entries kap cp p0 dev u0 M g qtr Kt hkn hMn hKn hDn h
  have j00 : J 0 0 = -(12 * (g * P) * (qtr / D) ^ 2 / (D * M ^ 2)) / Kt := by rw [hJ]; rfl
  have j10 : J 1 0 = (2 * P - E) * M ^ 2 := by rw [hJ]; rfl
  have j11 : J 1 1 = x 0 * (-(2 * (cp / kap) * P) - E) * M ^ 2 - cp := by rw [hJ]; rfl
  have j01 : J 0 1 = (12 * (qtr / D) ^ 2 * (g * P) * x 0 * (cp / kap) / (D * M ^ 2) - (2 * P - E) * (cp / kap) * P - E * P) / Kt := by
    rw [hJ]; rfl
  set Q := (qtr / D) ^ 2 with hQ
  have hQ0 : 0 ≤ Q := sq_nonneg _
  have key : J.det = (12 * (g * P) * Q / (D * M ^ 2) * (x 0 * M ^ 2 * E * (cp / kap) + x 0 * M ^ 2 * E + cp) +
      (2 * P - E) * M ^ 2 * P * ((2 * P - E) * (cp / kap)) + M ^ 2 * (2 * P - E) * P * E) / Kt := by
    rw [Matrix.det_fin_two, j00, j01, j10, j11]
    field_simp
    ring
  rw [key]
  refine div_le_div_of_nonneg_right ?_ hK.le
  have hdel : 0 < 2 * P - E := by linarith
  have : 0 ≤ 12 * (g * P) * Q / (D * M ^ 2) * (x 0 * M ^ 2 * E * (cp / kap) + x 0 * M ^ 2 * E + cp) := by positivity
  have : 0 ≤ (2 * P - E) * M ^ 2 * P * ((2 * P - E) * (cp / kap)) := by positivity
  linarith

end

/-- Near `xs`, automatic differentiation returns the derivative wherever there is one. -/
def Spec.ExactJac (ops : NewtonOps ℝ) (R : (Fin 2 → ℝ) → Fin 2 → ℝ) (xs : Fin 2 → ℝ) : Prop :=
  ∀ᶠ x in nhds xs, DifferentiableAt ℝ R x → HasFDerivAt R (Spec.linear (ops.jac R x)) x

/-- Exact Jacobians of smooth residuals are continuous. -/
theorem exactJac_continuous {ops : NewtonOps ℝ} {R : (Fin 2 → ℝ) → Fin 2 → ℝ} {xs : Fin 2 → ℝ} (hj : Spec.ExactJac ops R xs)
    (h : ContDiffAt ℝ 2 R xs) : ContinuousAt (ops.jac R) xs := by
  have hf : ContinuousAt (fderiv ℝ R) xs := (h.fderiv_right (m := 1) (by norm_num)).continuousAt
  have hdiff : ∀ᶠ x in nhds xs, DifferentiableAt ℝ R x :=
    (h.eventually (by simp)).mono fun x hx => hx.differentiableAt (by simp)
  have hent : ∀ᶠ x in nhds xs, (Matrix.of fun i j => fderiv ℝ R x (Pi.single j 1) i) = ops.jac R x := by
    filter_upwards [hdiff, hj] with x hx hjx
    ext i j
    rw [Matrix.of_apply, (hjx hx).fderiv, linear_apply, Matrix.mulVec_single_one]
    rfl
  refine ContinuousAt.congr ?_ hent
  refine continuousAt_pi.mpr fun i => continuousAt_pi.mpr fun j => ?_
  have h1 : ContinuousAt (fun x => fderiv ℝ R x (Pi.single j 1)) xs := hf.clm_apply continuousAt_const
  exact (continuous_apply i).continuousAt.comp h1

section
variable {pr : MCCParams ℝ} (h : pr.Clay) (hlo : pr.KMin = none) (hhi : pr.KMax = none) (L e σ : Mat3 ℝ) {pc : ℝ}
  (σref : Mat3 ℝ) (dt : ℝ) (hmin : pr.pMin ≤ Spec.meanStress σ)
  (hy : 0 < Spec.mccF pr.M pc (Spec.mccTrialStress pr L σ dt))
include h hlo hhi hmin hy

/-- Without limits of the stiffness and above unit pressure the residuals of the code are those of the formula. -/
theorem mcc_residuals_formula (x : Fin 2 → ℝ)
    (hp : 1 < Spec.clayP pr.kap pr.cp (Spec.meanStress σ) (Spec.strainInc L dt).trace (Real.log pc) (x 1)) :
    (mccResiduals realFns pr (mccTrial realFns pr L e σ pc σref dt) pc x).res =
      Spec.clayR pr.kap pr.cp (Spec.meanStress σ) (Spec.strainInc L dt).trace (Real.log pc) pr.M
        (3 * (1 - 2 * pr.nu) / (2 * (1 + pr.nu)) / pr.kap)
        (max (Spec.qVM (Spec.mccTrialStress pr L σ dt)) (1 / 10 ^ 6)) (mccTrial realFns pr L e σ pc σref dt).KTr x := by
  set t := mccTrial realFns pr L e σ pc σref dt with ht
  have hyf : 0 < t.yf := by rw [ht, mccTrial_yf_spec pr L e σ pc σref dt hmin]; exact hy
  have hpp : t.pPrev = Spec.meanStress σ := by rw [ht, mccTrial_pPrev, max_eq_left hmin]
  have hsm : Spec.meanStress t.sTr = 0 := by
    have := mccTrial_sMean pr L e σ pc σref dt
    rwa [max_eq_left hmin, sub_self] at this
  have htr : t.sTr + isoT t.pTr = Spec.mccTrialStress pr L σ dt := mccTrial_stress pr L e σ pc σref dt hmin
  have hq : Spec.qVM (Spec.mccTrialStress pr L σ dt) = t.qTr := by
    rw [← htr, Spec.qVM, J2_add_iso hsm, ht, ← mccTrial_qTr]
  obtain ⟨h0, h1⟩ := mccResiduals_values pr t pc hyf x
  set A := mccResiduals realFns pr t pc x with hA
  have hAp : A.p = Spec.clayP pr.kap pr.cp (Spec.meanStress σ) (Spec.strainInc L dt).trace (Real.log pc) (x 1) := by
    rw [← hpp, ← strainInc_eq]
    simp only [hA, mccResiduals, if_pos hyf, mccPressure, realFns, Spec.clayP]
    rfl
  have hAG : A.G = 3 * (1 - 2 * pr.nu) / (2 * (1 + pr.nu)) / pr.kap * A.p := by
    have : A.G = Spec.mccShear pr.nu (Spec.mccBulk pr.kap pr.KMin pr.KMax A.p) := by
      rw [← mccK_spec, ← mccG_spec]; rfl
    rw [this, hlo, hhi]
    simp only [Spec.mccBulk, Spec.mccShear, Option.elim, id]
    rw [max_eq_left (by rw [hAp]; exact hp.le)]
    ring
  have hM := h.M.ne'
  ext i
  fin_cases i
  · change A.res 0 = _
    rw [h0, hq]
    simp only [Spec.clayR, Fin.zero_eta, Matrix.cons_val_zero, ← hAp, ← hAG, mccYield]
    rw [mul_one_div]
    ring
  · change A.res 1 = _
    rw [h1]
    simp only [Spec.clayR, Fin.mk_one, Matrix.cons_val_one, Matrix.cons_val_fin_one, ← hAp]

/-- **C125** for the code: around the solution of a yielding step on the wet side there is a neighbourhood from which the loop
of the Cam-Clay law converges, at least by a factor of 0.3 per step. The stiffness must not be limited, the pressure of the
solution must exceed one unit and its preconsolidation pressure must be at least one unit. -/
theorem mcc_newton_reaches_partial {ops : NewtonOps ℝ} (hbad : ∀ x, ops.bad x = false)
    (hpc : 0 < pc) (hσ : 0 < Spec.meanStress σ) (hw : pc < 2 * Spec.meanStress (Spec.mccTrialStress pr L σ dt)) {lam a : ℝ}
    (hj : Spec.ExactJac ops (fun x => (mccResiduals realFns pr (mccTrial realFns pr L e σ pc σref dt) pc x).res)
      ![lam, Real.log ((Spec.mccReturn pr L σ pc dt).pc a)])
    (hl : 0 ≤ lam) (hs : (Spec.mccReturn pr L σ pc dt).Solves lam a) (hp1 : 1 < (Spec.mccReturn pr L σ pc dt).p a)
    (hpc1 : 1 ≤ (Spec.mccReturn pr L σ pc dt).pc a)
    (hdet : 2 / 10 ^ 18 * Spec.mccBulk pr.kap none none (max (Spec.meanStress (Spec.mccTrialStress pr L σ dt)) pr.pMin) ≤
      pr.M ^ 2 * (2 * (Spec.mccReturn pr L σ pc dt).p a - (Spec.mccReturn pr L σ pc dt).pc a) *
        (Spec.mccReturn pr L σ pc dt).p a * (Spec.mccReturn pr L σ pc dt).pc a) :
    ∃ rho, 0 < rho ∧ ∀ x, ‖x - ![lam, Real.log ((Spec.mccReturn pr L σ pc dt).pc a)]‖ ≤ rho → ∀ n,
      ‖mccNewton ops (fun x => (mccResiduals realFns pr (mccTrial realFns pr L e σ pc σref dt) pc x).res) n x -
          ![lam, Real.log ((Spec.mccReturn pr L σ pc dt).pc a)]‖ ≤
        (3 / 10) ^ n * ‖x - ![lam, Real.log ((Spec.mccReturn pr L σ pc dt).pc a)]‖ := by
  set d := Spec.mccReturn pr L σ pc dt with hd
  have hg := mccReturn_good h L σ dt hσ hpc
  rw [← hd] at hg
  have hcp : 0 < pr.lam - pr.kap := sub_pos.mpr h.lam
  set R := fun x => (mccResiduals realFns pr (mccTrial realFns pr L e σ pc σref dt) pc x).res with hR
  set xs : Fin 2 → ℝ := ![lam, Real.log (d.pc a)] with hxs
  have hlog : Real.log (d.pc a) = Real.log pc + a / (pr.lam - pr.kap) := by
    change Real.log (pc * Real.exp (a / (pr.lam - pr.kap))) = _
    rw [Real.log_mul hpc.ne' (Real.exp_pos _).ne', Real.log_exp]
  have ha : (pr.lam - pr.kap) * (xs 1 - Real.log pc) = a := by
    simp only [hxs, Matrix.cons_val_one, Matrix.cons_val_fin_one, hlog]
    field_simp; ring
  have hz : R xs = 0 := by
    rw [hR]
    refine (mcc_residuals_zero_iff h L e σ σref dt hpc hmin hy xs).mpr ?_
    rw [ha]; exact hs
  have hPs : Spec.clayP pr.kap pr.cp (Spec.meanStress σ) (Spec.strainInc L dt).trace (Real.log pc) (xs 1) = d.p a := by
    rw [Spec.clayP, show pr.cp * (xs 1 - Real.log pc) = a from ha]; rfl
  have hEs : Real.exp (xs 1) = d.pc a := by
    simp only [hxs, Matrix.cons_val_one, Matrix.cons_val_fin_one]
    exact Real.exp_log (ret_pc_pos hg a)
  set t := mccTrial realFns pr L e σ pc σref dt with ht
  have hKt : t.KTr = Spec.mccBulk pr.kap none none (max (Spec.meanStress (Spec.mccTrialStress pr L σ dt)) pr.pMin) := by
    rw [ht, mccTrial_KTr pr L e σ pc σref dt hmin, mccTrialStress_mean, hlo, hhi]
  have hK0 : 0 < t.KTr := by
    rw [ht, mccTrial_KTr pr L e σ pc σref dt hmin]; exact clayBulk_pos h _
  set g := 3 * (1 - 2 * pr.nu) / (2 * (1 + pr.nu)) / pr.kap with hgd
  have hg0 : 0 < g := div_pos (div_pos (by linarith [h.nuHi]) (by linarith [h.nuLo])) h.kap
  set F := Spec.clayR pr.kap pr.cp (Spec.meanStress σ) (Spec.strainInc L dt).trace (Real.log pc) pr.M g
    (max (Spec.qVM (Spec.mccTrialStress pr L σ dt)) (1 / 10 ^ 6)) t.KTr with hF
  have hcontP : Continuous fun x : Fin 2 → ℝ =>
      Spec.clayP pr.kap pr.cp (Spec.meanStress σ) (Spec.strainInc L dt).trace (Real.log pc) (x 1) := by
    unfold Spec.clayP; fun_prop
  have heq : F =ᶠ[nhds xs] R := by
    have : ∀ᶠ x in nhds xs, 1 < Spec.clayP pr.kap pr.cp (Spec.meanStress σ) (Spec.strainInc L dt).trace (Real.log pc) (x 1) :=
      continuousAt_const.eventually_lt hcontP.continuousAt (by rw [hPs]; exact hp1)
    filter_upwards [this] with x hx
    exact (mcc_residuals_formula h hlo hhi L e σ σref dt hmin hy x hx).symm
  have hl' : 0 ≤ xs 0 := hl
  have hdn : 1 + 6 * (g * d.p a) * xs 0 ≠ 0 := by
    have : 0 < d.p a := ret_p_pos hg a
    positivity
  have hsm : ContDiffAt ℝ 2 F xs := clayR_smooth _ _ _ _ _ _ _ _ _ xs (by rw [hPs]; exact hdn)
  have hsmR : ContDiffAt ℝ 2 R xs := hsm.congr_of_eventuallyEq heq.symm
  have hder := hj.self_of_nhds (hsmR.differentiableAt (by simp))
  have hderF : HasFDerivAt F (Spec.linear (ops.jac R xs)) xs := hder.congr_of_eventuallyEq heq
  have hwet := (return_wet hg (by
    have h0 : d.pc 0 = pc := by simp [hd, Spec.ReturnData.pc, Spec.mccReturn]
    have h1 : d.p 0 = Spec.meanStress (Spec.mccTrialStress pr L σ dt) := by
      simp only [hd, mccTrialStress_mean, Spec.ReturnData.p, Spec.mccReturn, sub_zero]
    rw [h0, h1]; exact hw) hl hs).2
  have hJ := clay_det _ pr.cp _ _ _ _ _ _ _ h.kap hcp hσ h.M hg0 hK0 hl' (by rw [hEs, hPs]; exact hwet) hderF
  rw [hEs, hPs] at hJ
  have hdet' : 2 / 10 ^ 18 ≤ |(ops.jac R xs).det| := by
    refine le_trans ?_ (hJ.trans (le_abs_self _))
    rw [le_div_iff₀ hK0, hKt]
    exact hdet
  obtain ⟨beta, del, rho, hrho, hnear⟩ := newton_basin hz hder (exactJac_continuous hj hsmR) hdet'
  refine ⟨rho, hrho, fun x hx n => mcc_newton_converges hbad hnear ?_ n hx⟩
  intro i
  fin_cases i
  · exact hl
  · exact Real.log_nonneg hpc1

end

/-- **C125**: consequence for a step whose start lies in that neighbourhood: the ten steps of the loop leave a relative error of the
preconsolidation pressure, on the logarithmic scale, of at most `6·10⁻⁶` times the distance of the start. -/
theorem mcc_newton_pc_error {ops : NewtonOps ℝ} {pr : MCCParams ℝ} {L e σ σref : Mat3 ℝ} {pc v dt : ℝ}
    (hv : v ≤ pr.N * (999999 / 1000000)) (hy : 0 < (mccTrial realFns pr L e σ pc σref dt).yf) {xs : Fin 2 → ℝ} {rho : ℝ}
    (hx : ‖![0, Real.log pc] - xs‖ ≤ rho) (hconv : ∀ x, ‖x - xs‖ ≤ rho → ∀ n,
      ‖mccNewton ops (fun x => (mccResiduals realFns pr (mccTrial realFns pr L e σ pc σref dt) pc x).res) n x - xs‖ ≤
        (3 / 10) ^ n * ‖x - xs‖) :
    |Real.log (mccUpdate realFns ops pr L e σ pc σref v dt).pc - xs 1| ≤ 6 / 10 ^ 6 * ‖![0, Real.log pc] - xs‖ := by
  have hu : (mccUpdate realFns ops pr L e σ pc σref v dt).pc = (mccPlastic realFns ops pr (mccTrial realFns pr L e σ pc σref dt) pc).pc := by
    simp only [mccUpdate]
    rw [if_pos hv, if_pos hy]
  rw [hu, mccPlastic_pc, if_pos hy, Real.log_exp]
  have h1 := hconv ![0, Real.log pc] hx 10
  have h2 := norm_le_pi_norm (mccNewton ops (fun x => (mccResiduals realFns pr (mccTrial realFns pr L e σ pc σref dt) pc x).res) 10
    ![0, Real.log pc] - xs) 1
  rw [Real.norm_eq_abs, Pi.sub_apply] at h2
  refine h2.trans (h1.trans ?_)
  gcongr
  norm_num

/-! ### Solutions that the loop cannot reach -/

/-- A clay with stresses in units larger than its own, such as MPa. -/
noncomputable def exSoftMCC : MCCParams ℝ := { exMCC with pMin := 1 / 100 }

/-- **C125** (refuted): the loop keeps the logarithm of the preconsolidation pressure above zero. A clay at a tenth of the unit
of pressure, squeezed by one `kappa`, has a solution below six tenths, and the update returns at least one whatever the
Jacobians. -/
theorem mcc_soft_clay_missed (ops : NewtonOps ℝ) :
    (∃ lam a, 0 ≤ lam ∧ (Spec.mccReturn exSoftMCC exSqueeze (isoT (1 / 10)) (1 / 10) 1).Solves lam a) ∧
    (∀ lam a, 0 ≤ lam → (Spec.mccReturn exSoftMCC exSqueeze (isoT (1 / 10)) (1 / 10) 1).Solves lam a →
      (Spec.mccReturn exSoftMCC exSqueeze (isoT (1 / 10)) (1 / 10) 1).pc a < 6 / 10) ∧
    1 ≤ (mccUpdate realFns ops exSoftMCC exSqueeze 0 (isoT (1 / 10)) (1 / 10) (isoT (1 / 10)) (3 / 2) 1).pc := by
  have hcl : exSoftMCC.Clay := ⟨exMCC_clay.kap, exMCC_clay.lam, exMCC_clay.M, exMCC_clay.nuLo, exMCC_clay.nuHi, exMCC_clay.KMax⟩
  have htr : (Spec.strainInc exSqueeze 1).trace / exSoftMCC.kap = 1 := by
    rw [trace3]
    simp [Spec.strainInc, exSqueeze, exMCC, exSoftMCC]
    norm_num
  have hmin : exSoftMCC.pMin ≤ Spec.meanStress (isoT (1 / 10 : ℝ)) := by rw [meanStress_isoT]; norm_num [exSoftMCC]
  have hm : Spec.meanStress (Spec.mccTrialStress exSoftMCC exSqueeze (isoT (1 / 10)) 1) = 1 / 10 * Real.exp 1 := by
    rw [mccTrialStress_mean, htr, meanStress_isoT]
  have he := Real.exp_one_gt_d9
  have he' := Real.exp_one_lt_d9
  have hy : 0 < Spec.mccF exSoftMCC.M (1 / 10) (Spec.mccTrialStress exSoftMCC exSqueeze (isoT (1 / 10)) 1) := by
    rw [Spec.mccF, hm]
    have : 0 ≤ Spec.qVM (Spec.mccTrialStress exSoftMCC exSqueeze (isoT (1 / 10)) 1) ^ 2 / exSoftMCC.M ^ 2 := by positivity
    nlinarith
  have hg := mccReturn_good hcl exSqueeze (isoT (1 / 10)) (pc := 1 / 10) 1 (by rw [meanStress_isoT]; norm_num) (by norm_num)
  set d := Spec.mccReturn exSoftMCC exSqueeze (isoT (1 / 10)) (1 / 10) 1 with hd
  have h0 : d.pc 0 = 1 / 10 := by simp [hd, Spec.ReturnData.pc, Spec.mccReturn]
  have h1 : d.p 0 = 1 / 10 * Real.exp 1 := by
    rw [← hm, mccTrialStress_mean]
    simp only [hd, Spec.ReturnData.p, Spec.mccReturn, sub_zero]
  refine ⟨?_, fun lam a hl hs => ?_, ?_⟩
  · obtain ⟨lam, a, hl, hs, -⟩ := return_exists hg (mccReturn_yields exSqueeze (isoT (1 / 10)) 1 hy)
    exact ⟨lam, a, hl, hs⟩
  · obtain ⟨ha, hw⟩ := return_wet hg (by rw [h0, h1]; linarith) hl hs
    have hp : d.p a ≤ d.p 0 := by
      rcases ha.eq_or_lt with e | e
      · rw [← e]
      · exact (ret_p_anti hg e).le
    rw [h1] at hp
    linarith
  · refine mcc_pc_ge_one ops exSoftMCC exSqueeze 0 _ _ _ _ 1 (by norm_num [exSoftMCC, exMCC]) ?_
    rw [mccTrial_yf_spec _ _ _ _ _ _ _ hmin]
    exact hy

/-! ### Examples -/

/-- Residuals with a quadratic term and their derivative. -/
noncomputable def exQuad : (Fin 2 → ℝ) → Fin 2 → ℝ := fun x => ![x 0 + x 0 ^ 2 / 20, x 1 - 1]

/-- Operations with the exact derivative of `exQuad`. -/
noncomputable def exQuadOps : NewtonOps ℝ := ⟨fun _ x => !![1 + x 0 / 10, 0; 0, 1], fun _ => false⟩

theorem exQuad_near : Spec.NearRoot exQuad (exQuadOps.jac exQuad) ![0, 1] (10 / 9) (1 / 20) 1 := by
  have hx0 : ∀ x : Fin 2 → ℝ, ‖x - ![0, 1]‖ ≤ 1 → -1 ≤ x 0 ∧ |x 0| ≤ ‖x - ![0, 1]‖ := by
    intro x hx
    have := norm_le_pi_norm (x - ![0, 1]) 0
    simp only [Pi.sub_apply, Matrix.cons_val_zero, sub_zero, Real.norm_eq_abs] at this
    exact ⟨(abs_le.mp (this.trans hx)).1, this⟩
  refine ⟨by norm_num, by norm_num, fun x hx => ?_, fun x hx v => ?_, fun x hx => ?_⟩
  · obtain ⟨h1, -⟩ := hx0 x hx
    simp only [exQuadOps, Matrix.det_fin_two_of]
    refine le_trans ?_ (le_abs_self _)
    norm_num; linarith
  · obtain ⟨h1, -⟩ := hx0 x hx
    rw [pi_norm_le_iff_of_nonneg (by positivity)]
    intro i
    have h2 := norm_le_pi_norm ((exQuadOps.jac exQuad x).mulVec v) i
    simp only [exQuadOps, Matrix.mulVec, dotProduct, Fin.sum_univ_two, Real.norm_eq_abs] at h2 ⊢
    have hn := norm_nonneg ((!![1 + x 0 / 10, 0; 0, 1] : Matrix (Fin 2) (Fin 2) ℝ).mulVec v)
    fin_cases i
    · simp only [Fin.zero_eta, Matrix.of_apply, Matrix.cons_val', Matrix.cons_val_zero, Matrix.cons_val_one,
        Matrix.cons_val_fin_one, zero_mul, add_zero] at h2 ⊢
      rw [abs_mul, abs_of_nonneg (by linarith)] at h2
      nlinarith [abs_nonneg (v 0)]
    · simp only [Fin.mk_one, Matrix.of_apply, Matrix.cons_val', Matrix.cons_val_zero, Matrix.cons_val_one,
        Matrix.cons_val_fin_one, zero_mul, zero_add, one_mul] at h2 ⊢
      linarith
  · obtain ⟨h1, h2⟩ := hx0 x hx
    rw [pi_norm_le_iff_of_nonneg (by positivity)]
    intro i
    fin_cases i
    · simp only [exQuad, exQuadOps, Fin.zero_eta, Pi.sub_apply, Matrix.mulVec, dotProduct, Fin.sum_univ_two, Matrix.of_apply,
        Matrix.cons_val', Matrix.cons_val_zero, Matrix.cons_val_one, Matrix.cons_val_fin_one, sub_zero, zero_mul, add_zero,
        Real.norm_eq_abs]
      rw [show x 0 + x 0 ^ 2 / 20 - (1 + x 0 / 10) * x 0 = -(1 / 20 * (x 0 * x 0)) by ring, abs_neg, abs_mul, abs_mul,
        abs_of_pos (by norm_num : (0 : ℝ) < 1 / 20)]
      have := mul_le_mul h2 (h2.trans hx) (abs_nonneg _) (norm_nonneg _)
      linarith
    · simp only [exQuad, exQuadOps, Fin.mk_one, Pi.sub_apply, Matrix.mulVec, dotProduct, Fin.sum_univ_two, Matrix.of_apply,
        Matrix.cons_val', Matrix.cons_val_zero, Matrix.cons_val_one, Matrix.cons_val_fin_one, sub_zero, zero_mul, zero_add,
        one_mul, sub_self, norm_zero]
      positivity

/-- Ten steps from a distance of one. -/
example : ‖mccNewton exQuadOps exQuad 10 ![1, 1] - ![0, 1]‖ ≤ (3 / 10) ^ 10 * ‖(![1, 1] : Fin 2 → ℝ) - ![0, 1]‖ :=
  mcc_newton_converges (fun _ => rfl) exQuad_near (fun i => by fin_cases i <;> simp) 10 (by
    rw [pi_norm_le_iff_of_nonneg (by norm_num)]
    intro i; fin_cases i <;> simp)

/-- Operations that differentiate exactly. -/
noncomputable def exactOps : NewtonOps ℝ :=
  ⟨fun R x => Matrix.of fun i j => fderiv ℝ R x (Pi.single j 1) i, fun _ => false⟩

theorem exactOps_exact (R : (Fin 2 → ℝ) → Fin 2 → ℝ) (xs : Fin 2 → ℝ) : Spec.ExactJac exactOps R xs := by
  refine Filter.Eventually.of_forall fun x hx => ?_
  have : Spec.linear (exactOps.jac R x) = fderiv ℝ R x := by
    ext v i
    rw [linear_apply]
    have hv : v = ∑ j, v j • (Pi.single j 1 : Fin 2 → ℝ) := by
      ext k; simp [Pi.single_apply]
    conv_rhs => rw [hv]
    simp only [exactOps, Matrix.mulVec, dotProduct, Matrix.of_apply, map_sum, map_smul, Finset.sum_apply, Pi.smul_apply, smul_eq_mul]
    exact Finset.sum_congr rfl fun j _ => mul_comm _ _
  rw [this]
  exact hx.hasFDerivAt

/-- A triaxial strain increment of volume 0.015. -/
noncomputable def exTriaxL : Mat3 ℝ :=
  Matrix.diagonal ![5 / 1000 + 49 / 3600 * Real.exp (-(3 / 4)), 5 / 1000 - 49 / 7200 * Real.exp (-(3 / 4)),
    5 / 1000 - 49 / 7200 * Real.exp (-(3 / 4))]

theorem exTriax_strain : Spec.strainInc exTriaxL 1 = exTriaxL := by
  unfold Spec.strainInc exTriaxL
  rw [Matrix.diagonal_transpose, ← two_smul ℝ, smul_smul]
  norm_num

theorem exTriax_trace : (Spec.strainInc exTriaxL 1).trace = 15 / 1000 := by
  rw [exTriax_strain, trace3]
  simp [exTriaxL]
  ring

theorem exTriax_exp : 100 * Real.exp (-(3 / 4)) * Real.exp (15 / 1000 / exMCC.kap) = 100 * Real.exp (3 / 4) := by
  rw [mul_assoc, ← Real.exp_add]
  norm_num [exMCC]

theorem exTriax_q : Spec.qVM (Spec.mccTrialStress exMCC exTriaxL (isoT (100 * Real.exp (-(3 / 4)))) 1) = 2450 / 13 := by
  have hE : Real.exp (3 / 4) * Real.exp (-(3 / 4)) = 1 := by rw [← Real.exp_add]; norm_num
  have h1 : 1 ≤ Real.exp (3 / 4) := Real.one_le_exp (by norm_num)
  have hrot : Spec.jaumannRotated exTriaxL (isoT (100 * Real.exp (-(3 / 4)))) 1 = isoT (100 * Real.exp (-(3 / 4))) := by
    have : exTriaxL.transpose = exTriaxL := Matrix.diagonal_transpose _
    simp [Spec.jaumannRotated, this]
  have hst : Spec.mccTrialStress exMCC exTriaxL (isoT (100 * Real.exp (-(3 / 4)))) 1 =
      (2450 / 13 : ℝ) • Matrix.diagonal ![2 / 3, -(1 / 3), -(1 / 3)] + isoT (100 * Real.exp (3 / 4)) := by
    simp only [Spec.mccTrialStress, hrot, dev_isoT, exTriax_trace, meanStress_isoT, exTriax_exp, zero_add]
    congr 1
    have hdev : Spec.dev (Spec.strainInc exTriaxL 1) =
        (49 / 2400 * Real.exp (-(3 / 4))) • (Matrix.diagonal ![2 / 3, -(1 / 3), -(1 / 3)] : Mat3 ℝ) := by
      rw [exTriax_strain]
      ext i j
      fin_cases i <;> fin_cases j <;> simp [Spec.dev, Spec.meanStress, exTriaxL] <;> ring
    rw [hdev, smul_smul]
    congr 1
    simp only [Spec.mccShear, Spec.mccBulk, exMCC, Option.elim, id]
    rw [max_eq_left (show (1 : ℝ) ≤ 100 * Real.exp (3 / 4) by linarith), max_eq_left (show (1 : ℝ) ≤ 100 * Real.exp (3 / 4) by linarith)]
    linear_combination (2450 / 13) * hE
  have hm : Spec.meanStress ((2450 / 13 : ℝ) • (Matrix.diagonal ![2 / 3, -(1 / 3), -(1 / 3)] : Mat3 ℝ)) = 0 := by
    simp [Spec.meanStress]; norm_num
  rw [hst, Spec.qVM, J2_add_iso hm]
  rw [show (3 : ℝ) * (Spec.ddot ((2450 / 13 : ℝ) • (Matrix.diagonal ![2 / 3, -(1 / 3), -(1 / 3)] : Mat3 ℝ))
    ((2450 / 13 : ℝ) • (Matrix.diagonal ![2 / 3, -(1 / 3), -(1 / 3)] : Mat3 ℝ)) / 2) = (2450 / 13) ^ 2 by
      simp [Spec.ddot, Fin.sum_univ_three]; norm_num]
  exact Real.sqrt_sq (by norm_num)

/-- Its solution: multiplier `10⁻⁴`, plastic volumetric strain 0.0075, pressure 100, preconsolidation pressure 125. -/
theorem exTriax_solution : let d := Spec.mccReturn exMCC exTriaxL (isoT (100 * Real.exp (-(3 / 4)))) (125 * Real.exp (-(3 / 4))) 1
    d.p (75 / 10000) = 100 ∧ d.pc (75 / 10000) = 125 ∧ d.Solves (1 / 10000) (75 / 10000) := by
  intro d
  have hE : Real.exp (-(3 / 4)) * Real.exp (3 / 4) = 1 := by rw [← Real.exp_add]; norm_num
  have hp : d.p (75 / 10000) = 100 := by
    simp only [d, Spec.ReturnData.p, Spec.mccReturn, exTriax_trace, meanStress_isoT]
    rw [show ((15 : ℝ) / 1000 - 75 / 10000) / exMCC.kap = 3 / 4 by norm_num [exMCC], mul_assoc, hE, mul_one]
  have hpc : d.pc (75 / 10000) = 125 := by
    simp only [d, Spec.ReturnData.pc, Spec.mccReturn]
    rw [show ((75 : ℝ) / 10000) / (exMCC.lam - exMCC.kap) = 3 / 4 by norm_num [exMCC], mul_assoc, hE, mul_one]
  have hq : d.q (1 / 10000) (75 / 10000) = 50 := by
    simp only [Spec.ReturnData.q, hp]
    simp only [d, Spec.mccReturn, exTriax_q]
    norm_num [Spec.mccShear, Spec.mccBulk, exMCC]
  refine ⟨hp, hpc, ?_, ?_⟩
  · rw [hq, hp, hpc]
    norm_num [d, Spec.mccReturn, exMCC]
  · rw [hp, hpc]
    norm_num [d, Spec.mccReturn, exMCC]

/-- `mcc_newton_reaches_partial` for this step. -/
example : ∃ rho, 0 < rho ∧ ∀ x, ‖x - ![1 / 10000, Real.log 125]‖ ≤ rho → ∀ n,
    ‖mccNewton exactOps (fun x => (mccResiduals realFns exMCC (mccTrial realFns exMCC exTriaxL 0
        (isoT (100 * Real.exp (-(3 / 4)))) (125 * Real.exp (-(3 / 4))) (isoT 100) 1) (125 * Real.exp (-(3 / 4))) x).res) n x -
      ![1 / 10000, Real.log 125]‖ ≤ (3 / 10) ^ n * ‖x - ![1 / 10000, Real.log 125]‖ := by
  obtain ⟨hp, hpc, hs⟩ := exTriax_solution
  have hE0 := Real.exp_pos (-(3 / 4) : ℝ)
  have h1 : 1 < Real.exp (3 / 4 : ℝ) := Real.one_lt_exp_iff.mpr (by norm_num)
  have hE1 : Real.exp (-(3 / 4) : ℝ) < 1 := by
    rw [← Real.exp_zero]; exact Real.exp_lt_exp.mpr (by norm_num)
  have hE2 : (1 : ℝ) / 100 ≤ Real.exp (-(3 / 4) : ℝ) := by
    have := Real.add_one_le_exp (-(3 / 4) : ℝ); linarith
  have hm : Spec.meanStress (Spec.mccTrialStress exMCC exTriaxL (isoT (100 * Real.exp (-(3 / 4)))) 1) = 100 * Real.exp (3 / 4) := by
    rw [mccTrialStress_mean, exTriax_trace, meanStress_isoT, exTriax_exp]
  have he3 : Real.exp (3 / 4 : ℝ) ≤ 3 := by
    have h2 : Real.exp (3 / 4 : ℝ) ≤ Real.exp 1 := Real.exp_le_exp.mpr (by norm_num)
    linarith [Real.exp_one_lt_d9]
  have key := mcc_newton_reaches_partial exMCC_clay rfl rfl exTriaxL 0 (isoT (100 * Real.exp (-(3 / 4)))) (isoT 100) 1
    (by rw [meanStress_isoT]; simp only [exMCC]; linarith)
    (by
      rw [Spec.mccF, hm, exTriax_q]
      simp only [exMCC]
      nlinarith)
    (ops := exactOps) (fun _ => rfl) (pc := 125 * Real.exp (-(3 / 4))) (by positivity)
    (by rw [meanStress_isoT]; positivity) (by rw [hm]; linarith) (exactOps_exact _ _) (by norm_num) hs (by rw [hp]; norm_num) (by rw [hpc]; norm_num)
    (by
      rw [hp, hpc, hm]
      simp only [Spec.mccBulk, exMCC, Option.elim, id]
      simp only [max_eq_left (show (1 : ℝ) ≤ 100 * Real.exp (3 / 4) by linarith)]
      norm_num
      linarith)
  rw [hpc] at key
  exact key

end Hydrax
