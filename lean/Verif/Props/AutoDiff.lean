import Verif.Lemmas.AutoDiff
import Verif.Props.NewtonLoop
import Verif.Props.Helpers

/-!
# C140: derivatives computed by automatic differentiation are derivatives
-/

namespace Hydrax

section
variable {ι : Type*} [Fintype ι]

/-- **C140**: wherever a program has no kink, pole or edge, forward mode returns its derivative in every direction. -/
theorem ad_forward_exact (e : Ex ℝ ι) (x : ι → ℝ) (h : Spec.SmoothProg x e) :
    ∃ D : (ι → ℝ) →L[ℝ] ℝ, HasFDerivAt (fun y => e.eval realAd y) D x ∧ ∀ v, D v = e.tan realAd x v := by
  induction e with
  | var i => exact exact_var i
  | const c => exact exact_const c
  | neg a iha => exact exact_neg (iha h)
  | add a b iha ihb => exact exact_add (iha h.1) (ihb h.2)
  | sub a b iha ihb => exact exact_sub (iha h.1) (ihb h.2)
  | mul a b iha ihb => exact exact_mul (iha h.1) (ihb h.2)
  | div a b iha ihb => exact exact_div (iha h.1) (ihb h.2.1) h.2.2
  | exp a iha => exact exact_exp (iha h)
  | log a iha => exact exact_log (iha h.1) h.2
  | sqrt a iha => exact exact_sqrt (iha h.1) h.2
  | max a b iha ihb => exact exact_max (iha h.1) (ihb h.2.1) h.2.2
  | min a b iha ihb => exact exact_min (iha h.1) (ihb h.2.1) h.2.2
  | sel c d a b ihc ihd iha ihb => exact exact_sel (ihc h.1) (ihd h.2.1) (iha h.2.2.2.1) (ihb h.2.2.2.2) h.2.2.1
  | stop a => exact absurd h not_false

/-- **C140**: reverse mode is the transpose of forward mode, for every program at every point: what a cotangent gives to the
inputs, paired with a direction, is the cotangent times the tangent. -/
theorem ad_reverse_transpose [DecidableEq ι] (e : Ex ℝ ι) (x v : ι → ℝ) (w : ℝ) :
    ∑ k, e.cot realAd x w k * v k = w * e.tan realAd x v := by
  induction e generalizing w with
  | var i => simp [Ex.cot, Ex.tan]
  | const c => simp [Ex.cot, Ex.tan]
  | neg a iha => simp only [Ex.cot, Ex.tan, iha, realAd_neg]; ring
  | add a b iha ihb => simp only [Ex.cot, Ex.tan, realAd_add, add_mul, Finset.sum_add_distrib, iha, ihb]; ring
  | sub a b iha ihb => simp only [Ex.cot, Ex.tan, realAd_add, realAd_sub, realAd_neg, add_mul, Finset.sum_add_distrib, iha, ihb]; ring
  | mul a b iha ihb => simp only [Ex.cot, Ex.tan, realAd_add, realAd_mul, add_mul, Finset.sum_add_distrib, iha, ihb]; ring
  | div a b iha ihb =>
    simp only [Ex.cot, Ex.tan, realAd_add, realAd_mul, realAd_div, realAd_neg, realAd_one, add_mul, Finset.sum_add_distrib, iha, ihb]
    ring
  | exp a iha => simp only [Ex.cot, Ex.tan, iha, realAd_mul]; ring
  | log a iha => simp only [Ex.cot, Ex.tan, iha, realAd_div]; ring
  | sqrt a iha => simp only [Ex.cot, Ex.tan, iha, realAd_mul]; ring
  | max a b iha ihb => simp only [Ex.cot, Ex.tan, realAd_add, realAd_mul, add_mul, Finset.sum_add_distrib, iha, ihb]; ring
  | min a b iha ihb => simp only [Ex.cot, Ex.tan, realAd_add, realAd_mul, add_mul, Finset.sum_add_distrib, iha, ihb]; ring
  | sel c d a b ihc ihd iha ihb =>
    simp only [Ex.cot, Ex.tan, realAd_add, realAd_ge, add_mul, Finset.sum_add_distrib, iha, ihb]
    split_ifs <;> simp
  | stop a => simp [Ex.cot, Ex.tan]

/-- **C140**: hence `jax.grad` returns the gradient wherever a program has no kink, pole or edge. -/
theorem ad_grad_exact [DecidableEq ι] (e : Ex ℝ ι) (x : ι → ℝ) (h : Spec.SmoothProg x e) :
    ∃ D : (ι → ℝ) →L[ℝ] ℝ, HasFDerivAt (fun y => e.eval realAd y) D x ∧ ∀ v, D v = ∑ k, adGrad realAd e x k * v k := by
  obtain ⟨D, hD, eD⟩ := ad_forward_exact e x h
  refine ⟨D, hD, fun v => ?_⟩
  rw [eD, adGrad, ad_reverse_transpose, realAd_one, one_mul]

end

/-! ### The Jacobians of the return mappings -/

/-- Two exact programs have an exact Jacobian. -/
theorem jacfwd_exact {f : Fin 2 → Ex ℝ (Fin 2)} {x : Fin 2 → ℝ} (h : ∀ i, Spec.Exact x (f i)) :
    HasFDerivAt (fun y i => (f i).eval realAd y) (Spec.linear (jacfwd realAd f x)) x := by
  choose D hD eD using h
  have : Spec.linear (jacfwd realAd f x) = ContinuousLinearMap.pi D := by
    ext v i
    rw [linear_apply]
    have hv : v = ∑ j, v j • (fun k => if k = j then (1 : ℝ) else 0 : Fin 2 → ℝ) := by
      ext k; fin_cases k <;> simp
    conv_rhs => rw [hv]
    simp only [ContinuousLinearMap.pi_apply, map_sum, map_smul]
    simp only [eD, Matrix.mulVec, dotProduct, jacfwd, Matrix.of_apply, smul_eq_mul, realAd_one, realAd_zero]
    exact Finset.sum_congr rfl fun j _ => mul_comm _ _
  rw [this]
  exact hasFDerivAt_pi.mpr hD

theorem mccPProg_eval (pr : MCCParams ℝ) (t : MCCTrial ℝ) (pc : ℝ) (x : Fin 2 → ℝ) :
    (mccPProg realFns pr t pc).eval realAd x = (mccResiduals realFns pr t pc x).p := rfl

theorem clipProg_eval {ι : Type*} (lo hi : Option ℝ) (e : Ex ℝ ι) (x : ι → ℝ) :
    (clipProg lo hi e).eval realAd x = clipOpt lo hi (e.eval realAd x) := by
  cases lo <;> cases hi <;> rfl

theorem mccDenProg_eval (pr : MCCParams ℝ) (t : MCCTrial ℝ) (pc : ℝ) (x : Fin 2 → ℝ) :
    (mccDenProg realFns pr t pc).eval realAd x = 1 + 6 * (mccResiduals realFns pr t pc x).G * x 0 := by
  simp only [mccDenProg, Ex.eval, clipProg_eval]
  rfl

/-- The programs compute the residuals of the model. -/
theorem mccProg_eval (pr : MCCParams ℝ) (t : MCCTrial ℝ) (pc : ℝ) (x : Fin 2 → ℝ) :
    (fun i => (mccProg realFns pr t pc i).eval realAd x) = (mccResiduals realFns pr t pc x).res := by
  ext i
  fin_cases i
  · simp only [mccProg, Fin.zero_eta, Matrix.cons_val_zero, Ex.eval, mccDenProg_eval, mccPProg_eval]
    rfl
  · simp only [mccProg, Fin.mk_one, Matrix.cons_val_one, Matrix.cons_val_fin_one, Ex.eval, mccPProg_eval]
    rfl

/-- The two kinks of `get_K`: where the pressure reaches one unit and where the stiffness reaches a limit. -/
def Spec.AtKink (kap : ℝ) (lo hi : Option ℝ) (p : ℝ) : Prop :=
  p = 1 ∨ (∃ a, lo = some a ∧ max p 1 / kap = a) ∨ ∃ b, hi = some b ∧ clipOpt lo none (max p 1 / kap) = b

theorem mccPProg_exact {pr : MCCParams ℝ} (h : pr.Clay) (t : MCCTrial ℝ) (pc : ℝ) (x : Fin 2 → ℝ) :
    Spec.Exact x (mccPProg realFns pr t pc) :=
  exact_mul (exact_const _) (exact_exp (exact_div (exact_sub (exact_const _)
    (exact_mul (exact_const _) (exact_sub (exact_var _) (exact_const _)))) (exact_const _) h.kap.ne'))

theorem clipProg_exact {x : Fin 2 → ℝ} {e : Ex ℝ (Fin 2)} (he : Spec.Exact x e) (lo hi : Option ℝ)
    (hlo : ∀ a, lo = some a → e.eval realAd x ≠ a) (hhi : ∀ b, hi = some b → clipOpt lo none (e.eval realAd x) ≠ b) :
    Spec.Exact x (clipProg lo hi e) := by
  cases lo with
  | none =>
    cases hi with
    | none => exact he
    | some b => exact exact_min he (exact_const b) (hhi b rfl)
  | some a =>
    have h1 := exact_max he (exact_const a) (hlo a rfl)
    cases hi with
    | none => exact h1
    | some b => exact exact_min h1 (exact_const b) (hhi b rfl)

theorem mccDenProg_exact {pr : MCCParams ℝ} (h : pr.Clay) (t : MCCTrial ℝ) (pc : ℝ) (x : Fin 2 → ℝ)
    (hk : x 0 = 0 ∨ ¬ Spec.AtKink pr.kap pr.KMin pr.KMax (mccResiduals realFns pr t pc x).p) :
    Spec.Exact x (mccDenProg realFns pr t pc) := by
  refine exact_add (exact_const _) ?_
  rcases hk with h0 | hk
  · refine exact_zero_mul (exact_var 0) h0 (Continuous.continuousAt ?_)
    simp only [Ex.eval, clipProg_eval, mccPProg]
    cases pr.KMin <;> cases pr.KMax <;> simp only [clipOpt, realAd_mul, realAd_max, realAd_exp, realAd_div, realAd_sub] <;> fun_prop
  · simp only [Spec.AtKink, not_or, not_exists, not_and] at hk
    have hm : 1 / pr.kap * max (mccResiduals realFns pr t pc x).p 1 = max (mccResiduals realFns pr t pc x).p 1 / pr.kap := by ring
    refine exact_mul (exact_mul (exact_const _) (exact_mul (exact_const _) (clipProg_exact
      (exact_mul (exact_const _) (exact_max (mccPProg_exact h t pc x) (exact_const _) hk.1)) _ _ (fun a ha => ?_)
      fun b hb => ?_))) (exact_var _)
    · simp only [Ex.eval, mccPProg_eval, realAd_mul, realAd_max, hm]
      exact hk.2.1 a ha
    · simp only [Ex.eval, mccPProg_eval, realAd_mul, realAd_max, hm]
      exact hk.2.2 b hb

theorem mcc_jacfwd_exact_den {pr : MCCParams ℝ} (h : pr.Clay) (t : MCCTrial ℝ) (hK : 0 < t.KTr) (pc : ℝ) (x : Fin 2 → ℝ)
    (hden : (mccDenProg realFns pr t pc).eval realAd x ≠ 0)
    (hk : x 0 = 0 ∨ ¬ Spec.AtKink pr.kap pr.KMin pr.KMax (mccResiduals realFns pr t pc x).p) :
    HasFDerivAt (fun y => (mccResiduals realFns pr t pc y).res) (Spec.linear (jacfwd realAd (mccProg realFns pr t pc) x)) x := by
  have hp := mccPProg_exact h t pc x
  have hq : Spec.Exact x (.mul (.const (max (if t.yf > 0 then t.qTr else 1) (1 / 10 ^ 6))) (.div (.const 1) (mccDenProg realFns pr t pc))) :=
    exact_mul (exact_const _) (exact_div (exact_const _) (mccDenProg_exact h t pc x hk) hden)
  have hd : Spec.Exact x (.mul (.const pr.cp) (.sub (.var 1) (.const (realFns.log (if t.yf > 0 then pc else 2))))) :=
    exact_mul (exact_const _) (exact_sub (exact_var _) (exact_const _))
  have key := jacfwd_exact (x := x) (f := mccProg realFns pr t pc) (fun i => by
    fin_cases i
    · exact exact_div (exact_sub (exact_add (exact_div (exact_mul hq hq) (exact_const _) (mul_pos h.M h.M).ne') (exact_mul hp hp))
        (exact_mul (exact_exp (exact_var _)) hp)) (exact_const _) hK.ne'
    · exact exact_div (exact_sub (exact_mul (exact_mul (exact_var _) (exact_sub (exact_mul (exact_const _) hp) (exact_exp (exact_var _))))
        (exact_const _)) hd) (exact_const _) one_ne_zero)
  refine key.congr_of_eventuallyEq (Filter.Eventually.of_forall fun y => ?_)
  exact (mccProg_eval pr t pc y).symm

/-- **C140**, Cam-Clay: at every iterate that is not on a kink of the stiffness, and at every iterate with multiplier zero such as
the first, the matrix of `jax.jacfwd` is the Jacobian of the residuals. -/
theorem mcc_jacfwd_exact {pr : MCCParams ℝ} (h : pr.Clay) (t : MCCTrial ℝ) (hK : 0 < t.KTr) (pc : ℝ) (x : Fin 2 → ℝ)
    (h0 : 0 ≤ x 0) (hk : x 0 = 0 ∨ ¬ Spec.AtKink pr.kap pr.KMin pr.KMax (mccResiduals realFns pr t pc x).p) :
    HasFDerivAt (fun y => (mccResiduals realFns pr t pc y).res) (Spec.linear (jacfwd realAd (mccProg realFns pr t pc) x)) x := by
  have hG : 0 ≤ (mccResiduals realFns pr t pc x).G := by
    have e : (mccResiduals realFns pr t pc x).G = Spec.mccShear pr.nu (Spec.mccBulk pr.kap pr.KMin pr.KMax (mccResiduals realFns pr t pc x).p) := by
      rw [← mccK_spec, ← mccG_spec]; rfl
    rw [e, ← mccG_spec]
    exact mul_nonneg (div_nonneg (by linarith [h.nuHi]) (by linarith [h.nuLo])) (clayBulk_pos h _).le
  have hden : (mccDenProg realFns pr t pc).eval realAd x ≠ 0 := by
    rw [mccDenProg_eval]; positivity
  exact mcc_jacfwd_exact_den h t hK pc x hden hk

/-- **C125**, **C140**: the loop of the Cam-Clay law, with the Jacobians that `jax.jacfwd` computes, converges to the solution of a
yielding step on the wet side from a neighbourhood, at least by a factor of 0.3 per step. Limits as in `mcc_newton_reaches_partial`. -/
theorem mcc_newton_ad_reaches_partial {pr : MCCParams ℝ} (h : pr.Clay) (hlo : pr.KMin = none) (hhi : pr.KMax = none) (L e σ : Mat3 ℝ)
    {pc : ℝ} (σref : Mat3 ℝ) (dt : ℝ) (hmin : pr.pMin ≤ Spec.meanStress σ)
    (hy : 0 < Spec.mccF pr.M pc (Spec.mccTrialStress pr L σ dt))
    (hpc : 0 < pc) (hσ : 0 < Spec.meanStress σ) (hw : pc < 2 * Spec.meanStress (Spec.mccTrialStress pr L σ dt)) {lam a : ℝ}
    (hl : 0 ≤ lam) (hs : (Spec.mccReturn pr L σ pc dt).Solves lam a) (hp1 : 1 < (Spec.mccReturn pr L σ pc dt).p a)
    (hpc1 : 1 ≤ (Spec.mccReturn pr L σ pc dt).pc a)
    (hdet : 2 / 10 ^ 18 * Spec.mccBulk pr.kap none none (max (Spec.meanStress (Spec.mccTrialStress pr L σ dt)) pr.pMin) ≤
      pr.M ^ 2 * (2 * (Spec.mccReturn pr L σ pc dt).p a - (Spec.mccReturn pr L σ pc dt).pc a) *
        (Spec.mccReturn pr L σ pc dt).p a * (Spec.mccReturn pr L σ pc dt).pc a) :
    ∃ rho, 0 < rho ∧ ∀ x, ‖x - ![lam, Real.log ((Spec.mccReturn pr L σ pc dt).pc a)]‖ ≤ rho → ∀ n,
      ‖mccNewton (mccAdOps realFns pr (mccTrial realFns pr L e σ pc σref dt) pc fun _ => false)
          (fun x => (mccResiduals realFns pr (mccTrial realFns pr L e σ pc σref dt) pc x).res) n x -
          ![lam, Real.log ((Spec.mccReturn pr L σ pc dt).pc a)]‖ ≤
        (3 / 10) ^ n * ‖x - ![lam, Real.log ((Spec.mccReturn pr L σ pc dt).pc a)]‖ := by
  refine mcc_newton_reaches_partial h hlo hhi L e σ σref dt hmin hy (fun _ => rfl) hpc hσ hw ?_ hl hs hp1 hpc1 hdet
  set d := Spec.mccReturn pr L σ pc dt with hd
  set t := mccTrial realFns pr L e σ pc σref dt with ht
  set xs : Fin 2 → ℝ := ![lam, Real.log (d.pc a)] with hxs
  have hyf : 0 < t.yf := by rw [ht, mccTrial_yf_spec pr L e σ pc σref dt hmin]; exact hy
  have hK : 0 < t.KTr := by rw [ht, mccTrial_KTr pr L e σ pc σref dt hmin]; exact clayBulk_pos h _
  have hcp : 0 < pr.lam - pr.kap := sub_pos.mpr h.lam
  have hlog : Real.log (d.pc a) = Real.log pc + a / (pr.lam - pr.kap) := by
    change Real.log (pc * Real.exp (a / (pr.lam - pr.kap))) = _
    rw [Real.log_mul hpc.ne' (Real.exp_pos _).ne', Real.log_exp]
  have hpx : ∀ x, (mccResiduals realFns pr t pc x).p =
      Spec.meanStress σ * Real.exp (((Spec.strainInc L dt).trace - pr.cp * (x 1 - Real.log pc)) / pr.kap) := by
    intro x
    have hpp : t.pPrev = Spec.meanStress σ := by rw [ht, mccTrial_pPrev, max_eq_left hmin]
    rw [← hpp, ← strainInc_eq]
    simp only [mccResiduals, if_pos hyf, mccPressure, realFns]
    rfl
  have hps : (mccResiduals realFns pr t pc xs).p = d.p a := by
    have ha : pr.cp * (xs 1 - Real.log pc) = a := by
      simp only [hxs, Matrix.cons_val_one, Matrix.cons_val_fin_one, hlog, MCCParams.cp]
      field_simp; ring
    rw [hpx, ha]; rfl
  have hG : ∀ x, (mccResiduals realFns pr t pc x).G =
      3 * (1 - 2 * pr.nu) / (2 * (1 + pr.nu)) * (1 / pr.kap * max (mccResiduals realFns pr t pc x).p 1) := by
    intro x
    have : (mccResiduals realFns pr t pc x).G = mccG pr.nu (mccK pr.kap (mccResiduals realFns pr t pc x).p pr.KMin pr.KMax) := rfl
    rw [this, hlo, hhi]
    rfl
  have hcp' : Continuous fun x : Fin 2 → ℝ => (mccResiduals realFns pr t pc x).p := by
    simp only [hpx]; fun_prop
  have h1 : ∀ᶠ x in nhds xs, 1 < (mccResiduals realFns pr t pc x).p :=
    continuousAt_const.eventually_lt hcp'.continuousAt (by rw [hps]; exact hp1)
  have h2 : ∀ᶠ x in nhds xs, 0 < (mccDenProg realFns pr t pc).eval realAd x := by
    refine continuousAt_const.eventually_lt (Continuous.continuousAt ?_) ?_
    · simp only [mccDenProg_eval, hG]; fun_prop
    · rw [mccDenProg_eval, hG]
      have : 0 ≤ xs 0 := hl
      have e1 : 0 < 3 * (1 - 2 * pr.nu) / (2 * (1 + pr.nu)) := div_pos (by linarith [h.nuHi]) (by linarith [h.nuLo])
      have := h.kap
      positivity
  filter_upwards [h1, h2] with x e1 e2 _
  refine mcc_jacfwd_exact_den h t hK pc x e2.ne' (Or.inr ?_)
  rw [hlo, hhi]
  rintro (e | ⟨a, ha, -⟩ | ⟨b, hb, -⟩)
  · linarith
  · cases ha
  · cases hb

theorem uepiDenProg_eval (t : UepiTrial ℝ) (x : Fin 2 → ℝ) : (uepiDenProg t).eval realAd x = 1 + 6 * t.Gc * x 0 := rfl

theorem uepiIProg_eval (pr : UepiParams ℝ) (t : UepiTrial ℝ) (st : UepiState ℝ) (dt : ℝ) (x : Fin 2 → ℝ) :
    (uepiIProg pr t dt).eval realAd x = (uepiResiduals realFns pr t st dt x).I := rfl

theorem uepiDpvProg_eval (pr : UepiParams ℝ) (t : UepiTrial ℝ) (st : UepiState ℝ) (dt : ℝ) (x : Fin 2 → ℝ) :
    (uepiDpvProg realFns pr t st dt).eval realAd x = (uepiResiduals realFns pr t st dt x).depsPV := rfl

/-- The programs compute the residuals of the model. -/
theorem uepiProg_eval (pr : UepiParams ℝ) (t : UepiTrial ℝ) (st : UepiState ℝ) (dt : ℝ) (x : Fin 2 → ℝ) :
    (fun i => (uepiProg realFns pr t st dt i).eval realAd x) = (uepiResiduals realFns pr t st dt x).res := by
  ext i
  fin_cases i <;> rfl

/-- **C140**, elasto-plastic-inertial law: at every iterate with a multiplier that is not negative, unless the size parameter equals
the reference pressure while the multiplier is positive, the matrix of `jax.jacfwd` is the Jacobian of the residuals. -/
theorem uepi_jacfwd_exact {pr : UepiParams ℝ} (h : pr.Good) (t : UepiTrial ℝ) (hG : 0 ≤ t.Gc) (st : UepiState ℝ) {dt : ℝ}
    (hdt : 0 < dt) (x : Fin 2 → ℝ) (h0 : 0 ≤ x 0) (hk : x 0 = 0 ∨ Real.exp (x 1) ≠ pr.pRef) :
    HasFDerivAt (fun y => (uepiResiduals realFns pr t st dt y).res) (Spec.linear (jacfwd realAd (uepiProg realFns pr t st dt) x)) x := by
  have hden : (uepiDenProg t).eval realAd x ≠ 0 := by rw [uepiDenProg_eval]; positivity
  have hq : Spec.Exact x (.mul (.const (max t.qTr (1 / 10 ^ 6))) (.div (.const 1) (uepiDenProg t))) :=
    exact_mul (exact_const _) (exact_div (exact_const _) (exact_add (exact_const _) (exact_mul (exact_const _) (exact_var _))) hden)
  have hr : Spec.Exact x (.mul (.div (.mul (.mul (.const 2) (.var 0)) (.mul (.const (max t.qTr (1 / 10 ^ 6)))
      (.div (.const 1) (uepiDenProg t)))) (.const dt)) (.const pr.d)) :=
    exact_mul (exact_div (exact_mul (exact_mul (exact_const _) (exact_var _)) hq) (exact_const _) hdt.ne') (exact_const _)
  have hm : ∀ u, (1 : ℝ) / 10 ^ 12 < max (Real.exp u) pr.pRef := fun u =>
    lt_max_of_lt_right (lt_of_lt_of_le (by norm_num) h.pRef)
  have hI : Spec.Exact x (uepiIProg pr t dt) := by
    rcases hk with e | e
    · refine exact_mul_zero hr (by simp [Ex.eval, e]) ?_
      simp only [Ex.eval, realAd_sqrt, realAd_div, realAd_max, realAd_exp]
      have hc : ContinuousAt (fun y : Fin 2 → ℝ => max (max (Real.exp (y 1)) pr.pRef) (1 / 10 ^ 12)) x :=
        Continuous.continuousAt (by fun_prop)
      exact Real.continuous_sqrt.continuousAt.comp (ContinuousAt.div continuousAt_const hc
        (lt_max_of_lt_right (by norm_num)).ne')
    · refine exact_mul hr (exact_sqrt (exact_div (exact_const _) (exact_max (exact_max (exact_exp (exact_var _)) (exact_const _) e)
        (exact_const _) (hm _).ne') ?_) ?_)
      · exact (lt_max_of_lt_right (show (0 : ℝ) < 1 / 10 ^ 12 by norm_num)).ne'
      · exact div_pos h.rhoP (lt_max_of_lt_right (show (0 : ℝ) < 1 / 10 ^ 12 by norm_num))
  have hI0 : 0 ≤ (uepiIProg pr t dt).eval realAd x := by
    have h1 : 0 ≤ (uepiDenProg t).eval realAd x := by rw [uepiDenProg_eval]; positivity
    have h2 : 0 ≤ max t.qTr (1 / 10 ^ 6) := le_max_of_le_right (by norm_num)
    have := h.d
    simp only [uepiIProg, Ex.eval, realAd_mul, realAd_div, realAd_sqrt]
    positivity
  have hpv : Spec.Exact x (uepiDpvProg realFns pr t st dt) :=
    exact_sub (exact_mul (exact_const _) (exact_sub (exact_var _) (exact_const _)))
      (exact_div (exact_sub hI (exact_const _)) (exact_const _) h.Iv.ne')
  have hp : Spec.Exact x (.mul (.const (max t.pPrev 1)) (.exp (.div (.sub (.const t.deV) (uepiDpvProg realFns pr t st dt)) (.const pr.kap)))) :=
    exact_mul (exact_const _) (exact_exp (exact_div (exact_sub (exact_const _) hpv) (exact_const _) h.kap.ne'))
  have hden2 : (Ex.add (.const pr.IM) (uepiIProg pr t dt)).eval realAd x ≠ 0 := by
    have := h.IM
    simp only [Ex.eval, realAd_add]
    positivity
  have hMI : Spec.Exact x (.mul (.const pr.Mcsl) (.add (.const 1) (.mul (uepiIProg pr t dt)
      (.div (.const (pr.Minf / pr.Mcsl - 1)) (.add (.const pr.IM) (uepiIProg pr t dt)))))) :=
    exact_mul (exact_const _) (exact_add (exact_const _) (exact_mul hI (exact_div (exact_const _) (exact_add (exact_const _) hI) hden2)))
  have hMI0 : 0 < (Ex.mul (.const pr.Mcsl) (.add (.const 1) (.mul (uepiIProg pr t dt)
      (.div (.const (pr.Minf / pr.Mcsl - 1)) (.add (.const pr.IM) (uepiIProg pr t dt)))))).eval realAd x := by
    have e1 := h.IM
    have e2 := h.Mcsl
    have e3 : 0 ≤ pr.Minf / pr.Mcsl - 1 := by
      rw [sub_nonneg, one_le_div e2]; exact h.Minf
    simp only [Ex.eval, realAd_add, realAd_mul, realAd_div]
    have : 0 ≤ (uepiIProg pr t dt).eval realAd x * ((pr.Minf / pr.Mcsl - 1) / (pr.IM + (uepiIProg pr t dt).eval realAd x)) :=
      mul_nonneg hI0 (div_nonneg e3 (by positivity))
    positivity
  have hps : Spec.Exact x (.exp (.var (1 : Fin 2))) := exact_exp (exact_var _)
  have key := jacfwd_exact (x := x) (f := uepiProg realFns pr t st dt) (fun i => by
    fin_cases i
    · exact exact_sub (exact_add (exact_div (exact_mul hq hq) (exact_mul hMI hMI) (mul_pos hMI0 hMI0).ne') (exact_mul hp hp))
        (exact_mul (exact_mul hps (exact_const _)) hp)
    · exact exact_mul (exact_sub (exact_mul (exact_mul (exact_var _) (exact_mul (exact_const _) (exact_sub hp hps))) (exact_const _)) hpv)
        (exact_const _))
  refine key.congr_of_eventuallyEq (Filter.Eventually.of_forall fun y => ?_)
  exact (uepiProg_eval pr t st dt y).symm

/-! ### Kinks and clipped gradients -/

section
variable {ι : Type*} [Fintype ι]

/-- **C140**: at a tie of a maximum, forward mode returns the mean of the derivatives to either side. -/
theorem ad_max_tie {a b : Ex ℝ ι} {x : ι → ℝ} (ha : Spec.Exact x a) (hb : Spec.Exact x b) (h : a.eval realAd x = b.eval realAd x)
    (v : ι → ℝ) : ∃ l r, HasDerivWithinAt (fun s : ℝ => (Ex.max a b).eval realAd (x + s • v)) l (Set.Iic 0) 0 ∧
      HasDerivWithinAt (fun s : ℝ => (Ex.max a b).eval realAd (x + s • v)) r (Set.Ici 0) 0 ∧
      (Ex.max a b).tan realAd x v = (l + r) / 2 := by
  obtain ⟨A, hA, eA⟩ := ha
  obtain ⟨B, hB, eB⟩ := hb
  have hline : HasDerivAt (fun s : ℝ => x + s • v) v 0 := by
    simpa using ((hasDerivAt_id (0 : ℝ)).smul_const v).const_add x
  have hA' : HasFDerivAt (fun y => a.eval realAd y) A (x + (0 : ℝ) • v) := by simpa using hA
  have hB' : HasFDerivAt (fun y => b.eval realAd y) B (x + (0 : ℝ) • v) := by simpa using hB
  have dA : HasDerivAt (fun s : ℝ => a.eval realAd (x + s • v)) (A v) 0 := HasFDerivAt.comp_hasDerivAt (l := fun y => a.eval realAd y) 0 hA' hline
  have dB : HasDerivAt (fun s : ℝ => b.eval realAd (x + s • v)) (B v) 0 := HasFDerivAt.comp_hasDerivAt (l := fun y => b.eval realAd y) 0 hB' hline
  have e0 : (fun s : ℝ => a.eval realAd (x + s • v)) 0 = (fun s : ℝ => b.eval realAd (x + s • v)) 0 := by simpa using h
  refine ⟨min (A v) (B v), max (A v) (B v), ?_, ?_, ?_⟩
  · exact max_deriv_left dA dB e0
  · exact max_deriv_right dA dB e0
  · simp only [Ex.tan, realAd_bal, realAd_add, realAd_mul, realAd_max, h, max_self, if_true, ← eA, ← eB]
    rw [min_add_max]
    ring

theorem safeInv_ds (d : ℝ) : d + 1 / 10 ^ 20 * (if d ≥ 0 then 1 else -1) = Spec.regularised d := by
  unfold Spec.regularised
  by_cases h : 0 ≤ d
  · rw [if_pos h, if_pos h, mul_one]
  · rw [if_neg h, if_neg h]; ring

omit [Fintype ι] in
/-- The program of the robust inverse computes the value of the model. -/
theorem safeInvProg_eval (clip : ℝ) (d : Ex ℝ ι) (x : ι → ℝ) :
    (safeInvProg clip d).eval realAd x = safeInv clip (d.eval realAd x) := by
  have hs : |-1 / ((d.eval realAd x + 1 / 10 ^ 20 * (if d.eval realAd x ≥ 0 then 1 else -1)) *
      (d.eval realAd x + 1 / 10 ^ 20 * (if d.eval realAd x ≥ 0 then 1 else -1)))| =
      -(-1 / ((d.eval realAd x + 1 / 10 ^ 20 * (if d.eval realAd x ≥ 0 then 1 else -1)) *
      (d.eval realAd x + 1 / 10 ^ 20 * (if d.eval realAd x ≥ 0 then 1 else -1)))) :=
    abs_of_nonpos (div_nonpos_of_nonpos_of_nonneg (by norm_num) (mul_self_nonneg _))
  simp only [safeInvProg, Ex.eval, safeInv, realAd_add, realAd_mul, realAd_sub, realAd_div, realAd_neg, realAd_min, realAd_ge, hs, ge_iff_le]

omit [Fintype ι] in
/-- The slope of the robust inverse. -/
theorem safeInvProg_tan (clip : ℝ) (d : Ex ℝ ι) (x v : ι → ℝ) :
    (safeInvProg clip d).tan realAd x v = d.tan realAd x v *
      (-1 / Spec.regularised (d.eval realAd x) ^ 2 * min 1 (clip / (1 / Spec.regularised (d.eval realAd x) ^ 2 + 1 / 10 ^ 12))) := by
  simp only [safeInvProg, Ex.tan, Ex.eval, realAd_add, realAd_mul, realAd_div, realAd_neg, realAd_min, realAd_ge,
    realAd_zero, ← ge_iff_le, safeInv_ds]
  rw [show -(-1 / (Spec.regularised (d.eval realAd x) * Spec.regularised (d.eval realAd x))) =
    1 / Spec.regularised (d.eval realAd x) ^ 2 by ring]
  ring

omit [Fintype ι] in
/-- **C140**: the derivative of the robust inverse of a scalar, in forward mode, is never larger than the clip times the
derivative of its argument. -/
theorem safe_inv_clipped {clip : ℝ} (hc : 0 ≤ clip) (d : Ex ℝ ι) (x v : ι → ℝ) :
    |(safeInvProg clip d).tan realAd x v| ≤ clip * |d.tan realAd x v| := by
  rw [safeInvProg_tan, abs_mul, mul_comm]
  refine mul_le_mul_of_nonneg_right ?_ (abs_nonneg _)
  set r := Spec.regularised (d.eval realAd x) with hr
  have hr0 : 0 < r ^ 2 := by have := regularised_ne (d.eval realAd x); positivity
  have h1 : 0 ≤ min 1 (clip / (1 / r ^ 2 + 1 / 10 ^ 12)) := le_min (by norm_num) (by positivity)
  rw [abs_mul, abs_of_nonneg h1, neg_div, abs_neg, abs_of_nonneg (by positivity)]
  calc _ ≤ 1 / r ^ 2 * (clip / (1 / r ^ 2 + 1 / 10 ^ 12)) := by gcongr; exact min_le_right _ _
    _ = clip * ((1 / r ^ 2) / (1 / r ^ 2 + 1 / 10 ^ 12)) := by ring
    _ ≤ clip * 1 := by
      gcongr
      rw [div_le_one (by positivity)]
      have : (0 : ℝ) < 1 / 10 ^ 12 := by norm_num
      linarith
    _ = clip := mul_one _

/-- **C140**: it is the derivative where that does not exceed the clip; for the clip `10⁶` of the code, where the argument is at
least `1.0001·10⁻³` in size. -/
theorem safe_inv_exact {clip : ℝ} {d : Ex ℝ ι} {x : ι → ℝ} (hd : Spec.Exact x d) (h0 : d.eval realAd x ≠ 0)
    (hc : 1 / Spec.regularised (d.eval realAd x) ^ 2 + 1 / 10 ^ 12 ≤ clip) : Spec.Exact x (safeInvProg clip d) := by
  have hex : Spec.Exact x (.div (.const 1) (.add d (.mul (.const (1 / 10 ^ 20)) (.sel d (.const 0) (.const 1) (.const (-1)))))) := by
    refine exact_div (exact_const _) (exact_add hd (exact_mul (exact_const _)
      (exact_sel hd (exact_const _) (exact_const _) (exact_const _) h0))) ?_
    simp only [Ex.eval, realAd_add, realAd_mul, realAd_ge, ← ge_iff_le, safeInv_ds]
    exact regularised_ne _
  obtain ⟨D, hD, eD⟩ := hex
  refine ⟨D, hD.congr_of_eventuallyEq (Filter.Eventually.of_forall fun y => ?_), fun v => ?_⟩
  · simp only [safeInvProg_eval, (safeInv_value clip _).1]
    simp only [Ex.eval, realAd_div, realAd_add, realAd_mul, realAd_ge, ← ge_iff_le, safeInv_ds]
  · have hr := regularised_ne (d.eval realAd x)
    rw [eD, safeInvProg_tan, min_eq_left ((one_le_div (by positivity)).mpr hc)]
    simp only [Ex.eval, Ex.tan, realAd_div, realAd_add, realAd_mul, realAd_ge, realAd_neg, realAd_zero, realAd_one, ← ge_iff_le, safeInv_ds,
      ite_self]
    ring

theorem safe_inv_exact_code {d : Ex ℝ ι} {x : ι → ℝ} (hd : Spec.Exact x d) (h : 10001 / 10 ^ 7 ≤ |d.eval realAd x|) :
    Spec.Exact x (safeInvProg (10 ^ 6) d) := by
  have h0 : d.eval realAd x ≠ 0 := fun e => by rw [e, abs_zero] at h; norm_num at h
  refine safe_inv_exact hd h0 ?_
  have h1 : (10001 / 10 ^ 7 : ℝ) ^ 2 ≤ Spec.regularised (d.eval realAd x) ^ 2 := by
    rw [← sq_abs (Spec.regularised _)]
    refine pow_le_pow_left₀ (by norm_num) (h.trans ?_) 2
    unfold Spec.regularised
    split_ifs with hs
    · rw [abs_of_nonneg hs, abs_of_nonneg (by positivity)]
      linarith [show (0 : ℝ) < 1 / 10 ^ 20 by norm_num]
    · have hn := not_le.mp hs
      rw [abs_of_neg hn, abs_of_neg (by linarith [show (0 : ℝ) < 1 / 10 ^ 20 by norm_num])]
      linarith [show (0 : ℝ) < 1 / 10 ^ 20 by norm_num]
  calc _ ≤ 1 / (10001 / 10 ^ 7 : ℝ) ^ 2 + 1 / 10 ^ 12 := by gcongr
    _ ≤ 10 ^ 6 := by norm_num

end

/-! ### Examples -/

/-- `√(a² + b)` at `(3, 16)`. -/
example := ad_forward_exact (Ex.sqrt (.add (.mul (.var 0) (.var 0)) (.var 1))) (![3, 16] : Fin 2 → ℝ)
  (by simp [Spec.SmoothProg, Ex.eval]; norm_num)
example : adGrad realAd (Ex.sqrt (.add (.mul (.var 0) (.var 0)) (.var 1))) (![3, 16] : Fin 2 → ℝ) = ![3 / 5, 1 / 10] := by
  have h : √(3 * 3 + 16 : ℝ) = 5 := by rw [show (3 * 3 + 16 : ℝ) = 5 ^ 2 by norm_num, Real.sqrt_sq (by norm_num)]
  ext i
  fin_cases i <;> simp [adGrad, Ex.cot, Ex.eval, h] <;> norm_num
example := ad_grad_exact (Ex.max (.mul (.var 0) (.var 1)) (.const 7)) (![3, 16] : Fin 2 → ℝ) (by simp [Spec.SmoothProg, Ex.eval]; norm_num)

/-- A tie: `max(a, 0)` at zero has the slope one half. -/
example := ad_max_tie (x := fun _ : Fin 1 => (0 : ℝ)) (exact_var 0) (exact_const 0) rfl (fun _ => 1)

example := safe_inv_exact_code (x := fun _ : Fin 1 => (2 : ℝ)) (exact_var 0) (by simp [Ex.eval]; norm_num)
example := safe_inv_clipped (clip := 10 ^ 6) (by norm_num) (Ex.var 0) (fun _ : Fin 1 => (1 / 10 ^ 9 : ℝ)) (fun _ => 1)

/-- The first Jacobian and one at a positive multiplier of a yielding step. -/
noncomputable def exAdTrial : MCCTrial ℝ :=
  { deps := 0, epsERot := 0, p0 := 100, s0 := 0, pPrev := 100, deV := 0, pTr := 100, KTr := 10000, sTr := 0, qTr := 80, yf := 1 }

example := mcc_jacfwd_exact exMCC_clay exAdTrial (by norm_num [exAdTrial]) 125 ![0, Real.log 125] le_rfl (Or.inl rfl)
example := mcc_jacfwd_exact exMCC_clay exAdTrial (by norm_num [exAdTrial]) 125 ![1 / 10000, Real.log 125]
  (by simp) (Or.inr (by
    have : (mccResiduals realFns exMCC exAdTrial 125 ![1 / 10000, Real.log 125]).p = 100 := by
      simp [mccResiduals, exAdTrial, mccPressure]
    rw [this]
    simp [Spec.AtKink, exMCC]))

theorem exShear_G : (uepiTrial realFns exUepi exShearL exUepiSt (isoT 2000) 1).Gc = 24000 := by
  have h1 : (uepiTrial realFns exUepi exShearL exUepiSt (isoT 2000) 1).Gc = 3 * (1 - 2 * exUepi.nu) / (2 * (1 + exUepi.nu)) *
      (1 / 2 * ((uepiTrial realFns exUepi exShearL exUepiSt (isoT 2000) 1).pPrev +
        (uepiTrial realFns exUepi exShearL exUepiSt (isoT 2000) 1).pTr) / exUepi.kap) := rfl
  rw [h1, uepiTrial_pPrev, uepiTrial_pTr, exUepiSt_mean, exShear_inc, exShear_trace, zero_div, Real.exp_zero]
  norm_num [exUepi]

/-- A size parameter at the reference pressure, as at the start of the test, and away from it. -/
example := uepi_jacfwd_exact exUepi_good (uepiTrial realFns exUepi exShearL exUepiSt (isoT 2000) 1)
  (by rw [exShear_G]; norm_num) exUepiSt one_pos ![0, Real.log 1000] le_rfl (Or.inl rfl)
example := uepi_jacfwd_exact exUepi_good (uepiTrial realFns exUepi exShearL exUepiSt (isoT 2000) 1)
  (by rw [exShear_G]; norm_num) exUepiSt one_pos ![1 / 10 ^ 6, Real.log 1500] (by simp) (Or.inr (by
    simp only [Matrix.cons_val_one, Matrix.cons_val_fin_one]
    rw [Real.exp_log (by norm_num)]
    norm_num [exUepi]))

/-- The loop with the Jacobians of `jax.jacfwd` for the triaxial step of `exTriax_solution`. -/
example : ∃ rho, 0 < rho ∧ ∀ x, ‖x - ![1 / 10000, Real.log 125]‖ ≤ rho → ∀ n,
    ‖mccNewton (mccAdOps realFns exMCC (mccTrial realFns exMCC exTriaxL 0 (isoT (100 * Real.exp (-(3 / 4))))
          (125 * Real.exp (-(3 / 4))) (isoT 100) 1) (125 * Real.exp (-(3 / 4))) fun _ => false)
        (fun x => (mccResiduals realFns exMCC (mccTrial realFns exMCC exTriaxL 0
        (isoT (100 * Real.exp (-(3 / 4)))) (125 * Real.exp (-(3 / 4))) (isoT 100) 1) (125 * Real.exp (-(3 / 4))) x).res) n x -
      ![1 / 10000, Real.log 125]‖ ≤ (3 / 10) ^ n * ‖x - ![1 / 10000, Real.log 125]‖ := by
  obtain ⟨hp, hpc, hs⟩ := exTriax_solution
  have hE0 := Real.exp_pos (-(3 / 4) : ℝ)
  have h1 : 1 < Real.exp (3 / 4 : ℝ) := Real.one_lt_exp_iff.mpr (by norm_num)
  have hE1 : Real.exp (-(3 / 4) : ℝ) < 1 := by
    rw [← Real.exp_zero]; exact Real.exp_lt_exp.mpr (by norm_num)
  have hE2 : (1 : ℝ) / 100 ≤ Real.exp (-(3 / 4) : ℝ) := by
    have := Real.add_one_le_exp (-(3 / 4) : ℝ); linarith
  have hm : Spec.meanStress (Spec.mccTrialStress exMCC exTriaxL (isoT (100 * Real.exp (-(3 / 4)))) 1) = 100 * Real.exp (3 / 4) := by
    rw [mccTrialStress_mean, exTriax_trace, meanStress_isoT, exTriax_exp]
  have he3 : Real.exp (3 / 4 : ℝ) ≤ 3 := by
    have h2 : Real.exp (3 / 4 : ℝ) ≤ Real.exp 1 := Real.exp_le_exp.mpr (by norm_num)
    linarith [Real.exp_one_lt_d9]
  have key := mcc_newton_ad_reaches_partial exMCC_clay rfl rfl exTriaxL 0 (isoT (100 * Real.exp (-(3 / 4)))) (isoT 100) 1
    (by rw [meanStress_isoT]; simp only [exMCC]; linarith)
    (by
      rw [Spec.mccF, hm, exTriax_q]
      simp only [exMCC]
      nlinarith)
    (pc := 125 * Real.exp (-(3 / 4))) (by positivity)
    (by rw [meanStress_isoT]; positivity) (by rw [hm]; linarith) (by norm_num) hs (by rw [hp]; norm_num) (by rw [hpc]; norm_num)
    (by
      rw [hp, hpc, hm]
      simp only [Spec.mccBulk, exMCC, Option.elim, id]
      simp only [max_eq_left (show (1 : ℝ) ≤ 100 * Real.exp (3 / 4) by linarith)]
      norm_num
      linarith)
  rw [hpc] at key
  exact key

end Hydrax
