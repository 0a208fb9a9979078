import Verif.Props.Steady
import Mathlib.Analysis.SpecialFunctions.Sqrt

/-!
# Property C132: the figures of the theory show the law
-/

set_option linter.unusedVariables false
set_option linter.unusedSectionVars false

namespace Hydrax

/-! ### Specification -/

/-- The arrow `a` at the point `(p, q p)` of the curve `q` is normal to the curve. -/
def Spec.NormalAt (q : ℝ → ℝ) (p : ℝ) (a : ℝ × ℝ) : Prop := ∃ q', HasDerivAt q q' p ∧ a.1 * 1 + a.2 * q' = 0

/-- A yield surface in the `(p, q)` plane: the upper half of the ellipse through `0` and `2 ps` with its apex on the line of slope `M`. -/
def Spec.UpperEllipse (M ps p q : ℝ) : Prop := 0 ≤ q ∧ (q / M) ^ 2 + (p - ps) ^ 2 = ps ^ 2

/-! ### The curves -/

theorem sqrt_curve {ps p : ℝ} (hp : 0 < p) : Real.sqrt (2 * (ps / p) - 1) * p = Real.sqrt ((2 * ps - p) * p) := by
  rw [show (2 * ps - p) * p = (2 * (ps / p) - 1) * p ^ 2 by field_simp, Real.sqrt_mul' _ (sq_nonneg p), Real.sqrt_sq hp.le]

theorem ellipse_iff {M ps p q : ℝ} (hM : 0 < M) (hp : 0 < p) (hps : p ≤ 2 * ps) :
    Spec.UpperEllipse M ps p q ↔ q = M * (Real.sqrt (2 * (ps / p) - 1) * p) := by
  have hn : 0 ≤ (2 * ps - p) * p := mul_nonneg (by linarith) hp.le
  rw [sqrt_curve hp]
  constructor
  · rintro ⟨h0, h1⟩
    have h2 : (q / M) ^ 2 = (2 * ps - p) * p := by linarith
    rw [← h2, Real.sqrt_sq (div_nonneg h0 hM.le)]
    field_simp
  · rintro rfl
    refine ⟨mul_nonneg hM.le (Real.sqrt_nonneg _), ?_⟩
    rw [mul_div_cancel_left₀ _ hM.ne', Real.sq_sqrt hn]
    ring

/-- **C132**: every yield surface of the figures is the yield surface of the law: at rest (`theory_ys_plot`, `theory_I_ys_plot`
and the initial one of the results), with inertial friction, with inertial dilation, and at the end of a test. -/
theorem fig_surfaces {pr : UepiParams ℝ} (h : pr.Good) {I ps p q : ℝ} (hI : 0 ≤ I) (hp : 0 < p) (hps : p ≤ 2 * ps) :
    (q = figYs realFns pr.Mcsl ps p ↔ Spec.UpperEllipse pr.Mcsl ps p q) ∧
    (q = figRi realFns pr.Mcsl ps p ↔ Spec.UpperEllipse pr.Mcsl ps p q) ∧
    (q = figSsf realFns pr.Mcsl pr.Minf pr.IM I ps p ↔
      Spec.UpperEllipse (pr.Mcsl * Spec.inertialStrength pr.IM pr.Mcsl pr.Minf I) ps p q) ∧
    (q = figSsd realFns pr.Mcsl pr.Iv I ps p ↔ Spec.UpperEllipse pr.Mcsl (ps * Real.exp (I / pr.Iv)) p q) ∧
    (q = figIys realFns pr ps I p ↔ Spec.UpperEllipse (pr.Mcsl * Spec.inertialStrength pr.IM pr.Mcsl pr.Minf I) ps p q) ∧
    (∀ ocr confine, 2 * ps = ocr * confine → (q = figInitYs realFns pr ocr confine p ↔ Spec.UpperEllipse pr.Mcsl ps p q)) := by
  have hM := h.Mcsl
  have hm : 0 < Spec.inertialStrength pr.IM pr.Mcsl pr.Minf I := by linarith [(strength_bounds hI h.IM hM h.Minf).1]
  have hA := mul_pos hM hm
  have hps0 : 0 < ps := by linarith
  have hexp : 1 ≤ Real.exp (I / pr.Iv) := Real.one_le_exp (div_nonneg hI h.Iv.le)
  have hps' : p ≤ 2 * (ps * Real.exp (I / pr.Iv)) := by nlinarith
  have e0 : uMI 0 pr.IM pr.Mcsl pr.Minf = 1 := by unfold uMI; ring
  rw [ellipse_iff hM hp hps, ellipse_iff hA hp hps, ellipse_iff hM hp hps']
  refine ⟨?_, ?_, ?_, ?_, ?_, ?_⟩
  · unfold figYs uMccM uMXi uXi; simp only [realFns_sqrt]; rw [mul_assoc]
  · unfold figRi uMXi uXi; simp only [realFns_sqrt]; rw [mul_assoc]
  · unfold figSsf uMXi uXi; simp only [realFns_sqrt]; rw [uMI_spec hI h.IM]
    constructor <;> rintro rfl <;> ring
  · unfold figSsd uMXi uXi uPsI; simp only [realFns_sqrt, realFns_exp]; rw [mul_assoc]
  · unfold figIys uUnifiedM uMXi; simp only [realFns_sqrt]; rw [uMI_spec hI h.IM]
    constructor <;> rintro rfl <;> ring
  · intro ocr confine he
    unfold figInitYs uUnifiedM uMXi; simp only [realFns_sqrt]
    rw [e0, ← he, show 2 * ps / 2 / p = ps / p by ring, mul_one, mul_assoc]

/-- **C132**, the initial surface belongs to the initial state: it is that of the state `create_state_from_ocr` returns, which lies
inside of it, and on it if normally consolidated. -/
theorem fig_initial {pr : UepiParams ℝ} (h : pr.Good) {confine ocr : ℝ} (hc : 0 < confine) (ho : 1 ≤ ocr) :
    let st := (uepiFromOcr realFns pr confine ocr none).st
    (∀ p q, 0 < p → p ≤ ocr * confine → (q = figInitYs realFns pr ocr confine p ↔ 0 ≤ q ∧ uYield p st.ps q pr.Mcsl 1 = 0)) ∧
    Spec.qVM st.stress ≤ figInitYs realFns pr ocr confine (Spec.meanStress st.stress) ∧
    (Spec.qVM st.stress = figInitYs realFns pr ocr confine (Spec.meanStress st.stress) ↔ ocr = 1) := by
  intro st
  have hM := h.Mcsl
  have hps : st.ps = confine * ocr / 2 := rfl
  have h2 : 2 * st.ps = ocr * confine := by rw [hps]; ring
  have hmean : Spec.meanStress st.stress = confine := triaxial_mean _ _
  have hq : Spec.qVM st.stress = 0 := by
    have := triaxial_qVM confine 0
    rw [abs_zero] at this
    exact this
  have hval : figInitYs realFns pr ocr confine confine = pr.Mcsl * (Real.sqrt (ocr - 1) * confine) := by
    have e0 : uMI 0 pr.IM pr.Mcsl pr.Minf = 1 := by unfold uMI; ring
    unfold figInitYs uUnifiedM uMXi
    simp only [realFns_sqrt]
    rw [e0, show 2 * (ocr * confine / 2 / confine) - 1 = ocr - 1 by field_simp]
    ring
  refine ⟨fun p q hp hle => ?_, ?_, ?_⟩
  · have := (fig_surfaces h (I := 0) (ps := st.ps) (q := q) le_rfl hp (by linarith)).2.2.2.2.2 ocr confine h2
    rw [this]
    unfold Spec.UpperEllipse uYield
    refine and_congr_right fun _ => ?_
    have e : q * q / (pr.Mcsl * 1 * (pr.Mcsl * 1)) = (q / pr.Mcsl) ^ 2 := by field_simp
    simp only
    rw [e]
    constructor <;> intro h3 <;> linarith
  · rw [hq, hmean, hval]
    positivity
  · rw [hq, hmean, hval]
    constructor
    · intro h0
      have h1 : Real.sqrt (ocr - 1) = 0 := by
        rcases mul_eq_zero.mp h0.symm with h3 | h3
        · exact absurd h3 hM.ne'
        · exact (mul_eq_zero.mp h3).resolve_right hc.ne'
      have := (Real.sqrt_eq_zero (by linarith)).mp h1
      linarith
    · rintro rfl
      rw [sub_self, Real.sqrt_zero, zero_mul, mul_zero]

/-! ### The arrows -/

theorem curve_deriv {M ps p : ℝ} (hp : 0 < p) (hps : p < 2 * ps) :
    HasDerivAt (fun x => M * (Real.sqrt (2 * (ps / x) - 1) * x)) (M * ((ps - p) / Real.sqrt ((2 * ps - p) * p))) p := by
  have hn : 0 < (2 * ps - p) * p := mul_pos (by linarith) hp
  have h1 : HasDerivAt (fun x : ℝ => (2 * ps - x) * x) (2 * ps - p - p) p := by
    have := ((hasDerivAt_id p).const_sub (2 * ps)).mul (hasDerivAt_id p)
    refine this.congr_deriv ?_
    simp; ring
  have h2 := (h1.sqrt hn.ne').const_mul M
  have h3 : HasDerivAt (fun x => M * Real.sqrt ((2 * ps - x) * x)) (M * ((ps - p) / Real.sqrt ((2 * ps - p) * p))) p := by
    refine h2.congr_deriv ?_
    have := (Real.sqrt_pos.mpr hn).ne'
    field_simp
    ring
  refine h3.congr_of_eventuallyEq ?_
  filter_upwards [lt_mem_nhds hp] with x hx
  rw [sqrt_curve hx]

theorem arrow_dot {Mcsl m ps p pm : ℝ} (hM : 0 < Mcsl) (hm : 0 < m) (hp : 0 < p) (hps : p < 2 * ps) :
    (figArrow p (uXi ps p) (Mcsl * m * (Real.sqrt (2 * (ps / p) - 1) * p)) Mcsl pm).1 * 1 +
      (figArrow p (uXi ps p) (Mcsl * m * (Real.sqrt (2 * (ps / p) - 1) * p)) Mcsl pm).2 *
        (Mcsl * m * ((ps - p) / Real.sqrt ((2 * ps - p) * p))) = 2 * pm / ps ^ 2 * ((p - ps) * (1 - m ^ 2)) := by
  have hn : 0 < (2 * ps - p) * p := mul_pos (by linarith) hp
  have hps0 : 0 < ps := by linarith
  have hs := Real.sqrt_pos.mpr hn
  unfold figArrow uDepsVP uDepsSP uXi
  simp only
  rw [sqrt_curve hp, mul_assoc Mcsl p, mul_div_cancel₀ ps hp.ne']
  generalize Real.sqrt ((2 * ps - p) * p) = w at hs ⊢
  have hw := hs.ne'
  field_simp
  ring

/-- **C132**, the arrows: at rest and with inertial dilation the arrow is normal to the drawn surface and points outwards (it is plastic
flow with a positive shear, compressive right of the apex and dilatant left of it). -/
theorem fig_arrow_normal {Mcsl Iv I ps p pm : ℝ} (hM : 0 < Mcsl) (hI : 0 ≤ I) (hIv : 0 < Iv) (hp : 0 < p) (hps : p < 2 * ps)
    (hpm : 0 < pm) :
    (∀ ps', ps ≤ ps' → (0 < (figArrow p (uXi ps' p) (figRi realFns Mcsl ps' p) Mcsl pm).2) ∧
      (0 < (figArrow p (uXi ps' p) (figRi realFns Mcsl ps' p) Mcsl pm).1 ↔ ps' < p)) ∧
    Spec.NormalAt (figRi realFns Mcsl ps) p (figArrow p (uXi ps p) (figRi realFns Mcsl ps p) Mcsl pm) ∧
    Spec.NormalAt (figSsd realFns Mcsl Iv I ps) p
      (figArrow p (uXi (uPsI realFns ps I Iv) p) (figSsd realFns Mcsl Iv I ps p) Mcsl pm) := by
  have hps0 : 0 < ps := by linarith
  have key : ∀ ps', p < 2 * ps' → Spec.NormalAt (figRi realFns Mcsl ps') p
      (figArrow p (uXi ps' p) (figRi realFns Mcsl ps' p) Mcsl pm) := by
    intro ps' h'
    have e : figRi realFns Mcsl ps' = fun x => Mcsl * 1 * (Real.sqrt (2 * (ps' / x) - 1) * x) := by
      funext x
      unfold figRi uMXi uXi
      simp only [realFns_sqrt]
      ring
    rw [e]
    refine ⟨_, curve_deriv hp h', ?_⟩
    simp only
    rw [arrow_dot hM one_pos hp h']
    ring
  have hexp : 1 ≤ Real.exp (I / Iv) := Real.one_le_exp (div_nonneg hI hIv.le)
  refine ⟨fun ps' hle => ?_, key ps hps, ?_⟩
  · have hps' : 0 < ps' := by linarith
    have hq : 0 < figRi realFns Mcsl ps' p := by
      unfold figRi uMXi uXi
      simp only [realFns_sqrt]
      have h1 : 0 < 2 * (ps' / p) - 1 := by
        rw [sub_pos, ← mul_div_assoc, lt_div_iff₀ hp]; linarith
      have := Real.sqrt_pos.mpr h1
      positivity
    have hx : p * uXi ps' p = ps' := mul_div_cancel₀ ps' hp.ne'
    constructor
    · unfold figArrow uDepsSP
      simp only
      rw [mul_assoc Mcsl p, hx]
      positivity
    · unfold figArrow uDepsVP
      simp only
      rw [hx]
      constructor
      · intro h0
        by_contra hn
        have h1 : 2 * (p - ps') / ps' ^ 2 ≤ 0 := div_nonpos_of_nonpos_of_nonneg (by linarith) (by positivity)
        linarith [mul_nonpos_of_nonneg_of_nonpos hpm.le h1]
      · intro h0
        exact mul_pos hpm (div_pos (by linarith) (by positivity))
  · have h1 := key (uPsI realFns ps I Iv) (by unfold uPsI; simp only [realFns_exp]; nlinarith)
    exact h1

/-- **C132**: with inertial friction the arrow, which is the flow of the law, is not normal to the surface, except at the apex. (The
script draws no right-angle marker there.) -/
theorem fig_arrow_friction {pr : UepiParams ℝ} (h : pr.Good) (hinf : pr.Mcsl < pr.Minf) {I ps p pm : ℝ} (hI : 0 < I) (hp : 0 < p)
    (hps : p < 2 * ps) (hpm : 0 < pm) :
    Spec.NormalAt (figSsf realFns pr.Mcsl pr.Minf pr.IM I ps) p
      (figArrow p (uXi ps p) (figSsf realFns pr.Mcsl pr.Minf pr.IM I ps p) pr.Mcsl pm) ↔ p = ps := by
  have hM := h.Mcsl
  have hps0 : 0 < ps := by linarith
  set m := uMI I pr.IM pr.Mcsl pr.Minf with hmd
  have hm : 1 < m := by
    have h1 : 1 < pr.Minf / pr.Mcsl := (one_lt_div hM).mpr hinf
    have h2 : 0 < pr.IM + I := add_pos h.IM hI
    rw [hmd, uMI]
    have : 0 < I * ((pr.Minf / pr.Mcsl - 1) / (pr.IM + I)) := mul_pos hI (div_pos (by linarith) h2)
    linarith
  have e : figSsf realFns pr.Mcsl pr.Minf pr.IM I ps = fun x => pr.Mcsl * m * (Real.sqrt (2 * (ps / x) - 1) * x) := by
    funext x
    unfold figSsf uMXi uXi
    simp only [realFns_sqrt]
    ring
  rw [e]
  have hd := curve_deriv (M := pr.Mcsl * m) hp hps
  have ha := arrow_dot (pm := pm) hM (by linarith : 0 < m) hp hps
  constructor
  · rintro ⟨q', hq', h0⟩
    rw [hq'.unique hd] at h0
    simp only at h0
    rw [ha] at h0
    have h1 : 2 * pm / ps ^ 2 ≠ 0 := by positivity
    have h2 : 1 - m ^ 2 ≠ 0 := by nlinarith
    have h3 := (mul_eq_zero.mp ((mul_eq_zero.mp h0).resolve_left h1)).resolve_right h2
    linarith
  · intro hpe
    refine ⟨_, hd, ?_⟩
    simp only
    rw [ha, hpe]
    ring

/-! ### Lines in the bi-logarithmic plot -/

/-- **C132**, the lines of the `(p, v)` plots: `(p_ref, N)` and `(p_ref, Γ)` lie on the drawn lines, the swelling line joins the critical state
line at `p_s` to the compression line at `2 p_s`, and on logarithmic axes the lines are straight with slopes `-λ` and `-κ`. -/
theorem fig_lines {pr : UepiParams ℝ} (h : pr.Good) {ps p p' : ℝ} (hps : 0 < ps) (hp : 0 < p) (hp' : 0 < p') :
    uVNcl realFns pr.pRef pr.pRef (pr.N realFns) pr.lam = pr.N realFns ∧ uVCsl realFns pr.pRef pr.pRef pr.gamma pr.lam = pr.gamma ∧
    uMccSl realFns (uXi ps ps) ps pr.pRef pr.gamma pr.lam pr.kap = uVCsl realFns ps pr.pRef pr.gamma pr.lam ∧
    uMccSl realFns (uXi ps (2 * ps)) ps pr.pRef pr.gamma pr.lam pr.kap =
      uVNcl realFns (2 * ps) pr.pRef (uConvertGammaN realFns pr.gamma pr.lam pr.kap) pr.lam ∧
    Real.log (uVCsl realFns p' pr.pRef pr.gamma pr.lam) - Real.log (uVCsl realFns p pr.pRef pr.gamma pr.lam) =
      -pr.lam * (Real.log p' - Real.log p) ∧
    Real.log (uVNcl realFns p' pr.pRef (pr.N realFns) pr.lam) - Real.log (uVNcl realFns p pr.pRef (pr.N realFns) pr.lam) =
      -pr.lam * (Real.log p' - Real.log p) ∧
    Real.log (uMccSl realFns (uXi ps p') ps pr.pRef pr.gamma pr.lam pr.kap) -
      Real.log (uMccSl realFns (uXi ps p) ps pr.pRef pr.gamma pr.lam pr.kap) = -pr.kap * (Real.log p' - Real.log p) := by
  have hr := pRef_pos h
  have hg := h.gamma
  have h2 : (0 : ℝ) < 2 := by norm_num
  have hN : 0 < pr.N realFns := by
    unfold UepiParams.N
    simp only [realFns_pow]
    exact mul_pos hg (Real.rpow_pos_of_pos h2 _)
  have hlog : ∀ a x, 0 < a → 0 < x → Real.log (a * (pr.pRef / x) ^ pr.lam) = Real.log a + pr.lam * (Real.log pr.pRef - Real.log x) := by
    intro a x ha hx
    have h1 := div_pos hr hx
    rw [Real.log_mul ha.ne' (Real.rpow_pos_of_pos h1 _).ne', Real.log_rpow h1, Real.log_div hr.ne' hx.ne']
  have hsl : ∀ x, 0 < x → Real.log (uMccSl realFns (uXi ps x) ps pr.pRef pr.gamma pr.lam pr.kap) =
      Real.log pr.gamma + pr.lam * (Real.log pr.pRef - Real.log ps) + pr.kap * (Real.log ps - Real.log x) := by
    intro x hx
    unfold uMccSl uVCsl uVXi uXi
    simp only [realFns_pow]
    have h1 := div_pos hr hps
    have h3 := div_pos hps hx
    rw [Real.log_mul (mul_pos hg (Real.rpow_pos_of_pos h1 _)).ne' (Real.rpow_pos_of_pos h3 _).ne', hlog _ _ hg hps,
      Real.log_rpow h3, Real.log_div hps.ne' hx.ne']
  refine ⟨?_, ?_, (uepi_lines pr h hps hp).2.2.1, ?_, ?_, ?_, ?_⟩
  · unfold uVNcl; simp only [realFns_pow]; rw [div_self hr.ne', Real.one_rpow, mul_one]
  · unfold uVCsl; simp only [realFns_pow]; rw [div_self hr.ne', Real.one_rpow, mul_one]
  · unfold uMccSl uVCsl uVXi uXi uVNcl uConvertGammaN
    simp only [realFns_pow]
    have e1 : ps / (2 * ps) = (2 : ℝ)⁻¹ := by field_simp
    have e2 : pr.pRef / (2 * ps) = pr.pRef / ps * (2 : ℝ)⁻¹ := by field_simp
    rw [e1, e2, Real.mul_rpow (div_pos hr hps).le (by norm_num), Real.inv_rpow h2.le, Real.inv_rpow h2.le,
      show -(pr.kap - pr.lam) = pr.lam - pr.kap by ring, Real.rpow_sub h2]
    have a1 := (Real.rpow_pos_of_pos h2 pr.lam).ne'
    field_simp
  · unfold uVCsl; simp only [realFns_pow]; rw [hlog _ _ hg hp', hlog _ _ hg hp]; ring
  · unfold uVNcl; simp only [realFns_pow]; rw [hlog _ _ hN hp', hlog _ _ hN hp]; ring
  · rw [hsl p' hp', hsl p hp]; ring

/-- **C132**, the two-point lines of the results: on logarithmic axes a segment through two points of the compression line is the
compression line, and through two points of the steady state line the steady state line. -/
theorem fig_segments {pr : UepiParams ℝ} (h : pr.Good) (href : pr.pRef = 1000) {N I pmax p : ℝ} (hN : 0 < N) (hm : 0 < pmax)
    (h1 : pmax ≠ 1) (hp : 0 < p) :
    figNcl realFns N pr.lam pmax p = uVNcl realFns p pr.pRef N pr.lam ∧
    figIssV realFns pr I pmax p = uIssV realFns (uVCsl realFns p pr.pRef pr.gamma pr.lam) I pr.Iv := by
  have e : ∀ x, 0 < x → uVNcl realFns x 1000 N pr.lam = N * 1000 ^ pr.lam * x ^ (-pr.lam) := by
    intro x hx
    exact uVCsl_power (by norm_num) hx
  have e' : ∀ x, 0 < x → uIssV realFns (uVCsl realFns x 1000 pr.gamma pr.lam) I pr.Iv =
      pr.gamma * 1000 ^ pr.lam * Real.exp (I / pr.Iv) * x ^ (-pr.lam) := by
    intro x hx
    unfold uIssV uVI
    rw [uVCsl_power (by norm_num) hx]
    simp only [realFns_exp]
    ring
  have ha : 0 < pr.gamma * 1000 ^ pr.lam * Real.exp (I / pr.Iv) := by
    have := h.gamma
    positivity
  rw [href]
  constructor
  · unfold figNcl
    rw [e 1 one_pos, e pmax hm, e p hp]
    exact logSegment_power (by positivity) one_pos hm h1.symm hp
  · unfold figIssV
    rw [e' 1 one_pos, e' pmax hm, e' p hp]
    exact logSegment_power ha one_pos hm h1.symm hp

/-! ### The steady state in the limits -/

/-- **C132**, theory_iss: the steady strength runs from `M_csl` to `M_inf` and the steady volume from the critical one to infinity. -/
theorem fig_iss_limits {pr : UepiParams ℝ} (h : pr.Good) {v : ℝ} (hv : 0 < v) :
    Filter.Tendsto (fun I => uIssM I pr.IM pr.Mcsl pr.Minf) (nhdsWithin 0 (Set.Ioi 0)) (nhds pr.Mcsl) ∧
    Filter.Tendsto (fun I => uIssM I pr.IM pr.Mcsl pr.Minf) Filter.atTop (nhds pr.Minf) ∧
    Filter.Tendsto (fun I => uIssV realFns v I pr.Iv) (nhdsWithin 0 (Set.Ioi 0)) (nhds v) ∧
    Filter.Tendsto (fun I => uIssV realFns v I pr.Iv) Filter.atTop Filter.atTop := by
  have hM := h.Mcsl
  have hIM := h.IM
  refine ⟨?_, ?_, ?_, ?_⟩
  · have hc : ContinuousAt (fun I => uIssM I pr.IM pr.Mcsl pr.Minf) 0 := by
      unfold uIssM uMI
      refine continuousAt_const.mul (continuousAt_const.add (continuousAt_id.mul (continuousAt_const.div (by fun_prop) ?_)))
      simpa using hIM.ne'
    have e : uIssM 0 pr.IM pr.Mcsl pr.Minf = pr.Mcsl := by unfold uIssM uMI; ring
    have := hc.tendsto
    rw [e] at this
    exact this.mono_left nhdsWithin_le_nhds
  · have h1 : Filter.Tendsto (fun I : ℝ => pr.IM / (pr.IM + I)) Filter.atTop (nhds 0) :=
      (Filter.tendsto_atTop_add_const_left _ pr.IM Filter.tendsto_id).const_div_atTop pr.IM
    have h2 : Filter.Tendsto (fun I : ℝ => pr.Minf - (pr.Minf - pr.Mcsl) * (pr.IM / (pr.IM + I))) Filter.atTop
        (nhds (pr.Minf - (pr.Minf - pr.Mcsl) * 0)) := tendsto_const_nhds.sub (h1.const_mul _)
    rw [mul_zero, sub_zero] at h2
    refine h2.congr' ?_
    filter_upwards [Filter.eventually_ge_atTop 0] with I hI
    have : 0 < pr.IM + I := by linarith
    unfold uIssM uMI
    field_simp
    ring
  · have hc : Continuous fun I => uIssV realFns v I pr.Iv := by
      unfold uIssV uVI
      simp only [realFns_exp]
      fun_prop
    have e : uIssV realFns v 0 pr.Iv = v := by
      unfold uIssV uVI
      simp only [realFns_exp]
      rw [zero_div, Real.exp_zero, mul_one]
    have := hc.tendsto 0
    rw [e] at this
    exact this.mono_left nhdsWithin_le_nhds
  · unfold uIssV uVI
    simp only [realFns_exp]
    exact (Real.tendsto_exp_atTop.comp (Filter.tendsto_id.atTop_div_const h.Iv)).const_mul_atTop hv

/-! ### The calibration of the compression line -/

/-- **C132**, calibration: in kPa with a reference pressure of 1 the compression line is that of the law in Pa. -/
theorem iso_units {N lam p : ℝ} (hp : 0 < p) : isoNcl realFns p N lam = uVNcl realFns (p * 1000) 1000 N lam := by
  unfold isoNcl uVNcl
  simp only [realFns_pow]
  rw [show (1000 : ℝ) / (p * 1000) = 1 / p by field_simp]

/-- **C132**, calibration: if the data lie on a compression line and contain two different pressures, then the parameters of that line,
and no others, minimise the misfit. -/
theorem iso_fit_recovers {data : List (ℝ × ℝ)} {N lam : ℝ} (hN : 0 < N) (hpos : ∀ d ∈ data, 0 < d.1)
    (hline : ∀ d ∈ data, d.2 = isoNcl realFns d.1 N lam) (htwo : ∃ d ∈ data, ∃ d' ∈ data, d.1 ≠ d'.1) :
    (∀ N' lam', isoMisfit realFns data N lam ≤ isoMisfit realFns data N' lam') ∧
    ∀ N' lam', 0 ≤ N' → (∀ N'' lam'', isoMisfit realFns data N' lam' ≤ isoMisfit realFns data N'' lam'') → N' = N ∧ lam' = lam := by
  have hnn : ∀ N' lam', 0 ≤ isoMisfit realFns data N' lam' := fun N' lam' =>
    List.sum_nonneg (by
      intro x hx
      obtain ⟨d, -, rfl⟩ := List.mem_map.mp hx
      exact sq_nonneg _)
  have hzero : isoMisfit realFns data N lam = 0 := by
    refine List.sum_eq_zero ?_
    intro x hx
    obtain ⟨d, hd, rfl⟩ := List.mem_map.mp hx
    rw [hline d hd]; ring
  refine ⟨fun N' lam' => by rw [hzero]; exact hnn _ _, fun N' lam' hN' hmin => ?_⟩
  have h0 : isoMisfit realFns data N' lam' = 0 := le_antisymm (by rw [← hzero]; exact hmin N lam) (hnn _ _)
  have hall : ∀ d ∈ data, isoNcl realFns d.1 N' lam' = isoNcl realFns d.1 N lam := by
    intro d hd
    have h1 : (isoNcl realFns d.1 N' lam' - d.2) ^ 2 ≤ isoMisfit realFns data N' lam' := by
      refine List.single_le_sum ?_ _ (List.mem_map.mpr ⟨d, hd, rfl⟩)
      intro x hx
      obtain ⟨d', -, rfl⟩ := List.mem_map.mp hx
      exact sq_nonneg _
    rw [h0] at h1
    have h2 := pow_eq_zero_iff (two_ne_zero) |>.mp (le_antisymm h1 (sq_nonneg _))
    rw [← hline d hd]
    linarith
  obtain ⟨d, hd, d', hd', hne⟩ := htwo
  have hval : ∀ x a b, 0 < x → isoNcl realFns x a b = a * (1 / x) ^ b := fun x a b _ => rfl
  have hN'0 : 0 < N' := by
    refine lt_of_le_of_ne hN' fun h0' => ?_
    have h1 := hall d hd
    rw [hval _ _ _ (hpos d hd), hval _ _ _ (hpos d hd), ← h0', zero_mul] at h1
    exact (mul_pos hN (Real.rpow_pos_of_pos (div_pos one_pos (hpos d hd)) lam)).ne h1
  have hl : ∀ e ∈ data, Real.log N' - lam' * Real.log e.1 = Real.log N - lam * Real.log e.1 := by
    intro e he
    have hx := div_pos one_pos (hpos e he)
    have h1 := congrArg Real.log (hall e he)
    rw [hval _ _ _ (hpos e he), hval _ _ _ (hpos e he), Real.log_mul hN'0.ne' (Real.rpow_pos_of_pos hx _).ne',
      Real.log_mul hN.ne' (Real.rpow_pos_of_pos hx _).ne', Real.log_rpow hx, Real.log_rpow hx, one_div, Real.log_inv] at h1
    linarith
  have hlam : lam' = lam := by
    have h1 := hl d hd
    have h2 := hl d' hd'
    have h3 : Real.log d.1 - Real.log d'.1 ≠ 0 :=
      fun h => hne (Real.log_injOn_pos (hpos d hd) (hpos d' hd') (by linarith))
    have h4 : (lam' - lam) * (Real.log d.1 - Real.log d'.1) = 0 := by linarith
    have := (mul_eq_zero.mp h4).resolve_right h3
    linarith
  refine ⟨?_, hlam⟩
  have h1 := hl d hd
  rw [hlam] at h1
  exact Real.log_injOn_pos hN'0 hN (by linarith)

/-! ### Examples -/

example := fig_surfaces exUepi_good (I := 1 / 100) (ps := 1000) (p := 1500) (q := 300) (by norm_num) (by norm_num) (by norm_num)

example := fig_initial exUepi_good (confine := 50000) (ocr := 2) (by norm_num) (by norm_num)

example := fig_arrow_normal (Mcsl := 1) (Iv := 8 / 1000) (I := 1 / 1000) (ps := 100000) (p := 176000) (pm := 1000) (by norm_num) (by norm_num)
  (by norm_num) (by norm_num) (by norm_num) (by norm_num)

example : ¬ Spec.NormalAt (figSsf realFns exUepi.Mcsl exUepi.Minf exUepi.IM (1 / 1000) 100000) 176000
    (figArrow 176000 (uXi 100000 176000) (figSsf realFns exUepi.Mcsl exUepi.Minf exUepi.IM (1 / 1000) 100000 176000) exUepi.Mcsl 1000) := by
  rw [fig_arrow_friction exUepi_good (by norm_num [exUepi]) (by norm_num) (by norm_num) (by norm_num) (by norm_num)]
  norm_num

example := fig_lines exUepi_good (ps := 1750) (p := 1000) (p' := 3500) (by norm_num) (by norm_num) (by norm_num)

example := fig_segments exUepi_good rfl (N := 3) (I := 1 / 100) (pmax := 180000) (p := 50000) (by norm_num) (by norm_num) (by norm_num) (by norm_num)

example := fig_iss_limits exUepi_good (v := 2) (by norm_num)

example := iso_fit_recovers (data := [(10, isoNcl realFns 10 3 (1 / 10)), (500, isoNcl realFns 500 3 (1 / 10))]) (N := 3) (lam := 1 / 10)
  (by norm_num) (by intro d hd; fin_cases hd <;> norm_num) (by intro d hd; fin_cases hd <;> rfl)
  ⟨_, List.mem_cons_self, _, List.mem_cons_of_mem _ List.mem_cons_self, by norm_num⟩

end Hydrax
