import Verif.Props.Uepi
import Mathlib.Topology.Order.IntermediateValue
import Mathlib.Topology.Order.OrderClosed
import Mathlib.Analysis.SpecialFunctions.Log.Basic
import Mathlib.Analysis.SpecialFunctions.Sqrt

/-!
# A yielding step of the elasto-plastic-inertial law has a solution (C126)
-/

set_option linter.unusedSectionVars false

namespace Hydrax

/-! ### Two equations in two unknowns -/

/-- The zero of a function that falls strictly in its second argument depends continuously on the first. -/
theorem implicit_zero {H : ℝ → ℝ → ℝ} (hH : Continuous fun z : ℝ × ℝ => H z.1 z.2) (hanti : ∀ x, StrictAnti (H x)) {lo hi : ℝ}
    (hlh : lo ≤ hi) (hlo : ∀ x, 0 ≤ H x lo) (hhi : ∀ x, H x hi ≤ 0) :
    ∃ u : ℝ → ℝ, Continuous u ∧ ∀ x, lo ≤ u x ∧ u x ≤ hi ∧ H x (u x) = 0 := by
  have hc1 : ∀ x, Continuous (H x) := fun x => hH.comp (continuous_const.prodMk continuous_id)
  have hc2 : ∀ u, Continuous fun x => H x u := fun u => hH.comp (continuous_id.prodMk continuous_const)
  have hex : ∀ x, ∃ u, lo ≤ u ∧ u ≤ hi ∧ H x u = 0 := by
    intro x
    obtain ⟨u, hu, h0⟩ := intermediate_value_Icc' hlh (hc1 x).continuousOn ⟨hhi x, hlo x⟩
    exact ⟨u, hu.1, hu.2, h0⟩
  choose u hu using hex
  refine ⟨u, continuous_iff_continuousAt.mpr fun x => ?_, hu⟩
  refine tendsto_order.mpr ⟨fun a ha => ?_, fun a ha => ?_⟩
  · have h1 : 0 < H x a := by rw [← (hu x).2.2]; exact hanti x ha
    filter_upwards [(hc2 a).continuousAt.eventually (lt_mem_nhds h1)] with y hy
    by_contra hn
    have := (hanti y).antitone (not_lt.mp hn)
    rw [(hu y).2.2] at this
    exact absurd hy (not_lt.mpr this)
  · have h1 : H x a < 0 := by rw [← (hu x).2.2]; exact hanti x ha
    filter_upwards [(hc2 a).continuousAt.eventually (gt_mem_nhds h1)] with y hy
    by_contra hn
    have := (hanti y).antitone (not_lt.mp hn)
    rw [(hu y).2.2] at this
    exact absurd hy (not_lt.mpr this)

/-! ### The scalar problem -/

/-- Data of a yielding step: slopes, friction at rest, pressure and hardening pressure before the step, volumetric strain
increment, trial shear stress, shear modulus, inertial number before the step and scale of its effect on the volume. -/
structure Spec.FlowData where
  kap : ℝ
  cp : ℝ
  M : ℝ
  p0 : ℝ
  ps0 : ℝ
  dev : ℝ
  qtr : ℝ
  G : ℝ
  I0 : ℝ
  Iv : ℝ
  /-- Inertial number of a rate of plastic shear `2 pm q` at a hardening pressure. -/
  num : ℝ → ℝ → ℝ
  /-- Strengthening with the inertial number. -/
  str : ℝ → ℝ

namespace Spec.FlowData

/-- Shear stress after a plastic multiplier `pm`. -/
noncomputable def q (d : FlowData) (pm : ℝ) : ℝ := d.qtr / (1 + 6 * d.G * pm)

/-- Inertial number after a multiplier `pm`, at a hardening pressure `exp u`. -/
noncomputable def I (d : FlowData) (pm u : ℝ) : ℝ := d.num (2 * pm * d.q pm) (Real.exp u)

/-- Plastic volumetric strain that brings the hardening pressure to `exp u`. -/
noncomputable def dpv (d : FlowData) (pm u : ℝ) : ℝ := d.cp * (u - Real.log d.ps0) - (d.I pm u - d.I0) / d.Iv

/-- Pressure after that strain. -/
noncomputable def p (d : FlowData) (pm u : ℝ) : ℝ := d.p0 * Real.exp ((d.dev - d.dpv pm u) / d.kap)

/-- Yield condition at the end of the step, volumetric flow rule. -/
def Solves (d : FlowData) (pm u : ℝ) : Prop :=
  (d.q pm / (d.M * d.str (d.I pm u))) ^ 2 + d.p pm u ^ 2 - 2 * Real.exp u * d.p pm u = 0 ∧
    pm * (2 * (d.p pm u - Real.exp u)) * d.M ^ 2 = d.dpv pm u

/-- Positive constants; the inertial number is non-negative, bounded for bounded rates, zero at rest and does not grow with
the hardening pressure; flow strengthens. -/
structure Good (d : FlowData) (Imax : ℝ) : Prop where
  kap : 0 < d.kap
  cp : 0 < d.cp
  M : 0 < d.M
  p0 : 0 < d.p0
  ps0 : 0 < d.ps0
  qtr : 0 < d.qtr
  G : 0 < d.G
  I0 : 0 ≤ d.I0
  Iv : 0 < d.Iv
  numCont : Continuous fun z : ℝ × ℝ => d.num z.1 (Real.exp z.2)
  numRest : ∀ s, d.num 0 s = 0
  numPos : ∀ r s, 0 ≤ r → 0 ≤ d.num r s
  numAnti : ∀ r s s', 0 ≤ r → 0 < s → s ≤ s' → d.num r s' ≤ d.num r s
  numMax : ∀ r s, 0 ≤ r → r ≤ d.qtr / (3 * d.G) → d.num r s ≤ Imax
  strCont : ContinuousOn d.str (Set.Ici 0)
  strRest : d.str 0 = 1
  strGe : ∀ i, 0 ≤ i → 1 ≤ d.str i

end Spec.FlowData

section
variable {d : Spec.FlowData} {Imax : ℝ} (hd : d.Good Imax)
include hd

theorem flow_rate {pm : ℝ} (h : 0 ≤ pm) : 0 ≤ 2 * pm * d.q pm ∧ 2 * pm * d.q pm ≤ d.qtr / (3 * d.G) := by
  have hG := hd.G
  have hq := hd.qtr
  have : 0 < 1 + 6 * d.G * pm := by positivity
  refine ⟨by unfold Spec.FlowData.q; positivity, ?_⟩
  rw [Spec.FlowData.q, ← mul_div_assoc, div_le_div_iff₀ this (by positivity)]
  nlinarith

theorem flow_I {pm : ℝ} (h : 0 ≤ pm) (u : ℝ) : 0 ≤ d.I pm u ∧ d.I pm u ≤ Imax :=
  ⟨hd.numPos _ _ (flow_rate hd h).1, hd.numMax _ _ (flow_rate hd h).1 (flow_rate hd h).2⟩

theorem flow_Imax : 0 ≤ Imax := (flow_I hd le_rfl 0).1.trans (flow_I hd le_rfl 0).2

theorem flow_dpv_mono {pm : ℝ} (h : 0 ≤ pm) : StrictMono (d.dpv pm) := by
  intro u v huv
  have h1 := hd.numAnti (2 * pm * d.q pm) _ _ (flow_rate hd h).1 (Real.exp_pos u) (Real.exp_le_exp.mpr huv.le)
  have h2 : (d.I pm v - d.I0) / d.Iv ≤ (d.I pm u - d.I0) / d.Iv := by
    apply div_le_div_of_nonneg_right _ hd.Iv.le
    exact sub_le_sub_right h1 _
  have h3 : d.cp * (u - Real.log d.ps0) < d.cp * (v - Real.log d.ps0) := mul_lt_mul_of_pos_left (by linarith) hd.cp
  unfold Spec.FlowData.dpv
  linarith

theorem flow_p_anti {pm : ℝ} (h : 0 ≤ pm) : StrictAnti (d.p pm) := by
  intro u v huv
  have := flow_dpv_mono hd h huv
  exact mul_lt_mul_of_pos_left (Real.exp_lt_exp.mpr (div_lt_div_of_pos_right (by linarith) hd.kap)) hd.p0

theorem flow_p_pos (pm u : ℝ) : 0 < d.p pm u := mul_pos hd.p0 (Real.exp_pos _)

/-- Trial pressure. -/
theorem flow_p_sign {pm u : ℝ} : (0 ≤ d.dpv pm u → d.p pm u ≤ d.p0 * Real.exp (d.dev / d.kap)) ∧
    (d.dpv pm u ≤ 0 → d.p0 * Real.exp (d.dev / d.kap) ≤ d.p pm u) := by
  constructor <;> intro h
  · exact mul_le_mul_of_nonneg_left (Real.exp_le_exp.mpr (div_le_div_of_nonneg_right (by linarith) hd.kap.le)) hd.p0.le
  · exact mul_le_mul_of_nonneg_left (Real.exp_le_exp.mpr (div_le_div_of_nonneg_right (by linarith) hd.kap.le)) hd.p0.le

/-- Bounds of the hardening pressure of a flow step: below, above, and of the plastic volume strain. -/
theorem flow_bounds {pm u : ℝ} (h : 0 ≤ pm) (hs : pm * (2 * (d.p pm u - Real.exp u)) * d.M ^ 2 = d.dpv pm u) :
    min (d.p0 * Real.exp (d.dev / d.kap)) (d.ps0 * Real.exp (-(d.I0 / d.Iv / d.cp))) ≤ Real.exp u ∧
      Real.exp u ≤ max (d.p0 * Real.exp (d.dev / d.kap)) (d.ps0 * Real.exp (Imax / d.Iv / d.cp)) := by
  have hI := flow_I hd h u
  have hM : 0 < d.M ^ 2 := pow_pos hd.M 2
  have key : ∀ c, d.cp * (u - Real.log d.ps0) ≤ c → Real.exp u ≤ d.ps0 * Real.exp (c / d.cp) := by
    intro c hc
    nth_rewrite 1 [← Real.exp_log hd.ps0]
    rw [← Real.exp_add]
    apply Real.exp_le_exp.mpr
    have : u - Real.log d.ps0 ≤ c / d.cp := by rw [le_div_iff₀ hd.cp]; linarith
    linarith
  have key' : ∀ c, c ≤ d.cp * (u - Real.log d.ps0) → d.ps0 * Real.exp (c / d.cp) ≤ Real.exp u := by
    intro c hc
    nth_rewrite 1 [← Real.exp_log hd.ps0]
    rw [← Real.exp_add]
    apply Real.exp_le_exp.mpr
    have : c / d.cp ≤ u - Real.log d.ps0 := by rw [div_le_iff₀ hd.cp]; linarith
    linarith
  have hv : d.dpv pm u = d.cp * (u - Real.log d.ps0) - (d.I pm u - d.I0) / d.Iv := rfl
  have hIv := hd.Iv
  have hI0 := hd.I0
  have a1 : (d.I pm u - d.I0) / d.Iv ≤ Imax / d.Iv := div_le_div_of_nonneg_right (by linarith) hIv.le
  have a2 : -(d.I0 / d.Iv) ≤ (d.I pm u - d.I0) / d.Iv := by
    rw [← neg_div]; exact div_le_div_of_nonneg_right (by linarith) hIv.le
  rcases lt_trichotomy (d.dpv pm u) 0 with hn | hn | hn
  · refine ⟨min_le_iff.mpr (Or.inl ?_), le_max_iff.mpr (Or.inr (key _ (by linarith)))⟩
    have h1 : d.p pm u - Real.exp u ≤ 0 := by
      by_contra hc
      have : 0 ≤ pm * (2 * (d.p pm u - Real.exp u)) * d.M ^ 2 := by
        have := not_le.mp hc
        positivity
      linarith
    linarith [(flow_p_sign hd).2 hn.le]
  · refine ⟨min_le_iff.mpr (Or.inr ?_), le_max_iff.mpr (Or.inr (key _ (by linarith)))⟩
    have := key' (-(d.I0 / d.Iv)) (by linarith)
    rwa [neg_div] at this
  · refine ⟨min_le_iff.mpr (Or.inr ?_), le_max_iff.mpr (Or.inl ?_)⟩
    · have := key' (-(d.I0 / d.Iv)) (by linarith)
      rwa [neg_div] at this
    have h1 : 0 ≤ d.p pm u - Real.exp u := by
      by_contra hc
      have h3 : 0 ≤ pm * (2 * (Real.exp u - d.p pm u)) * d.M ^ 2 := by
        have : 0 < Real.exp u - d.p pm u := by linarith
        positivity
      have h4 : pm * (2 * (Real.exp u - d.p pm u)) * d.M ^ 2 = -(pm * (2 * (d.p pm u - Real.exp u)) * d.M ^ 2) := by ring
      linarith
    linarith [(flow_p_sign hd).1 hn.le]

/-- With a large multiplier a flow step ends inside the surface. -/
theorem flow_far {P u c D s : ℝ} (hP0 : 0 < P) (hc0 : 0 < c) (hcs : c ≤ Real.exp u)
    (hz : P * (2 * (d.p P u - Real.exp u)) * d.M ^ 2 = d.dpv P u) (hv : |d.dpv P u| ≤ D) (h1 : d.qtr / (d.G * c * d.M) ≤ P)
    (h2 : D / (c * d.M ^ 2) ≤ P) (hs : 1 ≤ s) :
    (d.q P / (d.M * s)) ^ 2 + d.p P u ^ 2 - 2 * Real.exp u * d.p P u ≤ 0 := by
  have hM := hd.M
  have hG := hd.G
  have hq0 := hd.qtr
  generalize Real.exp u = ps at *
  generalize d.p P u = p at *
  have hgap : |p - ps| ≤ c / 2 := by
    have h3 : P * (2 * |p - ps|) * d.M ^ 2 ≤ D := by
      have : |P * (2 * (p - ps)) * d.M ^ 2| = P * (2 * |p - ps|) * d.M ^ 2 := by
        rw [abs_mul, abs_mul, abs_mul, abs_of_pos hP0, abs_of_pos (two_pos : (0 : ℝ) < 2), abs_of_pos (pow_pos hM 2)]
      rw [← this, hz]
      exact hv
    rw [div_le_iff₀ (by positivity)] at h2
    by_contra hn
    have h4 : c / 2 < |p - ps| := not_le.mp hn
    have : P * (2 * (c / 2)) * d.M ^ 2 < P * (2 * |p - ps|) * d.M ^ 2 := by gcongr
    nlinarith
  have hqq : d.q P / (d.M * s) ≤ c / 6 := by
    rw [div_le_iff₀ (by positivity)] at h1
    have h2 : 0 < 1 + 6 * d.G * P := by positivity
    have hs0 : 0 < s := by linarith
    rw [Spec.FlowData.q, div_div, div_le_iff₀ (by positivity)]
    have h3 : (1 + 6 * d.G * P) * (d.M * 1) ≤ (1 + 6 * d.G * P) * (d.M * s) := by gcongr
    have h4 : c / 6 * ((1 + 6 * d.G * P) * (d.M * 1)) ≤ c / 6 * ((1 + 6 * d.G * P) * (d.M * s)) :=
      mul_le_mul_of_nonneg_left h3 (by positivity)
    have h5 : 0 ≤ c / 6 * d.M := by positivity
    have h6 : c / 6 * ((1 + 6 * d.G * P) * (d.M * 1)) = c / 6 * d.M + P * (d.G * c * d.M) := by ring
    linarith
  have hq1 : 0 ≤ d.q P / (d.M * s) := by
    have hs0 : 0 < s := by linarith
    unfold Spec.FlowData.q; positivity
  have e1 : (d.q P / (d.M * s)) ^ 2 ≤ (c / 6) ^ 2 := pow_le_pow_left₀ hq1 hqq 2
  have e2 : (p - ps) ^ 2 ≤ (c / 2) ^ 2 := sq_le_sq' (by linarith [neg_abs_le (p - ps)]) ((le_abs_self _).trans hgap)
  have e3 : c ^ 2 ≤ ps ^ 2 := pow_le_pow_left₀ hc0.le hcs 2
  have e4 : p ^ 2 - 2 * ps * p = (p - ps) ^ 2 - ps ^ 2 := by ring
  have e5 := sq_nonneg c
  have e6 : (c / 6) ^ 2 = c ^ 2 / 36 := by ring
  have e7 : (c / 2) ^ 2 = c ^ 2 / 4 := by ring
  linarith

/-- **C126**: a scalar flow step from outside the surface at rest has a solution with a positive multiplier. -/
theorem flow_exists (hy : 0 < (d.qtr / d.M) ^ 2 + (d.p0 * Real.exp (d.dev / d.kap)) ^ 2 -
    2 * d.ps0 * (d.p0 * Real.exp (d.dev / d.kap))) : ∃ pm u, 0 < pm ∧ d.Solves pm u := by
  set pt := d.p0 * Real.exp (d.dev / d.kap) with hpt
  have hpt0 : 0 < pt := mul_pos hd.p0 (Real.exp_pos _)
  have hM := hd.M
  have hG := hd.G
  have hcp := hd.cp
  have hps0 := hd.ps0
  have hq0 := hd.qtr
  have hden : ∀ x, 0 < 1 + 6 * d.G * max x 0 := fun x => by positivity
  -- continuity
  have cq : Continuous fun x => d.q (max x 0) :=
    continuous_const.div (by fun_prop) fun x => (hden x).ne'
  have cI : Continuous fun z : ℝ × ℝ => d.I (max z.1 0) z.2 := by
    have h1 : Continuous fun z : ℝ × ℝ => ((2 * max z.1 0 * d.q (max z.1 0), z.2) : ℝ × ℝ) := by
      refine Continuous.prodMk ?_ continuous_snd
      exact (continuous_const.mul (continuous_fst.max continuous_const)).mul (cq.comp continuous_fst)
    exact hd.numCont.comp h1
  have cv : Continuous fun z : ℝ × ℝ => d.dpv (max z.1 0) z.2 := by
    unfold Spec.FlowData.dpv
    exact (continuous_const.mul (continuous_snd.sub continuous_const)).sub ((cI.sub continuous_const).div_const _)
  have cp' : Continuous fun z : ℝ × ℝ => d.p (max z.1 0) z.2 := by
    unfold Spec.FlowData.p
    exact continuous_const.mul (Real.continuous_exp.comp ((continuous_const.sub cv).div_const _))
  -- the flow rule determines the hardening pressure
  set H : ℝ → ℝ → ℝ := fun x u => max x 0 * (2 * (d.p (max x 0) u - Real.exp u)) * d.M ^ 2 - d.dpv (max x 0) u with hH
  have cH : Continuous fun z : ℝ × ℝ => H z.1 z.2 := by
    simp only [hH]
    exact (((continuous_fst.max continuous_const).mul (continuous_const.mul
      (cp'.sub (Real.continuous_exp.comp continuous_snd)))).mul continuous_const).sub cv
  have hanti : ∀ x, StrictAnti (H x) := by
    intro x u v huv
    have hx : 0 ≤ max x 0 := le_max_right _ _
    have h1 := flow_dpv_mono hd hx huv
    have h2 := flow_p_anti hd hx huv
    have h3 := Real.exp_lt_exp.mpr huv
    have h4 : max x 0 * (2 * (d.p (max x 0) v - Real.exp v)) * d.M ^ 2 ≤
        max x 0 * (2 * (d.p (max x 0) u - Real.exp u)) * d.M ^ 2 := by
      apply mul_le_mul_of_nonneg_right _ (sq_nonneg _)
      exact mul_le_mul_of_nonneg_left (by linarith) hx
    simp only [hH]
    linarith
  set u0 := Real.log d.ps0 with hu0
  set lo := min (Real.log pt) (u0 - d.I0 / d.Iv / d.cp) with hlo
  set hi := max (Real.log pt) (u0 + Imax / d.Iv / d.cp) with hhi
  have hIv := hd.Iv
  have hI0 := hd.I0
  have hIm := flow_Imax hd
  have hlh : lo ≤ hi := (min_le_left _ _).trans (le_max_left _ _)
  have hHlo : ∀ x, 0 ≤ H x lo := by
    intro x
    have hx : 0 ≤ max x 0 := le_max_right _ _
    have hv : d.dpv (max x 0) lo ≤ 0 := by
      have h1 : d.cp * (lo - u0) ≤ -(d.I0 / d.Iv) := by
        have : lo - u0 ≤ -(d.I0 / d.Iv / d.cp) := by linarith [min_le_right (Real.log pt) (u0 - d.I0 / d.Iv / d.cp)]
        calc d.cp * (lo - u0) ≤ d.cp * -(d.I0 / d.Iv / d.cp) := mul_le_mul_of_nonneg_left this hcp.le
          _ = _ := by field_simp
      have h2 : (d.I (max x 0) lo - d.I0) / d.Iv ≥ -(d.I0 / d.Iv) := by
        rw [← neg_div]; exact div_le_div_of_nonneg_right (by linarith [(flow_I hd hx lo).1]) hIv.le
      unfold Spec.FlowData.dpv
      linarith
    have h1 := (flow_p_sign hd).2 hv
    have h2 : Real.exp lo ≤ pt := by
      rw [← Real.exp_log hpt0]; exact Real.exp_le_exp.mpr (min_le_left _ _)
    have h3 : 0 ≤ d.p (max x 0) lo - Real.exp lo := by linarith
    have : 0 ≤ max x 0 * (2 * (d.p (max x 0) lo - Real.exp lo)) * d.M ^ 2 := by positivity
    simp only [hH]
    linarith
  have hHhi : ∀ x, H x hi ≤ 0 := by
    intro x
    have hx : 0 ≤ max x 0 := le_max_right _ _
    have hv : 0 ≤ d.dpv (max x 0) hi := by
      have h1 : Imax / d.Iv ≤ d.cp * (hi - u0) := by
        have : Imax / d.Iv / d.cp ≤ hi - u0 := by linarith [le_max_right (Real.log pt) (u0 + Imax / d.Iv / d.cp)]
        calc Imax / d.Iv = d.cp * (Imax / d.Iv / d.cp) := by field_simp
          _ ≤ _ := mul_le_mul_of_nonneg_left this hcp.le
      have h2 : (d.I (max x 0) hi - d.I0) / d.Iv ≤ Imax / d.Iv :=
        div_le_div_of_nonneg_right (by linarith [(flow_I hd hx hi).2]) hIv.le
      unfold Spec.FlowData.dpv
      linarith
    have h1 := (flow_p_sign hd).1 hv
    have h2 : pt ≤ Real.exp hi := by
      nth_rewrite 1 [← Real.exp_log hpt0]; exact Real.exp_le_exp.mpr (le_max_left _ _)
    have h3 : 0 ≤ Real.exp hi - d.p (max x 0) hi := by linarith
    have h4 : 0 ≤ max x 0 * (2 * (Real.exp hi - d.p (max x 0) hi)) * d.M ^ 2 := by positivity
    have h5 : max x 0 * (2 * (d.p (max x 0) hi - Real.exp hi)) * d.M ^ 2 =
      -(max x 0 * (2 * (Real.exp hi - d.p (max x 0) hi)) * d.M ^ 2) := by ring
    simp only [hH]
    linarith
  obtain ⟨u, cu, hu⟩ := implicit_zero cH hanti hlh hHlo hHhi
  -- the yield function along the curve
  set F : ℝ → ℝ := fun x => (d.q (max x 0) / (d.M * d.str (d.I (max x 0) (u x)))) ^ 2 + d.p (max x 0) (u x) ^ 2 -
    2 * Real.exp (u x) * d.p (max x 0) (u x) with hF
  have czu : Continuous fun x : ℝ => ((x, u x) : ℝ × ℝ) := continuous_id.prodMk cu
  have cIx : Continuous fun x => d.I (max x 0) (u x) := cI.comp czu
  have cpx : Continuous fun x => d.p (max x 0) (u x) := cp'.comp czu
  have hIx : ∀ x, 0 ≤ d.I (max x 0) (u x) := fun x => (flow_I hd (le_max_right _ _) _).1
  have cs : Continuous fun x => d.str (d.I (max x 0) (u x)) :=
    hd.strCont.comp_continuous cIx hIx
  have hs1 : ∀ x, 1 ≤ d.str (d.I (max x 0) (u x)) := fun x => hd.strGe _ (hIx x)
  have cF : Continuous F := by
    simp only [hF]
    refine ((((cq.div (continuous_const.mul cs) fun x => ?_)).pow 2).add (cpx.pow 2)).sub
      ((continuous_const.mul (Real.continuous_exp.comp cu)).mul cpx)
    exact (mul_pos hM (lt_of_lt_of_le one_pos (hs1 x))).ne'
  have hF0 : 0 < F 0 := by
    have hI : d.I 0 (u 0) = 0 := by simp [Spec.FlowData.I, hd.numRest]
    have h0 := (hu 0).2.2
    simp only [hH, max_self, zero_mul, zero_sub, neg_eq_zero] at h0
    have hp : d.p 0 (u 0) = pt := by rw [Spec.FlowData.p, h0, sub_zero]
    have hle : Real.exp (u 0) ≤ d.ps0 := by
      rw [← Real.exp_log hps0]
      apply Real.exp_le_exp.mpr
      unfold Spec.FlowData.dpv at h0
      rw [hI] at h0
      have h1 : 0 ≤ d.I0 / d.Iv := by positivity
      have h2 : (0 - d.I0) / d.Iv = -(d.I0 / d.Iv) := by rw [zero_sub, neg_div]
      by_contra hc
      have : 0 < d.cp * (u 0 - Real.log d.ps0) := mul_pos hcp (by linarith)
      rw [h2] at h0
      linarith
    simp only [hF, max_self, hI, hp, hd.strRest, mul_one]
    have hq : d.q 0 = d.qtr := by simp [Spec.FlowData.q]
    rw [hq]
    have : Real.exp (u 0) * pt ≤ d.ps0 * pt := mul_le_mul_of_nonneg_right hle hpt0.le
    linarith
  -- far along the curve the state is inside
  set c := Real.exp lo with hc
  have hc0 : 0 < c := Real.exp_pos _
  set D := d.cp * (|lo - u0| + |hi - u0|) + (Imax + d.I0) / d.Iv with hD
  have hD0 : 0 ≤ D := by positivity
  set P := max (d.qtr / (d.G * c * d.M)) (D / (c * d.M ^ 2)) with hP
  have hP0 : 0 < P := lt_max_of_lt_left (by positivity)
  have hFP : F P ≤ 0 := by
    have hmax : max P 0 = P := max_eq_left hP0.le
    have hz := (hu P).2.2
    simp only [hH, hmax] at hz
    have hlu := (hu P).1
    have huh := (hu P).2.1
    have hI := flow_I hd hP0.le (u P)
    have hs := hs1 P
    simp only [hF]
    rw [hmax] at hs ⊢
    have hv : |d.dpv P (u P)| ≤ D := by
      have h1 : |u P - u0| ≤ |lo - u0| + |hi - u0| := by
        rw [abs_le]
        constructor
        · have := neg_abs_le (lo - u0); have := abs_nonneg (hi - u0); linarith
        · have := le_abs_self (hi - u0); have := abs_nonneg (lo - u0); linarith
      have h2 : |d.I P (u P) - d.I0| ≤ Imax + d.I0 := by
        rw [abs_le]; constructor <;> linarith [hI.1, hI.2]
      calc |d.dpv P (u P)| ≤ |d.cp * (u P - u0)| + |(d.I P (u P) - d.I0) / d.Iv| := abs_sub _ _
        _ = d.cp * |u P - u0| + |d.I P (u P) - d.I0| / d.Iv := by rw [abs_mul, abs_div, abs_of_pos hcp, abs_of_pos hIv]
        _ ≤ D := add_le_add (mul_le_mul_of_nonneg_left h1 hcp.le) (div_le_div_of_nonneg_right h2 hIv.le)
    have h1 : d.qtr / (d.G * c * d.M) ≤ P := le_max_left _ _
    have h2 : D / (c * d.M ^ 2) ≤ P := le_max_right _ _
    exact flow_far hd hP0 hc0 (Real.exp_le_exp.mpr hlu) (by linarith) hv h1 h2 hs
  obtain ⟨x, hx, hx0⟩ := intermediate_value_Icc' hP0.le cF.continuousOn ⟨hFP, hF0.le⟩
  have hxpos : 0 < x := lt_of_le_of_ne hx.1 (by rintro rfl; linarith)
  have hm : max x 0 = x := max_eq_left hxpos.le
  have hz := (hu x).2.2
  simp only [hH, hm] at hz
  simp only [hF, hm] at hx0
  exact ⟨x, u x, hxpos, hx0, by linarith⟩

end

/-! ### The step of the law -/

/-- The scalar problem of a yielding step. -/
noncomputable def uepiFlow (pr : UepiParams ℝ) (t : UepiTrial ℝ) (st : UepiState ℝ) (dt : ℝ) : Spec.FlowData where
  kap := pr.kap
  cp := pr.lam - pr.kap
  M := pr.Mcsl
  p0 := t.pPrev
  ps0 := st.ps
  dev := t.deV
  qtr := max t.qTr (1 / 10 ^ 6)
  G := t.Gc
  I0 := st.I
  Iv := pr.Iv
  num := fun r s => uIp realFns (max s pr.pRef) (r / dt) pr.d pr.rhoP
  str := fun i => uMI i pr.IM pr.Mcsl pr.Minf

theorem uepiFlow_good (pr : UepiParams ℝ) (h : pr.Good) (σref L : Mat3 ℝ) (dt : ℝ) (hdt : 0 < dt) (st : UepiState ℝ)
    (hp : 0 < Spec.meanStress st.stress) (hps : 0 < st.ps) (hI : 0 ≤ st.I) : ∃ Imax,
      (uepiFlow pr (uepiTrial realFns pr L st σref dt) st dt).Good Imax := by
  set t := uepiTrial realFns pr L st σref dt
  have hG : 0 < t.Gc := uepiTrial_Gc pr L σref st dt h hp
  have hq : 0 < max t.qTr (1 / 10 ^ 6) := lt_max_of_lt_right (by norm_num)
  have hr : 0 < pr.pRef := lt_of_lt_of_le one_pos h.pRef
  have hrho := h.rhoP
  have hd := h.d
  have hmax : ∀ s, pr.pRef ≤ max (max s pr.pRef) (1 / 10 ^ 12) := fun s => le_max_of_le_left (le_max_right _ _)
  have hnum : ∀ r s, 0 ≤ r → uIp realFns (max s pr.pRef) (r / dt) pr.d pr.rhoP ≤
      r / dt * pr.d * Real.sqrt (pr.rhoP / pr.pRef) := by
    intro r s h0
    unfold uIp
    simp only [realFns_sqrt]
    apply mul_le_mul_of_nonneg_left _ (by positivity)
    exact Real.sqrt_le_sqrt (div_le_div_of_nonneg_left hrho.le hr (hmax s))
  refine ⟨max t.qTr (1 / 10 ^ 6) / (3 * t.Gc) / dt * pr.d * Real.sqrt (pr.rhoP / pr.pRef), ?_⟩
  refine ⟨h.kap, sub_pos.mpr h.lam, h.Mcsl, ?_, hps, hq, hG, hI, h.Iv, ?_, ?_, ?_, ?_, ?_, ?_, ?_, ?_⟩
  · change 0 < t.pPrev
    rw [uepiTrial_pPrev]; exact hp
  · simp only [uepiFlow, uIp, realFns_sqrt]
    refine (((continuous_fst.div_const _).mul continuous_const)).mul (Real.continuous_sqrt.comp ?_)
    refine continuous_const.div ?_ fun z => (lt_of_lt_of_le hr (hmax _)).ne'
    exact ((Real.continuous_exp.comp continuous_snd).max continuous_const).max continuous_const
  · intro s
    simp [uepiFlow, uIp]
  · intro r s h0
    exact uIp_nonneg (div_nonneg h0 hdt.le) hd.le
  · intro r s s' h0 hs hss
    simp only [uepiFlow, uIp, realFns_sqrt]
    apply mul_le_mul_of_nonneg_left _ (by positivity)
    exact Real.sqrt_le_sqrt (div_le_div_of_nonneg_left hrho.le (lt_of_lt_of_le hr (hmax _))
      (max_le_max (max_le_max hss le_rfl) le_rfl))
  · intro r s h0 h1
    refine (hnum r s h0).trans ?_
    have : r ≤ max t.qTr (1 / 10 ^ 6) / (3 * t.Gc) := h1
    gcongr
  · intro i hi
    simp only [uepiFlow]
    unfold uMI
    have : pr.IM + i ≠ 0 := (add_pos_of_pos_of_nonneg h.IM hi).ne'
    apply ContinuousAt.continuousWithinAt
    exact continuousAt_const.add (continuousAt_id.mul (continuousAt_const.div (continuousAt_const.add continuousAt_id) this))
  · simp [uepiFlow, uMI]
  · intro i hi
    change 1 ≤ uMI i pr.IM pr.Mcsl pr.Minf
    rw [uMI_spec hi h.IM]
    exact (strength_bounds hi h.IM h.Mcsl h.Minf).1

/-- **C126**: the equations that the Newton loop of a yielding step solves have a solution with a positive multiplier. -/
theorem uepi_solvable (pr : UepiParams ℝ) (h : pr.Good) (σref L : Mat3 ℝ) (dt : ℝ) (hdt : 0 < dt) (st : UepiState ℝ)
    (hp : 1 ≤ Spec.meanStress st.stress) (hps : 1 ≤ st.ps) (hI : 0 ≤ st.I)
    (hy : 0 < (uepiTrial realFns pr L st σref dt).yf) :
    ∃ x : Fin 2 → ℝ, 0 < x 0 ∧ (uepiResiduals realFns pr (uepiTrial realFns pr L st σref dt) st dt x).res = 0 := by
  set t := uepiTrial realFns pr L st σref dt with ht
  obtain ⟨Imax, hd⟩ := uepiFlow_good pr h σref L dt hdt st (by linarith) (by linarith) hI
  rw [← ht] at hd
  have hM := h.Mcsl
  have hpp : t.pPrev = Spec.meanStress st.stress := uepiTrial_pPrev pr L σref st dt
  have hpt : t.pTr = t.pPrev * Real.exp (t.deV / pr.kap) := rfl
  have hyf : t.yf = t.qTr * t.qTr / (pr.Mcsl * 1 * (pr.Mcsl * 1)) + t.pTr * t.pTr - st.ps * 2 * t.pTr := rfl
  have hq0 : 0 ≤ t.qTr := by rw [ht, uepiTrial_qTr]; exact qVM_nonneg _
  obtain ⟨pm, u, hpm, h1, h2⟩ := flow_exists hd (by
    change 0 < (max t.qTr (1 / 10 ^ 6) / pr.Mcsl) ^ 2 + (t.pPrev * Real.exp (t.deV / pr.kap)) ^ 2 -
      2 * st.ps * (t.pPrev * Real.exp (t.deV / pr.kap))
    rw [← hpt]
    have h1 : (t.qTr / pr.Mcsl) ^ 2 ≤ (max t.qTr (1 / 10 ^ 6) / pr.Mcsl) ^ 2 :=
      pow_le_pow_left₀ (by positivity) (div_le_div_of_nonneg_right (le_max_left _ _) hM.le) 2
    have h2 : t.qTr * t.qTr / (pr.Mcsl * 1 * (pr.Mcsl * 1)) = (t.qTr / pr.Mcsl) ^ 2 := by ring
    rw [hyf, h2] at hy
    nlinarith)
  have mp : max t.pPrev 1 = t.pPrev := max_eq_left (by rw [hpp]; exact hp)
  have mps : max st.ps 1 = st.ps := max_eq_left hps
  have hfac : ∀ c : ℝ, c * (1 / (1 + 6 * t.Gc * pm)) = c / (1 + 6 * t.Gc * pm) := fun c => by rw [mul_one_div]
  refine ⟨![pm, u], hpm, ?_⟩
  funext i
  fin_cases i
  · refine Eq.trans ?_ h1
    simp only [uepiResiduals, uepiFlow, Spec.FlowData.q, Spec.FlowData.p, Spec.FlowData.dpv, Spec.FlowData.I, uYield, mp, mps,
      hfac, Matrix.cons_val_zero, Matrix.cons_val_one, realFns_exp, realFns_log, Fin.zero_eta]
    ring
  · have h3 : ∀ a b : ℝ, a = b → (a - b) * 10 ^ 4 = 0 := by rintro a b rfl; ring
    refine Eq.trans ?_ (h3 _ _ h2)
    simp only [uepiResiduals, uepiFlow, Spec.FlowData.q, Spec.FlowData.p, Spec.FlowData.dpv, Spec.FlowData.I, mp, mps,
      hfac, Matrix.cons_val_zero, Matrix.cons_val_one, realFns_exp, realFns_log, Fin.mk_one]

/-- **C126**: every yielding step from pressures of at least 1 has an exact backward Euler step, with plastic flow, positive
pressures and a symmetric stress. -/
theorem uepi_step_exists_partial (pr : UepiParams ℝ) (h : pr.Good) (σref L : Mat3 ℝ) (dt : ℝ) (hdt : 0 < dt) (st : UepiState ℝ)
    (hp : 1 ≤ Spec.meanStress st.stress) (hps : 1 ≤ st.ps) (hI : 0 ≤ st.I) (hs : st.stress.IsSymm)
    (hy : 0 < (uepiTrial realFns pr L st σref dt).yf) (hq : 1 / 10 ^ 6 ≤ (uepiTrial realFns pr L st σref dt).qTr) :
    ∃ (σ' ep : Mat3 ℝ) (ps' I' Λ : ℝ), 0 < Λ ∧ 0 < ps' ∧ 0 < Spec.meanStress σ' ∧ σ'.IsSymm ∧
      Spec.UepiStep pr (uepiTrial realFns pr L st σref dt).Gc dt (Spec.jaumannRotated L st.stress dt) (Spec.strainInc L dt) σ' ep
        st.ps ps' st.I I' Λ 0 0 := by
  obtain ⟨x, hx, hr⟩ := uepi_solvable pr h σref L dt hdt st hp hps hI hy
  obtain ⟨ep, hst⟩ := uepi_unknowns_step pr h σref L dt hdt st hp hps hq x hx.le
  have hM := h.Mcsl
  rw [hr] at hst
  simp only [Pi.zero_apply, zero_div] at hst
  refine ⟨_, ep, _, _, _, by positivity, Real.exp_pos _, ?_, ?_, hst⟩
  · rw [hst.elasticVol, ← jaumannRotated_eq, jaumann_mean]
    exact mul_pos (by linarith) (Real.exp_pos _)
  · have h1 : (uepiTrial realFns pr L st σref dt).sTr.IsSymm := uepiTrial_symm pr L σref st dt hs
    exact (h1.smul _).add (isoT_symm _)

/-! ### Where a solution lies -/

/-- **C126**: in an exact step the pressure and the hardening pressure lie between the trial pressure and the hardening
pressure shifted by the change of the inertial number, ordered from one to the other. -/
theorem uepi_between {pr : UepiParams ℝ} (h : pr.Good) {G dt : ℝ} {σr Δε σ' ep : Mat3 ℝ} {ps ps' I I' Λ r0 : ℝ}
    (hp : 0 < Spec.meanStress σr) (hps : 0 < ps) (hps' : 0 < ps')
    (hst : Spec.UepiStep pr G dt σr Δε σ' ep ps ps' I I' Λ r0 0) :
    let ptr := Spec.meanStress σr * Real.exp (Δε.trace / pr.kap)
    let shifted := ps * Real.exp ((I' - I) / pr.Iv / (pr.lam - pr.kap))
    (shifted ≤ ps' ∧ ps' ≤ Spec.meanStress σ' ∧ Spec.meanStress σ' ≤ ptr) ∨
      (ptr ≤ Spec.meanStress σ' ∧ Spec.meanStress σ' ≤ ps' ∧ ps' ≤ shifted) := by
  intro ptr shifted
  have hk := h.kap
  have hcp : 0 < pr.lam - pr.kap := sub_pos.mpr h.lam
  have hv := hst.flowVol
  have hh := hst.hardening
  have he := hst.elasticVol
  have hL := hst.multiplier
  rw [sub_zero] at hv
  rw [Matrix.trace_sub] at he
  have hshift : Real.exp (Real.log ps + (I' - I) / pr.Iv / (pr.lam - pr.kap)) = shifted := by
    rw [Real.exp_add, Real.exp_log hps]
  have hlog : Real.log ps' = Real.log ps + (I' - I) / pr.Iv / (pr.lam - pr.kap) + ep.trace / (pr.lam - pr.kap) := by
    have : (I' - I) / pr.Iv = (pr.lam - pr.kap) * (Real.log ps' - Real.log ps) - ep.trace := by linarith
    rw [this]
    field_simp
    ring
  have hps'e : ps' = Real.exp (Real.log ps + (I' - I) / pr.Iv / (pr.lam - pr.kap) + ep.trace / (pr.lam - pr.kap)) := by
    rw [← hlog, Real.exp_log hps']
  rcases le_total 0 ep.trace with ht | ht
  · have h3 : 0 ≤ ep.trace / (pr.lam - pr.kap) := by positivity
    have a1 : shifted ≤ ps' := by
      rw [hps'e, ← hshift]; exact Real.exp_le_exp.mpr (by linarith)
    have a3 : Spec.meanStress σ' ≤ ptr := by
      rw [he]
      exact mul_le_mul_of_nonneg_left (Real.exp_le_exp.mpr (div_le_div_of_nonneg_right (by linarith) hk.le)) hp.le
    rcases le_or_gt ps' (Spec.meanStress σ') with hc | hc
    · exact Or.inl ⟨a1, hc, a3⟩
    · have h4 : Λ * (2 * Spec.meanStress σ' - 2 * ps') ≤ 0 := mul_nonpos_of_nonneg_of_nonpos hL (by linarith)
      have h5 : ep.trace = 0 := by linarith
      rw [h5] at he hps'e
      rw [zero_div, add_zero, hshift] at hps'e
      rw [sub_zero] at he
      exact Or.inr ⟨he.ge, hc.le, hps'e.le⟩
  · have h3 : ep.trace / (pr.lam - pr.kap) ≤ 0 := div_nonpos_of_nonpos_of_nonneg ht hcp.le
    have a1 : ps' ≤ shifted := by
      rw [hps'e, ← hshift]; exact Real.exp_le_exp.mpr (by linarith)
    have a3 : ptr ≤ Spec.meanStress σ' := by
      rw [he]
      exact mul_le_mul_of_nonneg_left (Real.exp_le_exp.mpr (div_le_div_of_nonneg_right (by linarith) hk.le)) hp.le
    rcases le_or_gt (Spec.meanStress σ') ps' with hc | hc
    · exact Or.inr ⟨a3, hc, a1⟩
    · have h4 : 0 ≤ Λ * (2 * Spec.meanStress σ' - 2 * ps') := mul_nonneg hL (by linarith)
      have h5 : ep.trace = 0 := by linarith
      rw [h5] at he hps'e
      rw [zero_div, add_zero, hshift] at hps'e
      rw [sub_zero] at he
      exact Or.inl ⟨hps'e.ge, hc.le, he.le⟩

/-- **C126**: an exact step of a yielding trial state flows: its multiplier is not zero. -/
theorem uepi_flows (pr : UepiParams ℝ) (h : pr.Good) (σref L : Mat3 ℝ) (dt : ℝ) (st : UepiState ℝ)
    (hp : 0 < Spec.meanStress st.stress) (hps : 0 < st.ps) (hI : 0 ≤ st.I)
    (hy : 0 < (uepiTrial realFns pr L st σref dt).yf) {σ' ep : Mat3 ℝ} {ps' I' Λ : ℝ} (hps' : 0 < ps')
    (hst : Spec.UepiStep pr (uepiTrial realFns pr L st σref dt).Gc dt (Spec.jaumannRotated L st.stress dt) (Spec.strainInc L dt) σ' ep
        st.ps ps' st.I I' Λ 0 0) : 0 < Λ := by
  refine lt_of_le_of_ne hst.multiplier fun h0 => ?_
  subst h0
  have hM := h.Mcsl
  have hcp : 0 < pr.lam - pr.kap := sub_pos.mpr h.lam
  have hv := hst.flowVol
  have hd := hst.flowDev
  rw [zero_mul, sub_zero] at hv
  rw [zero_mul, zero_smul] at hd
  have hse : Spec.shearEq ep = 0 := by
    rw [Spec.shearEq, hd]; simp [Spec.ddot]
  have hI' : I' = 0 := by rw [hst.inertial, hse]; ring
  have hh := hst.hardening
  rw [hv, hI', zero_sub, neg_div, sub_neg_eq_add] at hh
  have h1 : 0 ≤ st.I / pr.Iv := div_nonneg hI h.Iv.le
  have hle : ps' ≤ st.ps := by
    rw [← Real.exp_log hps', ← Real.exp_log hps]
    apply Real.exp_le_exp.mpr
    by_contra hc
    have : 0 < (pr.lam - pr.kap) * (Real.log ps' - Real.log st.ps) := mul_pos hcp (by linarith)
    linarith
  have he := hst.elasticVol
  rw [Matrix.trace_sub, hv, sub_zero, ← jaumannRotated_eq, jaumann_mean, ← uepiTrial_pTr pr L σref st dt] at he
  have hD := hst.elasticDev
  rw [dev_sub', hd, sub_zero, ← uepiTrial_sTr pr L σref st dt] at hD
  have hq : Spec.qVM σ' = (uepiTrial realFns pr L st σref dt).qTr := by
    have h2 : σ' = Spec.dev σ' + isoT (Spec.meanStress σ') := (dev_add_mean σ').symm
    rw [h2, qVM_add_iso (meanStress_dev _), hD, uepiTrial_qTr]
  have hpt : 0 < (uepiTrial realFns pr L st σref dt).pTr := by
    rw [uepiTrial_pTr]; exact mul_pos hp (Real.exp_pos _)
  have hs := hst.onSurface
  rw [Spec.inertialF, he, hq, hI', ← uMI_spec le_rfl h.IM] at hs
  have hm : uMI 0 pr.IM pr.Mcsl pr.Minf = 1 := by simp [uMI]
  rw [hm] at hs
  set t := uepiTrial realFns pr L st σref dt
  have hyf : t.yf = t.qTr ^ 2 / (pr.Mcsl * 1) ^ 2 + t.pTr ^ 2 - 2 * st.ps * t.pTr := by
    change t.qTr * t.qTr / (pr.Mcsl * 1 * (pr.Mcsl * 1)) + t.pTr * t.pTr - st.ps * 2 * t.pTr = _
    ring
  rw [hyf] at hy
  nlinarith

/-- The code replaces a trial shear stress below `1e-6` by `1e-6`. The equations of an isotropic yielding step still have a
solution, but the stress it describes lies inside of the surface, and the step, although free of shear, is given an inertial
number above zero. -/
theorem uepi_isotropic_inside (pr : UepiParams ℝ) (h : pr.Good) (σref L : Mat3 ℝ) (dt : ℝ) (hdt : 0 < dt) (st : UepiState ℝ)
    (hp : 1 ≤ Spec.meanStress st.stress) (hps : 1 ≤ st.ps) (hI : 0 ≤ st.I)
    (hy : 0 < (uepiTrial realFns pr L st σref dt).yf) (hq : (uepiTrial realFns pr L st σref dt).qTr = 0) :
    let t := uepiTrial realFns pr L st σref dt
    ∃ x : Fin 2 → ℝ, 0 < x 0 ∧ (uepiResiduals realFns pr t st dt x).res = 0 ∧
      let a := uepiResiduals realFns pr t st dt x
      0 < a.I ∧ Spec.inertialF pr.Mcsl (Spec.inertialStrength pr.IM pr.Mcsl pr.Minf a.I) (Real.exp (x 1))
        (a.factor • t.sTr + isoT a.p) < 0 := by
  intro t
  obtain ⟨x, hx, hr⟩ := uepi_solvable pr h σref L dt hdt st hp hps hI hy
  refine ⟨x, hx, hr, ?_⟩
  intro a
  have hf := uepi_factor_pos pr h L σref st dt (by linarith) x hx.le
  have hM := h.Mcsl
  have hd := h.d
  have hrho := h.rhoP
  have hfac : a.factor = 1 / (1 + 6 * t.Gc * x 0) := rfl
  have hfac0 : 0 < a.factor := by rw [hfac]; exact one_div_pos.mpr hf
  have hmq : max t.qTr (1 / 10 ^ 6) = 1 / 10 ^ 6 := max_eq_right (by rw [hq]; norm_num)
  have hI' : a.I = uIp realFns (max (Real.exp (x 1)) pr.pRef) (2 * x 0 * (1 / 10 ^ 6 * a.factor) / dt) pr.d pr.rhoP := by
    rw [← hmq]; rfl
  have hI0 : 0 < a.I := by
    rw [hI']
    have : 0 < max (max (Real.exp (x 1)) pr.pRef) (1 / 10 ^ 12) := lt_max_of_lt_right (by norm_num)
    unfold uIp
    simp only [realFns_sqrt]
    exact mul_pos (by positivity) (Real.sqrt_pos.mpr (by positivity))
  refine ⟨hI0, ?_⟩
  have hm : Spec.meanStress (a.factor • t.sTr) = 0 := by rw [meanStress_smul, uepiTrial_mean, mul_zero]
  have hqv : Spec.qVM (a.factor • t.sTr + isoT a.p) = 0 := by
    rw [qVM_add_iso hm, qVM_smul hfac0.le, ← uepiTrial_qTr, hq, mul_zero]
  have h0 : uYield a.p (Real.exp (x 1)) (1 / 10 ^ 6 * a.factor) pr.Mcsl (uMI a.I pr.IM pr.Mcsl pr.Minf) = 0 := by
    rw [← hmq]; exact congrFun hr 0
  rw [Spec.inertialF, hqv, mean_add_iso hm]
  have hs : 0 < uMI a.I pr.IM pr.Mcsl pr.Minf := by
    rw [uMI_spec hI0.le h.IM]
    exact lt_of_lt_of_le one_pos (strength_bounds hI0.le h.IM hM h.Minf).1
  have h1 : 0 < 1 / 10 ^ 6 * a.factor * (1 / 10 ^ 6 * a.factor) /
      (pr.Mcsl * uMI a.I pr.IM pr.Mcsl pr.Minf * (pr.Mcsl * uMI a.I pr.IM pr.Mcsl pr.Minf)) := by positivity
  simp only [uYield] at h0
  rw [zero_pow two_ne_zero, zero_div, zero_add]
  nlinarith

/-! ### Examples -/

/-- A yielding shear step. -/
example : ∃ x : Fin 2 → ℝ, 0 < x 0 ∧
    (uepiResiduals realFns exUepi (uepiTrial realFns exUepi exShearL exUepiSt (isoT 2000) 1) exUepiSt 1 x).res = 0 :=
  uepi_solvable exUepi exUepi_good (isoT 2000) exShearL 1 one_pos exUepiSt (by rw [exUepiSt_mean]; norm_num)
    (by norm_num [exUepiSt]) (by norm_num [exUepiSt]) exShear_yields

example : ∃ (σ' ep : Mat3 ℝ) (ps' I' Λ : ℝ), 0 < Λ ∧ 0 < ps' ∧ 0 < Spec.meanStress σ' ∧ σ'.IsSymm ∧
    Spec.UepiStep exUepi (uepiTrial realFns exUepi exShearL exUepiSt (isoT 2000) 1).Gc 1
      (Spec.jaumannRotated exShearL exUepiSt.stress 1) (Spec.strainInc exShearL 1) σ' ep exUepiSt.ps ps' exUepiSt.I I' Λ 0 0 :=
  uepi_step_exists_partial exUepi exUepi_good (isoT 2000) exShearL 1 one_pos exUepiSt (by rw [exUepiSt_mean]; norm_num)
    (by norm_num [exUepiSt]) (by norm_num [exUepiSt]) exUepiSt_adm.stress exShear_yields (by rw [exShear_q]; norm_num)

/-- Isotropic compression of the same material. -/
theorem exCompression : let t := uepiTrial realFns exUepi ((1 / 300 : ℝ) • 1) exUepiSt (isoT 2000) 1
    0 < t.yf ∧ t.qTr = 0 := by
  intro t
  have h : t.yf = uYield t.pTr 1000 t.qTr (89 / 100) 1 := rfl
  have hinc : Spec.strainInc ((1 / 300 : ℝ) • (1 : Mat3 ℝ)) 1 = isoT (1 / 300) := by
    ext i j
    simp only [Spec.strainInc, isoT, Matrix.smul_apply, Matrix.add_apply, Matrix.transpose_apply, Matrix.one_apply, smul_eq_mul,
      eq_comm (a := j)]
    split_ifs <;> norm_num
  have hW : Spec.jaumannRotated ((1 / 300 : ℝ) • (1 : Mat3 ℝ)) exUepiSt.stress 1 = isoT 2000 := by
    simp [Spec.jaumannRotated, exUepiSt]
  have hq : t.qTr = 0 := by
    rw [uepiTrial_qTr, uepiTrial_sTr, hW, hinc, dev_isoT, dev_isoT, smul_zero, add_zero, Spec.qVM, Spec.J2]
    simp [Spec.ddot, Spec.dev, Spec.meanStress]
  refine ⟨?_, hq⟩
  have hp : 2000 < t.pTr := by
    rw [uepiTrial_pTr, exUepiSt_mean, hinc]
    have : 1 < Real.exp ((isoT (1 / 300 : ℝ)).trace / exUepi.kap) := by
      rw [← Real.exp_zero]
      apply Real.exp_lt_exp.mpr
      rw [trace3]
      norm_num [isoT, exUepi]
    linarith
  rw [h, hq]
  norm_num [uYield]
  nlinarith

example := uepi_isotropic_inside exUepi exUepi_good (isoT 2000) ((1 / 300 : ℝ) • 1) 1 one_pos exUepiSt
  (by rw [exUepiSt_mean]; norm_num) (by norm_num [exUepiSt]) (by norm_num [exUepiSt]) exCompression.1 exCompression.2

example := uepi_between exUepi0_good (by rw [triaxial_mean]; norm_num) (by norm_num) (by norm_num) exSteady

/-- The step that `uepi_step_exists_partial` finds flows and lies where `uepi_between` says. -/
example : ∃ (σ' ep : Mat3 ℝ) (ps' I' Λ : ℝ), Spec.UepiStep exUepi (uepiTrial realFns exUepi exShearL exUepiSt (isoT 2000) 1).Gc 1
    (Spec.jaumannRotated exShearL exUepiSt.stress 1) (Spec.strainInc exShearL 1) σ' ep exUepiSt.ps ps' exUepiSt.I I' Λ 0 0 ∧ 0 < Λ := by
  obtain ⟨σ', ep, ps', I', Λ, -, h1, -, -, h2⟩ := uepi_step_exists_partial exUepi exUepi_good (isoT 2000) exShearL 1 one_pos exUepiSt
    (by rw [exUepiSt_mean]; norm_num) (by norm_num [exUepiSt]) (by norm_num [exUepiSt]) exUepiSt_adm.stress exShear_yields
    (by rw [exShear_q]; norm_num)
  exact ⟨σ', ep, ps', I', Λ, h2, uepi_flows exUepi exUepi_good (isoT 2000) exShearL 1 exUepiSt (by rw [exUepiSt_mean]; norm_num)
    (by norm_num [exUepiSt]) (by norm_num [exUepiSt]) exShear_yields h1 h2⟩

end Hydrax
