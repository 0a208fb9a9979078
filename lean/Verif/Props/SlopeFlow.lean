import Verif.Props.Flow
import Mathlib.Topology.Order.IntermediateValue
import Mathlib.Algebra.Order.Group.Defs
import Mathlib.Order.Monotone.Odd
import Mathlib.Topology.Algebra.Order.Field

/-!
# Property C153: slopes of granular material under the mu(I) law

On a long slope of inclination `θ` the weight asks every point for the same ratio `tan θ` of shear stress
to normal stress, whatever its depth.  The question is at which rate of simple shear the law supplies it.
-/

namespace Hydrax

namespace Spec

/-- Velocity gradient of a layer that flows parallel to its bed, faster with height: `v_x = g y`. -/
def layerFlow (g : ℝ) : Matrix (Fin 3) (Fin 3) ℝ := !![0, g, 0; 0, 0, 0; 0, 0, 0]

/-- A stress (compression positive) carries a layer at ratio `T = tan θ` of shear to normal stress. -/
def CarriesSlope (T : ℝ) (σ : Matrix (Fin 3) (Fin 3) ℝ) : Prop := σ 0 1 = T * σ 1 1

end Spec

open Spec

/-- Twice the ratio of shear to normal stress, written with the rate scale `c = I0 sqrt (p / rho) / d`. -/
noncomputable def slopeRatio (muS muD alpha c g : ℝ) : ℝ :=
  muS * (g / Real.sqrt (g ^ 2 + alpha ^ 2)) + (muD - muS) * (g / (c + |g|))

/-- Shear rate at which the inertial number of the law reaches `I0`. -/
noncomputable def Spec.rateScale (pr : MuIParams ℝ) (ratio : ℝ) : ℝ :=
  pr.I0 * Real.sqrt (Spec.muIPressure pr.bulk pr.pMin ratio / pr.rhoP) / pr.dP

theorem rateScale_pos (pr : MuIParams ℝ) (h : pr.Valid) {r : ℝ} (hr : 1 < r) : 0 < Spec.rateScale pr r :=
  div_pos (mul_pos h.I0 (Real.sqrt_pos.mpr (div_pos (muIPressure_pos pr h hr) h.rhoP))) h.dP

theorem layer_dev (g : ℝ) : Spec.dev (Spec.strainRate (layerFlow g)) =
    !![0, g / 2, 0; g / 2, 0, 0; 0, 0, 0] := by
  ext i j
  fin_cases i <;> fin_cases j <;>
    simp [Spec.dev, Spec.strainRate, layerFlow, Spec.meanStress]

theorem layer_rate (g : ℝ) : Real.sqrt (2 * Spec.ddot (Spec.dev (Spec.strainRate (layerFlow g)))
    (Spec.dev (Spec.strainRate (layerFlow g)))) = |g| := by
  rw [layer_dev]
  have : (2 : ℝ) * Spec.ddot !![0, g / 2, 0; g / 2, 0, 0; 0, 0, 0] !![0, g / 2, 0; g / 2, 0, 0; 0, 0, 0]
      = g ^ 2 := by
    simp [Spec.ddot, Fin.sum_univ_three]; ring
  rw [this, Real.sqrt_sq_eq_abs]

/-- Normal and shear stress of a layer that flows parallel to its bed. -/
theorem layer_stress (pr : MuIParams ℝ) (h : pr.Valid) (g m v r : ℝ) (hr : 1 < m / v / r) :
    muIStress realFns pr (layerFlow g) m v r 1 1 = Spec.muIPressure pr.bulk pr.pMin (m / v / r) ∧
    muIStress realFns pr (layerFlow g) m v r 0 1 =
      Spec.muIPressure pr.bulk pr.pMin (m / v / r) / 2 *
        slopeRatio pr.muS pr.muD pr.alpha (Spec.rateScale pr (m / v / r)) g := by
  have hd := h.dP
  have hc := rateScale_pos pr h hr
  rw [muIStress_eq realFns pr _ m v r hr, realFns_sqrt, layer_rate, layer_dev]
  constructor
  · simp [isoT, Spec.muIPressure]
  · have e : pr.I0 * Real.sqrt (Spec.muIPressure pr.bulk pr.pMin (m / v / r) / pr.rhoP) =
        pr.dP * Spec.rateScale pr (m / v / r) := by
      unfold Spec.rateScale; field_simp
    have hne : Spec.rateScale pr (m / v / r) + |g| ≠ 0 := by positivity
    simp only [Matrix.add_apply, Matrix.smul_apply, isoT, muIViscosity, realFns_sqrt, slopeRatio]
    change (_ / _ + _ / (pr.I0 * Real.sqrt (Spec.muIPressure pr.bulk pr.pMin (m / v / r) / pr.rhoP) + _)) •
      _ + _ = _
    rw [e, ← mul_add, sq_abs]
    simp
    change (_ * Spec.muIPressure pr.bulk pr.pMin (m / v / r) / _ +
      _ * Spec.muIPressure pr.bulk pr.pMin (m / v / r) * _ / _) * _ = _
    field_simp

theorem carries_iff (pr : MuIParams ℝ) (h : pr.Valid) (T g m v r : ℝ) (hr : 1 < m / v / r) :
    CarriesSlope T (muIStress realFns pr (layerFlow g) m v r) ↔
      slopeRatio pr.muS pr.muD pr.alpha (Spec.rateScale pr (m / v / r)) g = 2 * T := by
  obtain ⟨h1, h2⟩ := layer_stress pr h g m v r hr
  have hp := muIPressure_pos pr h hr
  unfold CarriesSlope
  rw [h1, h2]
  constructor
  · intro e
    have : Spec.muIPressure pr.bulk pr.pMin (m / v / r) *
      (slopeRatio pr.muS pr.muD pr.alpha (Spec.rateScale pr (m / v / r)) g - 2 * T) = 0 := by linarith
    rcases mul_eq_zero.mp this with h0 | h0
    · exact absurd h0 hp.ne'
    · linarith
  · intro e; rw [e]; ring

section ratio

variable {muS muD alpha c : ℝ}

theorem slopeRatio_zero : slopeRatio muS muD alpha c 0 = 0 := by simp [slopeRatio]

theorem slopeRatio_odd (g : ℝ) : slopeRatio muS muD alpha c (-g) = -slopeRatio muS muD alpha c g := by
  simp only [slopeRatio, abs_neg, neg_sq]; ring

theorem root_pos (ha : 0 < alpha) (g : ℝ) : 0 < Real.sqrt (g ^ 2 + alpha ^ 2) :=
  Real.sqrt_pos.mpr (by positivity)

/-- Both parts grow with the rate. -/
theorem slide_lt (ha : 0 < alpha) {g g' : ℝ} (h0 : 0 ≤ g) (h : g < g') :
    g / Real.sqrt (g ^ 2 + alpha ^ 2) < g' / Real.sqrt (g' ^ 2 + alpha ^ 2) := by
  rw [div_lt_div_iff₀ (root_pos ha g) (root_pos ha g')]
  have hg' : 0 < g' := lt_of_le_of_lt h0 h
  refine lt_of_pow_lt_pow_left₀ 2 (by positivity) ?_
  rw [mul_pow, mul_pow, Real.sq_sqrt (by positivity), Real.sq_sqrt (by positivity)]
  have : g ^ 2 < g' ^ 2 := by nlinarith
  nlinarith [mul_pos ha ha]

theorem flow_lt (hc : 0 < c) {g g' : ℝ} (h0 : 0 ≤ g) (h : g < g') : g / (c + |g|) < g' / (c + |g'|) := by
  have hg' : 0 < g' := lt_of_le_of_lt h0 h
  rw [abs_of_nonneg h0, abs_of_pos hg', div_lt_div_iff₀ (by linarith) (by linarith)]
  nlinarith

theorem slopeRatio_strictMono (hS : 0 ≤ muS) (hD : muS ≤ muD) (hpos : 0 < muD) (ha : 0 < alpha)
    (hc : 0 < c) : StrictMono (slopeRatio muS muD alpha c) := by
  refine strictMono_of_odd_strictMonoOn_nonneg slopeRatio_odd ?_
  intro g h0 g' _ h
  have h1 := slide_lt ha h0 h
  have h2 := flow_lt hc h0 h
  unfold slopeRatio
  rcases hS.lt_or_eq with hs | hs
  · have := mul_lt_mul_of_pos_left h1 hs
    have := mul_le_mul_of_nonneg_left h2.le (sub_nonneg.mpr hD)
    linarith
  · rw [← hs]
    have := mul_lt_mul_of_pos_left h2 (show 0 < muD - 0 by linarith)
    linarith

theorem slopeRatio_continuous (ha : 0 < alpha) (hc : 0 < c) : Continuous (slopeRatio muS muD alpha c) := by
  unfold slopeRatio
  refine (continuous_const.mul (continuous_id.div ?_ fun g => (root_pos ha g).ne')).add
    (continuous_const.mul (continuous_id.div ?_ fun g => ?_))
  · fun_prop
  · fun_prop
  · positivity

theorem slide_bounds (ha : 0 < alpha) {g : ℝ} (h0 : 0 ≤ g) :
    g / (alpha + g) ≤ g / Real.sqrt (g ^ 2 + alpha ^ 2) ∧ g / Real.sqrt (g ^ 2 + alpha ^ 2) < 1 := by
  constructor
  · refine div_le_div_of_nonneg_left h0 (root_pos ha g) ?_
    rw [Real.sqrt_le_left (by linarith)]
    nlinarith
  · rw [div_lt_one (root_pos ha g)]
    exact Real.lt_sqrt_of_sq_lt (by nlinarith [mul_pos ha ha])

theorem slopeRatio_lt (hS : 0 ≤ muS) (hD : muS ≤ muD) (hpos : 0 < muD) (ha : 0 < alpha) (hc : 0 < c)
    (g : ℝ) : slopeRatio muS muD alpha c g < muD := by
  rcases le_or_gt 0 g with h0 | h0
  · have h1 := (slide_bounds ha h0).2
    have h2 : g / (c + |g|) < 1 := by
      rw [abs_of_nonneg h0, div_lt_one (by linarith)]; linarith
    unfold slopeRatio
    rcases hS.lt_or_eq with hs | hs
    · have := mul_lt_mul_of_pos_left h1 hs
      have := mul_le_mul_of_nonneg_left h2.le (sub_nonneg.mpr hD)
      linarith
    · rw [← hs]
      have := mul_lt_mul_of_pos_left h2 (show 0 < muD - 0 by linarith)
      linarith
  · have := slopeRatio_strictMono hS hD hpos ha hc h0
    rw [slopeRatio_zero] at this
    linarith

theorem slopeRatio_ge (hS : 0 ≤ muS) (hD : muS ≤ muD) (ha : 0 < alpha) (hc : 0 < c)
    {g : ℝ} (h0 : 0 ≤ g) : muD * (g / (max alpha c + g)) ≤ slopeRatio muS muD alpha c g := by
  have h1 : g / (max alpha c + g) ≤ g / Real.sqrt (g ^ 2 + alpha ^ 2) :=
    le_trans (div_le_div_of_nonneg_left h0 (by linarith) (by linarith [le_max_left alpha c]))
      (slide_bounds ha h0).1
  have h2 : g / (max alpha c + g) ≤ g / (c + |g|) := by
    rw [abs_of_nonneg h0]
    exact div_le_div_of_nonneg_left h0 (by linarith) (by linarith [le_max_right alpha c])
  have := mul_le_mul_of_nonneg_left h1 hS
  have := mul_le_mul_of_nonneg_left h2 (sub_nonneg.mpr hD)
  unfold slopeRatio
  linarith

end ratio

/-- **C153**, flow: a slope whose ratio stays below *half* the dynamic coefficient has exactly one steady
rate of shear, which grows with the slope; from half the dynamic coefficient on there is none and the
layer runs away. -/
theorem slope_steady_partial (pr : MuIParams ℝ) (h : pr.Valid) (ha : 0 < pr.alpha) (hD : 0 < pr.muD)
    (m v r : ℝ) (hr : 1 < m / v / r) :
    (∀ T, 0 ≤ T → T < pr.muD / 2 →
      ∃! g, CarriesSlope T (muIStress realFns pr (layerFlow g) m v r)) ∧
    (∀ T, pr.muD / 2 ≤ T → ∀ g, ¬ CarriesSlope T (muIStress realFns pr (layerFlow g) m v r)) ∧
    (∀ T T' g g', T < T' → CarriesSlope T (muIStress realFns pr (layerFlow g) m v r) →
      CarriesSlope T' (muIStress realFns pr (layerFlow g') m v r) → g < g') := by
  have hc := rateScale_pos pr h hr
  have mono := slopeRatio_strictMono h.muS h.muD hD ha hc
  refine ⟨fun T h0 hT => ?_, fun T hT g hg => ?_, fun T T' g g' hT hg hg' => ?_⟩
  · simp only [carries_iff pr h T _ m v r hr]
    set M := max pr.alpha (Spec.rateScale pr (m / v / r)) with hM
    have hMp : 0 < M := lt_max_of_lt_left ha
    set G := 2 * T * M / (pr.muD - 2 * T) with hG
    have hden : 0 < pr.muD - 2 * T := by linarith
    have hG0 : 0 ≤ G := div_nonneg (by positivity) hden.le
    have hge := slopeRatio_ge h.muS h.muD ha hc hG0
    have hval : pr.muD * (G / (M + G)) = 2 * T := by
      have : M + G = pr.muD * M / (pr.muD - 2 * T) := by
        rw [hG]; field_simp; ring
      rw [this, hG]; field_simp
    obtain ⟨g, -, hg⟩ := intermediate_value_Icc hG0
      (slopeRatio_continuous (muS := pr.muS) (muD := pr.muD) ha hc).continuousOn
      ⟨show slopeRatio _ _ _ _ 0 ≤ 2 * T by rw [slopeRatio_zero]; linarith,
        show 2 * T ≤ _ by rw [← hval]; exact hge⟩
    exact ⟨g, hg, fun g' hg' => mono.injective (hg'.trans hg.symm)⟩
  · rw [carries_iff pr h T g m v r hr] at hg
    have := slopeRatio_lt h.muS h.muD hD ha hc g
    linarith
  · rw [carries_iff pr h _ _ m v r hr] at hg hg'
    exact mono.lt_iff_lt.mp (by rw [hg, hg']; linarith)

/-- **C153**, rest: below *half* the static coefficient the steady rate is only the creep of the
regularisation, at most `alpha` times a factor that depends on the slope alone. -/
theorem slope_creep_partial (pr : MuIParams ℝ) (h : pr.Valid) (ha : 0 < pr.alpha) (m v r : ℝ)
    (hr : 1 < m / v / r) (T g : ℝ) (h0 : 0 ≤ T) (hT : T < pr.muS / 2)
    (hg : CarriesSlope T (muIStress realFns pr (layerFlow g) m v r)) :
    0 ≤ g ∧ g ≤ pr.alpha * (2 * T / Real.sqrt (pr.muS ^ 2 - (2 * T) ^ 2)) := by
  have hc := rateScale_pos pr h hr
  have hS : 0 < pr.muS := by linarith
  have hD : 0 < pr.muD := lt_of_lt_of_le hS h.muD
  rw [carries_iff pr h T g m v r hr] at hg
  have mono := slopeRatio_strictMono h.muS h.muD hD ha hc
  have hg0 : 0 ≤ g := mono.le_iff_le.mp (by rw [slopeRatio_zero, hg]; linarith)
  refine ⟨hg0, ?_⟩
  have hq : 0 ≤ (pr.muD - pr.muS) * (g / (Spec.rateScale pr (m / v / r) + |g|)) :=
    mul_nonneg (sub_nonneg.mpr h.muD) (by positivity)
  have h1 : pr.muS * (g / Real.sqrt (g ^ 2 + pr.alpha ^ 2)) ≤ 2 * T := by
    unfold slopeRatio at hg; linarith
  have hR := root_pos ha g
  have h2 : pr.muS * g ≤ 2 * T * Real.sqrt (g ^ 2 + pr.alpha ^ 2) := by
    rw [← mul_div_assoc, div_le_iff₀ hR] at h1; exact h1
  have h3 : (pr.muS * g) ^ 2 ≤ (2 * T) ^ 2 * (g ^ 2 + pr.alpha ^ 2) := by
    calc (pr.muS * g) ^ 2 ≤ (2 * T * Real.sqrt (g ^ 2 + pr.alpha ^ 2)) ^ 2 :=
          pow_le_pow_left₀ (by positivity) h2 2
      _ = _ := by rw [mul_pow, Real.sq_sqrt (by positivity)]
  have hpos : 0 < pr.muS ^ 2 - (2 * T) ^ 2 := by nlinarith
  rw [← mul_div_assoc, le_div_iff₀ (Real.sqrt_pos.mpr hpos)]
  refine abs_le_of_sq_le_sq' ?_ (by positivity) |>.2
  rw [mul_pow, Real.sq_sqrt hpos.le]
  nlinarith

/-- **C153**, onset: between *half* the static and *half* the dynamic coefficient the layer really flows,
at least at a rate set by the particle size and the root of the pressure, however small `alpha`. -/
theorem slope_flows (pr : MuIParams ℝ) (h : pr.Valid) (ha : 0 < pr.alpha) (m v r : ℝ)
    (hr : 1 < m / v / r) (T g : ℝ) (hT : pr.muS / 2 < T)
    (hg : CarriesSlope T (muIStress realFns pr (layerFlow g) m v r)) :
    (2 * T - pr.muS) / (pr.muD - 2 * T) *
      (pr.I0 * Real.sqrt (Spec.muIPressure pr.bulk pr.pMin (m / v / r) / pr.rhoP) / pr.dP) ≤ g := by
  have hc := rateScale_pos pr h hr
  rw [carries_iff pr h T g m v r hr] at hg
  change _ * Spec.rateScale pr (m / v / r) ≤ g
  set c := Spec.rateScale pr (m / v / r)
  have hg0 : 0 < g := by
    by_contra hn
    push Not at hn
    have h1 : g / Real.sqrt (g ^ 2 + pr.alpha ^ 2) ≤ 0 := div_nonpos_of_nonpos_of_nonneg hn (Real.sqrt_nonneg _)
    have h2 : g / (c + |g|) ≤ 0 := div_nonpos_of_nonpos_of_nonneg hn (by positivity)
    have := mul_nonneg_of_nonpos_of_nonpos (neg_nonpos.mpr h.muS) h1
    have := mul_nonneg_of_nonpos_of_nonpos (neg_nonpos.mpr (sub_nonneg.mpr h.muD)) h2
    have := h.muS
    unfold slopeRatio at hg
    linarith
  have hs := (slide_bounds ha hg0.le).2
  have h1 := mul_le_mul_of_nonneg_left hs.le h.muS
  unfold slopeRatio at hg
  rw [abs_of_pos hg0] at hg
  have h2 : 2 * T - pr.muS ≤ (pr.muD - pr.muS) * (g / (c + g)) := by linarith
  have h3 : (2 * T - pr.muS) * (c + g) ≤ (pr.muD - pr.muS) * g := by
    rw [← mul_div_assoc, le_div_iff₀ (by linarith)] at h2; exact h2
  have hden : 0 < pr.muD - 2 * T := by
    by_contra hn
    push Not at hn
    nlinarith [mul_pos (show 0 < 2 * T - pr.muS by linarith) hc]
  rw [div_mul_eq_mul_div, div_le_iff₀ hden]
  nlinarith

/-- **C153** is false as stated: on a slope *below* the static friction angle (`tan θ < mu_s`) glass beads
neither rest nor flow steadily; the shear stress asked for is never reached, at any rate and any depth. -/
theorem gentle_slope_runs_away :
    ∃ (pr : MuIParams ℝ) (T : ℝ), pr.Valid ∧ 0 < pr.alpha ∧ 0 < T ∧ T < pr.muS ∧
      ∀ m v r, 1 < m / v / r → ∀ g, ¬ CarriesSlope T (muIStress realFns pr (layerFlow g) m v r) := by
  refine ⟨exMuI, 35 / 100, exMuI_valid, by norm_num [exMuI], by norm_num, by norm_num [exMuI], ?_⟩
  intro m v r hr g
  exact (slope_steady_partial exMuI exMuI_valid (by norm_num [exMuI]) (by norm_num [exMuI]) m v r hr).2.1
    (35 / 100) (by norm_num [exMuI]) g

/-- Glass beads under pressure on slopes of 1:10 and 1:4. -/
example := (slope_steady_partial exMuI exMuI_valid (by norm_num [exMuI]) (by norm_num [exMuI]) 1600 1 1500
  (by norm_num)).1 (1 / 10) (by norm_num) (by norm_num [exMuI])

example : ∃ g, CarriesSlope (1 / 10) (muIStress realFns exMuI (layerFlow g) 1600 1 1500) ∧ g ≤ 1 / 10 ^ 6 := by
  obtain ⟨g, hg, -⟩ := (slope_steady_partial exMuI exMuI_valid (by norm_num [exMuI]) (by norm_num [exMuI])
    1600 1 1500 (by norm_num)).1 (1 / 10) (by norm_num) (by norm_num [exMuI])
  refine ⟨g, hg, le_trans (slope_creep_partial exMuI exMuI_valid (by norm_num [exMuI]) 1600 1 1500
    (by norm_num) (1 / 10) g (by norm_num) (by norm_num [exMuI]) hg).2 ?_⟩
  have : (2 : ℝ) * (1 / 10) / Real.sqrt (exMuI.muS ^ 2 - (2 * (1 / 10)) ^ 2) ≤ 1 := by
    rw [div_le_one (Real.sqrt_pos.mpr (by norm_num [exMuI]))]
    exact Real.le_sqrt_of_sq_le (by norm_num [exMuI])
  have h2 : exMuI.alpha = 1 / 10 ^ 6 := rfl
  rw [h2]
  nlinarith

example : ∃ g, CarriesSlope (1 / 4) (muIStress realFns exMuI (layerFlow g) 1600 1 1500) ∧ 0 < g := by
  obtain ⟨g, hg, -⟩ := (slope_steady_partial exMuI exMuI_valid (by norm_num [exMuI]) (by norm_num [exMuI])
    1600 1 1500 (by norm_num)).1 (1 / 4) (by norm_num) (by norm_num [exMuI])
  refine ⟨g, hg, lt_of_lt_of_le ?_ (slope_flows exMuI exMuI_valid (by norm_num [exMuI]) 1600 1 1500
    (by norm_num) (1 / 4) g (by norm_num [exMuI]) hg)⟩
  exact mul_pos (by norm_num [exMuI]) (rateScale_pos exMuI exMuI_valid (by norm_num))

end Hydrax
