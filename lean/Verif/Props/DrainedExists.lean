import Verif.Props.DrainedState
import Mathlib.Topology.Order.IntermediateValue

/-!
Lemmas for C138: drained compression of wet clay can be controlled. In every step there is a lateral rate that keeps the
controlled stress, so that the hypotheses of the theorems on drained tests can be met.
-/

namespace Hydrax

namespace Drained

section
variable {M σ k κ cp Δ x pc : ℝ} {g : ℝ → ℝ}

theorem ratio_lt {u : ℝ} (hk1 : k * M < 1) (hu : u < xcs M σ k) : u < M * (σ + k * u) := by
  have h1 : 0 < 1 - k * M := by linarith
  rw [xcs, lt_div_iff₀ h1] at hu
  linarith

theorem yield_at_critical (hM : 0 < M) (hk1 : k * M < 1) : Y M σ k (xcs M σ k) pc = pcs M σ k / 2 * (pcs M σ k - pc) := by
  have h1 : 1 - k * M ≠ 0 := by linarith
  have hM' := hM.ne'
  obtain ⟨P, hP⟩ : ∃ P, P = σ / (1 - k * M) := ⟨_, rfl⟩
  have e1 : xcs M σ k = M * P := by rw [hP, xcs]; ring
  have e2 : pcs M σ k = 2 * P := by rw [hP, pcs]; ring
  have e3 : σ + k * (M * P) = P := by
    have : P * (1 - k * M) = σ := by rw [hP, div_mul_cancel₀ _ h1]
    linarith
  rw [e1, e2, Y, e3]
  field_simp
  ring

theorem yield_convex {u X : ℝ} (hx : x ≤ u) (hX : u ≤ X) (h1 : Y M σ k x pc ≤ 0) (h2 : Y M σ k X pc ≤ 0) :
    Y M σ k u pc ≤ 0 := by
  rcases eq_or_lt_of_le (hx.trans hX) with h | h
  · have : u = x := by linarith
    rw [this]; exact h1
  have e : (X - x) * Y M σ k u pc = (X - u) * Y M σ k x pc + (u - x) * Y M σ k X pc -
      (1 / M ^ 2 + k ^ 2) * ((u - x) * (X - u) * (X - x)) := by unfold Y; ring
  have a1 : 0 ≤ (X - u) * -Y M σ k x pc := mul_nonneg (by linarith) (by linarith)
  have a2 : 0 ≤ (u - x) * -Y M σ k X pc := mul_nonneg (by linarith) (by linarith)
  have a3 : 0 ≤ (1 / M ^ 2 + k ^ 2) * ((u - x) * (X - u) * (X - x)) :=
    mul_nonneg (by positivity) (mul_nonneg (mul_nonneg (by linarith) (by linarith)) (by linarith))
  have a4 : (X - x) * Y M σ k u pc ≤ 0 := by rw [e]; linarith
  by_contra hn
  push Not at hn
  have := mul_pos (sub_pos.mpr h) hn
  linarith

/-- The next state of a drained test: an elastic one inside the yield surface, or a plastic one on it. -/
theorem next_state (hM : 0 < M) (hσ : 0 < σ) (hk : 0 ≤ k) (hk1 : k * M < 1) (hκ : 0 < κ) (hcp : 0 < cp) (hΔ : 0 < Δ)
    (hg : ∀ p, 0 < g p) (hgc : Continuous g) (hx : 0 ≤ x) (hY : Y M σ k x pc ≤ 0) (hpc : pc < pcs M σ k) (hpcσ : σ < pc) :
    ∃ x', x ≤ x' ∧
      ((Y M σ k x' pc ≤ 0 ∧
        x' = x + g (σ + k * x') * (3 * Δ - κ * (Real.log (σ + k * x') - Real.log (σ + k * x)))) ∨
      ∃ pc' lam, pc < pc' ∧ 0 < lam ∧ 0 < x' ∧ pc' < 2 * (σ + k * x') ∧ Y M σ k x' pc' = 0 ∧
        cp * (Real.log pc' - Real.log pc) = lam * (2 * (σ + k * x') - pc') * M ^ 2 ∧
        x' * (1 + 6 * g (σ + k * x') * lam) = x + g ((σ + k * x) * Real.exp ((κ * (Real.log (σ + k * x') - Real.log (σ + k * x)) +
          cp * (Real.log pc' - Real.log pc)) / κ)) * (3 * Δ - (κ * (Real.log (σ + k * x') - Real.log (σ + k * x)) +
            cp * (Real.log pc' - Real.log pc)))) := by
  have h1 : 0 < 1 - k * M := by linarith
  have hxcs : 0 < xcs M σ k := div_pos (mul_pos hM hσ) h1
  have hpcs : 0 < pcs M σ k := div_pos (by linarith) h1
  have hpc0 : 0 < pc := hσ.trans hpcσ
  have hY0 : Y M σ k 0 pc < 0 := by
    unfold Y
    have : σ * (σ - pc) < 0 := mul_neg_of_pos_of_neg hσ (by linarith)
    simpa using this
  have hYcs : 0 < Y M σ k (xcs M σ k) pc := by
    rw [yield_at_critical hM hk1]; exact mul_pos (by linarith) (by linarith)
  have hxle : x ≤ xcs M σ k := by
    by_contra hn
    push Not at hn
    have := yield_convex hxcs.le hn.le hY0.le hY
    linarith
  have hp : ∀ u, 0 ≤ u → 0 < σ + k * u := fun u hu => by positivity
  have hYc : Continuous fun u => Y M σ k u pc := by unfold Y; fun_prop
  obtain ⟨X, ⟨hX1, hX2⟩, hYX⟩ := intermediate_value_Icc hxle hYc.continuousOn ⟨hY, hYcs.le⟩
  simp only at hYX
  have hX2' : X < xcs M σ k := lt_of_le_of_ne hX2 (by rintro rfl; linarith)
  have hX0 : 0 < X := lt_of_le_of_ne (hx.trans hX1) (by rintro rfl; linarith)
  have hlogp : ContinuousOn (fun u => Real.log (σ + k * u)) (Set.Ici 0) :=
    ContinuousOn.log (by fun_prop) fun u hu => (hp u hu).ne'
  set E : ℝ → ℝ := fun u => u - x - g (σ + k * u) * (3 * Δ - κ * (Real.log (σ + k * u) - Real.log (σ + k * x))) with hE
  have hEc : ContinuousOn E (Set.Ici 0) := by
    refine (by fun_prop : ContinuousOn (fun u => u - x) (Set.Ici 0)).sub (ContinuousOn.mul (hgc.comp (by fun_prop)).continuousOn ?_)
    exact continuousOn_const.sub (continuousOn_const.mul (hlogp.sub continuousOn_const))
  have hEx : E x < 0 := by
    have := mul_pos (hg (σ + k * x)) hΔ
    simp only [hE, sub_self, mul_zero, sub_zero]; linarith
  rcases le_or_gt 0 (E X) with hEX | hEX
  · obtain ⟨u, ⟨hu1, hu2⟩, hu⟩ := intermediate_value_Icc hX1 (hEc.mono fun u hu => hx.trans hu.1) ⟨hEx.le, hEX⟩
    refine ⟨u, hu1, Or.inl ⟨yield_convex hu1 hu2 hY hYX.le, ?_⟩⟩
    simp only [hE] at hu
    linarith
  · set q : ℝ → ℝ := fun u => σ + k * u + u ^ 2 / (M ^ 2 * (σ + k * u)) with hq
    have hqpos : ∀ u, 0 ≤ u → 0 < q u := fun u hu => by have := hp u hu; simp only [hq]; positivity
    have hqc : ContinuousOn q (Set.Ici 0) := by
      refine (by fun_prop : ContinuousOn (fun u => σ + k * u) (Set.Ici 0)).add (ContinuousOn.div (by fun_prop) (by fun_prop) ?_)
      intro u hu
      have := hp u hu
      positivity
    have hlogq : ContinuousOn (fun u => Real.log (q u)) (Set.Ici 0) := ContinuousOn.log hqc fun u hu => (hqpos u hu).ne'
    have hYq : ∀ u pc', 0 ≤ u → Y M σ k u pc' = (σ + k * u) * (q u - pc') := by
      intro u pc' hu
      have := (hp u hu).ne'
      simp only [hq, Y]; field_simp; ring
    set V : ℝ → ℝ := fun u => κ * (Real.log (σ + k * u) - Real.log (σ + k * x)) + cp * (Real.log (q u) - Real.log pc) with hV
    have hVc : ContinuousOn V (Set.Ici 0) :=
      (continuousOn_const.mul (hlogp.sub continuousOn_const)).add (continuousOn_const.mul (hlogq.sub continuousOn_const))
    set H : ℝ → ℝ := fun u => (2 * (σ + k * u) - q u) * M ^ 2 *
        (u - x - g ((σ + k * x) * Real.exp (V u / κ)) * (3 * Δ - V u)) +
      6 * g (σ + k * u) * u * (cp * (Real.log (q u) - Real.log pc)) with hH
    have hHc : ContinuousOn H (Set.Ici 0) := by
      refine ContinuousOn.add (ContinuousOn.mul (ContinuousOn.mul (ContinuousOn.sub (by fun_prop) hqc) continuousOn_const) ?_) ?_
      · refine (by fun_prop : ContinuousOn (fun u => u - x) (Set.Ici 0)).sub (ContinuousOn.mul ?_ (continuousOn_const.sub hVc))
        exact hgc.comp_continuousOn (continuousOn_const.mul (Real.continuous_exp.comp_continuousOn (hVc.div_const κ)))
      · exact ContinuousOn.mul (ContinuousOn.mul (continuousOn_const.mul (hgc.comp (by fun_prop)).continuousOn) (by fun_prop))
          (continuousOn_const.mul (hlogq.sub continuousOn_const))
    have hgap : ∀ u, 0 ≤ u → u < xcs M σ k → 0 < 2 * (σ + k * u) - q u := by
      intro u hu huc
      have a1 := ratio_lt hk1 huc
      have a2 := hp u hu
      have a3 : u ^ 2 / (M ^ 2 * (σ + k * u)) < σ + k * u := by
        rw [div_lt_iff₀ (by positivity)]
        have := pow_lt_pow_left₀ a1 hu two_ne_zero
        rw [mul_pow] at this
        nlinarith
      simp only [hq]; linarith
    have hqX : q X = pc := by
      have := hYq X pc hX0.le
      rw [hYX] at this
      rcases mul_eq_zero.mp this.symm with h | h
      · exact absurd h (hp X hX0.le).ne'
      · linarith
    have hHX : H X < 0 := by
      have hVX : V X = κ * (Real.log (σ + k * X) - Real.log (σ + k * x)) := by simp only [hV, hqX, sub_self, mul_zero, add_zero]
      have hpT : (σ + k * x) * Real.exp (V X / κ) = σ + k * X := by
        rw [hVX, mul_div_cancel_left₀ _ hκ.ne', Real.exp_sub, Real.exp_log (hp X hX0.le), Real.exp_log (hp x hx)]
        field_simp [(hp x hx).ne']
      simp only [hH, hpT, hqX, sub_self, mul_zero, add_zero]
      rw [hVX]
      have := hgap X hX0.le hX2'
      rw [hqX] at this
      exact mul_neg_of_pos_of_neg (by positivity) hEX
    have hHcs : 0 < H (xcs M σ k) := by
      have e1 : q (xcs M σ k) = pcs M σ k := by
        have := hYq (xcs M σ k) (pcs M σ k) hxcs.le
        rw [yield_at_critical hM hk1, sub_self, mul_zero] at this
        rcases mul_eq_zero.mp this.symm with h | h
        · exact absurd h (hp _ hxcs.le).ne'
        · linarith
      have e2 : 2 * (σ + k * xcs M σ k) - pcs M σ k = 0 := by
        unfold pcs xcs; field_simp; ring
      simp only [hH, e1, e2, zero_mul, zero_add]
      have : 0 < Real.log (pcs M σ k) - Real.log pc := sub_pos.mpr (Real.log_lt_log hpc0 hpc)
      have := hg (σ + k * xcs M σ k)
      positivity
    obtain ⟨u, ⟨hu1, hu2⟩, hu⟩ := intermediate_value_Icc hX2 (hHc.mono fun u hu => hX0.le.trans hu.1) ⟨hHX.le, hHcs.le⟩
    have hu1' : X < u := lt_of_le_of_ne hu1 (by rintro rfl; linarith)
    have hu2' : u < xcs M σ k := lt_of_le_of_ne hu2 (by rintro rfl; linarith)
    have hu0 : 0 < u := hX0.trans hu1'
    have hD := hgap u hu0.le hu2'
    have hqu : pc < q u := by
      have a1 := yield_leaves hM hY0.le hX0 hu1' hYX
      rw [hYq u pc hu0.le] at a1
      have := pos_of_mul_pos_right a1 (hp u hu0.le).le
      linarith
    have hlq : 0 < Real.log (q u) - Real.log pc := sub_pos.mpr (Real.log_lt_log hpc0 hqu)
    refine ⟨u, hX1.trans hu1, Or.inr ⟨q u, cp * (Real.log (q u) - Real.log pc) / ((2 * (σ + k * u) - q u) * M ^ 2), hqu,
      by positivity, hu0, by linarith, by rw [hYq u _ hu0.le]; ring, ?_, ?_⟩⟩
    · have := hM.ne'
      have := hD.ne'
      field_simp
    · simp only [hH] at hu
      have a1 : (2 * (σ + k * u) - q u) * M ^ 2 ≠ 0 := by positivity
      set D := (2 * (σ + k * u) - q u) * M ^ 2
      change u * _ = x + g ((σ + k * x) * Real.exp (V u / κ)) * (3 * Δ - V u)
      refine mul_left_cancel₀ a1 ?_
      have : D * (u * (1 + 6 * g (σ + k * u) * (cp * (Real.log (q u) - Real.log pc) / D))) =
          D * u + 6 * g (σ + k * u) * u * (cp * (Real.log (q u) - Real.log pc)) := by
        field_simp
      rw [this]
      linarith

end

end Drained

/-! ### Steps of the code -/

theorem clayShear_cont (pr : MCCParams ℝ) : Continuous (Spec.clayShear pr) := by
  unfold Spec.clayShear Spec.mccShear
  have := mccBulk_cont pr
  fun_prop

/-- How the mean stress grows with the stress difference in drained compression. -/
noncomputable def drainedSlope (pConstant : Bool) : ℝ := if pConstant then 0 else 1 / 3

theorem drainedSlope_nonneg (b : Bool) : 0 ≤ drainedSlope b := by unfold drainedSlope; split_ifs <;> norm_num

theorem drained_mean {b : Bool} {σ : Mat3 ℝ} (h : Spec.Axisymmetric σ) :
    Spec.meanStress σ = Spec.controlled b σ + drainedSlope b * (σ 2 2 - σ 0 0) := by
  have := controlled_mean (b := b) h (s := 1) (by norm_num)
  rw [this, one_mul, drainedSlope]

/-- States of wet clay in drained compression. Stress differences up to `10⁻⁶` lie well inside the yield surface. -/
structure DrainedInv (pr : MCCParams ℝ) (pConstant : Bool) (conf : ℝ) (r : MCCResult ℝ) : Prop where
  axi : Spec.Axisymmetric r.stress
  control : Spec.controlled pConstant r.stress = conf
  side : 0 ≤ r.stress 2 2 - r.stress 0 0
  inside : Spec.mccF pr.M r.pc r.stress ≤ 0
  wet : r.pc < 2 * Spec.meanStress r.stress
  below : r.pc < Drained.pcs pr.M conf (drainedSlope pConstant)
  above : conf < r.pc
  small : ∀ u, conf ≤ u → u ≤ conf + drainedSlope pConstant / 10 ^ 6 → 2 * (1 / 10 ^ 6 / pr.M) ^ 2 + u * (u - r.pc) < 0

section
variable {pr : MCCParams ℝ} {pConstant : Bool} {conf a dt : ℝ} {r : MCCResult ℝ}

theorem DrainedInv.mean (hr : DrainedInv pr pConstant conf r) :
    Spec.meanStress r.stress = conf + drainedSlope pConstant * (r.stress 2 2 - r.stress 0 0) := by
  rw [drained_mean (b := pConstant) hr.axi, hr.control]

theorem DrainedInv.mean_ge (hr : DrainedInv pr pConstant conf r) : conf ≤ Spec.meanStress r.stress := by
  rw [hr.mean]
  have := mul_nonneg (drainedSlope_nonneg pConstant) hr.side
  linarith

theorem DrainedInv.yield (hr : DrainedInv pr pConstant conf r) :
    Drained.Y pr.M conf (drainedSlope pConstant) (r.stress 2 2 - r.stress 0 0) r.pc ≤ 0 := by
  have := hr.inside
  rwa [mccF_axisymmetric hr.axi, hr.mean] at this

/-- The trial stress of a step of a triaxial test. -/
theorem trial_triaxial (pr : MCCParams ℝ) {σ : Mat3 ℝ} (hσ : Spec.Axisymmetric σ) (b a dt : ℝ) :
    let T := Spec.mccTrialStress pr (triaxialL b a) σ dt
    Spec.meanStress T = Spec.meanStress σ * Real.exp (dt * (2 * b + a) / pr.kap) ∧ Spec.Axisymmetric T ∧
      T 2 2 - T 0 0 = σ 2 2 - σ 0 0 + Spec.clayShear pr (max (Spec.meanStress T) pr.pMin) * (2 * (dt * (a - b))) := by
  intro T
  have hs : (triaxialL b a).transpose = triaxialL b a := Matrix.diagonal_transpose _
  have htr : (triaxialL b a).trace = 2 * b + a := by
    simp [triaxialL, Matrix.trace, Fin.sum_univ_three]; ring
  obtain ⟨h1, h2⟩ := trial_drained pr hs σ dt
  rw [htr] at h1 h2
  change Spec.meanStress T = _ at h2
  change Spec.dev T = _ at h1
  rw [← h2, axisymmetric_dev hσ, dev_triaxialL, smul_smul, ← add_smul] at h1
  obtain ⟨h3, h4, -⟩ := axisymmetric_of_dev h1
  exact ⟨h2, h3, by rw [h4]; ring⟩

theorem drained_wet_trial (hp : 0 < pr.pMin) (h : pr.Clay) (hmin : pr.pMin ≤ conf) (hdt : 0 < dt)
    (hr : DrainedInv pr pConstant conf r) {b : ℝ} (hb : 0 ≤ 2 * b + a) :
    Spec.meanStress r.stress ≤ Spec.meanStress (Spec.mccTrialStress pr (triaxialL b a) r.stress dt) := by
  rw [(trial_triaxial pr hr.axi b a dt).1]
  have h1 : 0 < Spec.meanStress r.stress := hp.trans_le (hmin.trans hr.mean_ge)
  have h2 : 1 ≤ Real.exp (dt * (2 * b + a) / pr.kap) := by
    rw [← Real.exp_zero, Real.exp_le_exp]
    exact div_nonneg (mul_nonneg hdt.le hb) h.kap.le
  nlinarith

/-- A step that keeps the controlled stress, does not expand the sample and does not unload it leads to such a state again. -/
theorem drained_step_keeps (h : pr.Clay) (hp : 0 < pr.pMin) (hmin : pr.pMin ≤ conf) (hconf : 1 ≤ conf)
    (hM : drainedSlope pConstant * pr.M < 1) (hdt : 0 < dt) (σref : Mat3 ℝ) {v : ℝ} (hv : v ≤ pr.N * (999999 / 1000000))
    (hr : DrainedInv pr pConstant conf r) {b : ℝ} (hb : 0 ≤ 2 * b + a) (hba : b ≤ a)
    (hc : Spec.controlled pConstant
      (mccUpdate realFns rootOps pr (triaxialL b a) r.epsE r.stress r.pc σref v dt).stress = conf) :
    DrainedInv pr pConstant conf (mccUpdate realFns rootOps pr (triaxialL b a) r.epsE r.stress r.pc σref v dt) ∧
    Spec.Converged rootOps pr (triaxialL b a) σref dt r ∧
    (0 < Spec.mccF pr.M r.pc (Spec.mccTrialStress pr (triaxialL b a) r.stress dt) →
      1 / 10 ^ 6 ≤ Spec.qVM (Spec.mccTrialStress pr (triaxialL b a) r.stress dt)) := by
  have hs : (triaxialL b a).transpose = triaxialL b a := Matrix.diagonal_transpose _
  have hpm : pr.pMin ≤ Spec.meanStress r.stress := hmin.trans hr.mean_ge
  have hpc : 0 < r.pc := by linarith [hr.above]
  have hpT := drained_wet_trial hp h hmin hdt hr hb
  have hconv : Spec.Converged rootOps pr (triaxialL b a) σref dt r :=
    rootOps_converged_wet h hp _ σref dt hpm (by linarith [hr.above]) (by linarith [hr.wet])
  obtain ⟨h1, lam, hl, h2, h3, h4, h5⟩ := mcc_drained_step_raw rootOps h hp hs σref hv r hpc hpm hconv
  set r' := mccUpdate realFns rootOps pr (triaxialL b a) r.epsE r.stress r.pc σref v dt with hr'
  have htr : (triaxialL b a).trace = 2 * b + a := by
    simp [triaxialL, Matrix.trace, Fin.sum_univ_three]; ring
  rw [htr] at h2 h4
  obtain ⟨t1, t2, t3⟩ := trial_triaxial pr hr.axi b a dt
  set T := Spec.mccTrialStress pr (triaxialL b a) r.stress dt with hT
  set k := drainedSlope pConstant with hk
  have hk0 : 0 ≤ k := drainedSlope_nonneg pConstant
  have hM0 := h.M
  rw [← t1, axisymmetric_dev hr.axi, dev_triaxialL, smul_smul, ← add_smul] at h4
  have hxt : r.stress 2 2 - r.stress 0 0 + 2 * Spec.clayShear pr (max (Spec.meanStress T) pr.pMin) * (dt * (a - b)) =
      T 2 2 - T 0 0 := by rw [t3]; ring
  rw [hxt] at h4
  have hGt := clayShear_pos h (max (Spec.meanStress T) pr.pMin)
  have hge : r.stress 2 2 - r.stress 0 0 ≤ T 2 2 - T 0 0 := by
    rw [t3]
    have := mul_nonneg hGt.le (mul_nonneg two_pos.le (mul_nonneg hdt.le (sub_nonneg.mpr hba)))
    linarith
  have hG' := clayShear_pos h (Spec.meanStress r'.stress)
  have hden : 0 < 1 + 6 * Spec.clayShear pr (Spec.meanStress r'.stress) * lam := by positivity
  have h6 : Spec.dev r'.stress = ((1 + 6 * Spec.clayShear pr (Spec.meanStress r'.stress) * lam)⁻¹ * (T 2 2 - T 0 0)) • triDev := by
    rw [mul_smul, ← h4, smul_smul, inv_mul_cancel₀ hden.ne', one_smul]
  obtain ⟨haxi, hy', -⟩ := axisymmetric_of_dev h6
  have hxt0 : 0 ≤ T 2 2 - T 0 0 := hr.side.trans hge
  have hside : 0 ≤ r'.stress 2 2 - r'.stress 0 0 := by rw [hy']; exact mul_nonneg (inv_nonneg.mpr hden.le) hxt0
  have hyle : r'.stress 2 2 - r'.stress 0 0 ≤ T 2 2 - T 0 0 := by
    rw [hy']
    refine mul_le_of_le_one_left hxt0 (inv_le_one_of_one_le₀ ?_)
    have : 0 ≤ 6 * Spec.clayShear pr (Spec.meanStress r'.stress) * lam := by positivity
    linarith
  have hmean : Spec.meanStress r'.stress = conf + k * (r'.stress 2 2 - r'.stress 0 0) := by
    rw [drained_mean (b := pConstant) haxi, hc]
  have hp0 : 0 < Spec.meanStress r.stress := hp.trans_le hpm
  have hp0' : 0 < Spec.meanStress r'.stress := by rw [hmean]; have := mul_nonneg hk0 hside; linarith
  have hcp : 0 < pr.lam - pr.kap := sub_pos.mpr h.lam
  have hge2 : r'.pc ≤ 2 * Spec.meanStress r'.stress := by
    by_contra hn
    push Not at hn
    have a1 : lam * (2 * Spec.meanStress r'.stress - r'.pc) * pr.M ^ 2 ≤ 0 :=
      mul_nonpos_of_nonpos_of_nonneg (mul_nonpos_of_nonneg_of_nonpos hl (by linarith)) (sq_nonneg _)
    have a2 : Real.log r'.pc ≤ Real.log r.pc := by
      have := h3.trans_le a1
      by_contra hn2
      push Not at hn2
      have := mul_pos hcp (sub_pos.mpr hn2)
      linarith
    have a3 : Real.log (Spec.meanStress r.stress) ≤ Real.log (Spec.meanStress r'.stress) := by
      have a4 : 0 ≤ pr.kap * (Real.log (Spec.meanStress r'.stress) - Real.log (Spec.meanStress r.stress)) := by
        rw [h2]; have := mul_nonneg hdt.le hb; linarith
      have := nonneg_of_mul_nonneg_right a4 h.kap
      linarith
    have a5 := (Real.log_le_log_iff h1 hpc).mp a2
    have a6 := (Real.log_le_log_iff hp0 hp0').mp a3
    linarith [hr.wet]
  have hmono : r.pc ≤ r'.pc := by
    have a1 : 0 ≤ (pr.lam - pr.kap) * (Real.log r'.pc - Real.log r.pc) := by
      rw [h3]; exact mul_nonneg (mul_nonneg hl (by linarith)) (sq_nonneg _)
    have := nonneg_of_mul_nonneg_right a1 hcp
    exact (Real.log_le_log_iff hpc h1).mp (by linarith)
  have hsmall : ∀ u, conf ≤ u → u ≤ conf + k / 10 ^ 6 → 2 * (1 / 10 ^ 6 / pr.M) ^ 2 + u * (u - r'.pc) < 0 := by
    intro u hu1 hu2
    have a1 := hr.small u hu1 hu2
    have a2 : 0 ≤ u * (r'.pc - r.pc) := mul_nonneg (by linarith) (by linarith)
    nlinarith
  have hF : Spec.mccF pr.M r'.pc r'.stress = Drained.Y pr.M conf k (r'.stress 2 2 - r'.stress 0 0) r'.pc := by
    rw [mccF_axisymmetric haxi, hmean, Drained.Y]
  have hres : 0 < Spec.mccF pr.M r.pc T → 1 / 10 ^ 6 ≤ Spec.qVM T := by
    intro hy
    by_contra hn
    push Not at hn
    have hq : Spec.qVM T = T 2 2 - T 0 0 :=
      (pow_left_inj₀ (Real.sqrt_nonneg _) hxt0 two_ne_zero).mp (qVM_axisymmetric t2)
    rcases h5 with ⟨-, -, h8⟩ | ⟨-, -, h8⟩
    · have a0 : r'.stress 2 2 - r'.stress 0 0 ≤ 1 / 10 ^ 6 := by linarith
      have a1 := hsmall (conf + k * (r'.stress 2 2 - r'.stress 0 0)) (by have := mul_nonneg hk0 hside; linarith)
        (by have := mul_le_mul_of_nonneg_left a0 hk0; linarith)
      have a2 : (r'.stress 2 2 - r'.stress 0 0) ^ 2 / pr.M ^ 2 ≤ (1 / 10 ^ 6 / pr.M) ^ 2 := by
        rw [div_pow (1 / 10 ^ 6)]
        exact div_le_div_of_nonneg_right (pow_le_pow_left₀ hside a0 2) (by positivity)
      have a3 := (abs_le.mp h8).1
      rw [hF, Drained.Y] at a3
      linarith
    · linarith
  refine ⟨⟨haxi, hc, hside, ?_, ?_, ?_, by linarith [hr.above], hsmall⟩, hconv, hres⟩
  all_goals have hk1 : -1 < k * pr.M := by have := mul_nonneg hk0 hM0.le; linarith
  all_goals have hpk : 0 < conf + k * (r'.stress 2 2 - r'.stress 0 0) := by rw [← hmean]; exact hp0'
  · rcases h5 with ⟨h7, h8, -⟩ | ⟨-, h8, -⟩
    · exact (h8 (hres h7)).le
    · exact h8
  all_goals
    rcases h5 with ⟨h7, h8, -⟩ | ⟨h7, -, -⟩
    · have hY := h8 (hres h7)
      rw [hF] at hY
      have hne : 2 * Spec.meanStress r'.stress ≠ r'.pc := by
        intro e
        have a1 := h3
        rw [e, sub_self, mul_zero, zero_mul] at a1
        have a2 : r'.pc = r.pc := by
          rcases mul_eq_zero.mp a1 with a3 | a3
          · exact absurd a3 hcp.ne'
          · exact Real.log_injOn_pos h1 hpc (by linarith)
        have a3 := Drained.yield_gap_le hM0 hpk hside hM hk1 hY
        rw [← hmean, e, sub_self, abs_zero] at a3
        have a4 : 0 < |Drained.pcs pr.M conf k - r'.pc| := by
          rw [a2]; exact abs_pos.mpr (by linarith [hr.below])
        have := mul_pos a4 (by linarith : 0 < (1 - k * pr.M) / 2)
        linarith
      have hlt : r'.pc < 2 * Spec.meanStress r'.stress := lt_of_le_of_ne hge2 hne.symm
      first
      | exact hlt
      | have a1 := Drained.yield_same_sign hM0 hpk hside hM hk1 hY
        rw [← hmean] at a1
        have a2 : r'.pc ≤ Drained.pcs pr.M conf k := by
          have := nonneg_of_mul_nonneg_right a1 (by linarith)
          linarith
        refine lt_of_le_of_ne a2 fun e => hne ?_
        have a3 := Drained.yield_stress_le hM0 hpk hside hM hk1 hY
        rw [e, sub_self, abs_zero, mul_zero] at a3
        have a4 : Drained.xcs pr.M conf k = r'.stress 2 2 - r'.stress 0 0 := by
          have := abs_nonpos_iff.mp a3
          linarith
        rw [hmean, ← a4, e, ← hk]
        have : 1 - k * pr.M ≠ 0 := by linarith
        unfold Drained.xcs Drained.pcs
        field_simp; ring
    · rw [h7, zero_mul, zero_mul] at h3
      have a2 : r'.pc = r.pc := by
        rcases mul_eq_zero.mp h3 with a3 | a3
        · exact absurd a3 hcp.ne'
        · exact Real.log_injOn_pos h1 hpc (by linarith)
      rw [a2]
      first
      | exact hr.below
      | rw [h7] at hy'
        simp only [mul_zero, add_zero, inv_one, one_mul] at hy'
        have a3 : Spec.meanStress r.stress ≤ Spec.meanStress r'.stress := by
          rw [hr.mean, hmean, hy']
          have := mul_le_mul_of_nonneg_left hge hk0
          linarith
        linarith [hr.wet]

set_option maxHeartbeats 1000000 in
/-- In every state there is a lateral rate that keeps the controlled stress. -/
theorem drained_step_exists (h : pr.Clay) (hp : 0 < pr.pMin) (hmin : pr.pMin ≤ conf) (hconf : 1 ≤ conf)
    (hM : drainedSlope pConstant * pr.M < 1) (ha : 0 < a) (hdt : 0 < dt) (σref : Mat3 ℝ) {v : ℝ}
    (hv : v ≤ pr.N * (999999 / 1000000)) (hr : DrainedInv pr pConstant conf r) :
    ∃ b, 0 ≤ 2 * b + a ∧ b ≤ a ∧ Spec.controlled pConstant
      (mccUpdate realFns rootOps pr (triaxialL b a) r.epsE r.stress r.pc σref v dt).stress = conf := by
  have hs : ∀ b, (triaxialL b a).transpose = triaxialL b a := fun b => Matrix.diagonal_transpose _
  have hpm : pr.pMin ≤ Spec.meanStress r.stress := hmin.trans hr.mean_ge
  have hpc : 0 < r.pc := by linarith [hr.above]
  set k := drainedSlope pConstant with hk
  have hk0 : 0 ≤ k := drainedSlope_nonneg pConstant
  have hM0 := h.M
  have hkap := h.kap
  have hcp : 0 < pr.lam - pr.kap := sub_pos.mpr h.lam
  have hΔ : 0 < a * dt := mul_pos ha hdt
  have hp0 : 0 < Spec.meanStress r.stress := hp.trans_le hpm
  obtain ⟨x', hx', hcase⟩ := Drained.next_state (g := Spec.clayShear pr) hM0 (by linarith) hk0 hM hkap hcp hΔ
    (clayShear_pos h) (clayShear_cont pr) hr.side hr.yield hr.below hr.above
  rw [← hr.mean] at hcase
  have hx0 : 0 ≤ x' := hr.side.trans hx'
  have hpp : Spec.meanStress r.stress ≤ conf + k * x' := by
    rw [hr.mean]; have := mul_le_mul_of_nonneg_left hx' hk0; linarith
  have hp' : 0 < conf + k * x' := hp0.trans_le hpp
  have hlogp : 0 ≤ Real.log (conf + k * x') - Real.log (Spec.meanStress r.stress) := sub_nonneg.mpr (Real.log_le_log hp0 hpp)
  rcases hcase with ⟨hY, he⟩ | ⟨pc', lam, hpc', hlam, hxp, hwet, hY, hh, he⟩
  · set V := pr.kap * (Real.log (conf + k * x') - Real.log (Spec.meanStress r.stress)) with hV
    have hV0 : 0 ≤ V := mul_nonneg hkap.le hlogp
    set b := (V / dt - a) / 2 with hb
    have e1 : dt * (2 * b + a) = V := by rw [hb]; field_simp; ring
    have e2 : 2 * (dt * (a - b)) = 3 * (a * dt) - V := by rw [← e1]; ring
    obtain ⟨t1, t2, t3⟩ := trial_triaxial pr hr.axi b a dt
    set T := Spec.mccTrialStress pr (triaxialL b a) r.stress dt with hT
    have hmT : Spec.meanStress T = conf + k * x' := by
      rw [t1, e1, hV, mul_div_cancel_left₀ _ hkap.ne', Real.exp_sub, Real.exp_log hp', Real.exp_log hp0]
      field_simp [hp0.ne']
    rw [hmT, max_eq_left (hpm.trans hpp), e2] at t3
    have hdT : T 2 2 - T 0 0 = x' := by rw [t3]; exact he.symm
    have hF : ¬0 < Spec.mccF pr.M r.pc T := by
      rw [mccF_axisymmetric t2, hmT, hdT, not_lt]; exact hY
    have hr' : mccUpdate realFns rootOps pr (triaxialL b a) r.epsE r.stress r.pc σref v dt =
        mccElastic (mccTrial realFns pr (triaxialL b a) r.epsE r.stress r.pc σref dt) r.pc := by
      simp only [mccUpdate]
      rw [if_pos hv, if_neg]
      rw [mccTrial_yf_spec pr (triaxialL b a) r.epsE r.stress r.pc σref dt hpm]; exact hF
    refine ⟨b, ?_, ?_, ?_⟩
    · have : 0 ≤ dt * (2 * b + a) := by rw [e1]; exact hV0
      exact nonneg_of_mul_nonneg_right this hdt
    · have a1 : 0 ≤ Spec.clayShear pr (conf + k * x') * (3 * (a * dt) - V) := by linarith
      have a2 := nonneg_of_mul_nonneg_right a1 (clayShear_pos h _)
      rw [← e2] at a2
      have a3 : 0 ≤ dt * (a - b) := by linarith
      have := nonneg_of_mul_nonneg_right a3 hdt
      linarith
    · rw [hr', show (mccElastic (mccTrial realFns pr (triaxialL b a) r.epsE r.stress r.pc σref dt) r.pc).stress = T from
        mccTrial_stress pr (triaxialL b a) r.epsE r.stress r.pc σref dt hpm]
      have := drained_mean (b := pConstant) t2
      rw [hmT, hdT] at this
      linarith
  · have hpc0' : 0 < pc' := hpc.trans hpc'
    have hlogc : 0 < Real.log pc' - Real.log r.pc := sub_pos.mpr (Real.log_lt_log hpc hpc')
    set A := (pr.lam - pr.kap) * (Real.log pc' - Real.log r.pc) with hA
    have hA0 : 0 < A := mul_pos hcp hlogc
    set V := pr.kap * (Real.log (conf + k * x') - Real.log (Spec.meanStress r.stress)) + A with hV
    have hV0 : 0 ≤ V := add_nonneg (mul_nonneg hkap.le hlogp) hA0.le
    set b := (V / dt - a) / 2 with hb
    have e1 : dt * (2 * b + a) = V := by rw [hb]; field_simp; ring
    have e2 : 2 * (dt * (a - b)) = 3 * (a * dt) - V := by rw [← e1]; ring
    have hb0 : 0 ≤ 2 * b + a := by
      have : 0 ≤ dt * (2 * b + a) := by rw [e1]; exact hV0
      exact nonneg_of_mul_nonneg_right this hdt
    have hpT := drained_wet_trial hp h hmin hdt hr hb0
    obtain ⟨t1, t2, t3⟩ := trial_triaxial pr hr.axi b a dt
    set T := Spec.mccTrialStress pr (triaxialL b a) r.stress dt with hT
    rw [max_eq_left (hpm.trans hpT), e2] at t3
    rw [e1] at t1
    have hg := clayShear_pos h (conf + k * x')
    have hdT : T 2 2 - T 0 0 = x' * (1 + 6 * Spec.clayShear pr (conf + k * x') * lam) := by
      rw [t3, he, t1]
    have hlg : 0 < 6 * Spec.clayShear pr (conf + k * x') * lam := by positivity
    have hdTx : x' < T 2 2 - T 0 0 := by rw [hdT, mul_add, mul_one]; linarith [mul_pos hxp hlg]
    have hqT : Spec.qVM T = T 2 2 - T 0 0 :=
      (pow_left_inj₀ (Real.sqrt_nonneg _) (hx0.trans hdTx.le) two_ne_zero).mp (qVM_axisymmetric t2)
    have hpTp : conf + k * x' ≤ Spec.meanStress T := by
      rw [t1, hV, add_div, mul_div_cancel_left₀ _ hkap.ne', Real.exp_add, Real.exp_sub, Real.exp_log hp', Real.exp_log hp0]
      have a1 : 1 ≤ Real.exp (A / pr.kap) := by
        rw [← Real.exp_zero, Real.exp_le_exp]; positivity
      have a2 : Spec.meanStress r.stress * ((conf + k * x') / Spec.meanStress r.stress * Real.exp (A / pr.kap)) =
          (conf + k * x') * Real.exp (A / pr.kap) := by field_simp [hp0.ne']
      rw [a2]
      exact le_mul_of_one_le_right hp'.le a1
    have hF : 0 < Spec.mccF pr.M r.pc T := by
      rw [mccF_axisymmetric t2]
      have a1 : x' ^ 2 / pr.M ^ 2 < (T 2 2 - T 0 0) ^ 2 / pr.M ^ 2 :=
        div_lt_div_of_pos_right (pow_lt_pow_left₀ hdTx hx0 two_ne_zero) (by positivity)
      have a2 : (conf + k * x') * (conf + k * x' - pc') ≤ Spec.meanStress T * (Spec.meanStress T - r.pc) := by
        have b1 : 0 ≤ (conf + k * x') * (pc' - r.pc) := mul_nonneg hp'.le (by linarith)
        have b2 : 0 ≤ (Spec.meanStress T - (conf + k * x')) * (Spec.meanStress T + (conf + k * x') - r.pc) :=
          mul_nonneg (by linarith) (by linarith)
        linear_combination b1 + b2
      unfold Drained.Y at hY
      linarith
    have hq : 1 / 10 ^ 6 ≤ Spec.qVM T := by
      rw [hqT]
      by_contra hn
      push Not at hn
      have a0 : x' ≤ 1 / 10 ^ 6 := by linarith
      have a1 := hr.small (conf + k * x') (by have := mul_nonneg hk0 hx0; linarith)
        (by have := mul_le_mul_of_nonneg_left a0 hk0; linarith)
      have a2 : x' ^ 2 / pr.M ^ 2 ≤ (1 / 10 ^ 6 / pr.M) ^ 2 := by
        rw [div_pow (1 / 10 ^ 6)]
        exact div_le_div_of_nonneg_right (pow_le_pow_left₀ hx0 a0 2) (by positivity)
      have a3 : 0 ≤ (1 / 10 ^ 6 / pr.M) ^ 2 := sq_nonneg _
      have a4 : 0 ≤ (conf + k * x') * (pc' - r.pc) := mul_nonneg hp'.le (by linarith)
      unfold Drained.Y at hY
      linarith
    have hconv : Spec.Converged rootOps pr (triaxialL b a) σref dt r :=
      rootOps_converged_wet h hp _ σref dt hpm (by linarith [hr.above]) (by linarith [hr.wet])
    have htl : (triaxialL b a).trace = 2 * b + a := by
      simp [triaxialL, Matrix.trace, Fin.sum_univ_three]; ring
    have htr : (Spec.strainInc (triaxialL b a) dt).trace = V := by
      rw [Spec.strainInc, hs b, ← two_smul ℝ, smul_smul, Matrix.trace_smul, htl, smul_eq_mul, ← e1]; ring
    have hdp : (Spec.mccReturn pr (triaxialL b a) r.stress r.pc dt).p A = conf + k * x' := by
      simp only [Spec.ReturnData.p, Spec.mccReturn, htr]
      rw [hV, add_sub_cancel_right, mul_div_cancel_left₀ _ hkap.ne', Real.exp_sub, Real.exp_log hp', Real.exp_log hp0]
      field_simp [hp0.ne']
    have hdpc : (Spec.mccReturn pr (triaxialL b a) r.stress r.pc dt).pc A = pc' := by
      simp only [Spec.ReturnData.pc, Spec.mccReturn]
      rw [hA, mul_div_cancel_left₀ _ hcp.ne', Real.exp_sub, Real.exp_log hpc0', Real.exp_log hpc]
      field_simp [hpc.ne']
    have hdq : (Spec.mccReturn pr (triaxialL b a) r.stress r.pc dt).q lam A = x' := by
      rw [Spec.ReturnData.q, hdp]
      change max (Spec.qVM T) _ / (1 + 6 * Spec.clayShear pr (conf + k * x') * lam) = x'
      rw [max_eq_left hq, hqT, hdT, mul_div_cancel_right₀ _ (by positivity)]
    have hsolve : (Spec.mccReturn pr (triaxialL b a) r.stress r.pc dt).Solves lam A := by
      refine ⟨?_, ?_⟩
      · rw [hdq, hdp, hdpc]
        change (x' / pr.M) ^ 2 + _ = 0
        rw [div_pow]; exact hY
      · rw [hdp, hdpc]; exact hh
    obtain ⟨-, c2, c3⟩ := mcc_converged_solution rootOps h (triaxialL b a) r.epsE r.stress σref v dt hv hpc hp0 hpm hF
      (by linarith [hr.wet]) hq (hconv hF) hlam.le hsolve
    rw [hdp] at c2
    rw [hdq] at c3
    have hba : b ≤ a := by
      have a1 : 0 ≤ Spec.clayShear pr (Spec.meanStress r.stress * Real.exp (V / pr.kap)) * (3 * (a * dt) - V) := by
        have := hdTx.le
        rw [hdT, he] at this
        linarith
      have a2 := nonneg_of_mul_nonneg_right a1 (clayShear_pos h _)
      rw [← e2] at a2
      have a3 : 0 ≤ dt * (a - b) := by linarith
      have := nonneg_of_mul_nonneg_right a3 hdt
      linarith
    refine ⟨b, hb0, hba, ?_⟩
    obtain ⟨-, l1, hl1, -, -, h4, -⟩ := mcc_drained_step_raw rootOps h hp (hs b) σref hv r hpc hpm hconv
    set r' := mccUpdate realFns rootOps pr (triaxialL b a) r.epsE r.stress r.pc σref v dt with hr'
    have hG' := clayShear_pos h (Spec.meanStress r'.stress)
    have hden : 0 < 1 + 6 * Spec.clayShear pr (Spec.meanStress r'.stress) * l1 := by positivity
    rw [htl, e1, ← t1, max_eq_left (hpm.trans hpT), axisymmetric_dev hr.axi, dev_triaxialL, smul_smul, ← add_smul] at h4
    have hxt : r.stress 2 2 - r.stress 0 0 + 2 * Spec.clayShear pr (Spec.meanStress T) * (dt * (a - b)) =
        T 2 2 - T 0 0 := by rw [t3, ← e2]; ring
    rw [hxt] at h4
    have h6 : Spec.dev r'.stress = ((1 + 6 * Spec.clayShear pr (Spec.meanStress r'.stress) * l1)⁻¹ * (T 2 2 - T 0 0)) • triDev := by
      rw [mul_smul, ← h4, smul_smul, inv_mul_cancel₀ hden.ne', one_smul]
    obtain ⟨haxi, hy', -⟩ := axisymmetric_of_dev h6
    have hside : 0 ≤ r'.stress 2 2 - r'.stress 0 0 := by
      rw [hy']; exact mul_nonneg (inv_nonneg.mpr hden.le) (hx0.trans hdTx.le)
    have hd : r'.stress 2 2 - r'.stress 0 0 = x' := by
      have := qVM_axisymmetric haxi
      rw [c3] at this
      exact ((pow_left_inj₀ hx0 hside two_ne_zero).mp this).symm
    have := drained_mean (b := pConstant) haxi
    rw [c2, hd] at this
    linarith

end

end Hydrax
