import Verif.Props.DriverControl
import Verif.Props.DruckerPrager

/-!
# Stress control of yielding and of flowing material (C88)

The residual of the lateral stress is piecewise affine for Drucker-Prager material without dilatancy and hardening; a step on one piece leaves
`5⁻ⁿ` of the deviation. A mu(I) point can only hold confining stresses near the pressure of its equation of state.
-/

namespace Hydrax

open Spec Filter Topology

/-- A function that is affine near the segment from the start to its zero. -/
theorem newton_affine_on (grad : (ℝ → ℝ) → ℝ → ℝ) (hg : TrueGrad grad) (f : ℝ → ℝ) (a : ℝ) (ha : a ≠ 0)
    (hf : ∀ w ∈ Set.Icc (0 : ℝ) 1, ∀ᶠ x in 𝓝 (w * (-f 0 / a)), f x = a * x + f 0) (n : ℕ) :
    f (newtonIterate grad f n) = (1 / 5) ^ n * f 0 := by
  have hd : ∀ w ∈ Set.Icc (0 : ℝ) 1, grad f (w * (-f 0 / a)) = a := fun w hw => by
    apply hg
    have h1 : HasDerivAt (fun x : ℝ => a * x + f 0) (a * 1) (w * (-f 0 / a)) := ((hasDerivAt_id _).const_mul a).add_const _
    rw [mul_one] at h1
    exact h1.congr_of_eventuallyEq (hf w hw)
  have hw : ∀ n : ℕ, 1 - (1 / 5 : ℝ) ^ n ∈ Set.Icc (0 : ℝ) 1 := fun n => by
    have h1 : (0 : ℝ) ≤ (1 / 5) ^ n := by positivity
    have h2 : (1 / 5 : ℝ) ^ n ≤ 1 := pow_le_one₀ (by norm_num) (by norm_num)
    exact ⟨by linarith, by linarith⟩
  have key : ∀ n : ℕ, newtonIterate grad f n = (1 - (1 / 5) ^ n) * (-f 0 / a) := fun n => by
    induction n with
    | zero => simp [newtonIterate]
    | succ n ih =>
      have h1 := hd _ (hw n)
      rw [← ih] at h1
      rw [newton_succ grad f n a ha h1, ih, (hf _ (hw n)).self_of_nhds]
      field_simp
      ring
  rw [key, (hf _ (hw n)).self_of_nhds]
  field_simp
  ring

section
variable (pr : DPParams ℝ) (r a p0 rate dt : ℝ)

/-- Pressure of the elastic trial state of a triaxial step with lateral rate `x`: lateral and axial elastic strains `r` and `a` before. -/
noncomputable def Spec.trialMean (x : ℝ) : ℝ := pr.bulk * (2 * (r + dt * x) + (a + dt * rate)) + p0

/-- Shear stress of the trial state, positive in compression along the axis. -/
noncomputable def Spec.trialShear (x : ℝ) : ℝ := 2 / Real.sqrt 3 * pr.shear * ((a + dt * rate) - (r + dt * x))

/-- Strength at the trial pressure. -/
noncomputable def Spec.trialStrength (x : ℝ) : ℝ := pr.mu1 * trialMean pr r a p0 rate dt x + pr.mu2 * pr.c0

/-- The step does not yield. -/
def Spec.StaysElastic (x : ℝ) : Prop :=
  1 / 10 ^ 6 < trialStrength pr r a p0 rate dt x ∧ |trialShear pr r a rate dt x| < trialStrength pr r a p0 rate dt x

/-- The step ends on the cone, in compression along the axis. -/
def Spec.EndsOnCone (x : ℝ) : Prop :=
  1 / 10 ^ 6 < trialShear pr r a rate dt x ∧ 0 < trialStrength pr r a p0 rate dt x ∧
    trialStrength pr r a p0 rate dt x < trialShear pr r a rate dt x

/-- Lateral stress of a step that does not yield. -/
noncomputable def Spec.elasticLateral (x : ℝ) : ℝ := trialMean pr r a p0 rate dt x - trialShear pr r a rate dt x / Real.sqrt 3

/-- Lateral stress of a step that ends on the cone. -/
noncomputable def Spec.coneLateral (x : ℝ) : ℝ := trialMean pr r a p0 rate dt x - trialStrength pr r a p0 rate dt x / Real.sqrt 3

/-- Axially symmetric strain. -/
def Spec.axial (r a : ℝ) : Mat3 ℝ := Matrix.diagonal ![r, r, a]

theorem axial_epsETr (epsP : ℝ) (x : ℝ) : (dpTrial realFns pr (triaxialL x rate) (axial r a) epsP p0 dt).epsETr = axial (r + dt * x) (a + dt * rate) := by
  have hW : spinTensor (triaxialL x rate) = 0 := by simp [spinTensor, triaxialL]
  have hD : symTensor (triaxialL x rate) = triaxialL x rate := by
    rw [symTensor, triaxialL, Matrix.diagonal_transpose, ← two_smul ℝ, smul_smul]; norm_num
  simp only [dpTrial, jaumann, hW, hD, zero_mul, mul_zero, sub_zero, smul_zero, add_zero]
  ext i j
  fin_cases i <;> fin_cases j <;> simp [triaxialL, axial]

theorem axial_sTr (epsP : ℝ) (x : ℝ) (i j : Fin 3) : (dpTrial realFns pr (triaxialL x rate) (axial r a) epsP p0 dt).sTr i j =
    if i = j then (if i = 2 then -2 else 1) * (-(trialShear pr r a rate dt x) / Real.sqrt 3) else 0 := by
  have h3 : Real.sqrt 3 * Real.sqrt 3 = 3 := Real.mul_self_sqrt (by norm_num)
  have h3p : 0 < Real.sqrt 3 := Real.sqrt_pos.2 (by norm_num)
  have hT : 2 * pr.shear * ((r + dt * x) - (a + dt * rate)) / 3 = -(trialShear pr r a rate dt x) / Real.sqrt 3 := by
    rw [eq_div_iff h3p.ne', trialShear]
    field_simp
    linear_combination (pr.shear * ((r + dt * x) - (a + dt * rate))) * h3
  rw [dpTrial_sTr, axial_epsETr, ← hT]
  fin_cases i <;> fin_cases j <;> simp [Spec.dev, Spec.meanStress, axial] <;> ring

theorem axial_trial (epsP : ℝ) (x : ℝ) :
    (dpTrial realFns pr (triaxialL x rate) (axial r a) epsP p0 dt).pTr = trialMean pr r a p0 rate dt x ∧
    (dpTrial realFns pr (triaxialL x rate) (axial r a) epsP p0 dt).sTr 0 0 = -(trialShear pr r a rate dt x) / Real.sqrt 3 ∧
    (dpTrial realFns pr (triaxialL x rate) (axial r a) epsP p0 dt).sqrtJ2 = max |trialShear pr r a rate dt x| (1 / 10 ^ 6) := by
  have h3 : Real.sqrt 3 * Real.sqrt 3 = 3 := Real.mul_self_sqrt (by norm_num)
  have e1 := axial_epsETr pr r a p0 rate dt epsP x
  have e2 := axial_sTr pr r a p0 rate dt epsP x
  refine ⟨?_, ?_, ?_⟩
  · have : (dpTrial realFns pr (triaxialL x rate) (axial r a) epsP p0 dt).pTr =
        pr.bulk * (dpTrial realFns pr (triaxialL x rate) (axial r a) epsP p0 dt).epsETr.trace + p0 := rfl
    rw [this, e1, trialMean, Matrix.trace_fin_three]
    simp only [axial, Matrix.diagonal_apply_eq, Matrix.cons_val]
    ring
  · rw [e2, if_pos rfl, if_neg (by decide), one_mul]
  · have h4 : Spec.ddot (dpTrial realFns pr (triaxialL x rate) (axial r a) epsP p0 dt).sTr
        (dpTrial realFns pr (triaxialL x rate) (axial r a) epsP p0 dt).sTr / 2 = trialShear pr r a rate dt x ^ 2 := by
      simp only [Spec.ddot, Fin.sum_univ_three, e2]
      generalize trialShear pr r a rate dt x = T
      simp [show (0 : Fin 3) ≠ 2 by decide, show (1 : Fin 3) ≠ 2 by decide, show (0 : Fin 3) ≠ 1 by decide, show (1 : Fin 3) ≠ 0 by decide,
        show (2 : Fin 3) ≠ 0 by decide, show (2 : Fin 3) ≠ 1 by decide]
      field_simp
      rw [show Real.sqrt 3 ^ 2 = 3 by rw [sq, h3]]
      ring
    rw [dpTrial_sqrtJ2, h4]
    rcases le_total (1 / 10 ^ 12 : ℝ) (trialShear pr r a rate dt x ^ 2) with h | h
    · rw [max_eq_left h, Real.sqrt_sq_eq_abs, max_eq_left]
      rw [show (1 / 10 ^ 6 : ℝ) = |1 / 10 ^ 6| by rw [abs_of_pos]; positivity]
      exact sq_le_sq.1 (by norm_num at h ⊢; exact h)
    · rw [max_eq_right h, max_eq_right]
      · rw [show (1 / 10 ^ 12 : ℝ) = (1 / 10 ^ 6) ^ 2 by norm_num]; exact Real.sqrt_sq (by positivity)
      · exact abs_le_of_sq_le_sq (by norm_num at h ⊢; exact h) (by positivity)

variable (hG : 0 < pr.shear) (hhat : pr.mu1Hat = 0) (hH : pr.H = 0) (epsP rho : ℝ) (hr : pr.rho0 ≤ rho)
include hr hH

theorem elastic_lateral {x : ℝ} (h : StaysElastic pr r a p0 rate dt x) :
    (dpUpdate realFns pr (triaxialL x rate) (axial r a) epsP p0 rho dt).stress 0 0 = elasticLateral pr r a p0 rate dt x := by
  obtain ⟨h1, h2, h3⟩ := axial_trial pr r a p0 rate dt epsP x
  have hy : ¬ (dpTrial realFns pr (triaxialL x rate) (axial r a) epsP p0 dt).yf > 0 := by
    rw [dpTrial_yf, h1, h3, hH, zero_mul, add_zero]
    have : max |trialShear pr r a rate dt x| (1 / 10 ^ 6) < trialStrength pr r a p0 rate dt x := max_lt h.2 h.1
    unfold trialStrength at this
    linarith
  simp only [dpUpdate]
  rw [if_pos (show rho ≥ pr.rho0 from hr), if_neg hy]
  simp only [dpElastic, Matrix.add_apply, h1, h2, isoT_apply, if_true, elasticLateral]
  ring

include hG hhat in
theorem cone_lateral {x : ℝ} (h : EndsOnCone pr r a p0 rate dt x) :
    (dpUpdate realFns pr (triaxialL x rate) (axial r a) epsP p0 rho dt).stress 0 0 = coneLateral pr r a p0 rate dt x := by
  obtain ⟨h1, h2, h3⟩ := axial_trial pr r a p0 rate dt epsP x
  have hT : 0 < trialShear pr r a rate dt x := lt_trans (by positivity) h.1
  rw [abs_of_pos hT, max_eq_left h.1.le] at h3
  have hyf : (dpTrial realFns pr (triaxialL x rate) (axial r a) epsP p0 dt).yf = trialShear pr r a rate dt x - trialStrength pr r a p0 rate dt x := by
    rw [dpTrial_yf, h1, h3, hH, trialStrength]; ring
  have hy : (dpTrial realFns pr (triaxialL x rate) (axial r a) epsP p0 dt).yf > 0 := by rw [hyf]; linarith [h.2.2]
  have hm : pr.shear * dpMulti pr (dpTrial realFns pr (triaxialL x rate) (axial r a) epsP p0 dt) =
      trialShear pr r a rate dt x - trialStrength pr r a p0 rate dt x := by
    rw [dpMulti, hhat, hH, hyf]
    rw [mul_zero, zero_mul, zero_mul, add_zero, add_zero]
    exact mul_div_cancel₀ _ hG.ne'
  have hm0 : pr.bulk * dpMulti pr (dpTrial realFns pr (triaxialL x rate) (axial r a) epsP p0 dt) * pr.mu1Hat = 0 := by rw [hhat, mul_zero]
  simp only [dpUpdate]
  rw [if_pos (show rho ≥ pr.rho0 from hr), if_pos hy, if_neg (by rw [h3, hm]; linarith [h.2.1])]
  simp only [dpCone, Matrix.add_apply, Matrix.smul_apply, smul_eq_mul, h1, h2, h3, hm, hm0, isoT_apply, if_true, coneLateral]
  have h3p : 0 < Real.sqrt 3 := Real.sqrt_pos.2 (by norm_num)
  field_simp
  ring

end

section
variable {dim : ℕ}

theorem step_dp (d : Driver ℝ dim (LawState ℝ)) (fn : MathFns ℝ) (pr : DPParams ℝ) (reset : Bool) (hd : d.law = dpLaw fn pr reset)
    (mp : MPState ℝ dim 1) (e : ℕ → Mat3 ℝ) (b p0 : ℕ → ℝ) (L : Mat3 ℝ) (dt : ℝ) :
    ∃ c, d.step realExpm mp (.dp e b p0) L dt = .ok c ∧
      ∀ p, c.1.stress p = (dpUpdate fn pr L (e p.val) (b p.val) (p0 p.val) (mp.density p) dt).stress := by
  unfold Driver.step
  rw [hd]
  exact ⟨_, rfl, fun p => rfl⟩

/-- **C88**, Drucker-Prager material without dilatancy and hardening under lateral stress control, one step from an axially symmetric state:
if neither the step without lateral strain nor the step that holds the confining stress yields, or if both end on the cone, `n` Newton
iterations leave `5⁻ⁿ` of the deviation that the step would have without lateral strain. -/
theorem drained_dp_step_partial (grad : (ℝ → ℝ) → ℝ → ℝ) (hg : TrueGrad grad) (t : TriaxialTest ℝ dim (LawState ℝ))
    (pr : DPParams ℝ) (reset : Bool) (hd : t.solver.law = dpLaw realFns pr reset) (hK : 0 < pr.bulk) (hG : 0 < pr.shear)
    (hhat : pr.mu1Hat = 0) (hH : pr.H = 0) (hmu : pr.mu1 < Real.sqrt 3)
    (hu : t.isUndrained = false) (hpc : t.isPConstant = false) (mp mp' : MPState ℝ dim 1) (r a : ℝ) (e : ℕ → Mat3 ℝ) (he : e 0 = axial r a)
    (b p0 : ℕ → ℝ) (ls' : LawState ℝ) (hrho : pr.rho0 ≤ mp.density 0) (idx : ℕ) (hdt : t.dt.at idx ≠ 0)
    (hst : ¬ (t.startStatic = true ∧ idx = 0))
    (h : t.stepIdx realExpm grad (mp, .dp e b p0) idx = .ok (mp', ls')) :
    (∀ x, elasticLateral pr r a (p0 0) (t.axialRate.at idx) (t.dt.at idx) x = t.confine →
      StaysElastic pr r a (p0 0) (t.axialRate.at idx) (t.dt.at idx) 0 → StaysElastic pr r a (p0 0) (t.axialRate.at idx) (t.dt.at idx) x →
      mp'.stress 0 0 0 - t.confine = (1 / 5) ^ t.numNewton * (elasticLateral pr r a (p0 0) (t.axialRate.at idx) (t.dt.at idx) 0 - t.confine)) ∧
    (∀ x, coneLateral pr r a (p0 0) (t.axialRate.at idx) (t.dt.at idx) x = t.confine →
      EndsOnCone pr r a (p0 0) (t.axialRate.at idx) (t.dt.at idx) 0 → EndsOnCone pr r a (p0 0) (t.axialRate.at idx) (t.dt.at idx) x →
      mp'.stress 0 0 0 - t.confine = (1 / 5) ^ t.numNewton * (coneLateral pr r a (p0 0) (t.axialRate.at idx) (t.dt.at idx) 0 - t.confine)) := by
  unfold TriaxialTest.stepIdx at h
  rw [if_neg hst] at h
  simp only at h
  generalize t.axialRate.at idx = rate at *
  generalize t.dt.at idx = dt at *
  have h3p : 0 < Real.sqrt 3 := Real.sqrt_pos.2 (by norm_num)
  have hres : ∀ x, t.residual realExpm mp (.dp e b p0) rate dt x =
      (dpUpdate realFns pr (triaxialL x rate) (axial r a) (b 0) (p0 0) (mp.density 0) dt).stress 0 0 - t.confine := by
    intro x
    obtain ⟨c, hc, hs⟩ := step_dp t.solver realFns pr reset hd mp e b p0 (triaxialL x rate) dt
    rw [residual_eq t mp _ rate dt x c hc, hs, hpc, ← he]
    rfl
  have hl : t.lateral realExpm grad mp (.dp e b p0) rate dt =
      newtonIterate grad (t.residual realExpm mp (.dp e b p0) rate dt) t.numNewton := by
    unfold TriaxialTest.lateral
    rw [hu]
    rfl
  rw [hl] at h
  have hk := residual_eq t mp (.dp e b p0) rate dt _ _ h
  rw [hpc] at hk
  replace hk : _ = mp'.stress 0 0 0 - t.confine := hk
  rw [← hk]
  have cP : Continuous (trialMean pr r a (p0 0) rate dt) := by unfold trialMean; fun_prop
  have cT : Continuous (trialShear pr r a rate dt) := by unfold trialShear; fun_prop
  have cS : Continuous (trialStrength pr r a (p0 0) rate dt) := by unfold trialStrength; fun_prop
  have aP : ∀ w x, trialMean pr r a (p0 0) rate dt (w * x) = (1 - w) * trialMean pr r a (p0 0) rate dt 0 + w * trialMean pr r a (p0 0) rate dt x :=
    fun w x => by unfold trialMean; ring
  have aT : ∀ w x, trialShear pr r a rate dt (w * x) = (1 - w) * trialShear pr r a rate dt 0 + w * trialShear pr r a rate dt x :=
    fun w x => by unfold trialShear; ring
  have aS : ∀ w x, trialStrength pr r a (p0 0) rate dt (w * x) =
      (1 - w) * trialStrength pr r a (p0 0) rate dt 0 + w * trialStrength pr r a (p0 0) rate dt x :=
    fun w x => by unfold trialStrength; rw [aP]; ring
  have mix : ∀ {w u v c : ℝ}, w ∈ Set.Icc (0 : ℝ) 1 → c < u → c < v → c < (1 - w) * u + w * v := fun {w u v c} hw h1 h2 => by
    have := convex_Ioi c h1 h2 (sub_nonneg.2 hw.2) hw.1 (by ring)
    exact this
  constructor
  · intro x hx h0 h1
    have hslope : ∀ y, elasticLateral pr r a (p0 0) rate dt y = dt * (2 * pr.bulk + 2 / 3 * pr.shear) * y + elasticLateral pr r a (p0 0) rate dt 0 := fun y => by
      unfold elasticLateral trialMean trialShear
      field_simp
      rw [show Real.sqrt 3 ^ 2 = 3 from Real.sq_sqrt (by norm_num)]
      ring
    have hane : dt * (2 * pr.bulk + 2 / 3 * pr.shear) ≠ 0 := mul_ne_zero hdt (by positivity)
    have hf0 : t.residual realExpm mp (.dp e b p0) rate dt 0 = elasticLateral pr r a (p0 0) rate dt 0 - t.confine := by
      rw [hres, elastic_lateral pr r a (p0 0) rate dt hH (b 0) _ hrho h0]
    rw [← hf0]
    refine newton_affine_on grad hg _ _ hane (fun w hw => ?_) _
    have hxe : -(t.residual realExpm mp (.dp e b p0) rate dt 0) / (dt * (2 * pr.bulk + 2 / 3 * pr.shear)) = x := by
      rw [div_eq_iff hane, hf0, ← hx, hslope x]; ring
    rw [hxe]
    have hel : StaysElastic pr r a (p0 0) rate dt (w * x) := by
      refine ⟨by rw [aS]; exact mix hw h0.1 h1.1, abs_lt.2 ⟨?_, ?_⟩⟩
      · rw [neg_lt_iff_pos_add, aS, aT, show ∀ u v u' v' : ℝ, (1 - w) * u + w * v + ((1 - w) * u' + w * v') =
          (1 - w) * (u + u') + w * (v + v') from fun _ _ _ _ => by ring]
        exact mix hw (by linarith [(abs_lt.1 h0.2).1]) (by linarith [(abs_lt.1 h1.2).1])
      · rw [← sub_pos, aS, aT, show ∀ u v u' v' : ℝ, (1 - w) * u + w * v - ((1 - w) * u' + w * v') =
          (1 - w) * (u - u') + w * (v - v') from fun _ _ _ _ => by ring]
        exact mix hw (by linarith [(abs_lt.1 h0.2).2]) (by linarith [(abs_lt.1 h1.2).2])
    filter_upwards [cS.continuousAt.eventually (lt_mem_nhds hel.1), (cS.sub cT.abs).continuousAt.eventually (lt_mem_nhds (sub_pos.2 hel.2))]
      with y hy1 hy2
    rw [hf0, hres, elastic_lateral pr r a (p0 0) rate dt hH (b 0) _ hrho ⟨hy1, sub_pos.1 hy2⟩, hslope y]
    ring
  · intro x hx h0 h1
    have hslope : ∀ y, coneLateral pr r a (p0 0) rate dt y =
        dt * (2 * pr.bulk * (1 - pr.mu1 / Real.sqrt 3)) * y + coneLateral pr r a (p0 0) rate dt 0 := fun y => by
      unfold coneLateral trialStrength trialMean
      field_simp
      ring
    have hmu' : 0 < 1 - pr.mu1 / Real.sqrt 3 := by rw [sub_pos, div_lt_one h3p]; exact hmu
    have hane : dt * (2 * pr.bulk * (1 - pr.mu1 / Real.sqrt 3)) ≠ 0 := mul_ne_zero hdt (by positivity)
    have hf0 : t.residual realExpm mp (.dp e b p0) rate dt 0 = coneLateral pr r a (p0 0) rate dt 0 - t.confine := by
      rw [hres, cone_lateral pr r a (p0 0) rate dt hG hhat hH (b 0) _ hrho h0]
    rw [← hf0]
    refine newton_affine_on grad hg _ _ hane (fun w hw => ?_) _
    have hxe : -(t.residual realExpm mp (.dp e b p0) rate dt 0) / (dt * (2 * pr.bulk * (1 - pr.mu1 / Real.sqrt 3))) = x := by
      rw [div_eq_iff hane, hf0, ← hx, hslope x]; ring
    rw [hxe]
    have hel : EndsOnCone pr r a (p0 0) rate dt (w * x) := by
      refine ⟨by rw [aT]; exact mix hw h0.1 h1.1, by rw [aS]; exact mix hw h0.2.1 h1.2.1, ?_⟩
      rw [← sub_pos, aS, aT, show ∀ u v u' v' : ℝ, (1 - w) * u + w * v - ((1 - w) * u' + w * v') =
          (1 - w) * (u - u') + w * (v - v') from fun _ _ _ _ => by ring]
      exact mix hw (by linarith [h0.2.2]) (by linarith [h1.2.2])
    filter_upwards [cT.continuousAt.eventually (lt_mem_nhds hel.1), cS.continuousAt.eventually (lt_mem_nhds hel.2.1),
      (cT.sub cS).continuousAt.eventually (lt_mem_nhds (sub_pos.2 hel.2.2))] with y hy1 hy2 hy3
    rw [hf0, hres, cone_lateral pr r a (p0 0) rate dt hG hhat hH (b 0) _ hrho ⟨hy1, hy2, sub_pos.1 hy3⟩, hslope y]
    ring

/-- Whatever the lateral rate, the lateral stress of a mu(I) point is within `mu_d / (2 sqrt 3)` of its pressure, as a fraction of it. -/
theorem muI_lateral_range (pr : MuIParams ℝ) (hv : pr.Valid) (x rate m v r : ℝ) :
    |muIStress realFns pr (triaxialL x rate) m v r 0 0 - muIEos pr.bulk pr.pMin (m / v / r)| ≤
      pr.muD / (2 * Real.sqrt 3) * muIEos pr.bulk pr.pMin (m / v / r) := by
  have h3 : Real.sqrt 3 * Real.sqrt 3 = 3 := Real.mul_self_sqrt (by norm_num)
  have h3p : 0 < Real.sqrt 3 := Real.sqrt_pos.2 (by norm_num)
  rcases lt_or_ge 1 (m / v / r) with hr | hr
  · obtain ⟨hb, -⟩ := muI_friction_bound_partial pr hv (triaxialL x rate) m v r hr
    have hp := muIPressure_pos pr hv hr
    have em : Spec.meanStress (muIStress realFns pr (triaxialL x rate) m v r) = muIPressure pr.bulk pr.pMin (m / v / r) :=
      ((muI_pressure realFns pr hv.bulk.le _ m v r).1 hr).1
    have ee : muIEos pr.bulk pr.pMin (m / v / r) = muIPressure pr.bulk pr.pMin (m / v / r) := by rw [muIEos, if_pos hr]; rfl
    rw [em] at hb
    have hI : 0 ≤ Spec.inertial pr.dP pr.rhoP (Spec.gammaDot (triaxialL x rate)) (muIPressure pr.bulk pr.pMin (m / v / r)) :=
      div_nonneg (mul_nonneg hv.dP.le (gammaDot_nonneg _)) (Real.sqrt_nonneg _)
    have hmu : Spec.muOfI pr.muS pr.muD pr.I0 (Spec.inertial pr.dP pr.rhoP (Spec.gammaDot (triaxialL x rate))
        (muIPressure pr.bulk pr.pMin (m / v / r))) ≤ pr.muD := by
      generalize Spec.inertial pr.dP pr.rhoP (Spec.gammaDot (triaxialL x rate)) (muIPressure pr.bulk pr.pMin (m / v / r)) = I at hI
      have hI0 := hv.I0
      have b1 : I / (pr.I0 + I) ≤ 1 := div_le_one_of_le₀ (by linarith) (by linarith)
      have := mul_le_mul_of_nonneg_left b1 (sub_nonneg.2 hv.muD)
      unfold Spec.muOfI
      rw [mul_div_assoc]
      linarith
    have hb' := hb.trans (mul_le_mul_of_nonneg_right (mul_le_mul_of_nonneg_left hmu (by norm_num : (0 : ℝ) ≤ 1 / 2)) hp.le)
    rw [ee]
    rw [muIStress_eq realFns pr _ m v r hr] at hb' ⊢
    rw [J2_add_iso (by rw [meanStress_smul, meanStress_dev, mul_zero])] at hb'
    have hp' : max (pr.bulk * (m / v / r - 1)) pr.pMin = muIPressure pr.bulk pr.pMin (m / v / r) := rfl
    rw [hp'] at hb' ⊢
    generalize muIPressure pr.bulk pr.pMin (m / v / r) = P at hb' ⊢
    generalize muIViscosity realFns pr P _ = η at hb' ⊢
    have hdev : ∀ i j, Spec.dev (Spec.strainRate (triaxialL x rate)) i j = if i = j then (if i = 2 then -2 else 1) * ((x - rate) / 3) else 0 := by
      intro i j
      fin_cases i <;> fin_cases j <;> simp [Spec.dev, Spec.meanStress, Spec.strainRate, triaxialL] <;> ring
    have hq : Spec.ddot (η • Spec.dev (Spec.strainRate (triaxialL x rate))) (η • Spec.dev (Spec.strainRate (triaxialL x rate))) / 2 =
        (Real.sqrt 3 * (η * ((x - rate) / 3))) ^ 2 := by
      rw [mul_pow, show Real.sqrt 3 ^ 2 = 3 by rw [sq, h3]]
      simp only [Spec.ddot, Fin.sum_univ_three, Matrix.smul_apply, hdev]
      simp [show (0 : Fin 3) ≠ 2 by decide, show (1 : Fin 3) ≠ 2 by decide, show (0 : Fin 3) ≠ 1 by decide, show (1 : Fin 3) ≠ 0 by decide,
        show (2 : Fin 3) ≠ 0 by decide, show (2 : Fin 3) ≠ 1 by decide]
      ring
    rw [hq, Real.sqrt_sq_eq_abs, abs_mul, abs_of_pos h3p] at hb'
    have e00 : (η • Spec.dev (Spec.strainRate (triaxialL x rate)) + isoT P) 0 0 - P = η * ((x - rate) / 3) := by
      simp only [Matrix.add_apply, Matrix.smul_apply, smul_eq_mul, hdev, isoT_apply, if_true, if_neg (show (0 : Fin 3) ≠ 2 by decide)]
      ring
    rw [e00, div_mul_eq_mul_div, le_div_iff₀ (by positivity)]
    linarith
  · have : muIStress realFns pr (triaxialL x rate) m v r = 0 := (muI_pressure realFns pr hv.bulk.le _ m v r).2 hr
    rw [this, muIEos, if_neg (not_lt.2 hr)]
    simp

/-- **C88** (refuted), mu(I) under lateral stress control: whatever the Newton iterations do, the lateral stress after a step is off by the
distance of the confining stress from the pressure before the step, less a fraction `mu_d / (2 sqrt 3)` of that pressure. -/
theorem drained_muI_misses (grad : (ℝ → ℝ) → ℝ → ℝ) (t : TriaxialTest ℝ dim (LawState ℝ)) (pr : MuIParams ℝ) (hv : pr.Valid) (reset : Bool)
    (hd : t.solver.law = muILaw realFns pr reset) (mp mp' : MPState ℝ dim 1) (r : ℕ → ℝ)
    (hvs : mp.volScalar = false) (ls' : LawState ℝ) (idx : ℕ) (hst : ¬ (t.startStatic = true ∧ idx = 0))
    (h : t.stepIdx realExpm grad (mp, .density r) idx = .ok (mp', ls')) :
    |t.confine - muIEos pr.bulk pr.pMin (mp.mass 0 / mp.volume 0 / r 0)| -
      pr.muD / (2 * Real.sqrt 3) * muIEos pr.bulk pr.pMin (mp.mass 0 / mp.volume 0 / r 0) ≤ |mp'.stress 0 0 0 - t.confine| := by
  unfold TriaxialTest.stepIdx at h
  rw [if_neg hst] at h
  simp only at h
  obtain ⟨c, hc, -, hs⟩ := step_muI t.solver realFns pr reset hd mp r hvs
    (triaxialL (t.lateral realExpm grad mp (.density r) (t.axialRate.at idx) (t.dt.at idx)) (t.axialRate.at idx)) (t.dt.at idx)
  rw [hc] at h
  have hm : c.1 = mp' := congrArg Prod.fst (Except.ok.inj h)
  have hr := muI_lateral_range pr hv (t.lateral realExpm grad mp (.density r) (t.axialRate.at idx) (t.dt.at idx)) (t.axialRate.at idx)
    (mp.mass 0) (mp.volume 0) (r 0)
  rw [← hm, hs]
  change _ ≤ |muIStress realFns pr _ (mp.mass 0) (mp.volume 0) (r 0) 0 0 - t.confine|
  generalize muIStress realFns pr _ (mp.mass 0) (mp.volume 0) (r 0) 0 0 = σ at hr ⊢
  have := abs_sub_le t.confine σ (muIEos pr.bulk pr.pMin (mp.mass 0 / mp.volume 0 / r 0))
  rw [abs_sub_comm t.confine σ] at this
  linarith

/-! ### Tests meeting the conditions -/

/-- A drained test of frictional material confined by `c`. -/
noncomputable def exConeTest (G mu c : ℝ) : TriaxialTest ℝ 3 (LawState ℝ) :=
  { solver := { law := dpLaw realFns { bulk := 1, shear := G, mu1 := mu, mu2 := 0, c0 := 0, mu1Hat := 0, H := 0, rho0 := 1 / 2 } false }
    confine := c
    axialRate := .scalar 1
    dt := .scalar 1
    isPConstant := false
    numSteps := 3 }

example : ∃ mp' ls', (exConeTest 1 (1 / 2) 10).stepIdx realExpm deriv (exPoint 1 10, .dp (fun _ => axial 0 0) (fun _ => 0) fun _ => 10) 0 = .ok (mp', ls') ∧
    mp'.stress 0 0 0 - 10 = (1 / 5) ^ 20 * (1 / 3) := by
  obtain ⟨c, hc, -⟩ := step_dp (exConeTest 1 (1 / 2) 10).solver realFns _ false rfl (exPoint 1 10) (fun _ => axial 0 0) (fun _ => 0) (fun _ => 10)
    (triaxialL ((exConeTest 1 (1 / 2) 10).lateral realExpm deriv (exPoint 1 10) (.dp (fun _ => axial 0 0) (fun _ => 0) fun _ => 10) 1 1) 1) 1
  have h3 : Real.sqrt 3 ^ 2 = 3 := Real.sq_sqrt (by norm_num)
  have h3p : 0 < Real.sqrt 3 := Real.sqrt_pos.2 (by norm_num)
  have h31 : 1 < Real.sqrt 3 := Real.lt_sqrt_of_sq_lt (by norm_num)
  refine ⟨c.1, c.2, hc, ?_⟩
  have h := (drained_dp_step_partial deriv trueGrad_deriv (exConeTest 1 (1 / 2) 10) _ false rfl (by norm_num) (by norm_num) rfl rfl
    (by norm_num; linarith) rfl rfl (exPoint 1 10) c.1 0 0 (fun _ => axial 0 0) rfl (fun _ => 0) (fun _ => 10) c.2
    (by norm_num [MPState.density, exPoint]) 0 (by norm_num [exConeTest, Sched.at]) (by simp [exConeTest]) hc).1 (-1 / 8)
    (by
      simp only [elasticLateral, trialMean, trialShear, exConeTest, Sched.at]
      field_simp
      rw [h3]; norm_num)
    (by
      have hb : 2 / Real.sqrt 3 < 2 := by rw [div_lt_iff₀ h3p]; linarith
      refine ⟨by norm_num [trialStrength, trialMean, exConeTest, Sched.at], ?_⟩
      simp only [trialStrength, trialMean, trialShear, exConeTest, Sched.at]
      rw [abs_of_pos (by positivity)]
      norm_num
      linarith)
    (by
      have hb : 2 / Real.sqrt 3 < 2 := by rw [div_lt_iff₀ h3p]; linarith
      refine ⟨by norm_num [trialStrength, trialMean, exConeTest, Sched.at], ?_⟩
      simp only [trialStrength, trialMean, trialShear, exConeTest, Sched.at]
      rw [abs_of_pos (by norm_num)]
      norm_num
      linarith)
  refine h.trans ?_
  congr 1
  simp only [elasticLateral, trialMean, trialShear, exConeTest, Sched.at]
  field_simp
  rw [h3]; norm_num

example : ∃ mp' ls', (exConeTest 100 (Real.sqrt 3 / 2) 5).stepIdx realExpm deriv (exPoint 1 10, .dp (fun _ => axial 0 0) (fun _ => 0) fun _ => 10) 0 =
      .ok (mp', ls') ∧ mp'.stress 0 0 0 - 5 = (1 / 5) ^ 20 * (1 / 2) := by
  obtain ⟨c, hc, -⟩ := step_dp (exConeTest 100 (Real.sqrt 3 / 2) 5).solver realFns _ false rfl (exPoint 1 10) (fun _ => axial 0 0) (fun _ => 0)
    (fun _ => 10) (triaxialL ((exConeTest 100 (Real.sqrt 3 / 2) 5).lateral realExpm deriv (exPoint 1 10)
      (.dp (fun _ => axial 0 0) (fun _ => 0) fun _ => 10) 1 1) 1) 1
  have h3 : Real.sqrt 3 ^ 2 = 3 := Real.sq_sqrt (by norm_num)
  have h3p : 0 < Real.sqrt 3 := Real.sqrt_pos.2 (by norm_num)
  have h31 : 1 < Real.sqrt 3 := Real.lt_sqrt_of_sq_lt (by norm_num)
  have h32 : Real.sqrt 3 < 2 := (Real.sqrt_lt' (by norm_num)).2 (by norm_num)
  have hb : 1 < 2 / Real.sqrt 3 := by rw [lt_div_iff₀ h3p]; linarith
  refine ⟨c.1, c.2, hc, ?_⟩
  have h := (drained_dp_step_partial deriv trueGrad_deriv (exConeTest 100 (Real.sqrt 3 / 2) 5) _ false rfl (by norm_num) (by norm_num) rfl rfl
    (by norm_num) rfl rfl (exPoint 1 10) c.1 0 0 (fun _ => axial 0 0) rfl (fun _ => 0) (fun _ => 10) c.2
    (by norm_num [MPState.density, exPoint]) 0 (by norm_num [exConeTest, Sched.at]) (by simp [exConeTest]) hc).2 (-1 / 2)
    (by
      simp only [coneLateral, trialStrength, trialMean, exConeTest, Sched.at]
      field_simp
      norm_num
      ring)
    (by
      simp only [EndsOnCone, trialStrength, trialMean, trialShear, exConeTest, Sched.at]
      refine ⟨by norm_num; linarith, by positivity, ?_⟩
      norm_num
      linarith)
    (by
      simp only [EndsOnCone, trialStrength, trialMean, trialShear, exConeTest, Sched.at]
      refine ⟨by norm_num; linarith, by norm_num, ?_⟩
      norm_num
      linarith)
  refine h.trans ?_
  congr 1
  simp only [coneLateral, trialStrength, trialMean, exConeTest, Sched.at]
  field_simp
  norm_num
  ring

/-- A drained test of mu(I) material confined by 100. -/
noncomputable def exMissTest : TriaxialTest ℝ 3 (LawState ℝ) :=
  { solver := { law := muILaw realFns exMuI false }
    confine := 100
    axialRate := .scalar 1
    dt := .scalar 1
    isPConstant := false
    numSteps := 3 }

/-- A sample at its reference density: the lateral stress after the first step misses all of the confining stress. -/
example : ∃ mp' ls', exMissTest.stepIdx realExpm deriv (exPoint 1000 0, .density fun _ => 1000) 0 = .ok (mp', ls') ∧
    100 ≤ |mp'.stress 0 0 0 - 100| := by
  refine ⟨_, _, rfl, ?_⟩
  refine le_trans ?_ (drained_muI_misses deriv exMissTest exMuI exMuI_valid false rfl (exPoint 1000 0) _ (fun _ => 1000) rfl _ 0
    (by simp [exMissTest]) rfl)
  norm_num [exPoint, muIEos, exMissTest]

end
end Hydrax
