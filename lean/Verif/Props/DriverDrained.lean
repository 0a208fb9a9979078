import Verif.Props.DriverYield
import Mathlib.Analysis.Calculus.Deriv.Mul

/-!
# Drained tests of Drucker-Prager material, any length (C88)

In compression the lateral stress of a step is the larger of two affine functions of the lateral rate. The damped Newton iteration started
above the confining stress descends on them and passes the corner at most once.
-/

namespace Hydrax

open Spec Filter Topology

/-- At a corner between two straight pieces the derivative that is taken is one of the two slopes. -/
def CornerGrad (grad : (ℝ → ℝ) → ℝ → ℝ) : Prop :=
  ∀ (f : ℝ → ℝ) (x a b : ℝ), (∀ᶠ y in 𝓝 x, f y = max (f x + a * (y - x)) (f x + b * (y - x))) → grad f x = a ∨ grad f x = b

/-- The damped iteration on the larger of two increasing affine functions, from above. -/
theorem newton_two_slopes (grad : (ℝ → ℝ) → ℝ → ℝ) (hg : TrueGrad grad) (hc : CornerGrad grad) (f : ℝ → ℝ) {a b α β z : ℝ} (hb : 0 < b) (hab : b < a)
    (hf : ∀ x ∈ Set.Icc z 0, ∀ᶠ y in 𝓝 x, f y = max (a * y + α) (b * y + β)) (hz : z ≤ 0) (hfz : max (a * z + α) (b * z + β) = 0) (n : ℕ) :
    newtonIterate grad f n ∈ Set.Icc z 0 ∧ 0 ≤ f (newtonIterate grad f n) ∧ f (newtonIterate grad f n) ≤ 5 * (1 / 5) ^ n * f 0 := by
  have ha : 0 < a := hb.trans hab
  have e : ∀ x ∈ Set.Icc z 0, f x = max (a * x + α) (b * x + β) := fun x hx => (hf x hx).self_of_nhds
  have gA : ∀ x ∈ Set.Icc z 0, b * x + β < a * x + α → grad f x = a := fun x hx h => by
    refine hg _ _ _ ?_
    have h1 : HasDerivAt (fun x : ℝ => a * x + α) (a * 1) x := ((hasDerivAt_id _).const_mul a).add_const _
    rw [mul_one] at h1
    refine h1.congr_of_eventuallyEq ?_
    have hc1 : Continuous fun y : ℝ => a * y + α - (b * y + β) := by fun_prop
    filter_upwards [hf x hx, hc1.continuousAt.eventually (lt_mem_nhds (sub_pos.2 h))] with y h1 h2
    rw [h1, max_eq_left (sub_pos.1 h2).le]
  have gB : ∀ x ∈ Set.Icc z 0, a * x + α < b * x + β → grad f x = b := fun x hx h => by
    refine hg _ _ _ ?_
    have h1 : HasDerivAt (fun x : ℝ => b * x + β) (b * 1) x := ((hasDerivAt_id _).const_mul b).add_const _
    rw [mul_one] at h1
    refine h1.congr_of_eventuallyEq ?_
    have hc1 : Continuous fun y : ℝ => b * y + β - (a * y + α) := by fun_prop
    filter_upwards [hf x hx, hc1.continuousAt.eventually (lt_mem_nhds (sub_pos.2 h))] with y h1 h2
    rw [h1, max_eq_right (sub_pos.1 h2).le]
  have gC : ∀ x ∈ Set.Icc z 0, a * x + α = b * x + β → grad f x = a ∨ grad f x = b := fun x hx h => by
    refine hc f x a b ?_
    have hx0 := e x hx
    rw [h, max_self] at hx0
    filter_upwards [hf x hx] with y hy
    rw [hy, hx0]
    congr 1
    · rw [← h]; ring
    · ring
  have hmono : ∀ {x y : ℝ}, x ≤ y → max (a * x + α) (b * x + β) ≤ max (a * y + α) (b * y + β) := fun h =>
    max_le_max (by nlinarith) (by nlinarith)
  have hback : ∀ {x : ℝ}, 0 ≤ max (a * x + α) (b * x + β) → z ≤ x := fun {x} h => by
    by_contra hlt
    rw [not_le] at hlt
    have : max (a * x + α) (b * x + β) < max (a * z + α) (b * z + β) := max_lt_max (by nlinarith) (by nlinarith)
    rw [hfz] at this
    linarith
  have h00 : 0 ≤ f 0 := by rw [e 0 ⟨hz, le_rfl⟩]; exact hfz.symm.le.trans (hmono hz)
  have inv : ∀ n : ℕ, newtonIterate grad f n ∈ Set.Icc z 0 ∧ 0 ≤ f (newtonIterate grad f n) ∧
      ((b * newtonIterate grad f n + β ≤ a * newtonIterate grad f n + α ∧ f (newtonIterate grad f n) ≤ (1 / 5) ^ n * f 0) ∨
        (a * newtonIterate grad f n + α < b * newtonIterate grad f n + β ∧ f (newtonIterate grad f n) ≤ 5 * (1 / 5) ^ n * f 0)) := fun n => by
    induction n with
    | zero =>
      have h0 : (0 : ℝ) ∈ Set.Icc z 0 := ⟨hz, le_rfl⟩
      refine ⟨h0, h00, ?_⟩
      simp only [newtonIterate, pow_zero, one_mul, mul_one]
      rcases le_or_gt (b * 0 + β) (a * 0 + α) with h | h
      · exact .inl ⟨h, le_rfl⟩
      · exact .inr ⟨h, by linarith⟩
    | succ n ih =>
      obtain ⟨hx, hfx, hcl⟩ := ih
      have hex := e _ hx
      have hs : ∀ c, c ≠ 0 → grad f (newtonIterate grad f n) = c → newtonIterate grad f (n + 1) =
          newtonIterate grad f n - 4 / 5 * f (newtonIterate grad f n) / c := fun c hc h => by
        rw [newton_succ grad f n c hc h]; ring
      generalize hxn : newtonIterate grad f n = x at *
      generalize newtonIterate grad f (n + 1) = x' at *
      have hp : (1 / 5 : ℝ) ^ (n + 1) = (1 / 5) ^ n / 5 := by rw [pow_succ]; ring
      have hp0 : 0 ≤ (1 / 5 : ℝ) ^ n * f 0 := by positivity
      -- a step with slope `a`
      have stepA : b * x + β ≤ a * x + α → f x ≤ (1 / 5) ^ n * f 0 → grad f x = a → x' ∈ Set.Icc z 0 ∧ 0 ≤ f x' ∧
          ((b * x' + β ≤ a * x' + α ∧ f x' ≤ (1 / 5) ^ (n + 1) * f 0) ∨ (a * x' + α < b * x' + β ∧ f x' ≤ 5 * (1 / 5) ^ (n + 1) * f 0)) :=
        fun h1 h2 h3 => by
          have hx' := hs a ha.ne' h3
          rw [max_eq_left h1] at hex
          have hA : a * x' + α = f x / 5 := by rw [hx', hex]; field_simp; ring
          have hle : x' ≤ x := by rw [hx']; have : 0 ≤ 4 / 5 * f x / a := by positivity
                                  linarith
          have hin : x' ∈ Set.Icc z 0 := ⟨hback (le_max_of_le_left (by rw [hA]; positivity)), hle.trans hx.2⟩
          have hfx' := e x' hin
          refine ⟨hin, by rw [hfx']; exact le_max_of_le_left (by rw [hA]; positivity), ?_⟩
          rcases le_or_gt (b * x' + β) (a * x' + α) with h | h
          · refine .inl ⟨h, ?_⟩
            rw [hfx', max_eq_left h, hA, hp]
            linarith
          · refine .inr ⟨h, ?_⟩
            have := hmono hle
            rw [← hfx', ← e x hx] at this
            rw [hp]
            linarith
      have stepB : a * x + α ≤ b * x + β → f x ≤ 5 * (1 / 5) ^ n * f 0 → grad f x = b → x' ∈ Set.Icc z 0 ∧ 0 ≤ f x' ∧
          a * x' + α ≤ b * x' + β ∧ f x' = f x / 5 ∧ (a * x' + α < b * x' + β ∨ f x = 0 ∧ x' = x) :=
        fun h1 h2 h3 => by
          have hx' := hs b hb.ne' h3
          rw [max_eq_right h1] at hex
          have hB : b * x' + β = f x / 5 := by rw [hx', hex]; field_simp; ring
          have hd : 0 ≤ 4 / 5 * f x / b := by positivity
          have hle : x' ≤ x := by rw [hx']; linarith
          have hin : x' ∈ Set.Icc z 0 := ⟨hback (le_max_of_le_right (by rw [hB]; positivity)), hle.trans hx.2⟩
          have hAB : a * x' + α ≤ b * x' + β := by nlinarith
          have hfx' : f x' = f x / 5 := by rw [e x' hin, max_eq_right hAB, hB]
          refine ⟨hin, by rw [hfx']; positivity, hAB, hfx', ?_⟩
          rcases hfx.eq_or_lt with h0 | h0
          · right; refine ⟨h0.symm, ?_⟩; rw [hx', ← h0]; ring
          · left
            have : 0 < 4 / 5 * f x / b := by positivity
            have hlt : x' < x := by rw [hx']; linarith
            nlinarith
      rcases hcl with ⟨h1, h2⟩ | ⟨h1, h2⟩
      · rcases h1.eq_or_lt with h3 | h3
        · rcases gC x hx h3.symm with h4 | h4
          · exact stepA h1 h2 h4
          · obtain ⟨g1, g2, g3, g4, g5⟩ := stepB h3.symm.le (by linarith) h4
            refine ⟨g1, g2, ?_⟩
            rcases g5 with g5 | ⟨g5, g6⟩
            · exact .inr ⟨g5, by rw [g4, hp]; linarith⟩
            · refine .inl ⟨by rw [g6]; exact h1, by rw [g4, g5, hp]; linarith⟩
        · exact stepA h1 h2 (gA x hx h3)
      · obtain ⟨g1, g2, g3, g4, g5⟩ := stepB h1.le h2 (gB x hx h1)
        refine ⟨g1, g2, .inr ⟨?_, by rw [g4, hp]; linarith⟩⟩
        rcases g5 with g5 | ⟨-, g6⟩
        · exact g5
        · rw [g6]; exact h1
  obtain ⟨h0, h1, h2⟩ := inv n
  refine ⟨h0, h1, ?_⟩
  have hp0 : 0 ≤ (1 / 5 : ℝ) ^ n * f 0 := by positivity
  rcases h2 with h | h <;> linarith [h.2]

section
variable (pr : DPParams ℝ) (r a p0 rate dt : ℝ)

/-- Pressure of an axially symmetric elastic strain. -/
noncomputable def Spec.meanOf : ℝ := pr.bulk * (2 * r + a) + p0

/-- Shear stress of an axially symmetric elastic strain. -/
noncomputable def Spec.shearOf : ℝ := 2 / Real.sqrt 3 * pr.shear * (a - r)

/-- Strength at the pressure of an axially symmetric elastic strain. -/
noncomputable def Spec.strengthOf : ℝ := pr.mu1 * meanOf pr r a p0 + pr.mu2 * pr.c0

/-- Lateral stress of an axially symmetric elastic strain. -/
noncomputable def Spec.lateralOf : ℝ := meanOf pr r a p0 - shearOf pr r a / Real.sqrt 3

variable (hK : 0 < pr.bulk) (hG : 0 < pr.shear) (hhat : pr.mu1Hat = 0) (hH : pr.H = 0) (epsP rho : ℝ) (hr : pr.rho0 ≤ rho)
include hK hG hhat hH hr

/-- A step in compression along the axis keeps the trial pressure and caps the shear stress at the strength. -/
theorem axial_update {x : ℝ} (hT : 1 / 10 ^ 6 < trialShear pr r a rate dt x) (hS : 0 < trialStrength pr r a p0 rate dt x) :
    ∃ r' a', (dpUpdate realFns pr (triaxialL x rate) (axial r a) epsP p0 rho dt).epsE = axial r' a' ∧
      meanOf pr r' a' p0 = trialMean pr r a p0 rate dt x ∧
      shearOf pr r' a' = min (trialShear pr r a rate dt x) (trialStrength pr r a p0 rate dt x) ∧
      (dpUpdate realFns pr (triaxialL x rate) (axial r a) epsP p0 rho dt).stress 0 0 = lateralOf pr r' a' p0 := by
  have h3 : Real.sqrt 3 * Real.sqrt 3 = 3 := Real.mul_self_sqrt (by norm_num)
  have h3p : 0 < Real.sqrt 3 := Real.sqrt_pos.2 (by norm_num)
  obtain ⟨h1, h2, h3'⟩ := axial_trial pr r a p0 rate dt epsP x
  have hTp : 0 < trialShear pr r a rate dt x := lt_trans (by positivity) hT
  rw [abs_of_pos hTp, max_eq_left hT.le] at h3'
  have hyf : (dpTrial realFns pr (triaxialL x rate) (axial r a) epsP p0 dt).yf = trialShear pr r a rate dt x - trialStrength pr r a p0 rate dt x := by
    rw [dpTrial_yf, h1, h3', hH, trialStrength]; ring
  have he := axial_epsETr pr r a p0 rate dt epsP x
  have hs := axial_sTr pr r a p0 rate dt epsP x
  have hSm : trialStrength pr r a p0 rate dt x = pr.mu1 * trialMean pr r a p0 rate dt x + pr.mu2 * pr.c0 := rfl
  rcases le_or_gt (trialShear pr r a rate dt x) (trialStrength pr r a p0 rate dt x) with hle | hlt
  · have hup : dpUpdate realFns pr (triaxialL x rate) (axial r a) epsP p0 rho dt =
        dpElastic (dpTrial realFns pr (triaxialL x rate) (axial r a) epsP p0 dt) epsP := by
      simp only [dpUpdate]
      rw [if_pos (show rho ≥ pr.rho0 from hr), if_neg (by rw [hyf]; linarith)]
    rw [hup, min_eq_left hle]
    refine ⟨r + dt * x, a + dt * rate, he, rfl, rfl, ?_⟩
    simp only [dpElastic, Matrix.add_apply, h1, h2, isoT_apply, if_true]
    have e1 : meanOf pr (r + dt * x) (a + dt * rate) p0 = trialMean pr r a p0 rate dt x := rfl
    have e2 : shearOf pr (r + dt * x) (a + dt * rate) = trialShear pr r a rate dt x := rfl
    rw [lateralOf, e1, e2]
    ring
  · have hm : pr.shear * dpMulti pr (dpTrial realFns pr (triaxialL x rate) (axial r a) epsP p0 dt) =
        trialShear pr r a rate dt x - trialStrength pr r a p0 rate dt x := by
      rw [dpMulti, hhat, hH, hyf]
      rw [mul_zero, zero_mul, zero_mul, add_zero, add_zero]
      exact mul_div_cancel₀ _ hG.ne'
    have hm0 : pr.bulk * dpMulti pr (dpTrial realFns pr (triaxialL x rate) (axial r a) epsP p0 dt) * pr.mu1Hat = 0 := by rw [hhat, mul_zero]
    have hy : (dpTrial realFns pr (triaxialL x rate) (axial r a) epsP p0 dt).yf > 0 := by rw [hyf]; linarith
    have hup : dpUpdate realFns pr (triaxialL x rate) (axial r a) epsP p0 rho dt =
        dpCone pr (dpTrial realFns pr (triaxialL x rate) (axial r a) epsP p0 dt) epsP p0 := by
      simp only [dpUpdate]
      rw [if_pos (show rho ≥ pr.rho0 from hr), if_pos hy, if_neg (by rw [h3', hm]; linarith)]
    rw [hup, min_eq_right hlt.le]
    generalize trialShear pr r a rate dt x = T at *
    generalize trialStrength pr r a p0 rate dt x = S at *
    generalize trialMean pr r a p0 rate dt x = P at *
    have hk : 1 - (T - S) / T = S / T := by field_simp; ring
    have hGn := hG.ne'
    have hKn := hK.ne'
    have e1 : meanOf pr (-(S / Real.sqrt 3) / (2 * pr.shear) + (P - p0) / pr.bulk / 3) (2 * (S / Real.sqrt 3) / (2 * pr.shear) + (P - p0) / pr.bulk / 3) p0 =
        P := by
      rw [meanOf]; field_simp; ring
    have e2 : shearOf pr (-(S / Real.sqrt 3) / (2 * pr.shear) + (P - p0) / pr.bulk / 3) (2 * (S / Real.sqrt 3) / (2 * pr.shear) + (P - p0) / pr.bulk / 3) =
        S := by
      rw [shearOf]; field_simp; rw [show Real.sqrt 3 ^ 2 = 3 by rw [sq, h3]]; ring
    refine ⟨_, _, ?_, e1, e2, ?_⟩
    · ext i j
      simp only [dpCone, Matrix.add_apply, Matrix.smul_apply, smul_eq_mul, h1, h3', hm, hm0, isoT_apply, hk, hs]
      fin_cases i <;> fin_cases j <;> simp [axial] <;> field_simp
    · rw [lateralOf, e1, e2]
      simp only [dpCone, Matrix.add_apply, Matrix.smul_apply, smul_eq_mul, h1, h2, h3', hm, hm0, isoT_apply, hk, if_true]
      field_simp
      ring

end
/-- What a test keeps: the shear stress is in compression and below the strength, and the lateral stress is above the confining stress by at
most `D`. -/
structure Spec.Held (pr : DPParams ℝ) (conf p0 D r a : ℝ) : Prop where
  shear : 0 ≤ shearOf pr r a
  strength : shearOf pr r a ≤ strengthOf pr r a p0
  above : conf ≤ lateralOf pr r a p0
  near : lateralOf pr r a p0 - conf ≤ D

section
variable {dim : ℕ}

theorem step_dp_state (d : Driver ℝ dim (LawState ℝ)) (fn : MathFns ℝ) (pr : DPParams ℝ) (reset : Bool) (hd : d.law = dpLaw fn pr reset)
    (mp : MPState ℝ dim 1) (e : ℕ → Mat3 ℝ) (b p0 : ℕ → ℝ) (L : Mat3 ℝ) (dt : ℝ) :
    ∃ c e' b', d.step realExpm mp (.dp e b p0) L dt = .ok c ∧ c.2 = .dp e' b' p0 ∧
      c.1.stress 0 = (dpUpdate fn pr L (e 0) (b 0) (p0 0) (mp.density 0) dt).stress ∧
      e' 0 = (dpUpdate fn pr L (e 0) (b 0) (p0 0) (mp.density 0) dt).epsE := by
  unfold Driver.step
  rw [hd]
  exact ⟨_, _, _, rfl, rfl, rfl, rfl⟩

set_option maxHeartbeats 1000000 in
/-- **C88**, one step of a compression test of Drucker-Prager material without dilatancy and hardening, whether it yields or not. -/
theorem drained_dp_compression_step (grad : (ℝ → ℝ) → ℝ → ℝ) (hg : TrueGrad grad) (hcg : CornerGrad grad) (t : TriaxialTest ℝ dim (LawState ℝ))
    (pr : DPParams ℝ) (reset : Bool) (hd : t.solver.law = dpLaw realFns pr reset) (hG : 0 < pr.shear) (hKG : 2 / 3 * pr.shear ≤ pr.bulk)
    (hhat : pr.mu1Hat = 0) (hH : pr.H = 0) (hmu0 : 0 ≤ pr.mu1) (hmu : pr.mu1 < Real.sqrt 3) (hc : 0 < pr.mu1 * t.confine + pr.mu2 * pr.c0)
    (hu : t.isUndrained = false) (hpc : t.isPConstant = false) (mp mp' : MPState ℝ dim 1) {r a D : ℝ} (e : ℕ → Mat3 ℝ) (he : e 0 = axial r a)
    (b p0 : ℕ → ℝ) (ls' : LawState ℝ) (hrho : pr.rho0 ≤ mp.density 0) (idx : ℕ) (hdt : 0 < t.dt.at idx)
    (hinc : 1 / 10 ^ 6 < 2 / Real.sqrt 3 * pr.shear * (t.axialRate.at idx * t.dt.at idx)) (hst : ¬ (t.startStatic = true ∧ idx = 0))
    (hheld : Held pr t.confine (p0 0) D r a)
    (h : t.stepIdx realExpm grad (mp, .dp e b p0) idx = .ok (mp', ls')) :
    ∃ e' b' r' a', ls' = .dp e' b' p0 ∧ e' 0 = axial r' a' ∧ mp'.stress 0 0 0 = lateralOf pr r' a' (p0 0) ∧
      Held pr t.confine (p0 0) (5 * (1 / 5) ^ t.numNewton * (D + pr.bulk * (t.axialRate.at idx * t.dt.at idx))) r' a' ∧
      (mp'.F 0).det * Real.exp (2 * r' + a') = (mp.F 0).det * Real.exp (2 * r + a) ∧
      mp'.volume 0 = (mp'.F 0).det * mp.volume0 0 ∧ mp'.volume0 = mp.volume0 ∧ mp'.mass = mp.mass := by
  have hK : 0 < pr.bulk := by linarith
  unfold TriaxialTest.stepIdx at h
  rw [if_neg hst] at h
  simp only at h
  generalize t.axialRate.at idx = rate at *
  generalize t.dt.at idx = dt at *
  have h3p : 0 < Real.sqrt 3 := Real.sqrt_pos.2 (by norm_num)
  have h3s : Real.sqrt 3 ^ 2 = 3 := Real.sq_sqrt (by norm_num)
  have hmu' : 0 < 1 - pr.mu1 / Real.sqrt 3 := by rw [sub_pos, div_lt_one h3p]; exact hmu
  have hinc0 : 0 < rate * dt := by
    by_contra hn
    have : 2 / Real.sqrt 3 * pr.shear * (rate * dt) ≤ 0 := mul_nonpos_of_nonneg_of_nonpos (by positivity) (not_lt.1 hn)
    have h6 : (0 : ℝ) < 1 / 10 ^ 6 := by positivity
    linarith
  -- the two affine functions
  have hA : ∀ y, elasticLateral pr r a (p0 0) rate dt y - t.confine =
      dt * (2 * pr.bulk + 2 / 3 * pr.shear) * y + (elasticLateral pr r a (p0 0) rate dt 0 - t.confine) := fun y => by
    unfold elasticLateral trialMean trialShear
    field_simp
    rw [h3s]
    ring
  have hB : ∀ y, coneLateral pr r a (p0 0) rate dt y - t.confine =
      dt * (2 * pr.bulk * (1 - pr.mu1 / Real.sqrt 3)) * y + (coneLateral pr r a (p0 0) rate dt 0 - t.confine) := fun y => by
    unfold coneLateral trialStrength trialMean
    field_simp
    ring
  set A := dt * (2 * pr.bulk + 2 / 3 * pr.shear) with hAd
  set B := dt * (2 * pr.bulk * (1 - pr.mu1 / Real.sqrt 3)) with hBd
  have hBp : 0 < B := by rw [hBd]; positivity
  have hBA : B < A := by
    rw [hAd, hBd]
    refine mul_lt_mul_of_pos_left ?_ hdt
    have : 0 ≤ pr.mu1 / Real.sqrt 3 := div_nonneg hmu0 h3p.le
    nlinarith
  have hAp : 0 < A := hBp.trans hBA
  -- start values
  have hα : elasticLateral pr r a (p0 0) rate dt 0 = lateralOf pr r a (p0 0) + (pr.bulk - 2 / 3 * pr.shear) * (rate * dt) := by
    unfold elasticLateral trialMean trialShear lateralOf meanOf shearOf
    field_simp
    rw [h3s]
    ring
  have hβ : coneLateral pr r a (p0 0) rate dt 0 = meanOf pr r a (p0 0) - strengthOf pr r a (p0 0) / Real.sqrt 3 +
      pr.bulk * (1 - pr.mu1 / Real.sqrt 3) * (rate * dt) := by
    unfold coneLateral trialStrength trialMean meanOf strengthOf meanOf
    field_simp
    ring
  have hα0 : 0 ≤ elasticLateral pr r a (p0 0) rate dt 0 - t.confine := by
    rw [hα]
    have := mul_nonneg (sub_nonneg.2 hKG) hinc0.le
    linarith [hheld.above]
  generalize hαg : elasticLateral pr r a (p0 0) rate dt 0 - t.confine = α at hA hα0
  generalize hβg : coneLateral pr r a (p0 0) rate dt 0 - t.confine = β at hB
  have hf0 : max α β ≤ D + pr.bulk * (rate * dt) := by
    refine max_le ?_ ?_
    · rw [← hαg, hα]
      have := mul_pos hG hinc0
      nlinarith [hheld.near]
    · rw [← hβg, hβ]
      have h1 : 0 ≤ pr.mu1 / Real.sqrt 3 := div_nonneg hmu0 h3p.le
      have h2 : shearOf pr r a / Real.sqrt 3 ≤ strengthOf pr r a (p0 0) / Real.sqrt 3 := div_le_div_of_nonneg_right hheld.strength h3p.le
      have h4 : lateralOf pr r a (p0 0) = meanOf pr r a (p0 0) - shearOf pr r a / Real.sqrt 3 := rfl
      have h5 := hheld.near
      have h6 := mul_nonneg (mul_nonneg hK.le h1) hinc0.le
      nlinarith
  -- the zero
  obtain ⟨z, hz, hfz⟩ : ∃ z ≤ (0 : ℝ), max (A * z + α) (B * z + β) = 0 := by
    have e1 : A * (-α / A) + α = 0 := by field_simp; ring
    have e2 : B * (-β / B) + β = 0 := by field_simp; ring
    have hzA : -α / A ≤ 0 := div_nonpos_of_nonpos_of_nonneg (by linarith) hAp.le
    rcases le_total (-α / A) (-β / B) with hle | hle
    · refine ⟨-α / A, hzA, ?_⟩
      rw [e1, max_eq_left]
      have := mul_le_mul_of_nonneg_left hle hBp.le
      linarith
    · refine ⟨-β / B, hle.trans hzA, ?_⟩
      rw [e2, max_eq_right]
      have := mul_le_mul_of_nonneg_left hle hAp.le
      linarith
  -- the conditions on the trial state
  have cT : Continuous (trialShear pr r a rate dt) := by unfold trialShear; fun_prop
  have cS : Continuous (trialStrength pr r a (p0 0) rate dt) := by unfold trialStrength trialMean; fun_prop
  have hT : ∀ x ≤ (0 : ℝ), 1 / 10 ^ 6 < trialShear pr r a rate dt x := fun x hx => by
    have h1 : trialShear pr r a rate dt x = shearOf pr r a + 2 / Real.sqrt 3 * pr.shear * (rate * dt) + 2 / Real.sqrt 3 * pr.shear * (dt * -x) := by
      unfold trialShear shearOf; ring
    have h2 : 0 ≤ 2 / Real.sqrt 3 * pr.shear * (dt * -x) := mul_nonneg (by positivity) (mul_nonneg hdt.le (by linarith))
    rw [h1]
    linarith [hheld.shear]
  have hlat : ∀ x, trialMean pr r a (p0 0) rate dt x - min (trialShear pr r a rate dt x) (trialStrength pr r a (p0 0) rate dt x) / Real.sqrt 3 - t.confine =
      max (A * x + α) (B * x + β) := fun x => by
    rw [← hA, ← hB, elasticLateral, coneLateral]
    rcases le_total (trialShear pr r a rate dt x) (trialStrength pr r a (p0 0) rate dt x) with hle | hle
    · have := div_le_div_of_nonneg_right hle h3p.le
      rw [min_eq_left hle, max_eq_left (by linarith)]
    · have := div_le_div_of_nonneg_right hle h3p.le
      rw [min_eq_right hle, max_eq_right (by linarith)]
  have hS : ∀ x ∈ Set.Icc z 0, 0 < trialStrength pr r a (p0 0) rate dt x := fun x hx => by
    by_contra hn
    rw [not_lt] at hn
    have h6 : (0 : ℝ) < 1 / 10 ^ 6 := by positivity
    have h1 := hlat x
    rw [min_eq_right (by linarith [hT x hx.2])] at h1
    have h2 : max (A * z + α) (B * z + β) ≤ max (A * x + α) (B * x + β) := max_le_max (by nlinarith [hx.1]) (by nlinarith [hx.1])
    have h4 : trialStrength pr r a (p0 0) rate dt x = pr.mu1 * trialMean pr r a (p0 0) rate dt x + pr.mu2 * pr.c0 := rfl
    have h5 : t.confine + trialStrength pr r a (p0 0) rate dt x / Real.sqrt 3 ≤ trialMean pr r a (p0 0) rate dt x := by linarith
    have h7 := mul_le_mul_of_nonneg_left h5 hmu0
    have h8 : pr.mu1 * (trialStrength pr r a (p0 0) rate dt x / Real.sqrt 3) = pr.mu1 / Real.sqrt 3 * trialStrength pr r a (p0 0) rate dt x := by ring
    nlinarith
  -- the residual
  have hres : ∀ x, t.residual realExpm mp (.dp e b p0) rate dt x =
      (dpUpdate realFns pr (triaxialL x rate) (axial r a) (b 0) (p0 0) (mp.density 0) dt).stress 0 0 - t.confine := by
    intro x
    obtain ⟨c, hc, hs⟩ := step_dp t.solver realFns pr reset hd mp e b p0 (triaxialL x rate) dt
    rw [residual_eq t mp _ rate dt x c hc, hs, hpc, ← he]
    rfl
  have hval : ∀ x, 1 / 10 ^ 6 < trialShear pr r a rate dt x → 0 < trialStrength pr r a (p0 0) rate dt x →
      t.residual realExpm mp (.dp e b p0) rate dt x = max (A * x + α) (B * x + β) := fun x h1 h2 => by
    obtain ⟨r', a', -, g2, g3, g4⟩ := axial_update pr r a (p0 0) rate dt hK hG hhat hH (b 0) _ hrho h1 h2
    rw [hres, g4, lateralOf, g2, g3, hlat]
  have hl : t.lateral realExpm grad mp (.dp e b p0) rate dt =
      newtonIterate grad (t.residual realExpm mp (.dp e b p0) rate dt) t.numNewton := by
    unfold TriaxialTest.lateral
    rw [hu]
    rfl
  obtain ⟨hin, hpos, hle⟩ := newton_two_slopes grad hg hcg (t.residual realExpm mp (.dp e b p0) rate dt) hBp hBA (fun x hx => by
    filter_upwards [cT.continuousAt.eventually (lt_mem_nhds (hT x hx.2)), cS.continuousAt.eventually (lt_mem_nhds (hS x hx))] with y h1 h2
    exact hval y h1 h2) hz hfz t.numNewton
  rw [← hl] at hin hpos hle
  rw [hval 0 (hT 0 le_rfl) (hS 0 ⟨hz, le_rfl⟩), mul_zero, mul_zero, zero_add, zero_add] at hle
  generalize t.lateral realExpm grad mp (.dp e b p0) rate dt = x at *
  obtain ⟨c, e', b', g1, g2, g3, g4⟩ := step_dp_state t.solver realFns pr reset hd mp e b p0 (triaxialL x rate) dt
  obtain ⟨v1, v2, v3, v4, -, -⟩ := step_ok t.solver mp mp' _ _ _ _ _ h
  rw [g1] at h
  have hh := Except.ok.inj h
  rw [he] at g3 g4
  obtain ⟨r', a', k1, k2, k3, k4⟩ := axial_update pr r a (p0 0) rate dt hK hG hhat hH (b 0) _ hrho (hT x hin.2) (hS x hin)
  rw [hres, k4] at hpos hle
  refine ⟨e', b', r', a', by rw [← g2, hh], by rw [g4, k1], ?_, ⟨?_, ?_, by linarith, ?_⟩, ?_, v2 0, v3, v4⟩
  · have : c.1 = mp' := congrArg Prod.fst hh
    rw [← this, g3, k4]
  · rw [k3]
    have h6 : (0 : ℝ) < 1 / 10 ^ 6 := by positivity
    exact le_min (by linarith [hT x hin.2]) (hS x hin).le
  · rw [k3, strengthOf, k2]; exact min_le_right _ _
  · refine hle.trans ?_
    exact mul_le_mul_of_nonneg_left hf0 (by positivity)
  · have htr : 2 * r' + a' = 2 * (r + dt * x) + (a + dt * rate) := by
      simp only [meanOf, trialMean] at k2
      exact mul_left_cancel₀ hK.ne' (by linarith)
    rw [v1 0, Matrix.det_mul, Matrix.det_diagonal, Fin.prod_univ_three, htr]
    simp only [Matrix.cons_val]
    rw [show 2 * (r + dt * x) + (a + dt * rate) = dt * x + dt * x + dt * rate + (2 * r + a) by ring, Real.exp_add, Real.exp_add, Real.exp_add]
    simp only [Real.exp_neg]
    have e1 := Real.exp_ne_zero (dt * x)
    have e2 := Real.exp_ne_zero (dt * rate)
    field_simp

/-- **C88**: a drained compression test of Drucker-Prager material without dilatancy and hardening, elastic or yielding, that starts within `M`
above the confining stress, where `M` bounds the pressure that the axial strain of one step would cause alone, stays within `2 * 5¹⁻ⁿ * M` above
it in every recorded state, however long the test is. The sample has to be dense enough not to separate when its pressure is the confining
stress; this is needed of its initial volume only. -/
theorem drained_dp_control_partial (grad : (ℝ → ℝ) → ℝ → ℝ) (hg : TrueGrad grad) (hcg : CornerGrad grad) (t : TriaxialTest ℝ dim (LawState ℝ))
    (pr : DPParams ℝ) (reset : Bool) (hd : t.solver.law = dpLaw realFns pr reset) (hG : 0 < pr.shear) (hKG : 2 / 3 * pr.shear ≤ pr.bulk)
    (hhat : pr.mu1Hat = 0) (hH : pr.H = 0) (hmu0 : 0 ≤ pr.mu1) (hmu : pr.mu1 < Real.sqrt 3) (hc : 0 < pr.mu1 * t.confine + pr.mu2 * pr.c0)
    (hu : t.isUndrained = false) (hpc : t.isPConstant = false) (hs : t.startStatic = false) (hn : 2 ≤ t.numNewton)
    (hdt : ∀ i, 0 < t.dt.at i) (hinc : ∀ i, 1 / 10 ^ 6 < 2 / Real.sqrt 3 * pr.shear * (t.axialRate.at i * t.dt.at i))
    (mp : MPState ℝ dim 1) (e : ℕ → Mat3 ℝ) (b p0 : ℕ → ℝ) {r a M : ℝ} (he : e 0 = axial r a)
    (hM : ∀ i, pr.bulk * (t.axialRate.at i * t.dt.at i) ≤ M) (h0 : Held pr t.confine (p0 0) M r a)
    (hm : 0 ≤ mp.mass 0) (hv0 : 0 < mp.volume0 0) (hF : 0 < (mp.F 0).det) (hv : mp.volume 0 = (mp.F 0).det * mp.volume0 0)
    (hrho : pr.rho0 ≤ mp.mass 0 / (mp.volume 0 * Real.exp (2 * r + a - (t.confine - p0 0) / pr.bulk) + 1 / 10 ^ 16))
    (tr : List (MPState ℝ dim 1 × LawState ℝ)) (h : t.run realExpm grad mp (.dp e b p0) = .ok tr)
    (s : MPState ℝ dim 1 × LawState ℝ) (hr : s ∈ tr) :
    t.confine ≤ s.1.stress 0 0 0 ∧ s.1.stress 0 0 0 - t.confine ≤ 2 * (5 * (1 / 5) ^ t.numNewton) * M := by
  have hq : (0 : ℝ) ≤ 5 * (1 / 5) ^ t.numNewton := by positivity
  have hq5 : 5 * ((1 : ℝ) / 5) ^ t.numNewton ≤ 1 / 5 := by
    have : ((1 : ℝ) / 5) ^ t.numNewton ≤ (1 / 5) ^ 2 := pow_le_pow_of_le_one (by norm_num) (by norm_num) hn
    linarith
  have hK : 0 < pr.bulk := by linarith
  have hM0 : 0 ≤ M := (sub_nonneg.2 h0.above).trans h0.near
  have inv : ∀ m (c : MPState ℝ dim 1 × LawState ℝ),
      scanCarry (t.stepIdx realExpm grad) (mp, .dp e b p0) (List.range m) = .ok c →
      ∃ e' b' r' a', c.2 = .dp e' b' p0 ∧ e' 0 = axial r' a' ∧ Held pr t.confine (p0 0) M r' a' ∧
        (c.1.F 0).det * Real.exp (2 * r' + a') = (mp.F 0).det * Real.exp (2 * r + a) ∧
        c.1.volume 0 = (c.1.F 0).det * mp.volume0 0 ∧ c.1.volume0 = mp.volume0 ∧ c.1.mass = mp.mass ∧
        (0 < m → c.1.stress 0 0 0 = lateralOf pr r' a' (p0 0) ∧ Held pr t.confine (p0 0) (2 * (5 * (1 / 5) ^ t.numNewton) * M) r' a') := by
    intro m
    induction m with
    | zero =>
      intro c hc
      have : (mp, LawState.dp e b p0) = c := Except.ok.inj hc
      subst this
      exact ⟨e, b, r, a, rfl, he, h0, rfl, hv, rfl, rfl, fun h => absurd h (lt_irrefl 0)⟩
    | succ m ih =>
      intro c hc'
      rw [List.range_succ, scanCarry_append] at hc'
      cases hb : scanCarry (t.stepIdx realExpm grad) (mp, .dp e b p0) (List.range m) with
      | error e => rw [hb] at hc'; cases hc'
      | ok b0 =>
        rw [hb] at hc'
        simp only [andThen, scanCarry] at hc'
        cases hst : t.stepIdx realExpm grad b0 m with
        | error e => rw [hst] at hc'; cases hc'
        | ok c' =>
          rw [hst] at hc'
          have : c' = c := Except.ok.inj hc'
          subst this
          obtain ⟨e1, b1, r1, a1, g1, g2, g3, g4, g5, g6, g7, -⟩ := ih b0 hb
          have hst' : t.stepIdx realExpm grad (b0.1, .dp e1 b1 p0) m = .ok (c'.1, c'.2) := by rw [← g1]; exact hst
          have hd1 : pr.rho0 ≤ b0.1.density 0 := by
            refine hrho.trans ?_
            have hlat := g3.above
            have hsh := g3.shear
            have hsh3 : 0 ≤ shearOf pr r1 a1 / Real.sqrt 3 := div_nonneg hsh (Real.sqrt_nonneg _)
            have htr : (t.confine - p0 0) / pr.bulk ≤ 2 * r1 + a1 := by
              rw [div_le_iff₀ hK]
              simp only [lateralOf, meanOf] at hlat
              linarith
            have hdet : 0 < (b0.1.F 0).det := by
              refine pos_of_mul_pos_left ?_ (Real.exp_pos (2 * r1 + a1)).le
              rw [g4]; positivity
            have hle : b0.1.volume 0 ≤ mp.volume 0 * Real.exp (2 * r + a - (t.confine - p0 0) / pr.bulk) := by
              have h7 : (b0.1.F 0).det = (mp.F 0).det * Real.exp (2 * r + a - (2 * r1 + a1)) := by
                rw [Real.exp_sub, ← mul_div_assoc, ← g4, mul_div_assoc, div_self (Real.exp_ne_zero _), mul_one]
              rw [g5, hv, h7, mul_right_comm]
              refine mul_le_mul_of_nonneg_left (Real.exp_le_exp.2 (by linarith)) (by positivity)
            have hpos : 0 < b0.1.volume 0 := by rw [g5]; positivity
            rw [MPState.density, g7]
            exact div_le_div_of_nonneg_left hm (by positivity) (by linarith)
          obtain ⟨e2, b2, r2, a2, k1, k2, k3, k4, k5, k6, k7, k8⟩ := drained_dp_compression_step grad hg hcg t pr reset hd hG hKG hhat hH hmu0 hmu hc hu hpc b0.1 c'.1
            e1 g2 b1 p0 c'.2 hd1 m (hdt m) (hinc m) (by rw [hs]; simp) g3 hst'
          have hb2 : 5 * (1 / 5) ^ t.numNewton * (M + pr.bulk * (t.axialRate.at m * t.dt.at m)) ≤ 2 * (5 * (1 / 5) ^ t.numNewton) * M := by
            have := mul_le_mul_of_nonneg_left (hM m) hq
            linarith
          have hb3 : 2 * (5 * (1 / 5) ^ t.numNewton) * M ≤ M := by
            have := mul_le_mul_of_nonneg_right hq5 hM0
            linarith
          exact ⟨e2, b2, r2, a2, k1, k2, ⟨k4.shear, k4.strength, k4.above, k4.near.trans (hb2.trans hb3)⟩,
            k5.trans g4, by rw [k6, g6], k7.trans g6, k8.trans g7, fun _ => ⟨k3, k4.shear, k4.strength, k4.above, k4.near.trans hb2⟩⟩
  simp only [TriaxialTest.run] at h
  split_ifs at h with hs0 hdiv
  obtain ⟨k, hk, rfl⟩ := List.getElem_of_mem hr
  obtain ⟨-, h3⟩ := scanRows_index _ _ _ _ _ h
  obtain ⟨e', b', r', a', -, -, -, -, -, -, -, h4⟩ := inv _ _ (h3 k hk)
  obtain ⟨h5, h6⟩ := h4 (Nat.mul_pos (Nat.succ_pos k) (Nat.pos_of_ne_zero hs0))
  rw [h5]
  exact ⟨h6.above, h6.near⟩

/-- The derivative from the right: the derivative where there is one, and the larger slope at a corner. -/
noncomputable def rightGrad (f : ℝ → ℝ) (x : ℝ) : ℝ := derivWithin f (Set.Ici x) x

theorem rightGrad_true : TrueGrad rightGrad := fun f f' x h => h.hasDerivWithinAt.derivWithin (uniqueDiffWithinAt_Ici x)

theorem rightGrad_corner : CornerGrad rightGrad := fun f x a b h => by
  have h1 : HasDerivWithinAt f (max a b) (Set.Ici x) x := by
    have h2 : HasDerivAt (fun y : ℝ => f x + max a b * (y - x)) (max a b) x := by
      simpa using (((hasDerivAt_id x).sub_const x).const_mul (max a b)).const_add (f x)
    refine h2.hasDerivWithinAt.congr_of_eventuallyEq ?_ (by simp)
    filter_upwards [mem_nhdsWithin_of_mem_nhds h, self_mem_nhdsWithin] with y hy hy2
    rw [hy, max_mul_of_nonneg _ _ (sub_nonneg.2 hy2), max_add_add_left]
  have h3 : rightGrad f x = max a b := h1.derivWithin (uniqueDiffWithinAt_Ici x)
  rw [h3]
  exact max_choice a b

theorem scanRows_total_on {St : Type*} (I : St → Prop) (f : St → ℕ → Except PyErr St) (hf : ∀ s i, I s → ∃ s', f s i = .ok s' ∧ I s')
    (rows : List (List ℕ)) (s : St) (hs : I s) : ∃ tr, scanRows f s rows = .ok tr ∧ tr.length = rows.length := by
  have hc : ∀ (l : List ℕ) (s : St), I s → ∃ s', scanCarry f s l = .ok s' ∧ I s' := by
    intro l
    induction l with
    | nil => exact fun s h => ⟨s, rfl, h⟩
    | cons i l ih =>
      intro s h
      obtain ⟨s1, h1, h2⟩ := hf s i h
      simp only [scanCarry, h1, andThen]
      exact ih s1 h2
  induction rows generalizing s with
  | nil => exact ⟨[], rfl, rfl⟩
  | cons r rs ih =>
    obtain ⟨s1, h1, h2⟩ := hc r s hs
    obtain ⟨tr, h3, h4⟩ := ih s1 h2
    refine ⟨s1 :: tr, ?_, by simp [h4]⟩
    simp only [scanRows, h1, andThen, h3]

/-- Three steps that compress a frictional sample by one each: it yields, and the lateral stress stays at 10. -/
example : ∃ tr, (exConeTest 1 (1 / 2) 10).run realExpm rightGrad (exPoint 1 10) (.dp (fun _ => axial 0 0) (fun _ => 0) fun _ => 10) = .ok tr ∧
    tr.length = 3 ∧ ∀ s ∈ tr, 10 ≤ s.1.stress 0 0 0 ∧ s.1.stress 0 0 0 - 10 ≤ 2 * (5 * (1 / 5) ^ 20) * 1 := by
  have h3p : 0 < Real.sqrt 3 := Real.sqrt_pos.2 (by norm_num)
  have h31 : 1 < Real.sqrt 3 := Real.lt_sqrt_of_sq_lt (by norm_num)
  have h32 : Real.sqrt 3 < 2 := (Real.sqrt_lt' (by norm_num)).2 (by norm_num)
  have hb : 1 < 2 / Real.sqrt 3 := by rw [lt_div_iff₀ h3p]; linarith
  obtain ⟨tr, h1, h2⟩ := scanRows_total_on (fun c : MPState ℝ 3 1 × LawState ℝ => ∃ e b p0, c.2 = .dp e b p0)
    ((exConeTest 1 (1 / 2) 10).stepIdx realExpm rightGrad) (fun c i ⟨e, b, p0, hc⟩ => by
      obtain ⟨m, ls⟩ := c
      subst hc
      unfold TriaxialTest.stepIdx
      rw [if_neg (by simp [exConeTest])]
      obtain ⟨c', e', b', k1, k2, -, -⟩ := step_dp_state (exConeTest 1 (1 / 2) 10).solver realFns _ false rfl m e b p0
        (triaxialL ((exConeTest 1 (1 / 2) 10).lateral realExpm rightGrad m (.dp e b p0) ((exConeTest 1 (1 / 2) 10).axialRate.at i)
          ((exConeTest 1 (1 / 2) 10).dt.at i)) ((exConeTest 1 (1 / 2) 10).axialRate.at i)) ((exConeTest 1 (1 / 2) 10).dt.at i)
      exact ⟨c', k1, e', b', p0, k2⟩)
    (indexRows ((exConeTest 1 (1 / 2) 10).steps / (exConeTest 1 (1 / 2) 10).stride) (exConeTest 1 (1 / 2) 10).stride)
    (exPoint 1 10, .dp (fun _ => axial 0 0) (fun _ => 0) fun _ => 10) ⟨_, _, _, rfl⟩
  have hrun := (run_eq realExpm rightGrad (exConeTest 1 (1 / 2) 10) (exPoint 1 10) (.dp (fun _ => axial 0 0) (fun _ => 0) fun _ => 10)
    Nat.one_pos (one_dvd _)).trans h1
  refine ⟨tr, hrun, h2.trans (by simp [indexRows, TriaxialTest.steps, exConeTest]), fun s hs => ?_⟩
  refine drained_dp_control_partial rightGrad rightGrad_true rightGrad_corner (exConeTest 1 (1 / 2) 10) _ false rfl (by norm_num) (by norm_num)
    rfl rfl (by norm_num) (by norm_num; linarith) (by norm_num [exConeTest]) rfl rfl rfl (by norm_num [exConeTest])
    (fun i => by norm_num [exConeTest, Sched.at]) (fun i => ?_) (exPoint 1 10) (fun _ => axial 0 0) (fun _ => 0) (fun _ => 10) (r := 0) (a := 0) rfl
    (fun i => by norm_num [exConeTest, Sched.at]) ⟨?_, ?_, ?_, ?_⟩ (by norm_num [exPoint]) (by norm_num [exPoint]) (by simp [exPoint])
    (by simp [exPoint]) (by norm_num [exPoint, exConeTest]) tr hrun s hs
  · simp only [exConeTest, Sched.at]
    norm_num
    linarith
  all_goals norm_num [shearOf, strengthOf, lateralOf, meanOf, exConeTest]

end
end Hydrax
