import Verif.Props.CriticalTest

/-!
# The critical state with residuals left over (C133)
-/

set_option linter.unusedSectionVars false

namespace Hydrax

open Filter Topology

/-- The Newton loop of the step from `r`, if there is one, ended with residuals of at most `δ`. -/
def Spec.NearlyConverged (δ : ℝ) (ops : NewtonOps ℝ) (pr : MCCParams ℝ) (L σref : Mat3 ℝ) (dt : ℝ) (r : MCCResult ℝ) : Prop :=
  0 < Spec.mccF pr.M r.pc (Spec.mccTrialStress pr L r.stress dt) →
    ∀ i, |mccLeft ops pr (mccTrial realFns pr L r.epsE r.stress r.pc σref dt) r.pc i| ≤ δ

/-! ### Drifting sequences -/

/-- A distance that drifts by at most `τ` per step and shrinks with the multiplier settles near 0 if the multipliers are
driven: `|y| - ν c` decreases until it is small. -/
theorem drift_settles {S : ℕ → Prop} {y c lam w : ℕ → ℝ} {η Y B A m a0 τ : ℝ} (hη : 0 < η) (hB : 0 < B) (hA : 0 < A) (hm : 0 < m)
    (ha0 : 0 < a0) (hY : |y 0| + 2 * η ≤ Y) (hτ : τ ≤ min (m / A) (η / (2 * B)) * a0 / 2) (hS : S 0) (hc0 : |c 0| ≤ B)
    (step : ∀ n, S n → |y n| ≤ Y → S (n + 1) ∧ 0 ≤ lam n ∧ |y (n + 1)| + w n ≤ |y n| + τ ∧
      c n + a0 - A * lam n ≤ c (n + 1) ∧ |c (n + 1)| ≤ B ∧ (η ≤ |y (n + 1)| → m * lam n ≤ w n)) :
    (∀ n, S n ∧ |y n| ≤ Y ∧ |c n| ≤ B) ∧ ∃ N, ∀ n, N ≤ n → |y n| ≤ 2 * η := by
  set ν := min (m / A) (η / (2 * B)) with hν
  have hν0 : 0 < ν := lt_min (by positivity) (by positivity)
  have hν1 : ν * A ≤ m := by
    have : ν ≤ m / A := min_le_left _ _
    rwa [le_div_iff₀ hA] at this
  have hν2 : ν * B ≤ η / 2 := by
    have : ν ≤ η / (2 * B) := min_le_right _ _
    rw [le_div_iff₀ (by positivity)] at this
    linarith
  have hνc : ∀ {z : ℝ}, |z| ≤ B → |ν * z| ≤ η / 2 := by
    intro z hz
    rw [abs_mul, abs_of_pos hν0]
    exact (mul_le_mul_of_nonneg_left hz hν0.le).trans hν2
  set V := fun n => |y n| - ν * c n with hV
  have hdec : ∀ n, S n → |y n| ≤ Y → V (n + 1) ≤ V n - ν * a0 / 2 ∨ V (n + 1) ≤ 3 / 2 * η := by
    intro n h1 h2
    obtain ⟨-, s2, s3, s4, s5, s6⟩ := step n h1 h2
    rcases le_or_gt η (|y (n + 1)|) with h | h
    · left
      have h3 := s6 h
      have h4 := mul_le_mul_of_nonneg_left s4 hν0.le
      have h5 := mul_le_mul_of_nonneg_right hν1 s2
      simp only [hV]
      nlinarith
    · right
      have := (neg_le_abs _).trans (hνc s5)
      simp only [hV]
      linarith
  have hyV : ∀ n, |c n| ≤ B → |y n| ≤ V n + η / 2 := by
    intro n h
    have := (le_abs_self _).trans (hνc h)
    simp only [hV]; linarith
  have key : ∀ n, S n ∧ |y n| ≤ Y ∧ |c n| ≤ B ∧ V n ≤ max (|y 0| + η / 2) (3 / 2 * η) := by
    intro n
    induction n with
    | zero =>
      have := (neg_le_abs _).trans (hνc hc0)
      exact ⟨hS, by linarith, hc0, le_max_of_le_left (by simp only [hV]; linarith)⟩
    | succ n ih =>
      obtain ⟨i1, i2, i3, i4⟩ := ih
      obtain ⟨s1, s2, s3, s4, s5, s6⟩ := step n i1 i2
      have hV' : V (n + 1) ≤ max (|y 0| + η / 2) (3 / 2 * η) := by
        rcases hdec n i1 i2 with h | h
        · have : 0 < ν * a0 := by positivity
          linarith
        · exact h.trans (le_max_right _ _)
      refine ⟨s1, ?_, s5, hV'⟩
      have h1 := hyV (n + 1) s5
      have h2 := abs_nonneg (y 0)
      have h3 : max (|y 0| + η / 2) (3 / 2 * η) ≤ |y 0| + 3 / 2 * η := max_le (by linarith) (by linarith)
      linarith
  refine ⟨fun n => ⟨(key n).1, (key n).2.1, (key n).2.2.1⟩, ?_⟩
  have hνa : 0 < ν * a0 / 2 := by positivity
  have hdec' := fun n => hdec n (key n).1 (key n).2.1
  obtain ⟨N, hN⟩ : ∃ N, V N ≤ 3 / 2 * η := by
    by_contra hcon
    push Not at hcon
    have hfall : ∀ n : ℕ, V n ≤ V 0 - ν * a0 / 2 * n := by
      intro n
      induction n with
      | zero => simp
      | succ n ih =>
        rcases hdec' n with h | h
        · push_cast; linarith
        · exact absurd h (not_le.mpr (hcon _))
    obtain ⟨n, hn⟩ := exists_nat_gt (V 0 / (ν * a0 / 2))
    rw [div_lt_iff₀ hνa] at hn
    have h1 := hfall n
    have h2 := hcon n
    linarith
  refine ⟨N, fun n hn => ?_⟩
  have hVn : V n ≤ 3 / 2 * η := by
    induction n, hn using Nat.le_induction with
    | base => exact hN
    | succ n _ ih => rcases hdec' n with h | h <;> linarith
  have := hyV n (key n).2.2.1
  linarith

/-! ### One step -/

theorem mcc_shear_step_near (ops : NewtonOps ℝ) {pr : MCCParams ℝ} (h : pr.Clay) (hp : 0 < pr.pMin) {L : Mat3 ℝ}
    (hs : L.transpose = L) (ht : L.trace = 0) (σref : Mat3 ℝ) {v dt : ℝ} (hv : v ≤ pr.N * (999999 / 1000000))
    (r : MCCResult ℝ) (hpc : 0 < r.pc) (hmin : pr.pMin ≤ Spec.meanStress r.stress) {δ : ℝ} (hδ : 0 ≤ δ)
    (hc : Spec.NearlyConverged δ ops pr L σref dt r) :
    let r' := mccUpdate realFns ops pr L r.epsE r.stress r.pc σref v dt
    let p' := Spec.meanStress r'.stress
    let K := Spec.mccBulk pr.kap pr.KMin pr.KMax (Spec.meanStress r.stress)
    0 < p' ∧ 0 < r'.pc ∧ Spec.mccF pr.M r'.pc r'.stress ≤ K * δ + (1 / 10 ^ 6 / pr.M) ^ 2 ∧
    (∃ lam ρ, 0 ≤ lam ∧ |ρ| ≤ δ ∧
      pr.kap * Real.log p' = pr.kap * Real.log (Spec.meanStress r.stress) - (lam * (2 * p' - r'.pc) * pr.M ^ 2 - ρ) ∧
      (pr.lam - pr.kap) * Real.log r'.pc = (pr.lam - pr.kap) * Real.log r.pc + (lam * (2 * p' - r'.pc) * pr.M ^ 2 - ρ) ∧
      (1 + 6 * Spec.clayShear pr p' * lam) • Spec.dev r'.stress =
        Spec.dev r.stress + (2 * Spec.clayShear pr (Spec.meanStress r.stress)) • (dt • L)) ∧
    (0 < Spec.mccF pr.M r.pc (Spec.mccTrialStress pr L r.stress dt) →
      |Spec.mccF pr.M r'.pc r'.stress| ≤ K * δ ∨ p' * (r'.pc - p') ≤ 2 * (1 / 10 ^ 6 / pr.M) ^ 2 + K * δ) ∧
    (Spec.mccF pr.M r.pc (Spec.mccTrialStress pr L r.stress dt) ≤ 0 →
      r'.stress = Spec.mccTrialStress pr L r.stress dt ∧ r'.pc = r.pc) := by
  intro r' p' K
  obtain ⟨t1, t2⟩ := trial_shear pr hs ht r.stress dt hmin
  have hσ : 0 < Spec.meanStress r.stress := hp.trans_le hmin
  have hcp : 0 < pr.lam - pr.kap := sub_pos.mpr h.lam
  have hM2 : 0 < pr.M ^ 2 := pow_pos h.M 2
  have hK0 : 0 < K := clayBulk_pos h _
  have hinc : (Spec.strainInc L dt).trace = 0 := by
    rw [Spec.strainInc, hs, Matrix.trace_smul, Matrix.trace_add, ht]; simp
  by_cases hy : 0 < Spec.mccF pr.M r.pc (Spec.mccTrialStress pr L r.stress dt)
  · obtain ⟨lam, ep, hl, e1, e2, e3, e4, e5, e6, e7⟩ := mcc_return_map ops pr h.elastic h.KMax h.M h.lam L r.epsE r.stress r.pc
      σref v dt hv hpc hp hmin hy
    rw [t2, max_eq_left hmin] at e6 e7
    have hc' := hc hy
    set left := mccLeft ops pr (mccTrial realFns pr L r.epsE r.stress r.pc σref dt) r.pc with hleft
    change p' = _ at e1
    change r'.pc = _ at e2
    change Spec.dev r'.stress = _ - (2 * Spec.clayShear pr p') • _ at e3
    change _ = Spec.dev (lam • Spec.mccGrad pr.M r'.pc r'.stress) at e4
    change _ = (lam • Spec.mccGrad pr.M r'.pc r'.stress).trace - _ at e5
    change _ → Spec.mccF pr.M r'.pc r'.stress = K * _ at e6
    change |Spec.mccF pr.M r'.pc r'.stress - K * left 0| ≤ _ at e7
    have hp' : 0 < p' := by rw [e1]; exact mul_pos hσ (Real.exp_pos _)
    have hpc' : 0 < r'.pc := by rw [e2]; exact mul_pos hpc (Real.exp_pos _)
    have hleft0 : |K * left 0| ≤ K * δ := by
      rw [abs_mul, abs_of_pos hK0]
      exact mul_le_mul_of_nonneg_left (hc' 0) hK0.le
    have htr : ep.trace = lam / pr.M ^ 2 * (2 * p' - r'.pc) * pr.M ^ 2 - left 1 := by
      rw [e5, Matrix.trace_smul, Spec.mccGrad, trace_smul_add, smul_eq_mul]
      have := h.M.ne'
      change lam * (3 * ((2 * p' - r'.pc) / 3)) - _ = _
      field_simp
    have hde : Spec.dev ep = (3 * (lam / pr.M ^ 2)) • Spec.dev r'.stress := by
      rw [e4, Spec.mccGrad, smul_add, smul_smul, smul_smul, dev_smul_add]
      congr 1; ring
    have hsum : (1 + 6 * Spec.clayShear pr p' * (lam / pr.M ^ 2)) • Spec.dev r'.stress = Spec.dev r'.stress +
        (2 * Spec.clayShear pr p') • ((3 * (lam / pr.M ^ 2)) • Spec.dev r'.stress) := by
      rw [smul_smul, add_smul, one_smul]; congr 2; ring
    have e3' : (1 + 6 * Spec.clayShear pr p' * (lam / pr.M ^ 2)) • Spec.dev r'.stress =
        Spec.dev (Spec.mccTrialStress pr L r.stress dt) := by
      rw [hsum, ← hde]
      exact eq_sub_iff_add_eq.mp e3
    have hlM : 0 ≤ lam / pr.M ^ 2 := by positivity
    have hFle : Spec.mccF pr.M r'.pc r'.stress ≤ K * δ + (1 / 10 ^ 6 / pr.M) ^ 2 := by
      have h1 := (le_abs_self _).trans e7
      have h2 := (le_abs_self _).trans hleft0
      linarith
    refine ⟨hp', hpc', hFle, ⟨lam / pr.M ^ 2, left 1, hlM, hc' 1, ?_, ?_, by rw [e3', t1]⟩, fun _ => ?_,
      fun hn => absurd hn (not_le.mpr hy)⟩
    · rw [← htr, e1, Real.log_mul hσ.ne' (Real.exp_pos _).ne', Real.log_exp, hinc]
      have := h.kap.ne'
      field_simp; ring
    · rw [← htr, e2, Real.log_mul hpc.ne' (Real.exp_pos _).ne', Real.log_exp]
      field_simp
    · rcases le_or_gt (1 / 10 ^ 6) (Spec.qVM (Spec.mccTrialStress pr L r.stress dt)) with hq | hq
      · left
        rw [e6 hq]; exact hleft0
      · right
        have hG : 0 ≤ Spec.clayShear pr p' := (clayShear_pos h p').le
        have hqq : Spec.qVM r'.stress ^ 2 ≤ Spec.qVM (Spec.mccTrialStress pr L r.stress dt) ^ 2 := by
          rw [qVM_sq, qVM_sq, Spec.J2, Spec.J2, ← e3', ddot_smul]
          have h1 : (1 : ℝ) ≤ (1 + 6 * Spec.clayShear pr p' * (lam / pr.M ^ 2)) ^ 2 := by
            have : 0 ≤ 6 * Spec.clayShear pr p' * (lam / pr.M ^ 2) := by positivity
            nlinarith
          have := ddot_self_nonneg (Spec.dev r'.stress)
          nlinarith
        have hq0 : 0 ≤ Spec.qVM (Spec.mccTrialStress pr L r.stress dt) := Real.sqrt_nonneg _
        have hq2 : Spec.qVM (Spec.mccTrialStress pr L r.stress dt) ^ 2 ≤ (1 / 10 ^ 6) ^ 2 := pow_le_pow_left₀ hq0 hq.le 2
        have hF : Spec.mccF pr.M r'.pc r'.stress = Spec.qVM r'.stress ^ 2 / pr.M ^ 2 + p' * (p' - r'.pc) := by
          simp only [Spec.mccF]; ring
        have e7' := (abs_le.mp e7).1
        have h2 := (neg_le_abs _).trans hleft0
        rw [hF] at e7'
        have : Spec.qVM r'.stress ^ 2 / pr.M ^ 2 ≤ (1 / 10 ^ 6 / pr.M) ^ 2 := by
          rw [div_pow (1 / 10 ^ 6 : ℝ)]
          exact div_le_div_of_nonneg_right (hqq.trans hq2) hM2.le
        nlinarith
  · have hy' := not_lt.mp hy
    have hr : r' = mccElastic (mccTrial realFns pr L r.epsE r.stress r.pc σref dt) r.pc := by
      simp only [r', mccUpdate]
      rw [if_pos hv, if_neg]
      rw [mccTrial_yf_spec pr L r.epsE r.stress r.pc σref dt hmin]; exact hy
    have hst : r'.stress = Spec.mccTrialStress pr L r.stress dt := by
      rw [hr]; exact mccTrial_stress pr L r.epsE r.stress r.pc σref dt hmin
    have hpc' : r'.pc = r.pc := by rw [hr]; rfl
    have hpp : p' = Spec.meanStress r.stress := by simp only [p', hst, t2]
    refine ⟨by rw [hpp]; exact hσ, by rw [hpc']; exact hpc, ?_, ⟨0, 0, le_rfl, by simpa using hδ, ?_, ?_, ?_⟩, fun hn => absurd hn hy,
      fun _ => ⟨hst, hpc'⟩⟩
    · rw [hst, hpc']; exact hy'.trans (by positivity)
    · rw [hpp]; ring
    · rw [hpc']; ring
    · rw [hst, t1]; simp

/-- A step of shearing along the stress raises the yield function of the trial state by a fixed amount. -/
theorem shear_loads_by {pr : MCCParams ℝ} (h : pr.Clay) {L : Mat3 ℝ} (hs : L.transpose = L) (ht : L.trace = 0) {dt : ℝ} (hdt : 0 < dt)
    (σ : Mat3 ℝ) (pc : ℝ) (hmin : pr.pMin ≤ Spec.meanStress σ) (hσ : 0 ≤ Spec.meanStress σ) (hc : 0 < Spec.ddot (Spec.dev σ) L) :
    Spec.mccF pr.M pc σ + 3 / 2 * (2 * Spec.clayShear pr 0 * dt) ^ 2 * Spec.ddot L L / pr.M ^ 2 ≤
      Spec.mccF pr.M pc (Spec.mccTrialStress pr L σ dt) := by
  obtain ⟨t1, t2⟩ := trial_shear pr hs ht σ dt hmin
  have hq := qVM_sq (Spec.mccTrialStress pr L σ dt)
  have hq0 := qVM_sq σ
  rw [Spec.J2, t1] at hq
  rw [Spec.J2] at hq0
  have hM2 : 0 < pr.M ^ 2 := pow_pos h.M 2
  have e : ∀ (A : Mat3 ℝ) (b : ℝ), Spec.ddot (A + b • (dt • L)) (A + b • (dt • L)) =
      Spec.ddot A A + 2 * (b * dt) * Spec.ddot A L + (b * dt) ^ 2 * Spec.ddot L L := by
    intro A b
    simp [Spec.ddot, Fin.sum_univ_three]; ring
  rw [e] at hq
  have h2 : 0 < 2 * Spec.clayShear pr (Spec.meanStress σ) * dt := mul_pos (mul_pos two_pos (clayShear_pos h _)) hdt
  have h3 := mul_pos (mul_pos two_pos h2) hc
  have h4 : (2 * Spec.clayShear pr 0 * dt) ^ 2 * Spec.ddot L L ≤
      (2 * Spec.clayShear pr (Spec.meanStress σ) * dt) ^ 2 * Spec.ddot L L := by
    have := clayShear_mono h hσ
    have := clayShear_pos h 0
    have := ddot_self_nonneg L
    gcongr
  have h5 : Spec.qVM σ ^ 2 + 3 / 2 * (2 * Spec.clayShear pr 0 * dt) ^ 2 * Spec.ddot L L ≤
      Spec.qVM (Spec.mccTrialStress pr L σ dt) ^ 2 := by rw [hq, hq0]; linarith
  have h6 := div_le_div_of_nonneg_right h5 hM2.le
  rw [add_div] at h6
  simp only [Spec.mccF, t2]
  linarith

/-! ### States of a path -/

/-- What holds along a path of shearing that starts from `r`. -/
structure NearState (pr : MCCParams ℝ) (Fm : ℝ) (r x : MCCResult ℝ) : Prop where
  p : 0 < Spec.meanStress x.stress
  pc : 0 < x.pc
  crit : Spec.criticalPressure pr (Spec.meanStress x.stress) x.pc = Spec.criticalPressure pr (Spec.meanStress r.stress) r.pc
  yield : Spec.mccF pr.M x.pc x.stress ≤ Fm

/-- The pressures in terms of the distance from the critical state. -/
theorem NearState.pressures {pr : MCCParams ℝ} (h : pr.Clay) {Fm : ℝ} {r x : MCCResult ℝ} (hx : NearState pr Fm r x) :
    Spec.meanStress x.stress = Spec.criticalPressure pr (Spec.meanStress r.stress) r.pc *
        Real.exp ((pr.lam - pr.kap) / pr.lam * criticalGap x) ∧
      x.pc = 2 * Spec.meanStress x.stress * Real.exp (-criticalGap x) := by
  have hP : 0 < Spec.criticalPressure pr (Spec.meanStress r.stress) r.pc := Real.exp_pos _
  constructor
  · have h1 := log_criticalPressure h hx.p hx.pc
    rw [hx.crit] at h1
    have h2 := Real.exp_log hx.p
    rw [h1, Real.exp_add, Real.exp_log hP] at h2
    exact h2.symm
  · have h2 : 0 < 2 * Spec.meanStress x.stress := by linarith [hx.p]
    rw [criticalGap, neg_sub, Real.exp_sub, Real.exp_log hx.pc, Real.exp_log h2]
    have := hx.p.ne'
    field_simp

/-- Bounds that follow from a bound of the distance. -/
theorem NearState.bounds {pr : MCCParams ℝ} (h : pr.Clay) {Fm Z : ℝ} {r x : MCCResult ℝ} (hx : NearState pr Fm r x)
    (hZ : |criticalGap x| ≤ Z) :
    let P := Spec.criticalPressure pr (Spec.meanStress r.stress) r.pc
    let k := (pr.lam - pr.kap) / pr.lam
    Spec.meanStress x.stress ≤ P * Real.exp (k * Z) ∧ P * Real.exp (-(k * Z)) ≤ Spec.meanStress x.stress ∧
      x.pc ≤ 2 * (P * Real.exp (k * Z)) * Real.exp Z ∧ 2 * (P * Real.exp (-(k * Z))) * Real.exp (-Z) ≤ x.pc := by
  intro P k
  have hP : 0 < P := Real.exp_pos _
  have hk : 0 ≤ k := div_nonneg (sub_nonneg.mpr h.lam.le) (h.kap.trans h.lam).le
  obtain ⟨h1, h2⟩ := hx.pressures h
  obtain ⟨z1, z2⟩ := abs_le.mp hZ
  have k1 := mul_le_mul_of_nonneg_left z1 hk
  have k2 := mul_le_mul_of_nonneg_left z2 hk
  rw [mul_neg] at k1
  have a1 : Spec.meanStress x.stress ≤ P * Real.exp (k * Z) := by
    rw [h1]; exact mul_le_mul_of_nonneg_left (Real.exp_le_exp.mpr k2) hP.le
  have a2 : P * Real.exp (-(k * Z)) ≤ Spec.meanStress x.stress := by
    rw [h1]; exact mul_le_mul_of_nonneg_left (Real.exp_le_exp.mpr k1) hP.le
  refine ⟨a1, a2, ?_, ?_⟩
  · rw [h2]
    have : Real.exp (-criticalGap x) ≤ Real.exp Z := Real.exp_le_exp.mpr (by linarith)
    have := hx.p
    gcongr
  · rw [h2]
    have : Real.exp (-Z) ≤ Real.exp (-criticalGap x) := Real.exp_le_exp.mpr (by linarith)
    have := Real.exp_pos (-Z)
    have := hx.p
    gcongr

/-- The yield function through the parts of the deviator along and across the shearing. -/
theorem mccF_split {pr : MCCParams ℝ} (x : MCCResult ℝ) (L : Mat3 ℝ) {u : ℝ} (hu : 0 < u) (hL : Spec.ddot L L = u ^ 2) :
    Spec.mccF pr.M x.pc x.stress = 3 / 2 * ((Spec.ddot (Spec.dev x.stress) L / u) ^ 2 +
      Spec.ddot (Spec.dev x.stress - (Spec.ddot (Spec.dev x.stress) L / u / u) • L)
        (Spec.dev x.stress - (Spec.ddot (Spec.dev x.stress) L / u / u) • L)) / pr.M ^ 2 +
      Spec.meanStress x.stress * (Spec.meanStress x.stress - x.pc) := by
  have h1 := qVM_sq x.stress
  rw [Spec.J2, ddot_split _ L hu hL] at h1
  simp only [Spec.mccF]
  rw [h1]; ring

theorem NearState.along {pr : MCCParams ℝ} (h : pr.Clay) {Fm pM pcM : ℝ} {r x : MCCResult ℝ} (hx : NearState pr Fm r x)
    (h1 : Spec.meanStress x.stress ≤ pM) (h2 : x.pc ≤ pcM) (L : Mat3 ℝ) {u : ℝ} (hu : 0 < u) (hL : Spec.ddot L L = u ^ 2) :
    |Spec.ddot (Spec.dev x.stress) L / u| ≤ 1 + pr.M ^ 2 * (pM * pcM + Fm) := by
  have hM2 : 0 < pr.M ^ 2 := pow_pos h.M 2
  have hF := mccF_split (pr := pr) x L hu hL
  set c := Spec.ddot (Spec.dev x.stress) L / u with hc
  have hd := ddot_self_nonneg (Spec.dev x.stress - (c / u) • L)
  set d := Spec.ddot (Spec.dev x.stress - (c / u) • L) (Spec.dev x.stress - (c / u) • L) with hdd
  have hp := hx.p
  have h3 : Spec.meanStress x.stress * x.pc ≤ pM * pcM := mul_le_mul h1 h2 hx.pc.le (hp.le.trans h1)
  have h4 : 3 / 2 * (c ^ 2 + d) / pr.M ^ 2 ≤ pM * pcM + Fm := by
    have := hx.yield
    have := mul_self_nonneg (Spec.meanStress x.stress)
    linarith
  rw [div_le_iff₀ hM2] at h4
  have h6 : |c| ^ 2 = c ^ 2 := sq_abs _
  nlinarith [sq_nonneg (|c| - 1), abs_nonneg c, sq_nonneg c]

theorem abs_gap_low {p pc y η m0 : ℝ} (hp : 0 < p) (hpc : m0 ≤ pc) (h0 : 0 < m0) (hy : y = Real.log (2 * p) - Real.log pc)
    (hη : η ≤ |y|) (hη0 : 0 ≤ η) : m0 * (1 - Real.exp (-η)) ≤ |2 * p - pc| := by
  have hpc0 : 0 < pc := h0.trans_le hpc
  have hexp : 0 ≤ 1 - Real.exp (-η) := by
    have : Real.exp (-η) ≤ 1 := by rw [← Real.exp_zero, Real.exp_le_exp]; linarith
    linarith
  have e1 : 2 * p = pc * Real.exp y := by
    rw [hy, Real.exp_sub, Real.exp_log (by linarith), Real.exp_log hpc0]
    field_simp
  have e2 : 2 * p - pc = pc * (Real.exp y - 1) := by rw [e1]; ring
  rw [e2, abs_mul, abs_of_pos hpc0]
  refine mul_le_mul hpc ?_ hexp hpc0.le
  rcases le_abs'.mp hη with h | h
  · have : Real.exp y ≤ Real.exp (-η) := Real.exp_le_exp.mpr h
    rw [abs_sub_comm]
    exact le_abs.mpr (Or.inl (by linarith))
  · have a1 : Real.exp η ≤ Real.exp y := Real.exp_le_exp.mpr h
    have b1 := Real.add_one_le_exp η
    have b2 := Real.add_one_le_exp (-η)
    exact le_abs.mpr (Or.inl (by linarith))

set_option maxHeartbeats 1000000 in
/-- **Settling**: with small residuals the path stays in a bounded region and ends near the critical state. -/
theorem near_settles {pr : MCCParams ℝ} (h : pr.Clay) (hp : 0 < pr.pMin) {L : Mat3 ℝ} (hs : L.transpose = L) (ht : L.trace = 0)
    {u : ℝ} (hu0 : 0 < u) (hu2 : Spec.ddot L L = u ^ 2) {v dt : ℝ} (hdt : 0 < dt) (hv : v ≤ pr.N * (999999 / 1000000))
    {r : MCCResult ℝ} (hr0 : 0 < Spec.meanStress r.stress) (hpc0 : 0 < r.pc) (hy : Spec.mccF pr.M r.pc r.stress ≤ 0)
    {η Y Z P k pM pcM pcm K1 Fm B : ℝ} (hη : 0 < η) (hY : |criticalGap r| + 2 * η ≤ Y) (hZ : Y + 1 ≤ Z)
    (hP : P = Spec.criticalPressure pr (Spec.meanStress r.stress) r.pc) (hk : k = (pr.lam - pr.kap) / pr.lam)
    (hYm : pr.pMin ≤ P * Real.exp (-(k * Y))) (hpM : pM = P * Real.exp (k * Z)) (hpcM : pcM = 2 * pM * Real.exp Z)
    (hpcm : pcm = 2 * (P * Real.exp (-(k * Z))) * Real.exp (-Z)) (hK1 : K1 = Spec.mccBulk pr.kap pr.KMin pr.KMax pM)
    (hFm : Fm = K1 + (1 / 10 ^ 6 / pr.M) ^ 2) (hB : B = 1 + pr.M ^ 2 * (pM * pcM + Fm)) {δ : ℝ} (hδ0 : 0 < δ) (hδ1 : δ ≤ 1)
    (hδk : (1 / pr.kap + 1 / (pr.lam - pr.kap)) * δ ≤ 1)
    (hδ : (1 / pr.kap + 1 / (pr.lam - pr.kap)) * δ ≤
      min ((1 / pr.kap + 1 / (pr.lam - pr.kap)) * (pcm * (1 - Real.exp (-η))) * pr.M ^ 2 / (6 * Spec.clayShear pr pM * B))
        (η / (2 * B)) * (2 * Spec.clayShear pr 0 * (dt * u)) / 2)
    (ops : NewtonOps ℝ) (σref : Mat3 ℝ)
    (hc : ∀ n, Spec.NearlyConverged δ ops pr L σref dt (mccPath ops pr L σref v dt r n)) :
    (∀ n, NearState pr Fm r (mccPath ops pr L σref v dt r n) ∧ |criticalGap (mccPath ops pr L σref v dt r n)| ≤ Y ∧
      |Spec.ddot (Spec.dev (mccPath ops pr L σref v dt r n).stress) L / u| ≤ B) ∧
    ∃ N, ∀ n, N ≤ n → |criticalGap (mccPath ops pr L σref v dt r n)| ≤ 2 * η := by
  have hP0 : 0 < P := by rw [hP]; exact Real.exp_pos _
  have hcp : 0 < pr.lam - pr.kap := sub_pos.mpr h.lam
  have hl0 : 0 < pr.lam := h.kap.trans h.lam
  have hM2 : 0 < pr.M ^ 2 := pow_pos h.M 2
  have hk0 : 0 ≤ k := by rw [hk]; positivity
  have hκ : 0 < 1 / pr.kap + 1 / (pr.lam - pr.kap) := by have := h.kap; positivity
  have hpM0 : 0 < pM := by rw [hpM]; positivity
  have hpcM0 : 0 < pcM := by rw [hpcM]; positivity
  have hpcm0 : 0 < pcm := by rw [hpcm]; positivity
  have hK10 : 0 < K1 := by rw [hK1]; exact clayBulk_pos h _
  have hFm0 : 0 < Fm := by rw [hFm]; positivity
  have hB0 : 0 < B := by rw [hB]; positivity
  have hexp : 0 < 1 - Real.exp (-η) := by
    have : Real.exp (-η) < 1 := by rw [← Real.exp_zero, Real.exp_lt_exp]; linarith
    linarith
  have hg1 := clayShear_pos h pM
  have hg0 := clayShear_pos h 0
  have hcb : ∀ x, NearState pr Fm r x → |criticalGap x| ≤ Z → |Spec.ddot (Spec.dev x.stress) L / u| ≤ B := by
    intro x hx hxZ
    obtain ⟨b1, -, b3, -⟩ := hx.bounds h hxZ
    rw [← hP, ← hk, ← hpM] at b1 b3
    rw [← hpcM] at b3
    rw [hB]
    exact hx.along h b1 b3 L hu0 hu2
  set x := mccPath ops pr L σref v dt r with hx
  have hsucc : ∀ n, mccUpdate realFns ops pr L (x n).epsE (x n).stress (x n).pc σref v dt = x (n + 1) := fun n => rfl
  have h0 : x 0 = r := rfl
  clear_value x
  have hS0 : NearState pr Fm r (x 0) := by rw [h0]; exact ⟨hr0, hpc0, rfl, hy.trans hFm0.le⟩
  have hstep : ∀ n, ∃ lam w, NearState pr Fm r (x n) → |criticalGap (x n)| ≤ Y → NearState pr Fm r (x (n + 1)) ∧ 0 ≤ lam ∧
      |criticalGap (x (n + 1))| + w ≤ |criticalGap (x n)| + (1 / pr.kap + 1 / (pr.lam - pr.kap)) * δ ∧
      Spec.ddot (Spec.dev (x n).stress) L / u + 2 * Spec.clayShear pr 0 * (dt * u) - 6 * Spec.clayShear pr pM * B * lam ≤
        Spec.ddot (Spec.dev (x (n + 1)).stress) L / u ∧
      |Spec.ddot (Spec.dev (x (n + 1)).stress) L / u| ≤ B ∧
      (η ≤ |criticalGap (x (n + 1))| →
        (1 / pr.kap + 1 / (pr.lam - pr.kap)) * (pcm * (1 - Real.exp (-η))) * pr.M ^ 2 * lam ≤ w) := by
    intro n
    by_cases hSn : NearState pr Fm r (x n) ∧ |criticalGap (x n)| ≤ Y
    swap
    · exact ⟨0, 0, fun h1 h2 => absurd ⟨h1, h2⟩ hSn⟩
    obtain ⟨hSn, hyn⟩ := hSn
    obtain ⟨n1, n2, n3, n4⟩ := hSn.bounds h hyn
    rw [← hP, ← hk] at n1 n2
    have hmin : pr.pMin ≤ Spec.meanStress (x n).stress := hYm.trans n2
    have hst := mcc_shear_step_near ops h hp hs ht σref hv (x n) hSn.pc hmin hδ0.le (hc n)
    simp only [hsucc] at hst
    obtain ⟨a1, a2, a3, ⟨lam, ρ, hl, hρ, b1, b2, b3⟩, -, -⟩ := hst
    set p' := Spec.meanStress (x (n + 1)).stress with hp'
    set b := lam * (2 * p' - (x (n + 1)).pc) * pr.M ^ 2 with hb
    have hnM : Spec.meanStress (x n).stress ≤ pM := by
      rw [hpM]
      refine n1.trans (mul_le_mul_of_nonneg_left (Real.exp_le_exp.mpr (mul_le_mul_of_nonneg_left ?_ hk0)) hP0.le)
      linarith
    have hFn : Spec.mccF pr.M (x (n + 1)).pc (x (n + 1)).stress ≤ Fm := by
      refine a3.trans ?_
      rw [hFm]
      have h1 : Spec.mccBulk pr.kap pr.KMin pr.KMax (Spec.meanStress (x n).stress) ≤ K1 := by rw [hK1]; exact mccBulk_mono h hnM
      have h2 := mul_le_mul h1 hδ1 hδ0.le hK10.le
      linarith
    have hSn' : NearState pr Fm r (x (n + 1)) := by
      refine ⟨a1, a2, ?_, hFn⟩
      rw [← hSn.crit]
      exact criticalPressure_congr hSn.pc a2 (by rw [b1, b2]; ring)
    have hgap : criticalGap (x (n + 1)) + (1 / pr.kap + 1 / (pr.lam - pr.kap)) * b =
        criticalGap (x n) + (1 / pr.kap + 1 / (pr.lam - pr.kap)) * ρ := by
      have l1 : Real.log (Spec.meanStress (x n).stress) = Real.log p' + (b - ρ) / pr.kap := by
        have := h.kap.ne'
        field_simp; linarith
      have l2 : Real.log (x n).pc = Real.log (x (n + 1)).pc - (b - ρ) / (pr.lam - pr.kap) := by
        field_simp; linarith
      simp only [criticalGap]
      rw [Real.log_mul two_ne_zero hSn.p.ne', Real.log_mul two_ne_zero hSn'.p.ne', l1, l2]
      change Real.log 2 + Real.log p' - _ + _ = _
      ring
    have hsg : 0 ≤ b * criticalGap (x (n + 1)) := flow_sign h.M hl a1 a2
    generalize hκκ : 1 / pr.kap + 1 / (pr.lam - pr.kap) = κ' at *
    have habs : |criticalGap (x (n + 1))| + κ' * |b| ≤ |criticalGap (x n)| + κ' * δ := by
      have h1 : |criticalGap (x (n + 1)) + κ' * b| = |criticalGap (x (n + 1))| + κ' * |b| := by
        rw [abs_add_of_mul_nonneg (by have := mul_nonneg hκ.le hsg; linarith), abs_mul, abs_of_pos hκ]
      rw [← h1, hgap]
      refine (abs_add_le _ _).trans ?_
      rw [abs_mul, abs_of_pos hκ]
      have := mul_le_mul_of_nonneg_left hρ hκ.le
      linarith
    have hZ' : |criticalGap (x (n + 1))| ≤ Z := by
      have := mul_nonneg hκ.le (abs_nonneg b)
      linarith
    have hcB' := hcb _ hSn' hZ'
    obtain ⟨m1, -, -, m4⟩ := hSn'.bounds h hZ'
    rw [← hP, ← hk, ← hpM] at m1
    rw [← hP, ← hk, ← hpcm] at m4
    refine ⟨lam, κ' * |b|, fun _ _ => ⟨hSn', hl, habs, ?_, hcB', fun hηy => ?_⟩⟩
    · have e := congrArg (fun A => Spec.ddot A L) b3
      have e1 : ∀ (b : ℝ) (A : Mat3 ℝ), Spec.ddot (b • A) L = b * Spec.ddot A L := fun b A => by
        have := ddot_smul b 1 A L
        rw [one_smul, mul_one] at this; exact this
      rw [e1, ddot_add_smul, e1, hu2] at e
      set c' := Spec.ddot (Spec.dev (x (n + 1)).stress) L / u with hc'
      set c := Spec.ddot (Spec.dev (x n).stress) L / u with hcd
      have e2 : Spec.ddot (Spec.dev (x (n + 1)).stress) L = c' * u := by rw [hc']; field_simp
      have e3 : Spec.ddot (Spec.dev (x n).stress) L = c * u := by rw [hcd]; field_simp
      rw [e2, e3] at e
      have e4 : c' * (1 + 6 * Spec.clayShear pr p' * lam) = c + 2 * Spec.clayShear pr (Spec.meanStress (x n).stress) * (dt * u) := by
        apply mul_left_cancel₀ hu0.ne'
        linarith
      have g1 : Spec.clayShear pr p' ≤ Spec.clayShear pr pM := clayShear_mono h m1
      have g2 : Spec.clayShear pr 0 ≤ Spec.clayShear pr (Spec.meanStress (x n).stress) := clayShear_mono h hSn.p.le
      have g3 := clayShear_pos h p'
      have f1 : Spec.clayShear pr p' * lam * c' ≤ Spec.clayShear pr pM * lam * B := by
        have f0 : 0 ≤ Spec.clayShear pr p' * lam := mul_nonneg g3.le hl
        calc Spec.clayShear pr p' * lam * c' ≤ Spec.clayShear pr p' * lam * B :=
              mul_le_mul_of_nonneg_left ((le_abs_self _).trans hcB') f0
          _ ≤ Spec.clayShear pr pM * lam * B := mul_le_mul_of_nonneg_right (mul_le_mul_of_nonneg_right g1 hl) hB0.le
      have f2 : 2 * Spec.clayShear pr 0 * (dt * u) ≤ 2 * Spec.clayShear pr (Spec.meanStress (x n).stress) * (dt * u) := by
        have : 0 < dt * u := mul_pos hdt hu0
        gcongr
      linarith
    · have hlow := abs_gap_low a1 m4 hpcm0 (y := criticalGap (x (n + 1))) rfl hηy hη.le
      rw [hb, abs_mul, abs_mul, abs_of_nonneg hl, abs_of_pos hM2]
      have := mul_le_mul_of_nonneg_left hlow (mul_nonneg (mul_nonneg hκ.le hl) hM2.le)
      linarith
  choose lam w hlw using hstep
  have h00 : |criticalGap (x 0)| + 2 * η ≤ Y := by rw [h0]; exact hY
  have hc00 : |Spec.ddot (Spec.dev (x 0).stress) L / u| ≤ B := hcb _ hS0 (by linarith)
  exact drift_settles (S := fun n => NearState pr Fm r (x n)) (y := fun n => criticalGap (x n))
    (c := fun n => Spec.ddot (Spec.dev (x n).stress) L / u) (lam := lam) (w := w) hη hB0 (by positivity) (by positivity) (by positivity)
    h00 hδ hS0 hc00 hlw

theorem small_residual {k X K e f : ℝ} (hk : 0 < k) (hX : 0 < X) (hK : 0 < K) (he : 0 < e) (hf : 0 < f) :
    ∃ δ, 0 < δ ∧ δ ≤ 1 ∧ k * δ ≤ 1 ∧ k * δ ≤ X ∧ K * δ ≤ e ∧ K * δ < f := by
  refine ⟨min (min 1 (1 / k)) (min (X / k) (min (e / K) (f / (2 * K)))), ?_, ?_, ?_, ?_, ?_, ?_⟩
  · refine lt_min (lt_min one_pos (by positivity)) (lt_min (by positivity) (lt_min (by positivity) (by positivity)))
  · exact (min_le_left _ _).trans (min_le_left _ _)
  · rw [mul_comm, ← le_div_iff₀ hk]
    exact (min_le_left _ _).trans (min_le_right _ _)
  · rw [mul_comm, ← le_div_iff₀ hk]
    exact (min_le_right _ _).trans (min_le_left _ _)
  · rw [mul_comm, ← le_div_iff₀ hK]
    exact (min_le_right _ _).trans ((min_le_right _ _).trans (min_le_left _ _))
  · rw [mul_comm, ← lt_div_iff₀ hK]
    refine lt_of_le_of_lt ((min_le_right _ _).trans ((min_le_right _ _).trans (min_le_right _ _))) ?_
    rw [div_lt_div_iff₀ (by positivity) hK]
    nlinarith

/-- Near the critical distance the pressures are near the critical ones. -/
theorem pressures_near (P k : ℝ) {ε : ℝ} (hε : 0 < ε) : ∃ η > 0, ∀ y, |y| ≤ 2 * η →
    |P * Real.exp (k * y) - P| < ε ∧ |2 * (P * Real.exp (k * y)) * Real.exp (-y) - 2 * P| < ε ∧
      |P * Real.exp (k * y) * (2 * (P * Real.exp (k * y)) * Real.exp (-y) - P * Real.exp (k * y)) - P ^ 2| < ε := by
  have c1 : Continuous fun y : ℝ => P * Real.exp (k * y) := by fun_prop
  have c2 : Continuous fun y : ℝ => 2 * (P * Real.exp (k * y)) * Real.exp (-y) := by fun_prop
  have c3 : Continuous fun y : ℝ => P * Real.exp (k * y) * (2 * (P * Real.exp (k * y)) * Real.exp (-y) - P * Real.exp (k * y)) := by
    fun_prop
  obtain ⟨d1, hd1, h1⟩ := Metric.continuous_iff.mp c1 0 ε hε
  obtain ⟨d2, hd2, h2⟩ := Metric.continuous_iff.mp c2 0 ε hε
  obtain ⟨d3, hd3, h3⟩ := Metric.continuous_iff.mp c3 0 ε hε
  simp only [Real.dist_eq, mul_zero, neg_zero, Real.exp_zero, mul_one, sub_zero] at h1 h2 h3
  refine ⟨min d1 (min d2 d3) / 4, by positivity, fun y hy => ?_⟩
  have hm : 0 < min d1 (min d2 d3) := by positivity
  have hy' : |y| < min d1 (min d2 d3) := by linarith
  refine ⟨h1 y (hy'.trans_le (min_le_left _ _)), h2 y (hy'.trans_le ((min_le_right _ _).trans (min_le_left _ _))), ?_⟩
  have := h3 y (hy'.trans_le ((min_le_right _ _).trans (min_le_right _ _)))
  rwa [show P * (2 * P - P) = P ^ 2 by ring] at this

set_option maxHeartbeats 1000000 in
/-- The end of the path: on the yield surface, along the shearing. -/
theorem near_limit {pr : MCCParams ℝ} (h : pr.Clay) (hp : 0 < pr.pMin) {L : Mat3 ℝ} (hs : L.transpose = L) (ht : L.trace = 0)
    {u : ℝ} (hu0 : 0 < u) (hu2 : Spec.ddot L L = u ^ 2) {v dt : ℝ} (hdt : 0 < dt) (hv : v ≤ pr.N * (999999 / 1000000))
    {x : ℕ → MCCResult ℝ} (ops : NewtonOps ℝ) (σref : Mat3 ℝ)
    (hsucc : ∀ n, mccUpdate realFns ops pr L (x n).epsE (x n).stress (x n).pc σref v dt = x (n + 1)) {δ : ℝ} (hδ0 : 0 < δ)
    (hc : ∀ n, Spec.NearlyConverged δ ops pr L σref dt (x n)) {P K1 B pM ε1 : ℝ} (hpc : ∀ n, 0 < (x n).pc)
    (hmin : ∀ n, pr.pMin ≤ Spec.meanStress (x n).stress) (hple : ∀ n, Spec.meanStress (x n).stress ≤ pM)
    (hcB : ∀ n, |Spec.ddot (Spec.dev (x n).stress) L / u| ≤ B)
    (hK1 : K1 = Spec.mccBulk pr.kap pr.KMin pr.KMax pM) (hKδ : K1 * δ ≤ ε1)
    (hKf : K1 * δ < 3 / 2 * (2 * Spec.clayShear pr 0 * dt) ^ 2 * u ^ 2 / pr.M ^ 2) (hε1 : 0 < ε1)
    (hbig : 2 * (1 / 10 ^ 6 / pr.M) ^ 2 + 4 * ε1 ≤ P ^ 2)
    (hprod : ∀ᶠ n in atTop, |Spec.meanStress (x n).stress * ((x n).pc - Spec.meanStress (x n).stress) - P ^ 2| < ε1) :
    (∀ᶠ n in atTop, 0 < Spec.ddot (Spec.dev (x n).stress) L / u) ∧
    (∀ᶠ n in atTop, |Spec.mccF pr.M (x n).pc (x n).stress| ≤ ε1) ∧
    ∀ i j, Tendsto (fun n => (Spec.dev (x n).stress - (Spec.ddot (Spec.dev (x n).stress) L / u / u) • L) i j) atTop (𝓝 0) := by
  have hpos : ∀ n, 0 < Spec.meanStress (x n).stress := fun n => hp.trans_le (hmin n)
  have hstep := fun n => mcc_shear_step_near ops h hp hs ht σref hv (x n) (hpc n) (hmin n) hδ0.le (hc n)
  simp only [hsucc] at hstep
  have htr := fun n => trial_shear pr hs ht (x n).stress dt (hmin n)
  choose lam ρ hlam _hρ _l1 _l2 l3 using fun n => (hstep n).2.2.2.1
  have hM2 : 0 < pr.M ^ 2 := pow_pos h.M 2
  set c := fun n => Spec.ddot (Spec.dev (x n).stress) L / u with hcd
  set G := fun n => Spec.clayShear pr (Spec.meanStress (x n).stress) with hG
  have hGpos : ∀ n, 0 < G n := fun n => clayShear_pos h _
  have hg0p : 0 < Spec.clayShear pr 0 := clayShear_pos h _
  have hg0le : ∀ n, Spec.clayShear pr 0 ≤ G n := fun n => clayShear_mono h (hpos n).le
  have hKle : ∀ n, Spec.mccBulk pr.kap pr.KMin pr.KMax (Spec.meanStress (x n).stress) * δ ≤ K1 * δ := fun n => by
    rw [hK1]; exact mul_le_mul_of_nonneg_right (mccBulk_mono h (hple n)) hδ0.le
  have hcstep : ∀ n, c (n + 1) * (1 + 6 * G (n + 1) * lam n) = c n + 2 * G n * (dt * u) := by
    intro n
    have e := congrArg (fun A => Spec.ddot A L) (l3 n)
    have e1 : ∀ (b : ℝ) (A : Mat3 ℝ), Spec.ddot (b • A) L = b * Spec.ddot A L := fun b A => by
      have := ddot_smul b 1 A L
      rw [one_smul, mul_one] at this; exact this
    rw [e1, ddot_add_smul, e1, hu2] at e
    have e2 : Spec.ddot (Spec.dev (x (n + 1)).stress) L = c (n + 1) * u := by simp only [hcd]; field_simp
    have e3 : Spec.ddot (Spec.dev (x n).stress) L = c n * u := by simp only [hcd]; field_simp
    rw [e2, e3] at e
    apply mul_left_cancel₀ hu0.ne'
    simp only [hG]; linarith
  have hkn : ∀ n, 0 ≤ 6 * G (n + 1) * lam n := fun n => by
    have := (hGpos (n + 1)).le
    have := hlam n
    positivity
  have ha0 : 0 < 2 * Spec.clayShear pr 0 * (dt * u) := by positivity
  have hale : ∀ n, 2 * Spec.clayShear pr 0 * (dt * u) ≤ 2 * G n * (dt * u) := fun n => by
    have := hg0le n
    have := mul_pos hdt hu0
    gcongr
  have hB0 : 0 ≤ B := (abs_nonneg _).trans (hcB 0)
  obtain ⟨N1, hN1⟩ := drive_pos ha0 hkn hale hcstep
  obtain ⟨N0, hN0⟩ := eventually_atTop.mp hprod
  -- yielding steps end near the yield surface
  have hyl : ∀ n, N0 ≤ n → 0 < Spec.mccF pr.M (x n).pc (Spec.mccTrialStress pr L (x n).stress dt) →
      |Spec.mccF pr.M (x (n + 1)).pc (x (n + 1)).stress| ≤ K1 * δ := by
    intro n hn hy
    rcases (hstep n).2.2.2.2.1 hy with h1 | h1
    · exact h1.trans (hKle n)
    · exfalso
      have h2 := (abs_lt.mp (hN0 (n + 1) (by omega))).1
      have h3 := hKle n
      linarith
  have hex : ∃ n1, N0 + N1 ≤ n1 ∧ |Spec.mccF pr.M (x n1).pc (x n1).stress| ≤ K1 * δ := by
    by_contra hcon
    push Not at hcon
    have hel : ∀ n, N0 + N1 ≤ n → Spec.mccF pr.M (x n).pc (Spec.mccTrialStress pr L (x n).stress dt) ≤ 0 := by
      intro n hn
      by_contra hy
      exact absurd (hyl n (by omega) (not_le.mp hy)) (not_le.mpr (hcon (n + 1) (by omega)))
    have hgrow : ∀ m : ℕ, c (N0 + N1) + 2 * Spec.clayShear pr 0 * (dt * u) * m ≤ c (N0 + N1 + m) := by
      intro m
      induction m with
      | zero => simp
      | succ m ih =>
        have h1 := ((hstep (N0 + N1 + m)).2.2.2.2.2 (hel _ (by omega))).1
        have h2 : c (N0 + N1 + m + 1) = c (N0 + N1 + m) + 2 * G (N0 + N1 + m) * (dt * u) := by
          simp only [hcd]
          rw [h1, (htr _).1, ddot_add_smul]
          have := ddot_smul dt 1 L L
          rw [one_smul, mul_one] at this
          rw [this, hu2]
          simp only [hG]
          field_simp
        have h3 := hale (N0 + N1 + m)
        rw [← add_assoc, h2]
        push_cast
        linarith
    obtain ⟨m, hm⟩ := exists_nat_gt ((B - c (N0 + N1)) / (2 * Spec.clayShear pr 0 * (dt * u)))
    rw [div_lt_iff₀ ha0] at hm
    have h1 := hgrow m
    have h2 := (le_abs_self _).trans (hcB (N0 + N1 + m))
    linarith
  obtain ⟨n1, hn1, hFn1⟩ := hex
  have hon : ∀ n, n1 ≤ n → |Spec.mccF pr.M (x n).pc (x n).stress| ≤ K1 * δ := by
    intro n hn
    induction n, hn using Nat.le_induction with
    | base => exact hFn1
    | succ n hn ih =>
      have hcn := hN1 n (by omega)
      refine hyl n (by omega) ?_
      have h1 : 0 < Spec.ddot (Spec.dev (x n).stress) L := by
        rw [show Spec.ddot (Spec.dev (x n).stress) L = c n * u by simp only [hcd]; field_simp]
        exact mul_pos hcn hu0
      have h2 := shear_loads_by h hs ht hdt (x n).stress (x n).pc (hmin n) (hpos n).le h1
      rw [hu2] at h2
      have h3 := (abs_le.mp ih).1
      linarith
  have hsum : ∀ S, ∃ n, S < ∑ i ∈ Finset.range n, 6 * G (i + 1) * lam i := by
    intro S
    obtain ⟨n, hn⟩ := exists_nat_gt ((2 * B + B * S) / (2 * Spec.clayShear pr 0 * (dt * u)))
    rw [div_lt_iff₀ ha0] at hn
    have h1 := drive_sum hcB hkn hale hcstep n
    have h2 := (le_abs_self _).trans (hcB n)
    have h3 := (neg_le_abs _).trans (hcB 0)
    refine ⟨n, ?_⟩
    by_contra hcon
    have := mul_le_mul_of_nonneg_left (not_lt.mp hcon) hB0
    simp only [hcd] at *
    linarith
  refine ⟨eventually_atTop.mpr ⟨N1, hN1⟩, eventually_atTop.mpr ⟨n1, fun n hn => (hon n hn).trans hKδ⟩, fun i j => ?_⟩
  refine drive_decay hkn hsum fun n => ?_
  have e := congrFun (congrFun (l3 n) i) j
  simp only [Matrix.smul_apply, Matrix.add_apply, smul_eq_mul] at e
  have e2 := hcstep n
  simp only [Matrix.sub_apply, Matrix.smul_apply, smul_eq_mul]
  have e3 : c (n + 1) / u * L i j * (1 + 6 * G (n + 1) * lam n) = c n / u * L i j + 2 * G n * (dt * L i j) := by
    rw [show c (n + 1) / u * L i j * (1 + 6 * G (n + 1) * lam n) = c (n + 1) * (1 + 6 * G (n + 1) * lam n) / u * L i j by ring, e2]
    field_simp
  have e4 : (1 + 6 * G (n + 1) * lam n) * Spec.dev (x (n + 1)).stress i j = Spec.dev (x n).stress i j + 2 * G n * (dt * L i j) := e
  simp only [hcd] at e3
  linarith

set_option maxHeartbeats 1000000 in
/-- **C133, with residuals**: for every tolerance there is a bound of the residuals, the same for all ways of computing the
derivatives, such that shearing at constant volume with residuals below the bound ends within the tolerance of the critical
state. -/
theorem mcc_critical_near_partial {pr : MCCParams ℝ} (h : pr.Clay) (hp : 0 < pr.pMin) {L : Mat3 ℝ} (hs : L.transpose = L)
    (ht : L.trace = 0) (hL : L ≠ 0) {v dt : ℝ} (hdt : 0 < dt) (hv : v ≤ pr.N * (999999 / 1000000)) {r : MCCResult ℝ}
    (h0 : pr.pMin < Spec.meanStress r.stress) (hpc0 : 0 < r.pc)
    (hcr : pr.pMin * Spec.meanStress r.stress < Spec.criticalPressure pr (Spec.meanStress r.stress) r.pc ^ 2)
    (hcM : 2 / 10 ^ 6 ≤ pr.M * Spec.criticalPressure pr (Spec.meanStress r.stress) r.pc)
    (hy : Spec.mccF pr.M r.pc r.stress ≤ 0) {ε : ℝ} (hε : 0 < ε) :
    let P := Spec.criticalPressure pr (Spec.meanStress r.stress) r.pc
    ∃ δ > 0, ∀ (ops : NewtonOps ℝ) (σref : Mat3 ℝ),
      (∀ n, Spec.NearlyConverged δ ops pr L σref dt (mccPath ops pr L σref v dt r n)) →
      ∀ᶠ n in atTop, |(mccPath ops pr L σref v dt r n).pc - 2 * P| < ε ∧
        ∀ i j, |(mccPath ops pr L σref v dt r n).stress i j - Spec.criticalStress pr.M P L i j| < ε := by
  intro P
  have hP0 : 0 < P := Real.exp_pos _
  have hr0 : 0 < Spec.meanStress r.stress := hp.trans h0
  have hcp : 0 < pr.lam - pr.kap := sub_pos.mpr h.lam
  have hl0 : 0 < pr.lam := h.kap.trans h.lam
  have hM2 : 0 < pr.M ^ 2 := pow_pos h.M 2
  set u := Real.sqrt (Spec.ddot L L) with hu
  have hu0 : 0 < u := Real.sqrt_pos.mpr (ddot_pos hL)
  have hu2 : Spec.ddot L L = u ^ 2 := (Real.sq_sqrt (ddot_self_nonneg L)).symm
  set k := (pr.lam - pr.kap) / pr.lam with hk
  have hk0 : 0 < k := by positivity
  have hκ : 0 < 1 / pr.kap + 1 / (pr.lam - pr.kap) := by have := h.kap; positivity
  -- the lower pressure bound has some room
  have hroom : Real.log pr.pMin < Real.log P - k * |criticalGap r| := by
    have e := log_criticalPressure h hr0 hpc0
    change Real.log (Spec.meanStress r.stress) = Real.log P + k * criticalGap r at e
    rcases le_total 0 (criticalGap r) with h1 | h1
    · rw [abs_of_nonneg h1]
      have := Real.log_lt_log (mul_pos hp hr0) hcr
      rw [Real.log_mul hp.ne' hr0.ne', Real.log_pow] at this
      push_cast at this
      change _ < 2 * Real.log P at this
      linarith
    · rw [abs_of_nonpos h1]
      have := Real.log_lt_log hp h0
      linarith
  -- tolerances
  set D := (1 / 10 ^ 6 / pr.M) ^ 2 with hD
  have hbig : 2 * D < P ^ 2 := by
    rw [hD, div_pow, ← mul_div_assoc, div_lt_iff₀ hM2, ← mul_pow]
    have : (2 / 10 ^ 6 : ℝ) ^ 2 ≤ (P * pr.M) ^ 2 := pow_le_pow_left₀ (by norm_num) (by rw [mul_comm]; exact hcM) 2
    norm_num at this ⊢
    linarith
  set zs := 2 / 3 * (pr.M * P) ^ 2 with hzs
  obtain ⟨ε2, hε2, hsq⟩ := Metric.continuous_iff.mp Real.continuous_sqrt zs (ε / 4) (by positivity)
  simp only [Real.dist_eq] at hsq
  set ε1 := min (ε / 4) (min ((P ^ 2 - 2 * D) / 4) (3 / 8 * ε2 / pr.M ^ 2)) with hε1
  have hε10 : 0 < ε1 := lt_min (by positivity) (lt_min (by linarith) (by positivity))
  have e11 : ε1 ≤ ε / 4 := min_le_left _ _
  have e12 : 2 * D + 4 * ε1 ≤ P ^ 2 := by
    have : ε1 ≤ (P ^ 2 - 2 * D) / 4 := (min_le_right _ _).trans (min_le_left _ _)
    linarith
  have e13 : pr.M ^ 2 * ε1 ≤ 3 / 8 * ε2 := by
    have : ε1 ≤ 3 / 8 * ε2 / pr.M ^ 2 := (min_le_right _ _).trans (min_le_right _ _)
    rw [le_div_iff₀ hM2] at this
    linarith
  obtain ⟨η1, hη1, hnear⟩ := pressures_near P k hε10
  set η := min (min η1 1) ((Real.log P - k * |criticalGap r| - Real.log pr.pMin) / (2 * k)) with hη
  have hη0 : 0 < η := lt_min (lt_min hη1 one_pos) (div_pos (by linarith) (by positivity))
  have hη11 : η ≤ η1 := (min_le_left _ _).trans (min_le_left _ _)
  have hηr : 2 * k * η ≤ Real.log P - k * |criticalGap r| - Real.log pr.pMin := by
    have : η ≤ (Real.log P - k * |criticalGap r| - Real.log pr.pMin) / (2 * k) := min_le_right _ _
    rw [le_div_iff₀ (by positivity)] at this
    linarith
  set Y := |criticalGap r| + 2 * η with hY
  have hYm : pr.pMin ≤ P * Real.exp (-(k * Y)) := by
    rw [← Real.log_le_log_iff hp (by positivity), Real.log_mul hP0.ne' (Real.exp_pos _).ne', Real.log_exp]
    rw [hY]; linarith
  set Z := Y + 1 with hZ
  set pM := P * Real.exp (k * Z) with hpM
  set pcM := 2 * pM * Real.exp Z with hpcM
  set pcm := 2 * (P * Real.exp (-(k * Z))) * Real.exp (-Z) with hpcm
  set K1 := Spec.mccBulk pr.kap pr.KMin pr.KMax pM with hK1
  set Fm := K1 + D with hFm
  set B := 1 + pr.M ^ 2 * (pM * pcM + Fm) with hB
  have hK10 : 0 < K1 := clayBulk_pos h _
  have hD0 : 0 ≤ D := by positivity
  have hB0 : 0 < B := by
    have : 0 < pM * pcM + Fm := by positivity
    positivity
  have hexp : 0 < 1 - Real.exp (-η) := by
    have : Real.exp (-η) < 1 := by rw [← Real.exp_zero, Real.exp_lt_exp]; linarith
    linarith
  have hg1 := clayShear_pos h pM
  have hg0 := clayShear_pos h 0
  have hX : 0 < min ((1 / pr.kap + 1 / (pr.lam - pr.kap)) * (pcm * (1 - Real.exp (-η))) * pr.M ^ 2 / (6 * Spec.clayShear pr pM * B))
        (η / (2 * B)) * (2 * Spec.clayShear pr 0 * (dt * u)) / 2 := by
    have : 0 < min ((1 / pr.kap + 1 / (pr.lam - pr.kap)) * (pcm * (1 - Real.exp (-η))) * pr.M ^ 2 / (6 * Spec.clayShear pr pM * B))
        (η / (2 * B)) := lt_min (by positivity) (by positivity)
    positivity
  have hf : 0 < 3 / 2 * (2 * Spec.clayShear pr 0 * dt) ^ 2 * u ^ 2 / pr.M ^ 2 := by positivity
  obtain ⟨δ, d0, d1, d2, d3, d4, d5⟩ := small_residual hκ hX hK10 hε10 hf
  refine ⟨δ, d0, fun ops σref hc => ?_⟩
  obtain ⟨hall, N, hN⟩ := near_settles h hp hs ht hu0 hu2 hdt hv hr0 hpc0 hy (η := η) (Y := Y) (Z := Z) (P := P) (k := k) (pM := pM)
    (pcM := pcM) (pcm := pcm) (K1 := K1) (Fm := Fm) (B := B) hη0 le_rfl le_rfl rfl rfl hYm rfl rfl rfl rfl rfl rfl d0 d1 d2 d3 ops σref hc
  set x := mccPath ops pr L σref v dt r with hx
  have hsucc : ∀ n, mccUpdate realFns ops pr L (x n).epsE (x n).stress (x n).pc σref v dt = x (n + 1) := fun n => rfl
  clear_value x
  have hpr := fun n => (hall n).1.pressures h
  have hev : ∀ n, N ≤ n → |Spec.meanStress (x n).stress - P| < ε1 ∧ |(x n).pc - 2 * P| < ε1 ∧
      |Spec.meanStress (x n).stress * ((x n).pc - Spec.meanStress (x n).stress) - P ^ 2| < ε1 := by
    intro n hn
    have h1 := hnear (criticalGap (x n)) ((hN n hn).trans (by linarith))
    obtain ⟨p1, p2⟩ := hpr n
    change _ = P * Real.exp (k * _) at p1
    rw [← p1, ← p2] at h1
    exact h1
  have hkY : k * Y ≤ k * Z := mul_le_mul_of_nonneg_left (by linarith) hk0.le
  have hmin : ∀ n, pr.pMin ≤ Spec.meanStress (x n).stress := fun n => hYm.trans ((hall n).1.bounds h (hall n).2.1).2.1
  have hple : ∀ n, Spec.meanStress (x n).stress ≤ pM := fun n =>
    ((hall n).1.bounds h (hall n).2.1).1.trans (mul_le_mul_of_nonneg_left (Real.exp_le_exp.mpr hkY) hP0.le)
  obtain ⟨hpos, hF, hd⟩ := near_limit h hp hs ht hu0 hu2 hdt hv ops σref hsucc d0 hc (P := P) (fun n => (hall n).1.pc) hmin hple
    (fun n => (hall n).2.2) hK1 d4 d5 hε10 e12 (eventually_atTop.mpr ⟨N, fun n hn => (hev n hn).2.2⟩)
  set c := fun n => Spec.ddot (Spec.dev (x n).stress) L / u with hcd
  set dd := fun n => Spec.dev (x n).stress - (c n / u) • L with hdd
  have hd' : ∀ i j, Tendsto (fun n => dd n i j) atTop (𝓝 0) := hd
  have hddT : Tendsto (fun n => Spec.ddot (dd n) (dd n)) atTop (𝓝 0) := by
    have : Tendsto (fun n => ∑ i, ∑ j, dd n i j * dd n i j) atTop (𝓝 (∑ i : Fin 3, ∑ j : Fin 3, (0 : ℝ) * 0)) :=
      tendsto_finsetSum _ fun i _ => tendsto_finsetSum _ fun j _ => (hd' i j).mul (hd' i j)
    simpa [Spec.ddot] using this
  have hsmall := hddT.eventually (gt_mem_nhds (show (0 : ℝ) < ε2 / 4 by positivity))
  have hdij : ∀ᶠ n in atTop, ∀ i j, |dd n i j| < ε / 4 := by
    refine eventually_all.mpr fun i => eventually_all.mpr fun j => ?_
    have := Metric.tendsto_nhds.mp (hd' i j) (ε / 4) (by positivity)
    simpa only [Real.dist_eq, sub_zero] using this
  filter_upwards [eventually_ge_atTop N, hpos, hF, hsmall, hdij] with n hn hcn hFn hsn hdn
  obtain ⟨v1, v2, v3⟩ := hev n hn
  refine ⟨by linarith, fun i j => ?_⟩
  have hsplit := mccF_split (pr := pr) (x n) L hu0 hu2
  change _ = 3 / 2 * (c n ^ 2 + Spec.ddot (dd n) (dd n)) / pr.M ^ 2 + _ at hsplit
  have hc2 : |c n ^ 2 - zs| < ε2 := by
    set F := Spec.mccF pr.M (x n).pc (x n).stress with hFd
    set pp := Spec.meanStress (x n).stress * ((x n).pc - Spec.meanStress (x n).stress) with hpp
    have e : c n ^ 2 - zs = 2 / 3 * (pr.M ^ 2 * F) + 2 / 3 * (pr.M ^ 2 * (pp - P ^ 2)) - Spec.ddot (dd n) (dd n) := by
      have h1 : 3 / 2 * (c n ^ 2 + Spec.ddot (dd n) (dd n)) / pr.M ^ 2 = F + pp := by rw [hpp]; linarith
      rw [div_eq_iff hM2.ne'] at h1
      rw [hzs]
      linear_combination 2 / 3 * h1
    have hn0 := ddot_self_nonneg (dd n)
    have f1 : |pr.M ^ 2 * F| ≤ 3 / 8 * ε2 := by
      rw [abs_mul, abs_of_pos hM2]
      exact (mul_le_mul_of_nonneg_left hFn hM2.le).trans e13
    have f2 : |pr.M ^ 2 * (pp - P ^ 2)| ≤ 3 / 8 * ε2 := by
      rw [abs_mul, abs_of_pos hM2]
      exact (mul_le_mul_of_nonneg_left v3.le hM2.le).trans e13
    obtain ⟨f3, f4⟩ := abs_le.mp f1
    obtain ⟨f5, f6⟩ := abs_le.mp f2
    rw [e, abs_lt]
    constructor <;> linarith
  have hcs : |c n - Real.sqrt (2 / 3) * (pr.M * P)| < ε / 4 := by
    have h1 := hsq (c n ^ 2) hc2
    have hMP : 0 ≤ pr.M * P := (mul_pos h.M hP0).le
    rwa [Real.sqrt_sq hcn.le, hzs, Real.sqrt_mul (by norm_num), Real.sqrt_sq hMP] at h1
  have hLij : |L i j| ≤ u := by
    have h1 : L i j ^ 2 ≤ u ^ 2 := by
      rw [← hu2, Spec.ddot, sq]
      refine (Finset.single_le_sum (f := fun j => L i j * L i j) (fun j _ => mul_self_nonneg _) (Finset.mem_univ j)).trans ?_
      exact Finset.single_le_sum (f := fun i => ∑ j, L i j * L i j) (fun i _ => Finset.sum_nonneg fun j _ => mul_self_nonneg _)
        (Finset.mem_univ i)
    exact abs_le_of_sq_le_sq h1 hu0.le
  have hone : |(1 : Mat3 ℝ) i j| ≤ 1 := by
    rw [Matrix.one_apply]
    split_ifs <;> simp
  have e : (x n).stress i j - Spec.criticalStress pr.M P L i j = (Spec.meanStress (x n).stress - P) * (1 : Mat3 ℝ) i j +
      (c n - Real.sqrt (2 / 3) * (pr.M * P)) * (L i j / u) + dd n i j := by
    have e0 := congrFun (congrFun (dev_add_mean (x n).stress) i) j
    rw [← e0]
    simp only [hdd, Spec.criticalStress, Matrix.add_apply, Matrix.sub_apply, Matrix.smul_apply, smul_eq_mul, isoT, ← hu]
    field_simp
    ring
  rw [e]
  have g1 : |(Spec.meanStress (x n).stress - P) * (1 : Mat3 ℝ) i j| ≤ ε / 4 := by
    rw [abs_mul]
    calc _ ≤ ε1 * 1 := mul_le_mul v1.le hone (abs_nonneg _) hε10.le
      _ ≤ ε / 4 := by linarith
  have g2 : |(c n - Real.sqrt (2 / 3) * (pr.M * P)) * (L i j / u)| ≤ ε / 4 := by
    rw [abs_mul, abs_div, abs_of_pos hu0]
    have : |L i j| / u ≤ 1 := by rw [div_le_one hu0]; exact hLij
    calc _ ≤ ε / 4 * 1 := mul_le_mul hcs.le this (by positivity) (by positivity)
      _ = ε / 4 := by ring
  have g3 := hdn i j
  have := abs_add_three ((Spec.meanStress (x n).stress - P) * (1 : Mat3 ℝ) i j) ((c n - Real.sqrt (2 / 3) * (pr.M * P)) * (L i j / u))
    (dd n i j)
  linarith

/-! ### Undrained tests -/

/-- Loops that end at a root end with residuals below every bound. -/
theorem Spec.Converged.near {ops : NewtonOps ℝ} {pr : MCCParams ℝ} {L σref : Mat3 ℝ} {dt : ℝ} {r : MCCResult ℝ}
    (h : Spec.Converged ops pr L σref dt r) {δ : ℝ} (hδ : 0 < δ) : Spec.NearlyConverged δ ops pr L σref dt r := by
  intro hy i
  rw [h hy]
  simpa using hδ.le

variable {dim : ℕ}

/-- **C133, with residuals**: for every tolerance there is a bound of the residuals such that undrained tests whose Newton loops
leave residuals below the bound, however the derivatives are computed, end within the tolerance of the critical state. -/
theorem undrained_near_partial {pr : MCCParams ℝ} (h : pr.Clay) (hpM : 0 < pr.pMin) {a dt : ℝ} (ha0 : a ≠ 0) (hdt0 : 0 < dt)
    (mp : MPState ℝ dim 1) (pc : ℕ → ℝ) (ref eps : ℕ → Mat3 ℝ) (hvol : mp.volume 0 = (mp.F 0).det * mp.volume0 0)
    (hv : pr.rhoP / mp.density 0 ≤ pr.N * (999999 / 1000000)) (h0 : pr.pMin < Spec.meanStress (mp.stress 0)) (hpc0 : 0 < pc 0)
    (hcr : pr.pMin * Spec.meanStress (mp.stress 0) < Spec.criticalPressure pr (Spec.meanStress (mp.stress 0)) (pc 0) ^ 2)
    (hcM : 2 / 10 ^ 6 ≤ pr.M * Spec.criticalPressure pr (Spec.meanStress (mp.stress 0)) (pc 0))
    (hy : Spec.mccF pr.M (pc 0) (mp.stress 0) ≤ 0) {ε : ℝ} (hε : 0 < ε) :
    let P := Spec.criticalPressure pr (Spec.meanStress (mp.stress 0)) (pc 0)
    ∃ δ > 0, ∀ (grad : (ℝ → ℝ) → ℝ → ℝ) (t : TriaxialTest ℝ dim (LawState ℝ)) (ops : NewtonOps ℝ) (reset : Bool),
      t.solver.law = mccLaw realFns ops pr reset → t.isUndrained = true → t.axialRate = .scalar a → t.dt = .scalar dt →
      (∀ n, Spec.NearlyConverged δ ops pr (triaxialL (-(1 / 2) * a) a) (ref 0) dt
        (mccPath ops pr (triaxialL (-(1 / 2) * a) a) (ref 0) (pr.rhoP / mp.density 0) dt (testStart mp pc eps) n)) →
      ∃ N, ∀ numSteps stride tr, { t with numSteps := numSteps, stride := stride }.run realExpm grad mp (.mcc pc (some ref) eps) = .ok tr →
        ∀ k (hk : k < tr.length), N ≤ (k + 1) * stride →
          (∃ pc' eps', tr[k].2 = .mcc pc' (some ref) eps' ∧ |pc' 0 - 2 * P| < ε) ∧
          ∀ i j, |tr[k].1.stress 0 i j - Matrix.diagonal ![P - SignType.sign a * (pr.M * P) / 3,
            P - SignType.sign a * (pr.M * P) / 3, P + 2 * (SignType.sign a * (pr.M * P)) / 3] i j| < ε := by
  intro P
  have hs : (triaxialL (-(1 / 2) * a) a).transpose = triaxialL (-(1 / 2) * a) a := Matrix.diagonal_transpose _
  have htr : (triaxialL (-(1 / 2) * a) a).trace = 0 := by
    simp [triaxialL, Matrix.trace, Fin.sum_univ_three]
    try ring
  have hL : triaxialL (-(1 / 2) * a) a ≠ 0 := by
    intro e
    have := congrFun (congrFun e 2) 2
    simp [triaxialL] at this
    exact ha0 this
  obtain ⟨δ, hδ, hall⟩ := mcc_critical_near_partial h hpM hs htr hL hdt0 hv (r := testStart mp pc eps) h0 hpc0 hcr hcM hy hε
  refine ⟨δ, hδ, fun grad t ops reset hd hu ha hdt hc => ?_⟩
  obtain ⟨N, hN⟩ := eventually_atTop.mp (hall ops (ref 0) hc)
  change ∀ n, N ≤ n → |_ - 2 * P| < ε ∧ ∀ i j, |_ - Spec.criticalStress pr.M P _ i j| < ε at hN
  rw [criticalStress_triaxial _ _ ha0] at hN
  refine ⟨N + 1, fun numSteps stride tr hrun k hk hkN => ?_⟩
  simp only [TriaxialTest.run] at hrun
  split_ifs at hrun
  obtain ⟨-, r2⟩ := scanRows_index _ _ _ _ _ hrun
  obtain ⟨c, pc', eps', c1, c2, c3⟩ := undrained_path grad t ops pr reset hd hu ha hdt mp pc ref eps hvol ((k + 1) * stride)
  have hck : tr[k] = c := by
    have e1 : scanCarry (t.stepIdx realExpm grad) (mp, .mcc pc (some ref) eps) (List.range ((k + 1) * stride)) = .ok tr[k] := r2 k hk
    rw [c1] at e1
    exact (Except.ok.inj e1).symm
  have hidx : N ≤ (if t.startStatic = true then (k + 1) * stride - 1 else (k + 1) * stride) := by
    split_ifs <;> omega
  obtain ⟨q1, q2⟩ := hN _ hidx
  rw [← c3] at q1 q2
  rw [hck]
  exact ⟨⟨pc', eps', c2, q1⟩, q2⟩

/-! ### Example -/

/-- Undrained compression of normally consolidated clay: the state meets the conditions, and there are derivatives whose loops
leave residuals below every bound. -/
example {ε : ℝ} (hε : 0 < ε) : ∃ δ > 0, (∀ (ops : NewtonOps ℝ) (σref : Mat3 ℝ),
      (∀ n, Spec.NearlyConverged δ ops exMCC (triaxialL (-(1 / 2) * 1) 1) σref (1 / 1000)
        (mccPath ops exMCC (triaxialL (-(1 / 2) * 1) 1) σref (53 / 40) (1 / 1000) ⟨isoT 100, 0, 100⟩ n)) →
      ∀ᶠ n in atTop, |(mccPath ops exMCC (triaxialL (-(1 / 2) * 1) 1) σref (53 / 40) (1 / 1000) ⟨isoT 100, 0, 100⟩ n).pc -
        2 * (100 / Real.sqrt 2)| < ε) ∧
    ∀ n, Spec.NearlyConverged δ rootOps exMCC (triaxialL (-(1 / 2) * 1) 1) 0 (1 / 1000)
        (mccPath rootOps exMCC (triaxialL (-(1 / 2) * 1) 1) 0 (53 / 40) (1 / 1000) ⟨isoT 100, 0, 100⟩ n) := by
  have hm : Spec.meanStress (isoT (100 : ℝ)) = 100 := meanStress_isoT 100
  have hs2 : 0 < Real.sqrt 2 := by positivity
  have hs3 : Real.sqrt 2 ≤ 2 := by rw [Real.sqrt_le_left (by norm_num)]; norm_num
  have hP : 1 ≤ 100 / Real.sqrt 2 := by rw [le_div_iff₀ hs2]; linarith
  have hy : Spec.mccF exMCC.M 100 (isoT 100) ≤ 0 := by
    have hq : Spec.qVM (isoT (100 : ℝ)) ^ 2 = 0 := by
      rw [qVM_sq, Spec.J2, dev_isoT]
      simp [Spec.ddot]
    simp only [Spec.mccF, hq, hm]
    norm_num
  have hsT : (triaxialL (-(1 / 2) * (1 : ℝ)) 1).transpose = triaxialL (-(1 / 2) * 1) 1 := Matrix.diagonal_transpose _
  have htT : (triaxialL (-(1 / 2) * (1 : ℝ)) 1).trace = 0 := by
    simp [triaxialL, Matrix.trace, Fin.sum_univ_three]; norm_num
  have hLT : triaxialL (-(1 / 2) * (1 : ℝ)) 1 ≠ 0 := by
    intro e
    have := congrFun (congrFun e 2) 2
    simp [triaxialL] at this
  have hv : (53 / 40 : ℝ) ≤ exMCC.N * (999999 / 1000000) := by norm_num [exMCC]
  have hsq : (100 / Real.sqrt 2) ^ 2 = 5000 := by rw [div_pow, Real.sq_sqrt (by norm_num)]; norm_num
  obtain ⟨δ, hδ, hall⟩ := mcc_critical_near_partial exMCC_clay (by norm_num [exMCC]) hsT htT hLT (v := 53 / 40) (dt := 1 / 1000)
    (by norm_num) hv (r := ⟨isoT 100, 0, 100⟩) (by rw [hm]; norm_num [exMCC]) (by norm_num)
    (by rw [hm, exUndrained_critical, hsq]; norm_num [exMCC]) (by rw [hm, exUndrained_critical]; norm_num [exMCC]; linarith) hy hε
  refine ⟨δ, hδ, fun ops σref hc => ?_, fun n => Spec.Converged.near ?_ hδ⟩
  · refine (hall ops σref hc).mono fun n hn => ?_
    have h1 := hn.1
    rwa [hm, exUndrained_critical] at h1
  · exact rootOps_path exMCC_clay (by norm_num [exMCC]) hsT htT 0 hv (r := ⟨isoT 100, 0, 100⟩)
      (by rw [hm]; norm_num [exMCC]) (by norm_num) (by rw [hm]; norm_num) (by rw [hm, exUndrained_critical]; exact hP) hy n

end Hydrax
