import Verif.Props.CamClaySolution
import Verif.Props.Spin
import Mathlib.Topology.Instances.Matrix
import Mathlib.Topology.Order.MonotoneConvergence
import Mathlib.Analysis.SpecialFunctions.Log.Basic

/-!
# Sustained shearing brings Cam-Clay to the critical state (C133)
-/

set_option linter.unusedSectionVars false

namespace Hydrax

open Filter Topology

/-! ### Sequences of implicit steps -/

section
variable {κ cp M e g0 g1 B : ℝ} {p pc c lam G G' : ℕ → ℝ}

/-- The plastic volumetric strain of a step and the distance from the critical state after it have the same sign. -/
theorem flow_sign (hM : 0 < M) {l p pc : ℝ} (hl : 0 ≤ l) (hp : 0 < p) (hpc : 0 < pc) :
    0 ≤ l * (2 * p - pc) * M ^ 2 * (Real.log (2 * p) - Real.log pc) := by
  have hM2 : 0 < M ^ 2 := by positivity
  rcases le_total (2 * p) pc with h | h
  · have h1 : Real.log (2 * p) ≤ Real.log pc := Real.log_le_log (by linarith) h
    have h2 : l * (2 * p - pc) * M ^ 2 ≤ 0 :=
      mul_nonpos_of_nonpos_of_nonneg (mul_nonpos_of_nonneg_of_nonpos hl (by linarith)) hM2.le
    exact mul_nonneg_of_nonpos_of_nonpos h2 (by linarith)
  · have h1 : Real.log pc ≤ Real.log (2 * p) := Real.log_le_log hpc h
    exact mul_nonneg (mul_nonneg (mul_nonneg hl (by linarith)) hM2.le) (by linarith)

theorem abs_add_of_mul_nonneg {a b : ℝ} (h : 0 ≤ a * b) : |a + b| = |a| + |b| := by
  rcases le_total 0 a with ha | ha <;> rcases le_total 0 b with hb | hb
  · rw [abs_of_nonneg ha, abs_of_nonneg hb, abs_of_nonneg (add_nonneg ha hb)]
  · rcases eq_or_lt_of_le ha with h0 | h0
    · rw [← h0]; simp
    · have : b = 0 := le_antisymm hb (nonneg_of_mul_nonneg_right h h0)
      rw [this]; simp
  · rcases eq_or_lt_of_le hb with h0 | h0
    · rw [← h0]; simp
    · have : a = 0 := le_antisymm ha (nonneg_of_mul_nonneg_left h h0)
      rw [this]; simp
  · rw [abs_of_nonpos ha, abs_of_nonpos hb, abs_of_nonpos (add_nonpos ha hb)]; ring

/-- Along implicit steps at constant volume the distance from the critical state shrinks by the plastic volumetric strain. -/
theorem shear_gap (hκ : 0 < κ) (hcp : 0 < cp) (hM : 0 < M) (hp : ∀ n, 0 < p n) (hpc : ∀ n, 0 < pc n) (hlam : ∀ n, 0 ≤ lam n)
    (h1 : ∀ n, κ * Real.log (p (n + 1)) = κ * Real.log (p n) - lam n * (2 * p (n + 1) - pc (n + 1)) * M ^ 2)
    (h2 : ∀ n, cp * Real.log (pc (n + 1)) = cp * Real.log (pc n) + lam n * (2 * p (n + 1) - pc (n + 1)) * M ^ 2) (n : ℕ) :
    |Real.log (2 * p (n + 1)) - Real.log (pc (n + 1))| + (1 / κ + 1 / cp) * |lam n * (2 * p (n + 1) - pc (n + 1)) * M ^ 2| =
      |Real.log (2 * p n) - Real.log (pc n)| := by
  have hs := flow_sign hM (hlam n) (hp (n + 1)) (hpc (n + 1))
  have hk : 0 < 1 / κ + 1 / cp := by positivity
  set a := lam n * (2 * p (n + 1) - pc (n + 1)) * M ^ 2 with ha
  have e2 : ∀ m, Real.log (2 * p m) = Real.log 2 + Real.log (p m) := fun m => Real.log_mul two_ne_zero (hp m).ne'
  have e : Real.log (2 * p n) - Real.log (pc n) = (Real.log (2 * p (n + 1)) - Real.log (pc (n + 1))) + (1 / κ + 1 / cp) * a := by
    have a1 : Real.log (p n) = Real.log (p (n + 1)) + a / κ := by
      have := h1 n; field_simp; linarith
    have a2 : Real.log (pc n) = Real.log (pc (n + 1)) - a / cp := by
      have := h2 n; field_simp; linarith
    rw [e2, e2, a1, a2]; ring
  have hka : |(1 / κ + 1 / cp) * a| = (1 / κ + 1 / cp) * |a| := by rw [abs_mul, abs_of_pos hk]
  rw [e, abs_add_of_mul_nonneg, hka]
  have := mul_nonneg hk.le hs
  linarith

/-- The weighted sum of the logarithms of the two pressures never changes. -/
theorem shear_invariant
    (h1 : ∀ n, κ * Real.log (p (n + 1)) = κ * Real.log (p n) - lam n * (2 * p (n + 1) - pc (n + 1)) * M ^ 2)
    (h2 : ∀ n, cp * Real.log (pc (n + 1)) = cp * Real.log (pc n) + lam n * (2 * p (n + 1) - pc (n + 1)) * M ^ 2) (n : ℕ) :
    κ * Real.log (p n) + cp * Real.log (pc n) = κ * Real.log (p 0) + cp * Real.log (pc 0) := by
  induction n with
  | zero => rfl
  | succ n ih => rw [h1, h2, ← ih]; ring

/-- **Convergence**: if the stress along the direction of shearing stays bounded, the critical state is reached in the limit. -/
theorem shear_converges (hκ : 0 < κ) (hcp : 0 < cp) (hM : 0 < M) (he : 0 < e) (hg0 : 0 < g0) (hp : ∀ n, 0 < p n)
    (hpc : ∀ n, 0 < pc n) (hlam : ∀ n, 0 ≤ lam n)
    (h1 : ∀ n, κ * Real.log (p (n + 1)) = κ * Real.log (p n) - lam n * (2 * p (n + 1) - pc (n + 1)) * M ^ 2)
    (h2 : ∀ n, cp * Real.log (pc (n + 1)) = cp * Real.log (pc n) + lam n * (2 * p (n + 1) - pc (n + 1)) * M ^ 2)
    (hc : ∀ n, c (n + 1) * (1 + 6 * G' n * lam n) = c n + 2 * G n * e) (hG : ∀ n, g0 ≤ G n)
    (hG0 : ∀ n, 0 ≤ G' n) (hG1 : ∀ n, G' n ≤ g1) (hB : ∀ n, |c n| ≤ B) :
    Tendsto (fun n => Real.log (2 * p n) - Real.log (pc n)) atTop (𝓝 0) := by
  set y := fun n => Real.log (2 * p n) - Real.log (pc n) with hy
  have hgap := shear_gap hκ hcp hM hp hpc hlam h1 h2
  have hk : 0 < 1 / κ + 1 / cp := by positivity
  have hanti : Antitone fun n => |y n| := by
    refine antitone_nat_of_succ_le fun n => ?_
    have := hgap n
    have h0 := mul_nonneg hk.le (abs_nonneg (lam n * (2 * p (n + 1) - pc (n + 1)) * M ^ 2))
    simp only [hy]; linarith
  have hbdd : BddBelow (Set.range fun n => |y n|) := ⟨0, by rintro _ ⟨n, rfl⟩; exact abs_nonneg _⟩
  have hlim := tendsto_atTop_ciInf hanti hbdd
  set l := ⨅ n, |y n| with hl
  have hl0 : 0 ≤ l := le_ciInf fun n => abs_nonneg _
  rcases eq_or_lt_of_le hl0 with h0 | h0
  · rw [← h0] at hlim
    exact (tendsto_zero_iff_abs_tendsto_zero _).mpr hlim
  exfalso
  have hyl : ∀ n, l ≤ |y n| := fun n => ciInf_le hbdd n
  -- the pressures stay away from zero
  set C := κ * Real.log (p 0) + cp * Real.log (pc 0) with hC
  have hlp : ∀ n, Real.log (pc n) = (C - κ * (y n - Real.log 2)) / (κ + cp) := by
    intro n
    have := shear_invariant h1 h2 n
    have e2 : Real.log (2 * p n) = Real.log 2 + Real.log (p n) := Real.log_mul two_ne_zero (hp n).ne'
    have : y n = Real.log 2 + Real.log (p n) - Real.log (pc n) := by simp only [hy, e2]
    rw [eq_div_iff (by positivity), this]; linarith
  set m0 := Real.exp ((C - κ * (|y 0| - Real.log 2)) / (κ + cp)) with hm0
  have hm0p : 0 < m0 := Real.exp_pos _
  have hpcm : ∀ n, m0 ≤ pc n := by
    intro n
    rw [← Real.exp_log (hpc n), hm0, Real.exp_le_exp, hlp n]
    refine div_le_div_of_nonneg_right ?_ (by positivity)
    have : y n ≤ |y 0| := (le_abs_self _).trans (hanti (Nat.zero_le n))
    nlinarith
  have hexp : 0 < 1 - Real.exp (-l) := by
    have : Real.exp (-l) < 1 := by rw [← Real.exp_zero, Real.exp_lt_exp]; linarith
    linarith
  set m := m0 * (1 - Real.exp (-l)) with hm
  have hmp : 0 < m := mul_pos hm0p hexp
  have hgm : ∀ n, m ≤ |2 * p n - pc n| := by
    intro n
    have e1 : 2 * p n = pc n * Real.exp (y n) := by
      simp only [hy]
      rw [Real.exp_sub, Real.exp_log (by linarith [hp n]), Real.exp_log (hpc n)]
      field_simp [(hpc n).ne']
    have e2 : 2 * p n - pc n = pc n * (Real.exp (y n) - 1) := by rw [e1]; ring
    rw [e2, abs_mul, abs_of_pos (hpc n)]
    refine mul_le_mul (hpcm n) ?_ hexp.le (hpc n).le
    rcases le_abs'.mp (hyl n) with h | h
    · have : Real.exp (y n) ≤ Real.exp (-l) := Real.exp_le_exp.mpr h
      rw [abs_sub_comm]
      exact le_abs.mpr (Or.inl (by linarith))
    · have a1 : Real.exp l ≤ Real.exp (y n) := Real.exp_le_exp.mpr h
      have a2 : 2 ≤ Real.exp l + Real.exp (-l) := by
        have b1 := Real.add_one_le_exp l
        have b2 := Real.add_one_le_exp (-l)
        linarith
      exact le_abs.mpr (Or.inl (by linarith))
  have hM2 : 0 < M ^ 2 := by positivity
  set k := 1 / κ + 1 / cp with hkd
  have hlamle : ∀ n, lam n * (k * m * M ^ 2) ≤ |y n| - |y (n + 1)| := by
    intro n
    have := hgap n
    rw [abs_mul, abs_mul, abs_of_nonneg (hlam n), abs_of_pos hM2] at this
    have h3 := mul_le_mul_of_nonneg_left (hgm (n + 1)) (mul_nonneg (mul_nonneg hk.le (hlam n)) hM2.le)
    simp only [hy] at *
    nlinarith
  have hB0 : 0 ≤ B := (abs_nonneg _).trans (hB 0)
  have hg1 : 0 ≤ g1 := (hG0 0).trans (hG1 0)
  set D := 6 * g1 * B / (k * m * M ^ 2) with hD
  have hkm : 0 < k * m * M ^ 2 := by positivity
  have hD0 : 0 ≤ D := by positivity
  have hstep : ∀ n, c n + 2 * g0 * e - D * (|y n| - |y (n + 1)|) ≤ c (n + 1) := by
    intro n
    have a1 : 6 * g1 * B * lam n ≤ D * (|y n| - |y (n + 1)|) := by
      have := mul_le_mul_of_nonneg_left (hlamle n) hD0
      have e1 : D * (lam n * (k * m * M ^ 2)) = 6 * g1 * B * lam n := by
        rw [hD]; field_simp
      linarith
    have a2 : G' n * lam n * c (n + 1) ≤ g1 * lam n * B := by
      have b1 : G' n * lam n ≤ g1 * lam n := mul_le_mul_of_nonneg_right (hG1 n) (hlam n)
      have b0 : 0 ≤ G' n * lam n := mul_nonneg (hG0 n) (hlam n)
      calc G' n * lam n * c (n + 1) ≤ G' n * lam n * B := mul_le_mul_of_nonneg_left ((le_abs_self _).trans (hB _)) b0
        _ ≤ g1 * lam n * B := mul_le_mul_of_nonneg_right b1 hB0
    have a3 : 2 * g0 * e ≤ 2 * G n * e := by have := hG n; nlinarith
    have := hc n
    nlinarith
  have hgrow : ∀ n : ℕ, c 0 + 2 * g0 * e * n - D * (|y 0| - |y n|) ≤ c n := by
    intro n
    induction n with
    | zero => simp
    | succ n ih =>
      have := hstep n
      push_cast
      nlinarith
  obtain ⟨n, hn⟩ := exists_nat_gt ((B - c 0 + D * |y 0|) / (2 * g0 * e))
  have hge : 0 < 2 * g0 * e := by positivity
  rw [div_lt_iff₀ hge] at hn
  have h3 := hgrow n
  have h4 := (le_abs_self _).trans (hB n)
  have h5 := mul_nonneg hD0 (abs_nonneg (y n))
  nlinarith

end

/-! ### Steps of the code -/

/-- Successive updates of one point with the same velocity gradient, specific volume and time step. -/
noncomputable def mccPath (ops : NewtonOps ℝ) (pr : MCCParams ℝ) (L σref : Mat3 ℝ) (v dt : ℝ) (r : MCCResult ℝ) :
    ℕ → MCCResult ℝ
  | 0 => r
  | n + 1 =>
    let x := mccPath ops pr L σref v dt r n
    mccUpdate realFns ops pr L x.epsE x.stress x.pc σref v dt

/-- The Newton loop of the step from `r`, if there is one, ended at a zero of the residuals. -/
def Spec.Converged (ops : NewtonOps ℝ) (pr : MCCParams ℝ) (L σref : Mat3 ℝ) (dt : ℝ) (r : MCCResult ℝ) : Prop :=
  0 < Spec.mccF pr.M r.pc (Spec.mccTrialStress pr L r.stress dt) →
    mccLeft ops pr (mccTrial realFns pr L r.epsE r.stress r.pc σref dt) r.pc = 0

/-- Shear modulus of the clay at a pressure. -/
noncomputable def Spec.clayShear (pr : MCCParams ℝ) (p : ℝ) : ℝ := Spec.mccShear pr.nu (Spec.mccBulk pr.kap pr.KMin pr.KMax p)

/-- Pressure of the critical state that clay of pressure `p` and preconsolidation pressure `pc` has at the same volume: on the
compression line `κ ln p + (λ - κ) ln p_c` is constant, and there `p_c = 2 p`. -/
noncomputable def Spec.criticalPressure (pr : MCCParams ℝ) (p pc : ℝ) : ℝ :=
  Real.exp ((pr.kap * Real.log p + (pr.lam - pr.kap) * Real.log (pc / 2)) / pr.lam)

theorem trial_shear (pr : MCCParams ℝ) {L : Mat3 ℝ} (hs : L.transpose = L) (ht : L.trace = 0) (σ : Mat3 ℝ) (dt : ℝ)
    (hmin : pr.pMin ≤ Spec.meanStress σ) :
    Spec.dev (Spec.mccTrialStress pr L σ dt) = Spec.dev σ + (2 * Spec.clayShear pr (Spec.meanStress σ)) • (dt • L) ∧
      Spec.meanStress (Spec.mccTrialStress pr L σ dt) = Spec.meanStress σ := by
  have hinc : Spec.strainInc L dt = dt • L := by
    rw [Spec.strainInc, hs, ← two_smul ℝ L, smul_smul]; congr 1; ring
  have htr : (Spec.strainInc L dt).trace = 0 := by rw [hinc, Matrix.trace_smul, ht, smul_zero]
  have hj : Spec.jaumannRotated L σ dt = σ := by
    simp [Spec.jaumannRotated, hs]
  have hd : Spec.dev (dt • L) = dt • L := by
    have := dev_add_mean (dt • L)
    have hm : Spec.meanStress (dt • L) = 0 := by
      rw [meanStress_trace, Matrix.trace_smul, ht]; simp
    rw [hm, show isoT (0 : ℝ) = 0 from by simp [isoT], add_zero] at this
    exact this
  have hmean := mccTrialStress_mean pr L σ dt
  rw [htr, zero_div, Real.exp_zero, mul_one] at hmean
  refine ⟨?_, hmean⟩
  unfold Spec.mccTrialStress
  simp only
  rw [show ∀ c : ℝ, c • (1 : Matrix (Fin 3) (Fin 3) ℝ) = isoT c from fun _ => rfl, dev_add_iso]
  · rw [hj, htr, hinc, hd, zero_div, Real.exp_zero, mul_one, max_eq_left hmin]; rfl
  · rw [meanStress_add, meanStress_smul, meanStress_dev, meanStress_dev]; ring

/-- One step of shearing at constant volume. With the multiplier zero it covers the elastic steps. -/
theorem mcc_shear_step (ops : NewtonOps ℝ) {pr : MCCParams ℝ} (h : pr.Clay) (hp : 0 < pr.pMin) {L : Mat3 ℝ}
    (hs : L.transpose = L) (ht : L.trace = 0) (σref : Mat3 ℝ) {v dt : ℝ} (hv : v ≤ pr.N * (999999 / 1000000))
    (r : MCCResult ℝ) (hpc : 0 < r.pc) (hmin : pr.pMin ≤ Spec.meanStress r.stress) (hc : Spec.Converged ops pr L σref dt r) :
    let r' := mccUpdate realFns ops pr L r.epsE r.stress r.pc σref v dt
    let p' := Spec.meanStress r'.stress
    0 < p' ∧ 0 < r'.pc ∧ Spec.mccF pr.M r'.pc r'.stress ≤ (1 / 10 ^ 6 / pr.M) ^ 2 ∧
    (∃ lam, 0 ≤ lam ∧
      pr.kap * Real.log p' = pr.kap * Real.log (Spec.meanStress r.stress) - lam * (2 * p' - r'.pc) * pr.M ^ 2 ∧
      (pr.lam - pr.kap) * Real.log r'.pc = (pr.lam - pr.kap) * Real.log r.pc + lam * (2 * p' - r'.pc) * pr.M ^ 2 ∧
      (1 + 6 * Spec.clayShear pr p' * lam) • Spec.dev r'.stress =
        Spec.dev r.stress + (2 * Spec.clayShear pr (Spec.meanStress r.stress)) • (dt • L)) ∧
    (0 < Spec.mccF pr.M r.pc (Spec.mccTrialStress pr L r.stress dt) → 
      Spec.mccF pr.M r'.pc r'.stress = 0 ∨ p' * (r'.pc - p') ≤ 2 * (1 / 10 ^ 6 / pr.M) ^ 2) ∧
    (Spec.mccF pr.M r.pc (Spec.mccTrialStress pr L r.stress dt) ≤ 0 → 
      r'.stress = Spec.mccTrialStress pr L r.stress dt ∧ r'.pc = r.pc) := by
  intro r' p'
  obtain ⟨t1, t2⟩ := trial_shear pr hs ht r.stress dt hmin
  have hσ : 0 < Spec.meanStress r.stress := hp.trans_le hmin
  have hcp : 0 < pr.lam - pr.kap := sub_pos.mpr h.lam
  have hM2 : 0 < pr.M ^ 2 := pow_pos h.M 2
  have hinc : (Spec.strainInc L dt).trace = 0 := by
    rw [Spec.strainInc, hs, Matrix.trace_smul, Matrix.trace_add, ht]; simp
  by_cases hy : 0 < Spec.mccF pr.M r.pc (Spec.mccTrialStress pr L r.stress dt)
  · obtain ⟨lam, ep, hl, e1, e2, e3, e4, e5, e6, e7⟩ := mcc_return_map ops pr h.elastic h.KMax h.M h.lam L r.epsE r.stress r.pc
      σref v dt hv hpc hp hmin hy
    have hc' := hc hy
    rw [hc', Pi.zero_apply, sub_zero] at e5
    rw [hc', Pi.zero_apply, mul_zero] at e6
    rw [hc', Pi.zero_apply, mul_zero, sub_zero] at e7
    change p' = _ at e1
    have hp' : 0 < p' := by rw [e1]; exact mul_pos hσ (Real.exp_pos _)
    have hpc' : 0 < r'.pc := by
      have e2' : r'.pc = _ := e2
      rw [e2']; exact mul_pos hpc (Real.exp_pos _)
    have htr : ep.trace = lam / pr.M ^ 2 * (2 * p' - r'.pc) * pr.M ^ 2 := by
      rw [e5, Matrix.trace_smul, Spec.mccGrad, trace_smul_add, smul_eq_mul]
      have := h.M.ne'
      change lam * (3 * ((2 * p' - r'.pc) / 3)) = _
      field_simp
    refine ⟨hp', hpc', (le_abs_self _).trans e7, ⟨lam / pr.M ^ 2, by positivity, ?_, ?_, ?_⟩, fun _ => ?_, fun hn => absurd hn (not_le.mpr hy)⟩
    · rw [← htr, e1, Real.log_mul hσ.ne' (Real.exp_pos _).ne', Real.log_exp, hinc]
      have := h.kap.ne'
      field_simp; ring
    · have e2' : r'.pc = _ := e2
      rw [← htr, e2', Real.log_mul hpc.ne' (Real.exp_pos _).ne', Real.log_exp]
      field_simp
    · have hde : Spec.dev ep = (3 * (lam / pr.M ^ 2)) • Spec.dev r'.stress := by
        rw [e4, Spec.mccGrad, smul_add, smul_smul, smul_smul, dev_smul_add]
        congr 1; ring
      rw [hde, t1] at e3
      have e3' : Spec.dev r'.stress = _ := e3
      have : (1 + 6 * Spec.clayShear pr p' * (lam / pr.M ^ 2)) • Spec.dev r'.stress = Spec.dev r'.stress +
          (2 * Spec.clayShear pr p') • ((3 * (lam / pr.M ^ 2)) • Spec.dev r'.stress) := by
        rw [smul_smul, add_smul, one_smul]; congr 2; ring
      rw [this]
      exact (eq_sub_iff_add_eq.mp e3')
    · rcases le_or_gt (1 / 10 ^ 6) (Spec.qVM (Spec.mccTrialStress pr L r.stress dt)) with hq | hq
      · exact Or.inl (e6 hq)
      · right
        have hde : Spec.dev ep = (3 * (lam / pr.M ^ 2)) • Spec.dev r'.stress := by
          rw [e4, Spec.mccGrad, smul_add, smul_smul, smul_smul, dev_smul_add]
          congr 1; ring
        have hG : 0 ≤ Spec.clayShear pr p' := by
          unfold Spec.clayShear Spec.mccShear
          have := clayBulk_pos h p'
          have h1 := h.nuLo
          have h2 := h.nuHi
          exact div_nonneg (mul_nonneg (by positivity) (by linarith)) (by linarith)
        have e3' : Spec.dev (Spec.mccTrialStress pr L r.stress dt) =
            (1 + 6 * Spec.clayShear pr p' * (lam / pr.M ^ 2)) • Spec.dev r'.stress := by
          have : (1 + 6 * Spec.clayShear pr p' * (lam / pr.M ^ 2)) • Spec.dev r'.stress = Spec.dev r'.stress +
              (2 * Spec.clayShear pr p') • ((3 * (lam / pr.M ^ 2)) • Spec.dev r'.stress) := by
            rw [smul_smul, add_smul, one_smul]; congr 2; ring
          rw [this, ← hde]
          exact (eq_sub_iff_add_eq.mp e3).symm
        have hqq : Spec.qVM r'.stress ^ 2 ≤ Spec.qVM (Spec.mccTrialStress pr L r.stress dt) ^ 2 := by
          rw [qVM_sq, qVM_sq, Spec.J2, Spec.J2, e3', ddot_smul]
          have h1 : (1 : ℝ) ≤ (1 + 6 * Spec.clayShear pr p' * (lam / pr.M ^ 2)) ^ 2 := by
            have : 0 ≤ 6 * Spec.clayShear pr p' * (lam / pr.M ^ 2) := by positivity
            nlinarith
          have := ddot_self_nonneg (Spec.dev r'.stress)
          nlinarith
        have hq0 : 0 ≤ Spec.qVM (Spec.mccTrialStress pr L r.stress dt) := Real.sqrt_nonneg _
        have hq2 : Spec.qVM (Spec.mccTrialStress pr L r.stress dt) ^ 2 ≤ (1 / 10 ^ 6) ^ 2 := pow_le_pow_left₀ hq0 hq.le 2
        have hF : Spec.mccF pr.M r'.pc r'.stress = Spec.qVM r'.stress ^ 2 / pr.M ^ 2 + p' * (p' - r'.pc) := by
          simp only [Spec.mccF]; ring
        have e7' := (abs_le.mp e7).1
        change -_ ≤ Spec.mccF pr.M r'.pc r'.stress at e7'
        rw [hF] at e7'
        have : Spec.qVM r'.stress ^ 2 / pr.M ^ 2 ≤ (1 / 10 ^ 6 / pr.M) ^ 2 := by
          rw [div_pow (1 / 10 ^ 6 : ℝ)]
          exact div_le_div_of_nonneg_right (hqq.trans hq2) hM2.le
        nlinarith
  · have hy' := not_lt.mp hy
    have hr : r' = mccElastic (mccTrial realFns pr L r.epsE r.stress r.pc σref dt) r.pc := by
      simp only [r', mccUpdate]
      rw [if_pos hv, if_neg]
      rw [mccTrial_yf_spec pr L r.epsE r.stress r.pc σref dt hmin]; exact hy
    have hst : r'.stress = Spec.mccTrialStress pr L r.stress dt := by
      rw [hr]; exact mccTrial_stress pr L r.epsE r.stress r.pc σref dt hmin
    have hpc' : r'.pc = r.pc := by rw [hr]; rfl
    have hpp : p' = Spec.meanStress r.stress := by simp only [p', hst, t2]
    refine ⟨by rw [hpp]; exact hσ, by rw [hpc']; exact hpc, ?_, ⟨0, le_rfl, ?_, ?_, ?_⟩, fun hn => absurd hn hy, fun _ => ⟨hst, hpc'⟩⟩
    · rw [hst, hpc']; exact hy'.trans (by positivity)
    · rw [hpp]; ring
    · rw [hpc']; ring
    · rw [hst, t1]; simp

/-- One step moves towards the critical state without passing it. -/
theorem shear_towards {κ cp M l p pc p' pc' : ℝ} (hκ : 0 < κ) (hcp : 0 < cp) (hM : 0 < M) (hl : 0 ≤ l) (hp : 0 < p) (hp' : 0 < p')
    (hpc' : 0 < pc')
    (h1 : κ * Real.log p' = κ * Real.log p - l * (2 * p' - pc') * M ^ 2)
    (h2 : cp * Real.log pc' = cp * Real.log pc + l * (2 * p' - pc') * M ^ 2) :
    let y := Real.log (2 * p) - Real.log pc
    let y' := Real.log (2 * p') - Real.log pc'
    (0 ≤ y → 0 ≤ y' ∧ y' ≤ y) ∧ (y ≤ 0 → y ≤ y' ∧ y' ≤ 0) ∧ (0 < y → 0 < y') := by
  intro y y'
  have hs := flow_sign hM hl hp' hpc'
  set a := l * (2 * p' - pc') * M ^ 2 with ha
  have hk : 0 < 1 / κ + 1 / cp := by positivity
  have e : y = y' + (1 / κ + 1 / cp) * a := by
    have a1 : Real.log p = Real.log p' + a / κ := by field_simp; linarith
    have a2 : Real.log pc = Real.log pc' - a / cp := by field_simp; linarith
    simp only [y, y']
    rw [Real.log_mul two_ne_zero hp.ne', Real.log_mul two_ne_zero hp'.ne', a1, a2]; ring
  change 0 ≤ a * y' at hs
  have h0 : y' = 0 → a = 0 := by
    intro h
    have : Real.log (2 * p') = Real.log pc' := by simp only [y'] at h; linarith
    have := Real.log_injOn_pos (Set.mem_Ioi.mpr (by linarith)) (Set.mem_Ioi.mpr hpc') this
    rw [ha, this]; ring
  generalize 1 / κ + 1 / cp = k at hk e
  rcases lt_trichotomy y' 0 with h | h | h
  · have : a ≤ 0 := nonpos_of_mul_nonneg_left hs h
    have : k * a ≤ 0 := mul_nonpos_of_nonneg_of_nonpos hk.le this
    refine ⟨fun h' => by linarith, fun _ => ⟨by linarith, h.le⟩, fun h' => by linarith⟩
  · have := h0 h
    rw [this, mul_zero, add_zero] at e
    exact ⟨fun h' => ⟨h.ge, e.ge⟩, fun h' => ⟨e.le, h.le⟩, fun h' => by linarith⟩
  · have : 0 ≤ a := nonneg_of_mul_nonneg_left hs h
    have : 0 ≤ k * a := mul_nonneg hk.le this
    refine ⟨fun _ => ⟨h.le, by linarith⟩, fun h' => by linarith, fun _ => h⟩

theorem mccBulk_mono {pr : MCCParams ℝ} (h : pr.Clay) : Monotone (Spec.mccBulk pr.kap pr.KMin pr.KMax) := by
  intro p q hpq
  have h0 : max p 1 / pr.kap ≤ max q 1 / pr.kap := div_le_div_of_nonneg_right (max_le_max_right 1 hpq) h.kap.le
  unfold Spec.mccBulk
  cases pr.KMin <;> cases pr.KMax <;> simp only [Option.elim, id]
  · exact h0
  · exact min_le_min_right _ h0
  · exact max_le_max_right _ h0
  · exact min_le_min_right _ (max_le_max_right _ h0)

theorem clayShear_pos {pr : MCCParams ℝ} (h : pr.Clay) (p : ℝ) : 0 < Spec.clayShear pr p := by
  unfold Spec.clayShear Spec.mccShear
  have := clayBulk_pos h p
  have h1 := h.nuLo
  have h2 := h.nuHi
  exact div_pos (mul_pos (by positivity) (by linarith)) (by linarith)

theorem clayShear_mono {pr : MCCParams ℝ} (h : pr.Clay) : Monotone (Spec.clayShear pr) := by
  intro p q hpq
  have := mccBulk_mono h hpq
  have h1 := h.nuLo
  have h2 := h.nuHi
  unfold Spec.clayShear Spec.mccShear
  refine div_le_div_of_nonneg_right (mul_le_mul_of_nonneg_right ?_ (by linarith)) (by linarith)
  linarith

/-- Distance of a state from the critical state, in the logarithm. -/
noncomputable def criticalGap (r : MCCResult ℝ) : ℝ := Real.log (2 * Spec.meanStress r.stress) - Real.log r.pc

theorem log_criticalPressure {pr : MCCParams ℝ} (h : pr.Clay) {p pc : ℝ} (hp : 0 < p) (hpc : 0 < pc) :
    Real.log p = Real.log (Spec.criticalPressure pr p pc) + (pr.lam - pr.kap) / pr.lam * (Real.log (2 * p) - Real.log pc) := by
  have hl : pr.lam ≠ 0 := (h.kap.trans h.lam).ne'
  rw [Spec.criticalPressure, Real.log_exp, Real.log_mul two_ne_zero hp.ne', Real.log_div hpc.ne' two_ne_zero]
  field_simp; ring

theorem criticalPressure_congr {pr : MCCParams ℝ} {p pc p' pc' : ℝ} (hpc : 0 < pc) (hpc' : 0 < pc')
    (e : pr.kap * Real.log p' + (pr.lam - pr.kap) * Real.log pc' = pr.kap * Real.log p + (pr.lam - pr.kap) * Real.log pc) :
    Spec.criticalPressure pr p' pc' = Spec.criticalPressure pr p pc := by
  unfold Spec.criticalPressure
  rw [Real.log_div hpc.ne' two_ne_zero, Real.log_div hpc'.ne' two_ne_zero]
  congr 2; linarith

/-- What holds at every state of a path of shearing that starts from `r`. -/
structure ShearState (pr : MCCParams ℝ) (r x : MCCResult ℝ) : Prop where
  p : 0 < Spec.meanStress x.stress
  pc : 0 < x.pc
  pMin : pr.pMin ≤ Spec.meanStress x.stress
  crit : Spec.criticalPressure pr (Spec.meanStress x.stress) x.pc = Spec.criticalPressure pr (Spec.meanStress r.stress) r.pc
  lo : min 0 (criticalGap r) ≤ criticalGap x
  hi : criticalGap x ≤ max 0 (criticalGap r)
  wet : 0 < criticalGap r → 0 < criticalGap x
  yield : Spec.mccF pr.M x.pc x.stress ≤ (1 / 10 ^ 6 / pr.M) ^ 2

theorem shearState_step (ops : NewtonOps ℝ) {pr : MCCParams ℝ} (h : pr.Clay) (hp : 0 < pr.pMin) {L : Mat3 ℝ}
    (hs : L.transpose = L) (ht : L.trace = 0) (σref : Mat3 ℝ) {v dt : ℝ} (hv : v ≤ pr.N * (999999 / 1000000))
    {r x : MCCResult ℝ} (h0 : pr.pMin ≤ Spec.meanStress r.stress) (hpc0 : 0 < r.pc)
    (hcr : pr.pMin ≤ Spec.criticalPressure pr (Spec.meanStress r.stress) r.pc) (hx : ShearState pr r x)
    (hc : Spec.Converged ops pr L σref dt x) :
    ShearState pr r (mccUpdate realFns ops pr L x.epsE x.stress x.pc σref v dt) := by
  obtain ⟨a1, a2, a3, ⟨lam, hl, b1, b2, -⟩, -, -⟩ := mcc_shear_step ops h hp hs ht σref hv x hx.pc hx.pMin hc
  set x' := mccUpdate realFns ops pr L x.epsE x.stress x.pc σref v dt with hx'
  have hcp : 0 < pr.lam - pr.kap := sub_pos.mpr h.lam
  have hlam : 0 < pr.lam := h.kap.trans h.lam
  obtain ⟨t1, t2, t3⟩ := shear_towards h.kap hcp h.M hl hx.p a1 a2 b1 b2
  change (0 ≤ criticalGap x → 0 ≤ criticalGap x' ∧ criticalGap x' ≤ criticalGap x) at t1
  change (criticalGap x ≤ 0 → criticalGap x ≤ criticalGap x' ∧ criticalGap x' ≤ 0) at t2
  change (0 < criticalGap x → 0 < criticalGap x') at t3
  have hcrit : Spec.criticalPressure pr (Spec.meanStress x'.stress) x'.pc =
      Spec.criticalPressure pr (Spec.meanStress r.stress) r.pc := by
    rw [← hx.crit]
    exact criticalPressure_congr hx.pc a2 (by rw [b1, b2]; ring)
  have hlo : min 0 (criticalGap r) ≤ criticalGap x' := by
    rcases le_total 0 (criticalGap x) with h1 | h1
    · exact (min_le_left _ _).trans (t1 h1).1
    · exact hx.lo.trans (t2 h1).1
  have hhi : criticalGap x' ≤ max 0 (criticalGap r) := by
    rcases le_total 0 (criticalGap x) with h1 | h1
    · exact (t1 h1).2.trans hx.hi
    · exact (t2 h1).2.trans (le_max_left _ _)
  refine ⟨a1, a2, ?_, hcrit, hlo, hhi, fun h1 => t3 (hx.wet h1), a3⟩
  have e1 := log_criticalPressure h a1 a2
  rw [hcrit] at e1
  have hr0 : 0 < Spec.meanStress r.stress := hp.trans_le h0
  have e0 := log_criticalPressure h hr0 hpc0
  have hk : 0 ≤ (pr.lam - pr.kap) / pr.lam := by positivity
  rw [← Real.log_le_log_iff hp a1, e1]
  rcases le_total 0 (criticalGap r) with h1 | h1
  · rw [min_eq_left h1] at hlo
    have := mul_nonneg hk hlo
    have hpos : 0 < Spec.criticalPressure pr (Spec.meanStress r.stress) r.pc := Real.exp_pos _
    have h2 := (Real.log_le_log_iff hp hpos).mpr hcr
    simp only [criticalGap] at this
    exact h2.trans (by linarith)
  · rw [min_eq_right h1] at hlo
    have := mul_le_mul_of_nonneg_left hlo hk
    have h2 := (Real.log_le_log_iff hp hr0).mpr h0
    rw [e0] at h2
    simp only [criticalGap] at this
    linarith

theorem shearState_path (ops : NewtonOps ℝ) {pr : MCCParams ℝ} (h : pr.Clay) (hp : 0 < pr.pMin) {L : Mat3 ℝ}
    (hs : L.transpose = L) (ht : L.trace = 0) (σref : Mat3 ℝ) {v dt : ℝ} (hv : v ≤ pr.N * (999999 / 1000000))
    {r : MCCResult ℝ} (h0 : pr.pMin ≤ Spec.meanStress r.stress) (hpc0 : 0 < r.pc)
    (hcr : pr.pMin ≤ Spec.criticalPressure pr (Spec.meanStress r.stress) r.pc)
    (hy : Spec.mccF pr.M r.pc r.stress ≤ 0)
    (hc : ∀ n, Spec.Converged ops pr L σref dt (mccPath ops pr L σref v dt r n)) (n : ℕ) :
    ShearState pr r (mccPath ops pr L σref v dt r n) := by
  induction n with
  | zero => exact ⟨hp.trans_le h0, hpc0, h0, rfl, min_le_right _ _, le_max_right _ _, fun h => h, hy.trans (by positivity)⟩
  | succ n ih => exact shearState_step ops h hp hs ht σref hv h0 hpc0 hcr ih (hc n)

/-! ### The limit -/

section
variable {c k a d : ℕ → ℝ} {a0 B : ℝ}

/-- The stress along the direction of shearing becomes positive and stays so. -/
theorem drive_pos (ha0 : 0 < a0) (hk : ∀ n, 0 ≤ k n) (ha : ∀ n, a0 ≤ a n) (hc : ∀ n, c (n + 1) * (1 + k n) = c n + a n) :
    ∃ N, ∀ n, N ≤ n → 0 < c n := by
  have hstay : ∀ n, 0 < c n → 0 < c (n + 1) := by
    intro n h
    have h1 := hc n
    have h2 := ha n
    have h3 := hk n
    exact (mul_pos_iff_of_pos_right (by linarith)).mp (by linarith : 0 < c (n + 1) * (1 + k n))
  obtain ⟨N, hN⟩ : ∃ N, 0 < c N := by
    by_contra hcon
    push Not at hcon
    have hgrow : ∀ n : ℕ, c 0 + a0 * n ≤ c n := by
      intro n
      induction n with
      | zero => simp
      | succ n ih =>
        have h1 := hc n
        have h2 := ha n
        have h3 := mul_nonpos_of_nonpos_of_nonneg (hcon (n + 1)) (hk n)
        push_cast
        nlinarith
    obtain ⟨n, hn⟩ := exists_nat_gt (-c 0 / a0)
    rw [div_lt_iff₀ ha0] at hn
    have := hgrow n
    have := hcon n
    linarith
  refine ⟨N, fun n hn => ?_⟩
  induction n, hn using Nat.le_induction with
  | base => exact hN
  | succ n _ ih => exact hstay n ih

/-- Plastic flow goes on for ever. -/
theorem drive_sum (hB : ∀ n, |c n| ≤ B) (hk : ∀ n, 0 ≤ k n) (ha : ∀ n, a0 ≤ a n)
    (hc : ∀ n, c (n + 1) * (1 + k n) = c n + a n) (n : ℕ) : c 0 + a0 * n ≤ c n + B * ∑ i ∈ Finset.range n, k i := by
  induction n with
  | zero => simp
  | succ n ih =>
    rw [Finset.sum_range_succ]
    have h1 := hc n
    have h2 := ha n
    have h3 := mul_le_mul_of_nonneg_right ((le_abs_self _).trans (hB (n + 1))) (hk n)
    push_cast
    nlinarith

/-- Stress across the direction of shearing dies out. -/
theorem drive_decay (hk : ∀ n, 0 ≤ k n) (hsum : ∀ S, ∃ n, S < ∑ i ∈ Finset.range n, k i)
    (hd : ∀ n, d (n + 1) * (1 + k n) = d n) : Tendsto d atTop (𝓝 0) := by
  have habs : ∀ n, |d (n + 1)| * (1 + k n) = |d n| := by
    intro n
    rw [← hd n, abs_mul, abs_of_nonneg (by linarith [hk n] : 0 ≤ 1 + k n)]
  have hanti : Antitone fun n => |d n| := by
    refine antitone_nat_of_succ_le fun n => ?_
    have := habs n
    have := mul_nonneg (abs_nonneg (d (n + 1))) (hk n)
    linarith
  have hbdd : BddBelow (Set.range fun n => |d n|) := ⟨0, by rintro _ ⟨n, rfl⟩; exact abs_nonneg _⟩
  have hlim := tendsto_atTop_ciInf hanti hbdd
  have hl0 : 0 ≤ ⨅ n, |d n| := le_ciInf fun n => abs_nonneg _
  rcases eq_or_lt_of_le hl0 with h0 | h0
  · rw [← h0] at hlim
    exact (tendsto_zero_iff_abs_tendsto_zero _).mpr hlim
  exfalso
  have hle : ∀ n, (⨅ n, |d n|) ≤ |d n| := fun n => ciInf_le hbdd n
  have hs : ∀ n, (⨅ n, |d n|) * ∑ i ∈ Finset.range n, k i ≤ |d 0| - |d n| := by
    intro n
    induction n with
    | zero => simp
    | succ n ih =>
      rw [Finset.sum_range_succ]
      have := habs n
      have := mul_le_mul_of_nonneg_right (hle (n + 1)) (hk n)
      nlinarith
  obtain ⟨n, hn⟩ := hsum (|d 0| / ⨅ n, |d n|)
  rw [div_lt_iff₀ h0] at hn
  have := hs n
  have := abs_nonneg (d n)
  nlinarith

end

theorem ddot_add_smul (A B C : Mat3 ℝ) (a : ℝ) : Spec.ddot (A + a • B) C = Spec.ddot A C + a * Spec.ddot B C := by
  simp [Spec.ddot, Fin.sum_univ_three]; ring

theorem ddot_split (A L : Mat3 ℝ) {u : ℝ} (hu : 0 < u) (hL : Spec.ddot L L = u ^ 2) :
    Spec.ddot A A = (Spec.ddot A L / u) ^ 2 +
      Spec.ddot (A - (Spec.ddot A L / u / u) • L) (A - (Spec.ddot A L / u / u) • L) := by
  have e : ∀ x : ℝ, Spec.ddot (A - x • L) (A - x • L) = Spec.ddot A A - 2 * x * Spec.ddot A L + x ^ 2 * Spec.ddot L L := by
    intro x
    simp [Spec.ddot, Fin.sum_univ_three]; ring
  rw [e, hL]
  field_simp
  ring

/-- A step of shearing along the stress raises the yield function of the trial state. -/
theorem shear_loads {pr : MCCParams ℝ} (h : pr.Clay) {L : Mat3 ℝ} (hs : L.transpose = L) (ht : L.trace = 0) {dt : ℝ} (hdt : 0 < dt)
    (σ : Mat3 ℝ) (pc : ℝ) (hmin : pr.pMin ≤ Spec.meanStress σ) (hc : 0 < Spec.ddot (Spec.dev σ) L) :
    Spec.mccF pr.M pc σ < Spec.mccF pr.M pc (Spec.mccTrialStress pr L σ dt) := by
  obtain ⟨t1, t2⟩ := trial_shear pr hs ht σ dt hmin
  have hq := qVM_sq (Spec.mccTrialStress pr L σ dt)
  have hq0 := qVM_sq σ
  rw [Spec.J2, t1] at hq
  rw [Spec.J2] at hq0
  have hM2 : 0 < pr.M ^ 2 := pow_pos h.M 2
  have e : ∀ (A : Mat3 ℝ) (b : ℝ), Spec.ddot (A + b • (dt • L)) (A + b • (dt • L)) =
      Spec.ddot A A + 2 * (b * dt) * Spec.ddot A L + (b * dt) ^ 2 * Spec.ddot L L := by
    intro A b
    simp [Spec.ddot, Fin.sum_univ_three]; ring
  rw [e] at hq
  have h2 : 0 < 2 * Spec.clayShear pr (Spec.meanStress σ) * dt := mul_pos (mul_pos two_pos (clayShear_pos h _)) hdt
  have h3 := mul_pos (mul_pos two_pos h2) hc
  have h4 := mul_nonneg (sq_nonneg (2 * Spec.clayShear pr (Spec.meanStress σ) * dt)) (ddot_self_nonneg L)
  have h5 : Spec.qVM σ ^ 2 < Spec.qVM (Spec.mccTrialStress pr L σ dt) ^ 2 := by rw [hq, hq0]; linarith
  have h6 := div_lt_div_of_pos_right h5 hM2
  simp only [Spec.mccF, t2]
  linarith

/-- Tensor that the stress of clay sheared along `L` tends to: the critical pressure, and a deviator along `L` of
the length that belongs to `q = M p`. -/
noncomputable def Spec.criticalStress (M P : ℝ) (L : Matrix (Fin 3) (Fin 3) ℝ) : Matrix (Fin 3) (Fin 3) ℝ :=
  P • 1 + (Real.sqrt (2 / 3) * (M * P) / Real.sqrt (Spec.ddot L L)) • L

set_option maxHeartbeats 1000000 in
/-- **Sustained shearing at constant volume leads Cam-Clay to the critical state** (partial). -/
theorem mcc_critical_state_partial (ops : NewtonOps ℝ) {pr : MCCParams ℝ} (h : pr.Clay) (hp : 0 < pr.pMin) {L : Mat3 ℝ}
    (hs : L.transpose = L) (ht : L.trace = 0) (hL : L ≠ 0) (σref : Mat3 ℝ) {v dt : ℝ} (hdt : 0 < dt)
    (hv : v ≤ pr.N * (999999 / 1000000)) {r : MCCResult ℝ} (h0 : pr.pMin ≤ Spec.meanStress r.stress) (hpc0 : 0 < r.pc)
    (hcr : pr.pMin ≤ Spec.criticalPressure pr (Spec.meanStress r.stress) r.pc)
    (hcM : 2 / 10 ^ 6 ≤ pr.M * Spec.criticalPressure pr (Spec.meanStress r.stress) r.pc)
    (hy : Spec.mccF pr.M r.pc r.stress ≤ 0)
    (hc : ∀ n, Spec.Converged ops pr L σref dt (mccPath ops pr L σref v dt r n)) :
    let P := Spec.criticalPressure pr (Spec.meanStress r.stress) r.pc
    Tendsto (fun n => (mccPath ops pr L σref v dt r n).pc) atTop (𝓝 (2 * P)) ∧
      Tendsto (fun n => (mccPath ops pr L σref v dt r n).stress) atTop (𝓝 (Spec.criticalStress pr.M P L)) := by
  intro P
  have hPpos : 0 < P := Real.exp_pos _
  set x := mccPath ops pr L σref v dt r with hx
  have hst : ∀ n, ShearState pr r (x n) := shearState_path ops h hp hs ht σref hv h0 hpc0 hcr hy hc
  have hstep := fun n => mcc_shear_step ops h hp hs ht σref hv (x n) (hst n).pc (hst n).pMin (hc n)
  have hsucc : ∀ n, mccUpdate realFns ops pr L (x n).epsE (x n).stress (x n).pc σref v dt = x (n + 1) := fun n => rfl
  simp only [hsucc] at hstep
  clear_value x
  choose lam hlam l1 l2 l3 using fun n => (hstep n).2.2.2.1
  have hcp : 0 < pr.lam - pr.kap := sub_pos.mpr h.lam
  have hl0 : 0 < pr.lam := h.kap.trans h.lam
  have hM2 : 0 < pr.M ^ 2 := pow_pos h.M 2
  set p := fun n => Spec.meanStress (x n).stress with hpd
  set y := fun n => criticalGap (x n) with hyd
  -- pressures in terms of the distance from the critical state
  have hlogp : ∀ n, Real.log (p n) = Real.log P + (pr.lam - pr.kap) / pr.lam * y n := by
    intro n
    have := log_criticalPressure h (hst n).p (hst n).pc
    rw [(hst n).crit] at this
    exact this
  have hpe : ∀ n, p n = P * Real.exp ((pr.lam - pr.kap) / pr.lam * y n) := by
    intro n
    have h1 : Real.exp (Real.log (p n)) = p n := Real.exp_log (hst n).p
    rw [← h1, hlogp, Real.exp_add, Real.exp_log hPpos]
  have hpce : ∀ n, (x n).pc = 2 * p n * Real.exp (-y n) := by
    intro n
    have hp0 : 0 < p n := (hst n).p
    simp only [hyd, criticalGap]
    rw [neg_sub, Real.exp_sub, Real.exp_log (hst n).pc, Real.exp_log (by linarith [(hst n).p])]
    change _ = 2 * p n * ((x n).pc / (2 * p n))
    field_simp
  set Y := |criticalGap r| with hY
  have hyY : ∀ n, |y n| ≤ Y := by
    intro n
    have h1 := (hst n).lo
    have h2 := (hst n).hi
    have h3 := neg_abs_le (criticalGap r)
    have h4 := le_abs_self (criticalGap r)
    have h5 := abs_nonneg (criticalGap r)
    rw [abs_le]
    exact ⟨le_trans (le_min (by linarith) h3) h1, h2.trans (max_le h5 h4)⟩
  have hkk : 0 ≤ (pr.lam - pr.kap) / pr.lam := by positivity
  set pM := P * Real.exp ((pr.lam - pr.kap) / pr.lam * Y) with hpM
  have hpM0 : 0 < pM := by positivity
  have hple : ∀ n, p n ≤ pM := by
    intro n
    rw [hpe, hpM]
    have := (le_abs_self _).trans (hyY n)
    gcongr
  have hpcle : ∀ n, (x n).pc ≤ 2 * pM * Real.exp Y := by
    intro n
    rw [hpce]
    have h1 := (neg_le_abs _).trans (hyY n)
    have h2 := hple n
    gcongr
  -- stress along the direction of shearing
  set u := Real.sqrt (Spec.ddot L L) with hu
  have hu0 : 0 < u := Real.sqrt_pos.mpr (ddot_pos hL)
  have hu2 : Spec.ddot L L = u ^ 2 := (Real.sq_sqrt (ddot_self_nonneg L)).symm
  set c := fun n => Spec.ddot (Spec.dev (x n).stress) L / u with hcd
  set G := fun n => Spec.clayShear pr (p n) with hG
  have hGpos : ∀ n, 0 < G n := fun n => clayShear_pos h _
  set g0 := Spec.clayShear pr 0 with hg0
  have hg0p : 0 < g0 := clayShear_pos h _
  have hg0le : ∀ n, g0 ≤ G n := fun n => clayShear_mono h (hst n).p.le
  have hg1 : ∀ n, G n ≤ Spec.clayShear pr pM := fun n => clayShear_mono h (hple n)
  have hcstep : ∀ n, c (n + 1) * (1 + 6 * G (n + 1) * lam n) = c n + 2 * G n * (dt * u) := by
    intro n
    have e := congrArg (fun A => Spec.ddot A L) (l3 n)
    have e1 : ∀ (b : ℝ) (A : Mat3 ℝ), Spec.ddot (b • A) L = b * Spec.ddot A L := fun b A => by
      have := ddot_smul b 1 A L
      rw [one_smul, mul_one] at this; exact this
    rw [e1, ddot_add_smul, e1, hu2] at e
    have e2 : Spec.ddot (Spec.dev (x (n + 1)).stress) L = c (n + 1) * u := by simp only [hcd]; field_simp
    have e3 : Spec.ddot (Spec.dev (x n).stress) L = c n * u := by simp only [hcd]; field_simp
    rw [e2, e3] at e
    have : u * (c (n + 1) * (1 + 6 * G (n + 1) * lam n)) = u * (c n + 2 * G n * (dt * u)) := by
      simp only [hG, hpd]; linarith
    exact mul_left_cancel₀ hu0.ne' this
  set dd := fun n => Spec.dev (x n).stress - (c n / u) • L with hdd
  have hsplit : ∀ n, Spec.ddot (Spec.dev (x n).stress) (Spec.dev (x n).stress) = c n ^ 2 + Spec.ddot (dd n) (dd n) :=
    fun n => ddot_split _ L hu0 hu2
  have hF : ∀ n, Spec.mccF pr.M (x n).pc (x n).stress =
      3 / 2 * Spec.ddot (Spec.dev (x n).stress) (Spec.dev (x n).stress) / pr.M ^ 2 + p n * (p n - (x n).pc) := by
    intro n
    have := qVM_sq (x n).stress
    rw [Spec.J2] at this
    simp only [Spec.mccF, hpd]
    rw [this]; ring
  set δ := (1 / 10 ^ 6 / pr.M) ^ 2 with hδ
  set B := 1 + pr.M ^ 2 * (pM * (2 * pM * Real.exp Y) + δ) with hB
  have hcB : ∀ n, |c n| ≤ B := by
    intro n
    have h1 := (hst n).yield
    rw [hF n, hsplit n] at h1
    have h2 := ddot_self_nonneg (dd n)
    have h3 : p n * (x n).pc ≤ pM * (2 * pM * Real.exp Y) :=
      mul_le_mul (hple n) (hpcle n) (hst n).pc.le hpM0.le
    have h4 : 3 / 2 * (c n ^ 2 + Spec.ddot (dd n) (dd n)) / pr.M ^ 2 ≤ pM * (2 * pM * Real.exp Y) + δ := by
      have := mul_self_nonneg (p n)
      linarith
    rw [div_le_iff₀ hM2] at h4
    have h5 : c n ^ 2 ≤ B - 1 := by
      rw [hB]; nlinarith [sq_nonneg (c n)]
    have h6 : |c n| ^ 2 = c n ^ 2 := sq_abs _
    nlinarith [sq_nonneg (|c n| - 1), abs_nonneg (c n)]
  -- the distance from the critical state vanishes
  have hy0 : Tendsto y atTop (𝓝 0) :=
    shear_converges h.kap hcp h.M (mul_pos hdt hu0) hg0p (fun n => (hst n).p) (fun n => (hst n).pc) hlam l1 l2 hcstep hg0le
      (fun n => (hGpos (n + 1)).le) (fun n => hg1 (n + 1)) hcB
  have hpT : Tendsto p atTop (𝓝 P) := by
    have h1 : Tendsto (fun n => P * Real.exp ((pr.lam - pr.kap) / pr.lam * y n)) atTop
        (𝓝 (P * Real.exp ((pr.lam - pr.kap) / pr.lam * 0))) :=
      ((Real.continuous_exp.tendsto _).comp (hy0.const_mul _)).const_mul _
    rw [mul_zero, Real.exp_zero, mul_one] at h1
    exact h1.congr fun n => (hpe n).symm
  have hpcT : Tendsto (fun n => (x n).pc) atTop (𝓝 (2 * P)) := by
    have h1 : Tendsto (fun n => 2 * p n * Real.exp (-y n)) atTop (𝓝 (2 * P * Real.exp (-0))) :=
      (hpT.const_mul 2).mul ((Real.continuous_exp.tendsto _).comp hy0.neg)
    rw [neg_zero, Real.exp_zero, mul_one] at h1
    exact h1.congr fun n => (hpce n).symm
  refine ⟨hpcT, ?_⟩
  have hprod : Tendsto (fun n => p n * ((x n).pc - p n)) atTop (𝓝 (P ^ 2)) := by
    have := hpT.mul (hpcT.sub hpT)
    rw [show P * (2 * P - P) = P ^ 2 by ring] at this
    exact this
  have hbig : 2 * δ < P ^ 2 := by
    rw [hδ, div_pow, ← mul_div_assoc, div_lt_iff₀ hM2, ← mul_pow]
    have : (2 / 10 ^ 6 : ℝ) ^ 2 ≤ (P * pr.M) ^ 2 := pow_le_pow_left₀ (by norm_num) (by rw [mul_comm]; exact hcM) 2
    norm_num at this ⊢
    linarith
  have hkn : ∀ n, 0 ≤ 6 * G (n + 1) * lam n := fun n => by
    have := (hGpos (n + 1)).le
    have := hlam n
    positivity
  have ha0 : 0 < 2 * g0 * (dt * u) := by positivity
  have hale : ∀ n, 2 * g0 * (dt * u) ≤ 2 * G n * (dt * u) := fun n => by
    have := hg0le n
    have := mul_pos hdt hu0
    gcongr
  obtain ⟨N1, hN1⟩ := drive_pos ha0 hkn hale hcstep
  obtain ⟨N0, hN0⟩ := eventually_atTop.mp (hprod.eventually (lt_mem_nhds hbig))
  -- from some step on the stress is on the yield surface
  have htr := fun n => trial_shear pr hs ht (x n).stress dt (hst n).pMin
  have hex : ∃ n1, N0 + N1 ≤ n1 ∧ Spec.mccF pr.M (x n1).pc (x n1).stress = 0 := by
    by_contra hcon
    push Not at hcon
    have hel : ∀ n, N0 + N1 ≤ n → Spec.mccF pr.M (x n).pc (Spec.mccTrialStress pr L (x n).stress dt) ≤ 0 := by
      intro n hn
      by_contra hyl
      rcases (hstep n).2.2.2.2.1 (not_le.mp hyl) with h1 | h1
      · exact hcon (n + 1) (by omega) h1
      · exact absurd (hN0 (n + 1) (by omega)) (not_lt.mpr h1)
    have hgrow : ∀ m : ℕ, c (N0 + N1) + 2 * g0 * (dt * u) * m ≤ c (N0 + N1 + m) := by
      intro m
      induction m with
      | zero => simp
      | succ m ih =>
        have h1 := ((hstep (N0 + N1 + m)).2.2.2.2.2 (hel _ (by omega))).1
        have h2 : c (N0 + N1 + m + 1) = c (N0 + N1 + m) + 2 * G (N0 + N1 + m) * (dt * u) := by
          simp only [hcd]
          rw [h1, (htr _).1, ddot_add_smul]
          have := ddot_smul dt 1 L L
          rw [one_smul, mul_one] at this
          rw [this, hu2]
          simp only [hG, hpd]
          field_simp
        have h3 := hale (N0 + N1 + m)
        rw [← add_assoc, h2]
        push_cast
        linarith
    obtain ⟨m, hm⟩ := exists_nat_gt ((B - c (N0 + N1)) / (2 * g0 * (dt * u)))
    rw [div_lt_iff₀ ha0] at hm
    have h1 := hgrow m
    have h2 := (le_abs_self _).trans (hcB (N0 + N1 + m))
    linarith
  obtain ⟨n1, hn1, hFn1⟩ := hex
  have hon : ∀ n, n1 ≤ n → Spec.mccF pr.M (x n).pc (x n).stress = 0 := by
    intro n hn
    induction n, hn using Nat.le_induction with
    | base => exact hFn1
    | succ n hn ih =>
      have hcn := hN1 n (by omega)
      have hyl : 0 < Spec.mccF pr.M (x n).pc (Spec.mccTrialStress pr L (x n).stress dt) := by
        have h1 : 0 < Spec.ddot (Spec.dev (x n).stress) L := by
          rw [show Spec.ddot (Spec.dev (x n).stress) L = c n * u by simp only [hcd]; field_simp]
          exact mul_pos hcn hu0
        have h2 := shear_loads h hs ht hdt (x n).stress (x n).pc (hst n).pMin h1
        rw [ih] at h2
        exact h2
      rcases (hstep n).2.2.2.2.1 hyl with h1 | h1
      · exact h1
      · exact absurd (hN0 (n + 1) (by omega)) (not_lt.mpr h1)
  -- stress across the direction of shearing dies out
  have hBpos : 0 < B := by
    have := mul_pos hM2 (by positivity : 0 < pM * (2 * pM * Real.exp Y) + δ)
    rw [hB]; linarith
  have hsum : ∀ S, ∃ n, S < ∑ i ∈ Finset.range n, 6 * G (i + 1) * lam i := by
    intro S
    obtain ⟨n, hn⟩ := exists_nat_gt ((2 * B + B * S) / (2 * g0 * (dt * u)))
    rw [div_lt_iff₀ ha0] at hn
    have h1 := drive_sum hcB hkn hale hcstep n
    have h2 := (le_abs_self _).trans (hcB n)
    have h3 := (neg_le_abs _).trans (hcB 0)
    refine ⟨n, ?_⟩
    by_contra hcon
    have := mul_le_mul_of_nonneg_left (not_lt.mp hcon) hBpos.le
    linarith
  have hdT : ∀ i j, Tendsto (fun n => dd n i j) atTop (𝓝 0) := by
    intro i j
    refine drive_decay hkn hsum fun n => ?_
    have e := congrFun (congrFun (l3 n) i) j
    simp only [Matrix.smul_apply, Matrix.add_apply, smul_eq_mul] at e
    have e2 := hcstep n
    simp only [hdd, Matrix.sub_apply, Matrix.smul_apply, smul_eq_mul]
    have e3 : c (n + 1) / u * L i j * (1 + 6 * G (n + 1) * lam n) = c n / u * L i j + 2 * G n * (dt * L i j) := by
      rw [show c (n + 1) / u * L i j * (1 + 6 * G (n + 1) * lam n) = c (n + 1) * (1 + 6 * G (n + 1) * lam n) / u * L i j by ring, e2]
      field_simp
    have e4 : (1 + 6 * G (n + 1) * lam n) * Spec.dev (x (n + 1)).stress i j = Spec.dev (x n).stress i j + 2 * G n * (dt * L i j) := e
    linarith
  have hddT : Tendsto (fun n => Spec.ddot (dd n) (dd n)) atTop (𝓝 0) := by
    have : Tendsto (fun n => ∑ i, ∑ j, dd n i j * dd n i j) atTop (𝓝 (∑ i : Fin 3, ∑ j : Fin 3, (0 : ℝ) * 0)) :=
      tendsto_finsetSum _ fun i _ => tendsto_finsetSum _ fun j _ => (hdT i j).mul (hdT i j)
    simpa [Spec.ddot] using this
  have hc2T : Tendsto (fun n => c n ^ 2) atTop (𝓝 (2 / 3 * (pr.M * P) ^ 2)) := by
    have h1 : Tendsto (fun n => 2 / 3 * pr.M ^ 2 * (p n * ((x n).pc - p n)) - Spec.ddot (dd n) (dd n)) atTop
        (𝓝 (2 / 3 * pr.M ^ 2 * P ^ 2 - 0)) := (hprod.const_mul _).sub hddT
    rw [sub_zero, mul_assoc, ← mul_pow] at h1
    refine h1.congr' (eventually_atTop.mpr ⟨n1, fun n hn => ?_⟩)
    have h2 := hon n hn
    rw [hF n, hsplit n] at h2
    have h3 : 3 / 2 * (c n ^ 2 + Spec.ddot (dd n) (dd n)) / pr.M ^ 2 = p n * ((x n).pc - p n) := by linarith
    rw [div_eq_iff hM2.ne'] at h3
    linear_combination -(2 / 3) * h3
  have hcT : Tendsto c atTop (𝓝 (Real.sqrt (2 / 3) * (pr.M * P))) := by
    have h1 := (Real.continuous_sqrt.tendsto _).comp hc2T
    have hMP : 0 ≤ pr.M * P := (mul_pos h.M hPpos).le
    rw [Real.sqrt_mul (by norm_num), Real.sqrt_sq hMP] at h1
    refine h1.congr' (eventually_atTop.mpr ⟨N1, fun n hn => ?_⟩)
    exact Real.sqrt_sq (hN1 n hn).le
  refine tendsto_pi_nhds.mpr fun i => tendsto_pi_nhds.mpr fun j => ?_
  have h1 : Tendsto (fun n => p n * (1 : Mat3 ℝ) i j + (c n / u * L i j + dd n i j)) atTop
      (𝓝 (P * (1 : Mat3 ℝ) i j + (Real.sqrt (2 / 3) * (pr.M * P) / u * L i j + 0))) :=
    (hpT.mul_const _).add (((hcT.div_const _).mul_const _).add (hdT i j))
  rw [add_zero] at h1
  refine h1.congr fun n => ?_
  have e := congrFun (congrFun (dev_add_mean (x n).stress) i) j
  rw [← e]
  simp only [hdd, Matrix.add_apply, Matrix.sub_apply, Matrix.smul_apply, smul_eq_mul, isoT, hpd]
  ring

end Hydrax
