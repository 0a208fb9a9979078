import Verif.Props.CriticalTest
import Verif.Props.DrainedLimit

/-!
# Drained tests end at the critical state (C138)

Paths of single points of Cam-Clay under axial strain at a constant rate, when the lateral rates are such that the lateral
stress, or the mean stress, keeps its value.
-/

namespace Hydrax

open Filter Topology

/-! ### Specification -/

/-- Pressure of the critical state with a given controlled stress: on the path of the test `q = M p`. When the mean stress is
held, that is it; when the lateral stress `c` is held, `p = c ± q / 3`. -/
noncomputable def Spec.drainedPressure (pConstant : Bool) (M a c : ℝ) : ℝ :=
  if pConstant then c else c / (1 - SignType.sign a * M / 3)

/-- A path of a drained test: `b n` are the lateral rates and `v n` the specific volumes. -/
structure Spec.DrainedRun (ops : NewtonOps ℝ) (pr : MCCParams ℝ) (σref : Mat3 ℝ) (pConstant : Bool) (conf a dt : ℝ)
    (r : ℕ → MCCResult ℝ) (b v : ℕ → ℝ) : Prop where
  step : ∀ n, r (n + 1) = mccUpdate realFns ops pr (triaxialL (b n) a) (r n).epsE (r n).stress (r n).pc σref (v n) dt
  /-- The solid is never so loose that the code takes it for disconnected. -/
  dense : ∀ n, v n ≤ pr.N * (999999 / 1000000)
  /-- The controlled stress has its prescribed value. -/
  control : ∀ n, Spec.controlled pConstant (r n).stress = conf
  /-- The Newton loops of the law end at a root. -/
  root : ∀ n, Spec.Converged ops pr (triaxialL (b n) a) σref dt (r n)
  /-- Where the material yields, the shear stress is not so small that the code rounds its square root. -/
  resolved : ∀ n, 0 < Spec.mccF pr.M (r n).pc (Spec.mccTrialStress pr (triaxialL (b n) a) (r n).stress dt) →
    1 / 10 ^ 6 ≤ Spec.qVM (Spec.mccTrialStress pr (triaxialL (b n) a) (r n).stress dt)
  /-- The pressure does not fall below the floor of the code. -/
  floor : ∀ n, pr.pMin ≤ Spec.meanStress (r n).stress
  /-- The axial stress stays on the side of the lateral stress to which the sample is loaded. -/
  side : ∀ n, 0 ≤ SignType.sign a * ((r n).stress 2 2 - (r n).stress 0 0)

/-! ### Steps of the code -/

theorem trial_drained (pr : MCCParams ℝ) {L : Mat3 ℝ} (hs : L.transpose = L) (σ : Mat3 ℝ) (dt : ℝ) :
    Spec.dev (Spec.mccTrialStress pr L σ dt) = Spec.dev σ +
        (2 * Spec.clayShear pr (max (Spec.meanStress σ * Real.exp (dt * L.trace / pr.kap)) pr.pMin)) • Spec.dev (dt • L) ∧
      Spec.meanStress (Spec.mccTrialStress pr L σ dt) = Spec.meanStress σ * Real.exp (dt * L.trace / pr.kap) := by
  have hinc : Spec.strainInc L dt = dt • L := by
    rw [Spec.strainInc, hs, ← two_smul ℝ L, smul_smul]; congr 1; ring
  have htr : (Spec.strainInc L dt).trace = dt * L.trace := by rw [hinc, Matrix.trace_smul, smul_eq_mul]
  have hj : Spec.jaumannRotated L σ dt = σ := by
    simp [Spec.jaumannRotated, hs]
  have hmean := mccTrialStress_mean pr L σ dt
  rw [htr] at hmean
  refine ⟨?_, hmean⟩
  unfold Spec.mccTrialStress
  simp only
  rw [show ∀ c : ℝ, c • (1 : Matrix (Fin 3) (Fin 3) ℝ) = isoT c from fun _ => rfl, dev_add_iso]
  · rw [hj, htr, hinc]; rfl
  · rw [meanStress_add, meanStress_smul, meanStress_dev, meanStress_dev]; ring

/-- One step with a symmetric velocity gradient. With the multiplier zero it covers the elastic steps. -/
theorem mcc_drained_step_raw (ops : NewtonOps ℝ) {pr : MCCParams ℝ} (h : pr.Clay) (hp : 0 < pr.pMin) {L : Mat3 ℝ}
    (hs : L.transpose = L) (σref : Mat3 ℝ) {v dt : ℝ} (hv : v ≤ pr.N * (999999 / 1000000))
    (r : MCCResult ℝ) (hpc : 0 < r.pc) (hmin : pr.pMin ≤ Spec.meanStress r.stress) (hc : Spec.Converged ops pr L σref dt r) :
    let r' := mccUpdate realFns ops pr L r.epsE r.stress r.pc σref v dt
    let p := Spec.meanStress r.stress
    let p' := Spec.meanStress r'.stress
    0 < r'.pc ∧ ∃ lam, 0 ≤ lam ∧
      pr.kap * (Real.log p' - Real.log p) = dt * L.trace - lam * (2 * p' - r'.pc) * pr.M ^ 2 ∧
      (pr.lam - pr.kap) * (Real.log r'.pc - Real.log r.pc) = lam * (2 * p' - r'.pc) * pr.M ^ 2 ∧
      (1 + 6 * Spec.clayShear pr p' * lam) • Spec.dev r'.stress =
        Spec.dev r.stress + (2 * Spec.clayShear pr (max (p * Real.exp (dt * L.trace / pr.kap)) pr.pMin)) • Spec.dev (dt • L) ∧
      ((0 < Spec.mccF pr.M r.pc (Spec.mccTrialStress pr L r.stress dt) ∧
          (1 / 10 ^ 6 ≤ Spec.qVM (Spec.mccTrialStress pr L r.stress dt) → Spec.mccF pr.M r'.pc r'.stress = 0) ∧
          |Spec.mccF pr.M r'.pc r'.stress| ≤ (1 / 10 ^ 6 / pr.M) ^ 2) ∨
        (lam = 0 ∧ Spec.mccF pr.M r'.pc r'.stress ≤ 0 ∧
          Spec.mccF pr.M r.pc (Spec.mccTrialStress pr L r.stress dt) ≤ 0)) := by
  intro r' p p'
  obtain ⟨t1, t2⟩ := trial_drained pr hs r.stress dt
  have hσ : 0 < Spec.meanStress r.stress := hp.trans_le hmin
  have hcp : 0 < pr.lam - pr.kap := sub_pos.mpr h.lam
  have hM2 : 0 < pr.M ^ 2 := pow_pos h.M 2
  have hinc : (Spec.strainInc L dt).trace = dt * L.trace := by
    rw [Spec.strainInc, hs, ← two_smul ℝ L, smul_smul, Matrix.trace_smul, smul_eq_mul]; ring
  have hkap := h.kap.ne'
  by_cases hy : 0 < Spec.mccF pr.M r.pc (Spec.mccTrialStress pr L r.stress dt)
  · obtain ⟨lam, ep, hl, e1, e2, e3, e4, e5, e6, e7⟩ := mcc_return_map ops pr h.elastic h.KMax h.M h.lam L r.epsE r.stress r.pc
      σref v dt hv hpc hp hmin hy
    have hc' := hc hy
    rw [hc', Pi.zero_apply, sub_zero] at e5
    rw [hc', Pi.zero_apply, mul_zero] at e6
    rw [hc', Pi.zero_apply, mul_zero, sub_zero] at e7
    change p' = _ at e1
    have hpc' : 0 < r'.pc := by
      have e2' : r'.pc = _ := e2
      rw [e2']; exact mul_pos hpc (Real.exp_pos _)
    have htr : ep.trace = lam / pr.M ^ 2 * (2 * p' - r'.pc) * pr.M ^ 2 := by
      rw [e5, Matrix.trace_smul, Spec.mccGrad, trace_smul_add, smul_eq_mul]
      have := h.M.ne'
      change lam * (3 * ((2 * p' - r'.pc) / 3)) = _
      field_simp
    refine ⟨hpc', lam / pr.M ^ 2, by positivity, ?_, ?_, ?_, Or.inl ⟨hy, e6, e7⟩⟩
    · rw [← htr, e1, Real.log_mul hσ.ne' (Real.exp_pos _).ne', Real.log_exp, hinc]
      simp only [p]
      field_simp; ring
    · have e2' : r'.pc = _ := e2
      rw [← htr, e2', Real.log_mul hpc.ne' (Real.exp_pos _).ne', Real.log_exp]
      field_simp; ring
    · have hde : Spec.dev ep = (3 * (lam / pr.M ^ 2)) • Spec.dev r'.stress := by
        rw [e4, Spec.mccGrad, smul_add, smul_smul, smul_smul, dev_smul_add]
        congr 1; ring
      rw [hde, t1] at e3
      have e3' : Spec.dev r'.stress = _ := e3
      have : (1 + 6 * Spec.clayShear pr p' * (lam / pr.M ^ 2)) • Spec.dev r'.stress = Spec.dev r'.stress +
          (2 * Spec.clayShear pr p') • ((3 * (lam / pr.M ^ 2)) • Spec.dev r'.stress) := by
        rw [smul_smul, add_smul, one_smul]; congr 2; ring
      rw [this]
      exact (eq_sub_iff_add_eq.mp e3')
  · have hy' := not_lt.mp hy
    have hr : r' = mccElastic (mccTrial realFns pr L r.epsE r.stress r.pc σref dt) r.pc := by
      simp only [r', mccUpdate]
      rw [if_pos hv, if_neg]
      rw [mccTrial_yf_spec pr L r.epsE r.stress r.pc σref dt hmin]; exact hy
    have hst : r'.stress = Spec.mccTrialStress pr L r.stress dt := by
      rw [hr]; exact mccTrial_stress pr L r.epsE r.stress r.pc σref dt hmin
    have hpc' : r'.pc = r.pc := by rw [hr]; rfl
    have hpp : p' = Spec.meanStress r.stress * Real.exp (dt * L.trace / pr.kap) := by simp only [p', hst, t2]
    refine ⟨by rw [hpc']; exact hpc, 0, le_rfl, ?_, ?_, ?_, Or.inr ⟨rfl, by rw [hst, hpc']; exact hy', hy'⟩⟩
    · rw [hpp, Real.log_mul hσ.ne' (Real.exp_pos _).ne', Real.log_exp]
      simp only [p]
      field_simp; ring
    · rw [hpc']; ring
    · rw [hst, t1]; simp [p]

/-- The same with steps that are not too small. -/
theorem mcc_drained_step (ops : NewtonOps ℝ) {pr : MCCParams ℝ} (h : pr.Clay) (hp : 0 < pr.pMin) {L : Mat3 ℝ}
    (hs : L.transpose = L) (σref : Mat3 ℝ) {v dt : ℝ} (hv : v ≤ pr.N * (999999 / 1000000))
    (r : MCCResult ℝ) (hpc : 0 < r.pc) (hmin : pr.pMin ≤ Spec.meanStress r.stress) (hc : Spec.Converged ops pr L σref dt r)
    (hq : 0 < Spec.mccF pr.M r.pc (Spec.mccTrialStress pr L r.stress dt) →
      1 / 10 ^ 6 ≤ Spec.qVM (Spec.mccTrialStress pr L r.stress dt)) :
    let r' := mccUpdate realFns ops pr L r.epsE r.stress r.pc σref v dt
    let p := Spec.meanStress r.stress
    let p' := Spec.meanStress r'.stress
    0 < r'.pc ∧ ∃ lam, 0 ≤ lam ∧
      pr.kap * (Real.log p' - Real.log p) = dt * L.trace - lam * (2 * p' - r'.pc) * pr.M ^ 2 ∧
      (pr.lam - pr.kap) * (Real.log r'.pc - Real.log r.pc) = lam * (2 * p' - r'.pc) * pr.M ^ 2 ∧
      (1 + 6 * Spec.clayShear pr p' * lam) • Spec.dev r'.stress =
        Spec.dev r.stress + (2 * Spec.clayShear pr (max (p * Real.exp (dt * L.trace / pr.kap)) pr.pMin)) • Spec.dev (dt • L) ∧
      (Spec.mccF pr.M r'.pc r'.stress = 0 ∨ (lam = 0 ∧ Spec.mccF pr.M r'.pc r'.stress ≤ 0)) := by
  intro r' p p'
  obtain ⟨h1, lam, h2, h3, h4, h5, h6⟩ := mcc_drained_step_raw ops h hp hs σref hv r hpc hmin hc
  refine ⟨h1, lam, h2, h3, h4, h5, ?_⟩
  rcases h6 with ⟨h7, h8, -⟩ | ⟨h7, h8, -⟩
  · exact Or.inl (h8 (hq h7))
  · exact Or.inr ⟨h7, h8⟩

/-! ### Axisymmetric stresses -/

/-- The deviator of a triaxial state per stress difference. -/
noncomputable def triDev : Mat3 ℝ := Matrix.diagonal ![-(1 / 3), -(1 / 3), 2 / 3]

/-- The axial stress acts along the third axis, the lateral stress in all directions across. -/
def Spec.Axisymmetric (σ : Mat3 ℝ) : Prop := ∃ l z, σ = Matrix.diagonal ![l, l, z]

theorem triDev_ne : triDev 2 2 = 2 / 3 := by simp [triDev]

theorem dev_diagonal (l z : ℝ) : Spec.dev (Matrix.diagonal ![l, l, z] : Mat3 ℝ) = (z - l) • triDev := by
  ext i j
  fin_cases i <;> fin_cases j <;> simp [Spec.dev, Spec.meanStress, triDev] <;> ring

theorem axisymmetric_dev {σ : Mat3 ℝ} (h : Spec.Axisymmetric σ) : Spec.dev σ = (σ 2 2 - σ 0 0) • triDev := by
  obtain ⟨l, z, rfl⟩ := h
  rw [dev_diagonal]; simp

theorem axisymmetric_of_dev {σ : Mat3 ℝ} {y : ℝ} (h : Spec.dev σ = y • triDev) :
    Spec.Axisymmetric σ ∧ σ 2 2 - σ 0 0 = y ∧
      σ = Matrix.diagonal ![Spec.meanStress σ - y / 3, Spec.meanStress σ - y / 3, Spec.meanStress σ + 2 * y / 3] := by
  have e : σ = Matrix.diagonal ![Spec.meanStress σ - y / 3, Spec.meanStress σ - y / 3, Spec.meanStress σ + 2 * y / 3] := by
    have h1 := dev_add_mean σ
    rw [h] at h1
    conv_lhs => rw [← h1]
    ext i j
    fin_cases i <;> fin_cases j <;> simp [isoT, triDev] <;> ring
  refine ⟨⟨_, _, e⟩, ?_, e⟩
  have h2 := congrFun (congrFun e 2) 2
  have h0 := congrFun (congrFun e 0) 0
  simp at h2 h0
  linarith

theorem dev_triaxialL (b a dt : ℝ) : Spec.dev (dt • triaxialL b a) = (dt * (a - b)) • triDev := by
  have : dt • triaxialL b a = Matrix.diagonal ![dt * b, dt * b, dt * a] := by
    ext i j; fin_cases i <;> fin_cases j <;> simp [triaxialL]
  rw [this, dev_diagonal]; congr 1; ring

theorem qVM_axisymmetric {σ : Mat3 ℝ} (h : Spec.Axisymmetric σ) : Spec.qVM σ ^ 2 = (σ 2 2 - σ 0 0) ^ 2 := by
  rw [qVM_sq, Spec.J2, axisymmetric_dev h]
  simp [Spec.ddot, triDev, Fin.sum_univ_three]; ring

theorem mccF_axisymmetric {σ : Mat3 ℝ} (h : Spec.Axisymmetric σ) (M pc : ℝ) :
    Spec.mccF M pc σ = (σ 2 2 - σ 0 0) ^ 2 / M ^ 2 + Spec.meanStress σ * (Spec.meanStress σ - pc) := by
  rw [← qVM_axisymmetric h]
  simp only [Spec.mccF]; ring

/-! ### The limit -/

/-- The mean stress on the path of the test. -/
theorem controlled_mean {b : Bool} {σ : Mat3 ℝ} (h : Spec.Axisymmetric σ) {s : ℝ} (hs : s * s = 1) :
    Spec.meanStress σ = Spec.controlled b σ + (if b then 0 else s / 3) * (s * (σ 2 2 - σ 0 0)) := by
  obtain ⟨l, z, rfl⟩ := h
  cases b
  · simp [Spec.meanStress, Spec.controlled]; linear_combination (-(z - l) / 3) * hs
  · simp [Spec.meanStress, Spec.controlled]

section
variable {ops : NewtonOps ℝ} {pr : MCCParams ℝ} {σref : Mat3 ℝ} {pConstant : Bool} {conf a dt : ℝ} {r : ℕ → MCCResult ℝ}
  {b v : ℕ → ℝ}

theorem drained_states (h : pr.Clay) (hp : 0 < pr.pMin) (hr : Spec.DrainedRun ops pr σref pConstant conf a dt r b v)
    (h0 : Spec.Axisymmetric (r 0).stress) (hpc0 : 0 < (r 0).pc) (n : ℕ) : Spec.Axisymmetric (r n).stress ∧ 0 < (r n).pc := by
  induction n with
  | zero => exact ⟨h0, hpc0⟩
  | succ n ih =>
    have hs : (triaxialL (b n) a).transpose = triaxialL (b n) a := Matrix.diagonal_transpose _
    obtain ⟨h1, lam, hl, -, -, h2, -⟩ := mcc_drained_step ops h hp hs σref (hr.dense n) (r n) ih.2 (hr.floor n) (hr.root n)
      (hr.resolved n)
    rw [← hr.step n] at h1 h2
    refine ⟨?_, h1⟩
    rw [axisymmetric_dev ih.1, dev_triaxialL, smul_smul, ← add_smul] at h2
    have hG : 0 < 1 + 6 * Spec.clayShear pr (Spec.meanStress (r (n + 1)).stress) * lam := by
      have := clayShear_pos h (Spec.meanStress (r (n + 1)).stress)
      positivity
    have h3 : Spec.dev (r (n + 1)).stress = ((1 + 6 * Spec.clayShear pr (Spec.meanStress (r (n + 1)).stress) * lam)⁻¹ *
        ((r n).stress 2 2 - (r n).stress 0 0 +
          2 * Spec.clayShear pr (max (Spec.meanStress (r n).stress * Real.exp (dt * (triaxialL (b n) a).trace / pr.kap)) pr.pMin) *
            (dt * (a - b n)))) • triDev := by
      rw [mul_smul, ← h2, smul_smul, inv_mul_cancel₀ hG.ne', one_smul]
    exact (axisymmetric_of_dev h3).1

theorem sign_cases {a : ℝ} (ha : a ≠ 0) : ((SignType.sign a : ℝ) = 1 ∧ 0 < a) ∨ ((SignType.sign a : ℝ) = -1 ∧ a < 0) := by
  rcases lt_or_gt_of_ne ha with h | h
  · right; exact ⟨by rw [sign_neg h]; rfl, h⟩
  · left; exact ⟨by rw [sign_pos h]; rfl, h⟩

/-- The path of a drained test is a path in the sense of the limit theorem. -/
theorem drained_path (h : pr.Clay) (hp : 0 < pr.pMin) (hr : Spec.DrainedRun ops pr σref pConstant conf a dt r b v)
    (ha : a ≠ 0) (hdt : 0 < dt) (hconf : 0 < conf) (hM : pConstant = false → pr.M < 3)
    (h0 : Spec.Axisymmetric (r 0).stress) (hpc0 : conf ≤ (r 0).pc) (hy : Spec.mccF pr.M (r 0).pc (r 0).stress ≤ 0) :
    ∃ lam Gt : ℕ → ℝ, Drained.Path pr.M conf (if pConstant then 0 else SignType.sign a / 3) (SignType.sign a) pr.kap
      (pr.lam - pr.kap) (|a| * dt) (Spec.clayShear pr 0) pr.pMin (Spec.clayShear pr)
      (fun n => SignType.sign a * ((r n).stress 2 2 - (r n).stress 0 0)) (fun n => (r n).pc) lam Gt := by
  set s : ℝ := ((SignType.sign a : SignType) : ℝ) with hsd
  have hsc := sign_cases ha
  rw [← hsd] at hsc
  have hss : s * s = 1 := by rcases hsc with ⟨h1, -⟩ | ⟨h1, -⟩ <;> rw [h1] <;> norm_num
  have hsa : s * a = |a| := by
    rcases hsc with ⟨h1, h2⟩ | ⟨h1, h2⟩
    · rw [h1, abs_of_pos h2, one_mul]
    · rw [h1, abs_of_neg h2]; ring
  set k : ℝ := if pConstant then 0 else s / 3 with hk
  have hst := drained_states h hp hr h0 (hconf.trans_le hpc0)
  have hmean : ∀ n, Spec.meanStress (r n).stress = conf + k * (s * ((r n).stress 2 2 - (r n).stress 0 0)) := by
    intro n
    rw [controlled_mean (b := pConstant) (hst n).1 hss, hr.control n]
  have hF : ∀ n, Spec.mccF pr.M (r n).pc (r n).stress =
      Drained.Y pr.M conf k (s * ((r n).stress 2 2 - (r n).stress 0 0)) (r n).pc := by
    intro n
    rw [mccF_axisymmetric (hst n).1, hmean n, Drained.Y]
    congr 2
    rw [mul_pow, show s ^ 2 = 1 by rw [sq, hss], one_mul]
  have hstep : ∀ n, ∃ lam, 0 ≤ lam ∧ (r (n + 1)).pc = (r (n + 1)).pc ∧
      s * ((r (n + 1)).stress 2 2 - (r (n + 1)).stress 0 0) * (1 + 6 * Spec.clayShear pr (Spec.meanStress (r (n + 1)).stress) * lam) =
        s * ((r n).stress 2 2 - (r n).stress 0 0) +
          Spec.clayShear pr (max (Spec.meanStress (r n).stress * Real.exp (dt * (triaxialL (b n) a).trace / pr.kap)) pr.pMin) *
          (3 * (|a| * dt) - s * (pr.kap * (Real.log (Spec.meanStress (r (n + 1)).stress) - Real.log (Spec.meanStress (r n).stress)) +
            (pr.lam - pr.kap) * (Real.log (r (n + 1)).pc - Real.log (r n).pc))) ∧
      (pr.lam - pr.kap) * (Real.log (r (n + 1)).pc - Real.log (r n).pc) =
        lam * (2 * Spec.meanStress (r (n + 1)).stress - (r (n + 1)).pc) * pr.M ^ 2 ∧
      (Spec.mccF pr.M (r (n + 1)).pc (r (n + 1)).stress = 0 ∨
        (lam = 0 ∧ Spec.mccF pr.M (r (n + 1)).pc (r (n + 1)).stress ≤ 0)) := by
    intro n
    have hs : (triaxialL (b n) a).transpose = triaxialL (b n) a := Matrix.diagonal_transpose _
    obtain ⟨h1, lam, hl, h2, h3, h4, h5⟩ := mcc_drained_step ops h hp hs σref (hr.dense n) (r n) (hst n).2 (hr.floor n)
      (hr.root n) (hr.resolved n)
    rw [← hr.step n] at h1 h2 h3 h4 h5
    refine ⟨lam, hl, rfl, ?_, h3, h5⟩
    rw [axisymmetric_dev (hst n).1, axisymmetric_dev (hst (n + 1)).1, dev_triaxialL, smul_smul, smul_smul, ← add_smul] at h4
    have h6 := congrFun (congrFun h4 2) 2
    simp only [Matrix.smul_apply, triDev_ne, smul_eq_mul] at h6
    have htr : (triaxialL (b n) a).trace = 2 * b n + a := by
      simp [triaxialL, Matrix.trace, Fin.sum_univ_three]; ring
    set Gt := Spec.clayShear pr (max (Spec.meanStress (r n).stress * Real.exp (dt * (triaxialL (b n) a).trace / pr.kap)) pr.pMin)
    have h7 : pr.kap * (Real.log (Spec.meanStress (r (n + 1)).stress) - Real.log (Spec.meanStress (r n).stress)) +
        (pr.lam - pr.kap) * (Real.log (r (n + 1)).pc - Real.log (r n).pc) = dt * (2 * b n + a) := by
      rw [← htr]; linarith
    rw [h7, ← hsa]
    linear_combination (3 / 2) * s * h6
  choose lam hl _ hstress hhard hyield using hstep
  refine ⟨lam, fun n => Spec.clayShear pr (max (Spec.meanStress (r n).stress *
    Real.exp (dt * (triaxialL (b n) a).trace / pr.kap)) pr.pMin), ?_⟩
  have hks : s * k = if pConstant then 0 else 1 / 3 := by
    rw [hk]; cases pConstant
    · simp only [Bool.false_eq_true, if_false]; linarith
    · simp
  have hkM : |k * pr.M| < 1 := by
    rw [hk]
    cases hb : pConstant
    · simp only [Bool.false_eq_true, if_false]
      have h3 := hM hb
      have hM0 := h.M
      rcases hsc with ⟨h1, -⟩ | ⟨h1, -⟩ <;> rw [h1, abs_lt] <;> constructor <;> linarith
    · simp
  rw [abs_lt] at hkM
  exact
    { pos_M := h.M
      pos_σ := hconf
      pos_κ := h.kap
      pos_cp := sub_pos.mpr h.lam
      pos_Δ := mul_pos (abs_pos.mpr ha) hdt
      pos_g0 := clayShear_pos h 0
      pos_m := hp
      sign := by rcases hsc with ⟨h1, -⟩ | ⟨h1, -⟩ <;> simp [h1]
      slope := by rw [hks]; split_ifs <;> norm_num
      slope_lt := hkM.2
      slope_gt := hkM.1
      x_nonneg := hr.side
      p_ge := fun n => by rw [← hmean n]; exact hr.floor n
      pc_pos := fun n => (hst n).2
      pc_ge := hpc0
      lam_nonneg := hl
      Gt_ge := fun n => clayShear_mono h (le_max_of_le_right hp.le)
      g_nonneg := fun p => (clayShear_pos h p).le
      g_mono := clayShear_mono h
      start := by rw [← hF 0]; exact hy
      stress := fun n => by rw [← hmean n, ← hmean (n + 1)]; exact hstress n
      harden := fun n => by rw [← hmean (n + 1)]; exact hhard n
      yield := fun n => by rw [← hF (n + 1)]; exact hyield n }

/-- **Drained paths end at the critical state**: under axial strain at a constant rate, with the lateral stress or the mean
stress held, the preconsolidation pressure tends to twice the critical pressure, and the stress to the state with that mean
stress and a difference `M p` between axial and lateral stress. -/
theorem mcc_drained_critical_partial (h : pr.Clay) (hp : 0 < pr.pMin)
    (hr : Spec.DrainedRun ops pr σref pConstant conf a dt r b v)
    (ha : a ≠ 0) (hdt : 0 < dt) (hconf : 0 < conf) (hM : pConstant = false → pr.M < 3)
    (h0 : Spec.Axisymmetric (r 0).stress) (hpc0 : conf ≤ (r 0).pc) (hy : Spec.mccF pr.M (r 0).pc (r 0).stress ≤ 0) :
    let P := Spec.drainedPressure pConstant pr.M a conf
    Tendsto (fun n => (r n).pc) atTop (𝓝 (2 * P)) ∧
      Tendsto (fun n => (r n).stress) atTop (𝓝 (Matrix.diagonal ![P - SignType.sign a * (pr.M * P) / 3,
        P - SignType.sign a * (pr.M * P) / 3, P + 2 * (SignType.sign a * (pr.M * P)) / 3])) := by
  intro P
  obtain ⟨lam, Gt, hpath⟩ := drained_path h hp hr ha hdt hconf hM h0 hpc0 hy
  have h1 := hpath.pc_tendsto
  have h2 := hpath.x_tendsto
  set s : ℝ := ((SignType.sign a : SignType) : ℝ) with hsd
  have hss : s * s = 1 := by
    have hsc := sign_cases ha
    rw [← hsd] at hsc
    rcases hsc with ⟨h1, -⟩ | ⟨h1, -⟩ <;> rw [h1] <;> norm_num
  set k : ℝ := if pConstant then 0 else s / 3 with hk
  have hkM : 0 < 1 - k * pr.M := by linarith [hpath.slope_lt]
  have hP : P = conf / (1 - k * pr.M) := by
    simp only [P, Spec.drainedPressure, hk]
    cases pConstant
    · simp only [Bool.false_eq_true, if_false, ← hsd]; congr 1; ring
    · simp
  have e1 : Drained.pcs pr.M conf k = 2 * P := by rw [hP, Drained.pcs]; ring
  have e2 : Drained.xcs pr.M conf k = pr.M * P := by rw [hP, Drained.xcs]; ring
  rw [e1] at h1
  rw [e2] at h2
  refine ⟨h1, ?_⟩
  have hst := drained_states h hp hr h0 (hconf.trans_le hpc0)
  have hPk : conf + k * (pr.M * P) = P := by rw [hP]; field_simp; ring
  have e : ∀ n, (r n).stress = Matrix.diagonal ![
      conf + k * (s * ((r n).stress 2 2 - (r n).stress 0 0)) - s * (s * ((r n).stress 2 2 - (r n).stress 0 0)) / 3,
      conf + k * (s * ((r n).stress 2 2 - (r n).stress 0 0)) - s * (s * ((r n).stress 2 2 - (r n).stress 0 0)) / 3,
      conf + k * (s * ((r n).stress 2 2 - (r n).stress 0 0)) + 2 * (s * (s * ((r n).stress 2 2 - (r n).stress 0 0))) / 3] := by
    intro n
    have h3 := (axisymmetric_of_dev (axisymmetric_dev (hst n).1)).2.2
    have h4 := controlled_mean (b := pConstant) (hst n).1 hss
    rw [hr.control n] at h4
    rw [← h4, ← mul_assoc, hss, one_mul]
    exact h3
  have hlim : Tendsto (fun n => (Matrix.diagonal ![
      conf + k * (s * ((r n).stress 2 2 - (r n).stress 0 0)) - s * (s * ((r n).stress 2 2 - (r n).stress 0 0)) / 3,
      conf + k * (s * ((r n).stress 2 2 - (r n).stress 0 0)) - s * (s * ((r n).stress 2 2 - (r n).stress 0 0)) / 3,
      conf + k * (s * ((r n).stress 2 2 - (r n).stress 0 0)) + 2 * (s * (s * ((r n).stress 2 2 - (r n).stress 0 0))) / 3] : Mat3 ℝ))
      atTop (𝓝 (Matrix.diagonal ![conf + k * (pr.M * P) - s * (pr.M * P) / 3, conf + k * (pr.M * P) - s * (pr.M * P) / 3,
        conf + k * (pr.M * P) + 2 * (s * (pr.M * P)) / 3])) := by
    have hc : Continuous fun x : ℝ => (Matrix.diagonal ![conf + k * x - s * x / 3, conf + k * x - s * x / 3,
        conf + k * x + 2 * (s * x) / 3] : Mat3 ℝ) := by
      refine continuous_matrix fun i j => ?_
      fin_cases i <;> fin_cases j <;> simp <;> fun_prop
    exact (hc.tendsto _).comp h2
  rw [hPk] at hlim
  exact hlim.congr fun n => (e n).symm

end

end Hydrax
