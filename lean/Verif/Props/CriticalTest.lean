import Verif.Props.CriticalState
import Verif.Props.DriverControl

/-!
# Undrained tests end at the critical state (C133)
-/

set_option linter.unusedSectionVars false

namespace Hydrax

open Filter Topology

/-! ### The critical state and the lines -/

/-- The critical state lies on the compression lines of the initial state: its pressure is the one at which a clay of the
same specific volume has preconsolidation pressure `2 p`. -/
theorem criticalPressure_line {pr : MCCParams ℝ} (h : pr.Clay) (hN : 0 < pr.N) (hr : 0 < pr.pRef) {p pc : ℝ} (hp : 0 < p)
    (hpc : 0 < pc) :
    Spec.mccLine pr.N pr.pRef pr.lam pr.kap (2 * Spec.criticalPressure pr p pc) (Spec.criticalPressure pr p pc) =
      Spec.mccLine pr.N pr.pRef pr.lam pr.kap pc p := by
  have hP : 0 < Spec.criticalPressure pr p pc := Real.exp_pos _
  have hpos : ∀ pc p : ℝ, 0 < pc → 0 < p → 0 < Spec.mccLine pr.N pr.pRef pr.lam pr.kap pc p :=
    fun pc p h1 h2 => mul_pos (mul_pos hN (Real.rpow_pos_of_pos (div_pos hr h1) _)) (Real.rpow_pos_of_pos (div_pos h1 h2) _)
  have hl : pr.lam ≠ 0 := (h.kap.trans h.lam).ne'
  apply Real.log_injOn_pos (hpos _ _ (by linarith) hP) (hpos _ _ hpc hp)
  rw [mccLine_log _ _ _ _ _ _ hN hr (by linarith) hP, mccLine_log _ _ _ _ _ _ hN hr hpc hp, Real.log_mul two_ne_zero hP.ne',
    Spec.criticalPressure, Real.log_exp, Real.log_div hpc.ne' two_ne_zero]
  field_simp
  ring

/-- The critical stress of triaxial shearing. -/
theorem criticalStress_triaxial (M P : ℝ) {a : ℝ} (ha : a ≠ 0) :
    Spec.criticalStress M P (triaxialL (-(1 / 2) * a) a) =
      Matrix.diagonal ![P - SignType.sign a * (M * P) / 3, P - SignType.sign a * (M * P) / 3,
        P + 2 * (SignType.sign a * (M * P)) / 3] := by
  have hd : Spec.ddot (triaxialL (-(1 / 2) * a) a) (triaxialL (-(1 / 2) * a) a) = 3 / 2 * a ^ 2 := by
    simp [Spec.ddot, triaxialL, Fin.sum_univ_three]; ring
  have hs : Real.sqrt (3 / 2 * a ^ 2) = Real.sqrt (3 / 2) * |a| := by
    rw [Real.sqrt_mul (by norm_num), Real.sqrt_sq_eq_abs]
  have h3 : Real.sqrt (2 / 3) / Real.sqrt (3 / 2) = 2 / 3 := by
    rw [← Real.sqrt_div (by norm_num)]
    rw [show (2 / 3 : ℝ) / (3 / 2) = (2 / 3) ^ 2 by norm_num, Real.sqrt_sq (by norm_num)]
  have hk : Real.sqrt (2 / 3) * (M * P) / (Real.sqrt (3 / 2) * |a|) = 2 / 3 * (M * P) / |a| := by
    rw [mul_comm (Real.sqrt (3 / 2)), mul_comm (Real.sqrt (2 / 3)), mul_div_mul_comm, h3]; ring
  have hsg : a / |a| = SignType.sign a := by
    rcases lt_or_gt_of_ne ha with h | h
    · rw [abs_of_neg h, sign_neg h, div_neg, div_self ha]; rfl
    · rw [abs_of_pos h, sign_pos h, div_self ha]; rfl
  rw [Spec.criticalStress, hd, hs, hk, ← hsg]
  have habs : |a| ≠ 0 := abs_ne_zero.mpr ha
  ext i j
  fin_cases i <;> fin_cases j <;> simp [triaxialL] <;> field_simp <;> ring

/-! ### The test -/

variable {dim : ℕ}

theorem driver_mcc_path (d : Driver ℝ dim (LawState ℝ)) (ops : NewtonOps ℝ) (pr : MCCParams ℝ) (reset : Bool)
    (hd : d.law = mccLaw realFns ops pr reset) (mp : MPState ℝ dim 1) (pc : ℕ → ℝ) (ref eps : ℕ → Mat3 ℝ) (L : Mat3 ℝ) (dt : ℝ) :
    ∃ c pc' eps', d.step realExpm mp (.mcc pc (some ref) eps) L dt = .ok c ∧ c.2 = .mcc pc' (some ref) eps' ∧
      (⟨c.1.stress 0, pc' 0, eps' 0⟩ : Mat3 ℝ × ℝ × Mat3 ℝ) =
        (let r := mccUpdate realFns ops pr L (eps 0) (mp.stress 0) (pc 0) (ref 0) (pr.rhoP / mp.density 0) dt
         ⟨r.stress, r.pc, r.epsE⟩) := by
  unfold Driver.step
  rw [hd]
  exact ⟨_, _, _, rfl, rfl, rfl⟩

/-- The initial state of a test as a state of the path. -/
noncomputable def testStart (mp : MPState ℝ dim 1) (pc : ℕ → ℝ) (eps : ℕ → Mat3 ℝ) : MCCResult ℝ :=
  ⟨mp.stress 0, eps 0, pc 0⟩

theorem undrained_path (grad : (ℝ → ℝ) → ℝ → ℝ) (t : TriaxialTest ℝ dim (LawState ℝ)) (ops : NewtonOps ℝ)
    (pr : MCCParams ℝ) (reset : Bool) (hd : t.solver.law = mccLaw realFns ops pr reset) (hu : t.isUndrained = true) {a dt : ℝ}
    (ha : t.axialRate = .scalar a) (hdt : t.dt = .scalar dt) (mp : MPState ℝ dim 1) (pc : ℕ → ℝ) (ref eps : ℕ → Mat3 ℝ)
    (hvol : mp.volume 0 = (mp.F 0).det * mp.volume0 0) (m : ℕ) :
    ∃ c pc' eps', scanCarry (t.stepIdx realExpm grad) (mp, .mcc pc (some ref) eps) (List.range m) = .ok c ∧
      c.2 = .mcc pc' (some ref) eps' ∧ testStart c.1 pc' eps' =
        mccPath ops pr (triaxialL (-(1 / 2) * a) a) (ref 0) (pr.rhoP / mp.density 0) dt (testStart mp pc eps)
          (if t.startStatic then m - 1 else m) := by
  induction m with
  | zero => exact ⟨_, pc, eps, rfl, rfl, by split_ifs <;> rfl⟩
  | succ m ih =>
    obtain ⟨b, bpc, beps, hb, b2, b3⟩ := ih
    obtain ⟨-, i2, -, i4⟩ := carry_invariant grad t mp _ m b hb
    have hv := (i2 hu).2 hvol
    obtain ⟨bm, bl⟩ := b
    simp only at b2 b3 i4 hv
    subst b2
    have hden : bm.density 0 = mp.density 0 := by simp only [MPState.density, hv, i4]
    rw [List.range_succ, scanCarry_append, hb]
    simp only [andThen, scanCarry]
    unfold TriaxialTest.stepIdx
    by_cases h0 : t.startStatic = true ∧ m = 0
    · rw [if_pos h0]
      obtain ⟨h0a, h0b⟩ := h0
      subst h0b
      refine ⟨_, bpc, beps, rfl, rfl, ?_⟩
      rw [b3, if_pos h0a, if_pos h0a]
    · rw [if_neg h0]
      obtain ⟨c, pc', eps', hc, e1, e2⟩ := driver_mcc_path t.solver ops pr reset hd bm bpc ref beps
        (triaxialL (-(1 / 2) * a) a) dt
      simp only [TriaxialTest.lateral, hu, if_true, ha, hdt, Sched.at, hc]
      refine ⟨c, pc', eps', rfl, e1, ?_⟩
      have hk : (if t.startStatic = true then m + 1 - 1 else m + 1) = (if t.startStatic = true then m - 1 else m) + 1 := by
        split_ifs with h1
        · have hm : m ≠ 0 := fun e => h0 ⟨h1, e⟩
          omega
        · rfl
      rw [hk, mccPath, ← b3]
      simp only [testStart, Prod.mk.injEq, hden] at e2 ⊢
      rw [e2.1, e2.2.1, e2.2.2]

/-- **C133**: undrained tests of Cam-Clay, in compression (`a > 0`) or extension, that are run for long enough end as close
as desired to the critical state: `p` is the critical pressure of the volume, `p_c = 2 p` and the axial stress differs from
the lateral stress by `M p`. How many steps are needed does not depend on the number of steps or the stride of the test
(partial: the Newton loops are assumed to end at a root). -/
theorem undrained_critical_partial (grad : (ℝ → ℝ) → ℝ → ℝ) (t : TriaxialTest ℝ dim (LawState ℝ)) (ops : NewtonOps ℝ)
    {pr : MCCParams ℝ} (reset : Bool) (hd : t.solver.law = mccLaw realFns ops pr reset) (h : pr.Clay) (hpM : 0 < pr.pMin)
    (hu : t.isUndrained = true) {a dt : ℝ} (ha : t.axialRate = .scalar a) (ha0 : a ≠ 0) (hdt : t.dt = .scalar dt) (hdt0 : 0 < dt)
    (mp : MPState ℝ dim 1) (pc : ℕ → ℝ) (ref eps : ℕ → Mat3 ℝ) (hvol : mp.volume 0 = (mp.F 0).det * mp.volume0 0)
    (hv : pr.rhoP / mp.density 0 ≤ pr.N * (999999 / 1000000)) (h0 : pr.pMin ≤ Spec.meanStress (mp.stress 0)) (hpc0 : 0 < pc 0)
    (hcr : pr.pMin ≤ Spec.criticalPressure pr (Spec.meanStress (mp.stress 0)) (pc 0))
    (hcM : 2 / 10 ^ 6 ≤ pr.M * Spec.criticalPressure pr (Spec.meanStress (mp.stress 0)) (pc 0))
    (hy : Spec.mccF pr.M (pc 0) (mp.stress 0) ≤ 0)
    (hc : ∀ n, Spec.Converged ops pr (triaxialL (-(1 / 2) * a) a) (ref 0) dt
      (mccPath ops pr (triaxialL (-(1 / 2) * a) a) (ref 0) (pr.rhoP / mp.density 0) dt (testStart mp pc eps) n))
    {ε : ℝ} (hε : 0 < ε) :
    let P := Spec.criticalPressure pr (Spec.meanStress (mp.stress 0)) (pc 0)
    ∃ N, ∀ numSteps stride tr, { t with numSteps := numSteps, stride := stride }.run realExpm grad mp (.mcc pc (some ref) eps) = .ok tr →
      ∀ k (hk : k < tr.length), N ≤ (k + 1) * stride →
        (∃ pc' eps', tr[k].2 = .mcc pc' (some ref) eps' ∧ |pc' 0 - 2 * P| < ε) ∧
        ∀ i j, |tr[k].1.stress 0 i j - Matrix.diagonal ![P - SignType.sign a * (pr.M * P) / 3,
          P - SignType.sign a * (pr.M * P) / 3, P + 2 * (SignType.sign a * (pr.M * P)) / 3] i j| < ε := by
  intro P
  have hs : (triaxialL (-(1 / 2) * a) a).transpose = triaxialL (-(1 / 2) * a) a := Matrix.diagonal_transpose _
  have htr : (triaxialL (-(1 / 2) * a) a).trace = 0 := by
    simp [triaxialL, Matrix.trace, Fin.sum_univ_three]
    try ring
  have hL : triaxialL (-(1 / 2) * a) a ≠ 0 := by
    intro e
    have := congrFun (congrFun e 2) 2
    simp [triaxialL] at this
    exact ha0 this
  obtain ⟨l1, l2⟩ := mcc_critical_state_partial ops h hpM hs htr hL (ref 0) hdt0 hv (r := testStart mp pc eps) h0 hpc0 hcr hcM hy hc
  change Tendsto _ atTop (𝓝 (2 * P)) at l1
  change Tendsto _ atTop (𝓝 (Spec.criticalStress pr.M P _)) at l2
  rw [criticalStress_triaxial _ _ ha0] at l2
  have l3 : ∀ i j, ∀ᶠ n in atTop, |(mccPath ops pr (triaxialL (-(1 / 2) * a) a) (ref 0) (pr.rhoP / mp.density 0) dt
      (testStart mp pc eps) n).stress i j - Matrix.diagonal ![P - SignType.sign a * (pr.M * P) / 3,
          P - SignType.sign a * (pr.M * P) / 3, P + 2 * (SignType.sign a * (pr.M * P)) / 3] i j| < ε := by
    intro i j
    have := Metric.tendsto_nhds.mp (tendsto_pi_nhds.mp (tendsto_pi_nhds.mp l2 i) j) ε hε
    simpa only [Real.dist_eq] using this
  have l4 := Metric.tendsto_nhds.mp l1 ε hε
  simp only [Real.dist_eq] at l4
  obtain ⟨N, hN⟩ := eventually_atTop.mp (l4.and (eventually_all.mpr fun i => eventually_all.mpr fun j => l3 i j))
  refine ⟨N + 1, fun numSteps stride tr hrun k hk hkN => ?_⟩
  simp only [TriaxialTest.run] at hrun
  split_ifs at hrun
  obtain ⟨-, r2⟩ := scanRows_index _ _ _ _ _ hrun
  obtain ⟨c, pc', eps', c1, c2, c3⟩ := undrained_path grad t ops pr reset hd hu ha hdt mp pc ref eps hvol ((k + 1) * stride)
  have hck : tr[k] = c := by
    have e1 : scanCarry (t.stepIdx realExpm grad) (mp, .mcc pc (some ref) eps) (List.range ((k + 1) * stride)) = .ok tr[k] := r2 k hk
    rw [c1] at e1
    exact (Except.ok.inj e1).symm
  have hidx : N ≤ (if t.startStatic = true then (k + 1) * stride - 1 else (k + 1) * stride) := by
    split_ifs <;> omega
  obtain ⟨q1, q2⟩ := hN _ hidx
  rw [← c3] at q1 q2
  rw [hck]
  exact ⟨⟨pc', eps', c2, q1⟩, q2⟩

/-! ### Loops that end at a root -/

/-- A matrix whose regularised inverse leads from `s` to `t` in a damped step when the residual is `(f, 0)`. -/
noncomputable def hitJac (f : ℝ) (s t : Fin 2 → ℝ) : Matrix (Fin 2) (Fin 2) ℝ :=
  let α := (s 0 - t 0) * (10 / 8) / f
  let β := (s 1 - t 1) * (10 / 8) / f
  let k := (1 - 1 / 10 ^ 20) / (α ^ 2 + β ^ 2)
  !![k * α, k * β; -β, α]

open Classical in
/-- Derivatives that make every loop with an admissible root end at one. -/
noncomputable def rootOps : NewtonOps ℝ where
  jac R x := if R x = 0 then 0 else hitJac (R x 0) x (Classical.epsilon fun t => R t = 0 ∧ 0 ≤ t 0 ∧ 0 ≤ t 1)
  bad _ := false

theorem rootOps_hits (R : (Fin 2 → ℝ) → Fin 2 → ℝ) (s : Fin 2 → ℝ) (h0 : R s 0 ≠ 0) (h1 : R s 1 = 0)
    (hex : ∃ t, R t = 0 ∧ 0 ≤ t 0 ∧ 0 ≤ t 1) (hne : ∀ t, R t = 0 → t 0 ≠ s 0) (n : ℕ) :
    R (mccNewton rootOps R (n + 1) s) = 0 := by
  classical
  have hsp := Classical.epsilon_spec hex
  set t := Classical.epsilon fun t => R t = 0 ∧ 0 ≤ t 0 ∧ 0 ≤ t 1 with ht
  obtain ⟨hR, ht0, ht1⟩ := hsp
  have hts := hne t hR
  have hRs : R s ≠ 0 := fun e => h0 (by rw [e]; rfl)
  set α := (s 0 - t 0) * (10 / 8) / R s 0 with hα
  set β := (s 1 - t 1) * (10 / 8) / R s 0 with hβ
  have hα0 : α ≠ 0 := by
    rw [hα]
    exact div_ne_zero (mul_ne_zero (sub_ne_zero.mpr hts.symm) (by norm_num)) h0
  have hn : 0 < α ^ 2 + β ^ 2 := by positivity
  set k := (1 - 1 / 10 ^ 20) / (α ^ 2 + β ^ 2) with hk
  have hJ : hitJac (R s 0) s t = !![k * α, k * β; -β, α] := rfl
  have hdet : (hitJac (R s 0) s t).det = 1 - 1 / 10 ^ 20 := by
    rw [hJ, Matrix.det_fin_two_of, hk]; field_simp; ring
  have hreg : Spec.regularised (hitJac (R s 0) s t).det = 1 := by
    rw [hdet, Spec.regularised, if_pos (by norm_num)]; norm_num
  have hinv : inv2 (10 ^ 6) (hitJac (R s 0) s t) = !![α, -(k * β); β, k * α] := by
    have hd : hitJac (R s 0) s t 0 0 * hitJac (R s 0) s t 1 1 - hitJac (R s 0) s t 0 1 * hitJac (R s 0) s t 1 0 =
        (hitJac (R s 0) s t).det := (Matrix.det_fin_two _).symm
    simp only [inv2, hd, (safeInv_value _ (hitJac (R s 0) s t).det).1, hreg]
    simp [hJ]
  have hfirst : mccNewtonStep rootOps R s = t := by
    funext i
    simp only [mccNewtonStep, rootOps, if_neg hRs, ← ht, hinv, Bool.false_eq_true, if_false]
    have h8 : ∀ a b : ℝ, a + 8 / 10 * -((a - b) * (10 / 8) / R s 0 * R s 0) = b := fun a b => by
      rw [div_mul_cancel₀ _ h0]; ring
    fin_cases i
    · simp only [Fin.zero_eta, Matrix.mulVec, dotProduct, Fin.sum_univ_two, Matrix.of_apply, Matrix.cons_val', Matrix.cons_val_zero,
        Matrix.cons_val_one, Matrix.cons_val_fin_one, h1, mul_zero, add_zero, hα, h8]
      exact max_eq_left ht0
    · simp only [Fin.mk_one, Matrix.mulVec, dotProduct, Fin.sum_univ_two, Matrix.of_apply, Matrix.cons_val', Matrix.cons_val_zero,
        Matrix.cons_val_one, Matrix.cons_val_fin_one, h1, mul_zero, add_zero, hβ, h8]
      exact max_eq_left ht1
  have hstay : ∀ m, mccNewton rootOps R m t = t := by
    intro m
    induction m with
    | zero => rfl
    | succ m ih =>
      rw [mccNewton]
      have : mccNewtonStep rootOps R t = t := by
        have h00 : inv2 (10 ^ 6) (0 : Matrix (Fin 2) (Fin 2) ℝ) = 0 := by
          ext i j; fin_cases i <;> fin_cases j <;> simp [inv2]
        funext i
        simp only [mccNewtonStep, rootOps, if_pos hR, h00, Matrix.zero_mulVec, Pi.zero_apply, neg_zero, mul_zero, add_zero,
          Bool.false_eq_true, if_false]
        fin_cases i
        · exact max_eq_left ht0
        · exact max_eq_left ht1
      rw [this, ih]
  rw [mccNewton, hfirst, hstay]
  exact hR

/-- The loops can end at a root when the trial stress is on the wet side of the critical state (`p_c < 2 p`). -/
theorem rootOps_converged_wet {pr : MCCParams ℝ} (h : pr.Clay) (hp : 0 < pr.pMin) (L σref : Mat3 ℝ) (dt : ℝ) {r : MCCResult ℝ}
    (hmin : pr.pMin ≤ Spec.meanStress r.stress) (hpc : 1 ≤ r.pc)
    (hw : r.pc < 2 * Spec.meanStress (Spec.mccTrialStress pr L r.stress dt)) : Spec.Converged rootOps pr L σref dt r := by
  intro hy
  have hpc0 : 0 < r.pc := by linarith
  obtain ⟨x, h0, hx, hwet, -⟩ := mcc_return_solvable h L r.epsE r.stress (pc := r.pc) σref dt hpc0 (hp.trans_le hmin) hmin hy
  obtain ⟨hlt, huniq⟩ := hwet hw
  set t := mccTrial realFns pr L r.epsE r.stress r.pc σref dt with htd
  have hyf : 0 < t.yf := by rw [htd, mccTrial_yf_spec _ _ _ _ _ _ _ hmin]; exact hy
  have hcp : 0 < pr.cp := sub_pos.mpr h.lam
  have hR1 : ∀ y : Fin 2 → ℝ, y 0 = 0 → (mccResiduals realFns pr t r.pc y).res 1 = -(pr.cp * (y 1 - Real.log r.pc)) := by
    intro y hy
    rw [(mccResiduals_values pr t r.pc hyf y).2, hy]; ring
  have hs1 := hR1 ![0, Real.log r.pc] rfl
  rw [Matrix.cons_val_one, Matrix.cons_val_fin_one, sub_self, mul_zero, neg_zero] at hs1
  have hs0 : (mccResiduals realFns pr t r.pc ![0, Real.log r.pc]).res 0 ≠ 0 := by
    intro h
    have := huniq ![0, Real.log r.pc] le_rfl (by ext i; fin_cases i; exacts [h, hs1])
    rw [← this] at hlt
    exact lt_irrefl _ hlt
  have hlog : 0 ≤ Real.log r.pc := Real.log_nonneg hpc
  refine rootOps_hits (fun y => (mccResiduals realFns pr t r.pc y).res) ![0, Real.log r.pc] hs0 hs1
    ⟨x, hx, h0, by linarith⟩ (fun y hy e => ?_) 9
  have h1 := hR1 y e
  have h2 : (mccResiduals realFns pr t r.pc y).res 1 = 0 := congrFun hy 1
  rw [h2] at h1
  have h3 : y 1 = Real.log r.pc := by
    have : pr.cp * (y 1 - Real.log r.pc) = 0 := by linarith
    rcases mul_eq_zero.mp this with h4 | h4
    · exact absurd h4 hcp.ne'
    · linarith
  have h4 : y = ![0, Real.log r.pc] := by
    ext i; fin_cases i
    · exact e
    · exact h3
  rw [h4] at hy
  exact hs0 (congrFun hy 0)

/-- The loops of wet clay (`p_c < 2 p`) can end at a root. -/
theorem rootOps_converged {pr : MCCParams ℝ} (h : pr.Clay) (hp : 0 < pr.pMin) {L : Mat3 ℝ} (hs : L.transpose = L)
    (ht : L.trace = 0) (σref : Mat3 ℝ) (dt : ℝ) {r : MCCResult ℝ} (hmin : pr.pMin ≤ Spec.meanStress r.stress) (hpc : 1 ≤ r.pc)
    (hw : r.pc < 2 * Spec.meanStress r.stress) : Spec.Converged rootOps pr L σref dt r :=
  rootOps_converged_wet h hp L σref dt hmin hpc (by rw [(trial_shear pr hs ht r.stress dt hmin).2]; exact hw)

/-- Along the whole path. -/
theorem rootOps_path {pr : MCCParams ℝ} (h : pr.Clay) (hp : 0 < pr.pMin) {L : Mat3 ℝ} (hs : L.transpose = L)
    (ht : L.trace = 0) (σref : Mat3 ℝ) {v dt : ℝ} (hv : v ≤ pr.N * (999999 / 1000000)) {r : MCCResult ℝ}
    (h0 : pr.pMin ≤ Spec.meanStress r.stress) (hpc : 1 ≤ r.pc) (hw : r.pc < 2 * Spec.meanStress r.stress)
    (hcr : pr.pMin ≤ Spec.criticalPressure pr (Spec.meanStress r.stress) r.pc) (hy : Spec.mccF pr.M r.pc r.stress ≤ 0) (n : ℕ) :
    Spec.Converged rootOps pr L σref dt (mccPath rootOps pr L σref v dt r n) := by
  have hpc0 : 0 < r.pc := by linarith
  have hgap : 0 < criticalGap r := sub_pos.mpr (Real.log_lt_log hpc0 hw)
  have hwet : ∀ x : MCCResult ℝ, ShearState pr r x → x.pc < 2 * Spec.meanStress x.stress := by
    intro x hx
    have := hx.wet hgap
    exact (Real.log_lt_log_iff hx.pc (by linarith [hx.p])).mp (sub_pos.mp this)
  have key : ∀ n, ShearState pr r (mccPath rootOps pr L σref v dt r n) ∧ 1 ≤ (mccPath rootOps pr L σref v dt r n).pc := by
    intro n
    induction n with
    | zero =>
      exact ⟨⟨hp.trans_le h0, hpc0, h0, rfl, min_le_right _ _, le_max_right _ _, fun h => h, hy.trans (by positivity)⟩, hpc⟩
    | succ n ih =>
      obtain ⟨i1, i2⟩ := ih
      have hc := rootOps_converged h hp hs ht σref dt i1.pMin i2 (hwet _ i1)
      have hS := shearState_step rootOps h hp hs ht σref hv h0 hpc0 hcr i1 hc
      refine ⟨hS, ?_⟩
      obtain ⟨-, b2, -, ⟨lam, hl, -, c2, -⟩, -, -⟩ := mcc_shear_step rootOps h hp hs ht σref hv _ i1.pc i1.pMin hc
      have hw' := hwet _ hS
      have hcp : 0 < pr.lam - pr.kap := sub_pos.mpr h.lam
      have h1 := mul_nonneg (mul_nonneg hl (sub_nonneg.mpr hw'.le)) (sq_nonneg pr.M)
      have h2 : Real.log (mccPath rootOps pr L σref v dt r n).pc ≤ Real.log (mccPath rootOps pr L σref v dt r (n + 1)).pc := by
        refine le_of_mul_le_mul_left ?_ hcp
        change _ ≤ (pr.lam - pr.kap) * Real.log (mccUpdate _ _ _ _ _ _ _ _ _ _).pc
        rw [c2]; linarith
      exact i2.trans ((Real.log_le_log_iff i1.pc hS.pc).mp h2)
  exact rootOps_converged h hp hs ht σref dt (key n).1.pMin (key n).2 (hwet _ (key n).1)

/-! ### Example -/

/-- Undrained compression of normally consolidated clay. -/
noncomputable def exUndrained : TriaxialTest ℝ 3 (LawState ℝ) :=
  { solver := { law := mccLaw realFns rootOps exMCC false }
    confine := 100
    axialRate := .scalar 1
    dt := .scalar (1 / 1000)
    isUndrained := true }

theorem exUndrained_critical : Spec.criticalPressure exMCC 100 100 = 100 / Real.sqrt 2 := by
  have h : Real.log (100 / Real.sqrt 2) = Real.log 100 - Real.log 2 / 2 := by
    rw [Real.log_div (by norm_num) (by positivity), Real.log_sqrt (by norm_num)]
  rw [Spec.criticalPressure, ← Real.exp_log (by positivity : 0 < 100 / Real.sqrt 2), h, Real.log_div (by norm_num) (by norm_num)]
  congr 1
  simp only [exMCC]
  field_simp
  ring

/-- The test tends to the pressure `100/√2`, and to a stress difference of the same size (`M = 1`). -/
example {ε : ℝ} (hε : 0 < ε) : ∃ N, ∀ numSteps stride tr, { exUndrained with numSteps := numSteps, stride := stride }.run realExpm deriv
    (exPoint 2000 100) (.mcc (fun _ => 100) (some fun _ => 0) fun _ => 0) = .ok tr → ∀ k (hk : k < tr.length), N ≤ (k + 1) * stride →
      |tr[k].1.stress 0 2 2 - 5 / 3 * (100 / Real.sqrt 2)| < ε := by
  have hm : Spec.meanStress ((exPoint 2000 100).stress 0) = 100 := by norm_num [exPoint, Spec.meanStress]
  have hs2 : 0 < Real.sqrt 2 := by positivity
  have hs3 : Real.sqrt 2 ≤ 2 := by rw [Real.sqrt_le_left (by norm_num)]; norm_num
  have hP : 1 ≤ 100 / Real.sqrt 2 := by rw [le_div_iff₀ hs2]; linarith
  have hv : exMCC.rhoP / (exPoint 2000 100).density 0 ≤ exMCC.N * (999999 / 1000000) := by
    norm_num [exMCC, exPoint, MPState.density]
  have hy : Spec.mccF exMCC.M 100 ((exPoint 2000 100).stress 0) ≤ 0 := by
    have hq : Spec.qVM ((exPoint 2000 100).stress 0) ^ 2 = 0 := by
      rw [qVM_sq, Spec.J2]
      have : Spec.dev ((exPoint 2000 100).stress 0) = 0 := dev_isoT 100
      rw [this]
      simp [Spec.ddot]
    simp only [Spec.mccF, hq, hm]
    norm_num
  have hsT : (triaxialL (-(1 / 2) * (1 : ℝ)) 1).transpose = triaxialL (-(1 / 2) * 1) 1 := Matrix.diagonal_transpose _
  have htT : (triaxialL (-(1 / 2) * (1 : ℝ)) 1).trace = 0 := by
    simp [triaxialL, Matrix.trace, Fin.sum_univ_three]; norm_num
  obtain ⟨N, hN⟩ := undrained_critical_partial deriv exUndrained rootOps (pr := exMCC) false rfl exMCC_clay (by norm_num [exMCC]) rfl
    (a := 1) (dt := 1 / 1000) rfl one_ne_zero rfl (by norm_num) (exPoint 2000 100) (fun _ => 100) (fun _ => 0) (fun _ => 0)
    (by simp [exPoint]) hv (by rw [hm]; norm_num [exMCC]) (by norm_num)
    (by rw [hm, exUndrained_critical]; exact hP) (by rw [hm, exUndrained_critical]; norm_num [exMCC]; linarith) hy
    (rootOps_path exMCC_clay (by norm_num [exMCC]) hsT htT 0 hv (r := testStart (exPoint 2000 100) (fun _ => 100) fun _ => 0)
      (by change _ ≤ Spec.meanStress ((exPoint 2000 100).stress 0); rw [hm]; norm_num [exMCC]) (by norm_num [testStart])
      (by change (100 : ℝ) < 2 * Spec.meanStress ((exPoint 2000 100).stress 0); rw [hm]; norm_num)
      (by change _ ≤ Spec.criticalPressure exMCC (Spec.meanStress ((exPoint 2000 100).stress 0)) 100; rw [hm, exUndrained_critical]; exact hP)
      hy) hε
  refine ⟨N, fun numSteps stride tr hr k hk hkN => ?_⟩
  have := (hN numSteps stride tr hr k hk hkN).2 2 2
  rw [hm, exUndrained_critical] at this
  simp only [Matrix.diagonal_apply_eq, sign_one] at this
  convert this using 2
  simp [exMCC]
  ring

end Hydrax
