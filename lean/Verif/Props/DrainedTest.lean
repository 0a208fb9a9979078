import Verif.Props.DrainedExists

/-!
# Drained tests end at the critical state (C138): the tests of the element test driver
-/

set_option linter.unusedSectionVars false

namespace Hydrax

open Filter Topology

variable {dim : ℕ}

/-- A drained test whose steps lead through the material points `mp n` and the states `pc n`, `eps n` of the law, and keep
the controlled stress. -/
structure Spec.DrainedTest (grad : (ℝ → ℝ) → ℝ → ℝ) (t : TriaxialTest ℝ dim (LawState ℝ)) (ops : NewtonOps ℝ) (pr : MCCParams ℝ)
    (ref : ℕ → Mat3 ℝ) (a dt : ℝ) (mp : ℕ → MPState ℝ dim 1) (pc : ℕ → ℕ → ℝ) (eps : ℕ → ℕ → Mat3 ℝ) : Prop where
  step : ∀ n, t.stepIdx realExpm grad (mp n, .mcc (pc n) (some ref) (eps n)) n =
    .ok (mp (n + 1), .mcc (pc (n + 1)) (some ref) (eps (n + 1)))
  /-- The solid is never so loose that the code takes it for disconnected. -/
  dense : ∀ n, pr.rhoP / (mp n).density 0 ≤ pr.N * (999999 / 1000000)
  /-- The controlled stress has its prescribed value. -/
  control : ∀ n, Spec.controlled t.isPConstant ((mp n).stress 0) = t.confine
  /-- The Newton loops of the law end at a root. -/
  root : ∀ n, Spec.Converged ops pr (triaxialL (t.lateral realExpm grad (mp n) (.mcc (pc n) (some ref) (eps n)) a dt) a) (ref 0) dt
    (testStart (mp n) (pc n) (eps n))
  /-- Where the material yields, the shear stress is not so small that the code rounds its square root. -/
  resolved : ∀ n, 0 < Spec.mccF pr.M (pc n 0) (Spec.mccTrialStress pr
      (triaxialL (t.lateral realExpm grad (mp n) (.mcc (pc n) (some ref) (eps n)) a dt) a) ((mp n).stress 0) dt) →
    1 / 10 ^ 6 ≤ Spec.qVM (Spec.mccTrialStress pr
      (triaxialL (t.lateral realExpm grad (mp n) (.mcc (pc n) (some ref) (eps n)) a dt) a) ((mp n).stress 0) dt)
  /-- The pressure does not fall below the floor of the code. -/
  floor : ∀ n, pr.pMin ≤ Spec.meanStress ((mp n).stress 0)
  /-- The axial stress stays on the side of the lateral stress to which the sample is loaded. -/
  side : ∀ n, 0 ≤ SignType.sign a * ((mp n).stress 0 2 2 - (mp n).stress 0 0 0)

theorem drained_carry {grad : (ℝ → ℝ) → ℝ → ℝ} {t : TriaxialTest ℝ dim (LawState ℝ)} {ops : NewtonOps ℝ} {pr : MCCParams ℝ}
    {ref : ℕ → Mat3 ℝ} {a dt : ℝ} {mp : ℕ → MPState ℝ dim 1} {pc : ℕ → ℕ → ℝ} {eps : ℕ → ℕ → Mat3 ℝ}
    (ht : Spec.DrainedTest grad t ops pr ref a dt mp pc eps) (m : ℕ) :
    scanCarry (t.stepIdx realExpm grad) (mp 0, .mcc (pc 0) (some ref) (eps 0)) (List.range m) =
      .ok (mp m, .mcc (pc m) (some ref) (eps m)) := by
  induction m with
  | zero => rfl
  | succ m ih =>
    rw [List.range_succ, scanCarry_append, ih]
    simp only [andThen, scanCarry, ht.step m]

/-- **C138**: drained tests of Cam-Clay, in compression (`a > 0`) or extension, with the lateral stress or the mean stress held,
that are run for long enough end as close as desired to the critical state: the mean stress is that of the critical state on
the path of the test, `p_c = 2 p`, and the axial stress differs from the lateral stress by `M p` (partial: the Newton loops
are assumed to end at a root, and the control of the stress to be exact). -/
theorem drained_critical_partial {grad : (ℝ → ℝ) → ℝ → ℝ} {t : TriaxialTest ℝ dim (LawState ℝ)} {ops : NewtonOps ℝ}
    {pr : MCCParams ℝ} (reset : Bool) (hd : t.solver.law = mccLaw realFns ops pr reset) (h : pr.Clay) (hpM : 0 < pr.pMin)
    {a dt : ℝ} (ha : t.axialRate = .scalar a) (ha0 : a ≠ 0) (hdt : t.dt = .scalar dt) (hdt0 : 0 < dt)
    {ref : ℕ → Mat3 ℝ} {mp : ℕ → MPState ℝ dim 1} {pc : ℕ → ℕ → ℝ} {eps : ℕ → ℕ → Mat3 ℝ}
    (ht : Spec.DrainedTest grad t ops pr ref a dt mp pc eps) (hconf : 0 < t.confine) (hM : t.isPConstant = false → pr.M < 3)
    (h0 : Spec.Axisymmetric ((mp 0).stress 0)) (hpc0 : t.confine ≤ pc 0 0) (hy : Spec.mccF pr.M (pc 0 0) ((mp 0).stress 0) ≤ 0)
    {ε : ℝ} (hε : 0 < ε) :
    let P := Spec.drainedPressure t.isPConstant pr.M a t.confine
    ∃ N, ∀ numSteps stride tr, { t with numSteps := numSteps, stride := stride }.run realExpm grad (mp 0)
        (.mcc (pc 0) (some ref) (eps 0)) = .ok tr →
      ∀ k (hk : k < tr.length), N ≤ (k + 1) * stride →
        (∃ pc' eps', tr[k].2 = .mcc pc' (some ref) eps' ∧ |pc' 0 - 2 * P| < ε) ∧
        ∀ i j, |tr[k].1.stress 0 i j - Matrix.diagonal ![P - SignType.sign a * (pr.M * P) / 3,
          P - SignType.sign a * (pr.M * P) / 3, P + 2 * (SignType.sign a * (pr.M * P)) / 3] i j| < ε := by
  intro P
  have hzero : t.startStatic = true → (mp 1 = mp 0 ∧ pc 1 = pc 0) := by
    intro hs
    have := ht.step 0
    unfold TriaxialTest.stepIdx at this
    rw [if_pos ⟨hs, rfl⟩] at this
    have e := Except.ok.inj this
    rw [Prod.mk.injEq, LawState.mcc.injEq] at e
    exact ⟨e.1.symm, e.2.1.symm⟩
  obtain ⟨off, hoff, hstat, hstart⟩ : ∃ off, off ≤ 1 ∧ (∀ n, ¬(t.startStatic = true ∧ n + off = 0)) ∧
      (mp off = mp 0 ∧ pc off = pc 0) := by
    cases hs : t.startStatic
    · exact ⟨0, by omega, fun n hn => by simp at hn, rfl, rfl⟩
    · exact ⟨1, le_rfl, fun n hn => by omega, hzero hs⟩
  have hrun : Spec.DrainedRun ops pr (ref 0) t.isPConstant t.confine a dt
      (fun n => testStart (mp (n + off)) (pc (n + off)) (eps (n + off)))
      (fun n => t.lateral realExpm grad (mp (n + off)) (.mcc (pc (n + off)) (some ref) (eps (n + off))) a dt)
      (fun n => pr.rhoP / (mp (n + off)).density 0) := by
    refine ⟨fun n => ?_, fun n => ht.dense _, fun n => ht.control _, fun n => ht.root _, fun n => ht.resolved _,
      fun n => ht.floor _, fun n => ht.side _⟩
    have hst := ht.step (n + off)
    unfold TriaxialTest.stepIdx at hst
    rw [if_neg (hstat n)] at hst
    simp only [ha, hdt, Sched.at] at hst
    obtain ⟨c, pc', eps', hc, e1, e2⟩ := driver_mcc_path t.solver ops pr reset hd (mp (n + off)) (pc (n + off)) ref (eps (n + off))
      (triaxialL (t.lateral realExpm grad (mp (n + off)) (.mcc (pc (n + off)) (some ref) (eps (n + off))) a dt) a) dt
    rw [hc] at hst
    have e := Except.ok.inj hst
    subst e
    rw [LawState.mcc.injEq] at e1
    obtain ⟨e3, -, e4⟩ := e1
    rw [← e3, ← e4] at e2
    simp only [Prod.mk.injEq] at e2
    rw [show n + 1 + off = n + off + 1 by omega]
    simp only [testStart]
    rw [e2.1, e2.2.1, e2.2.2]
  have i0 : Spec.Axisymmetric (testStart (mp (0 + off)) (pc (0 + off)) (eps (0 + off))).stress := by
    rw [zero_add, hstart.1]; exact h0
  have i1 : t.confine ≤ (testStart (mp (0 + off)) (pc (0 + off)) (eps (0 + off))).pc := by
    rw [zero_add, hstart.2]; exact hpc0
  have i2 : Spec.mccF pr.M (testStart (mp (0 + off)) (pc (0 + off)) (eps (0 + off))).pc
      (testStart (mp (0 + off)) (pc (0 + off)) (eps (0 + off))).stress ≤ 0 := by
    rw [zero_add, hstart.1, hstart.2]; exact hy
  obtain ⟨l1, l2⟩ := mcc_drained_critical_partial h hpM hrun ha0 hdt0 hconf hM i0 i1 i2
  change Tendsto _ atTop (𝓝 (2 * P)) at l1
  have l3 : ∀ i j, ∀ᶠ n in atTop, |(testStart (mp (n + off)) (pc (n + off)) (eps (n + off))).stress i j -
      Matrix.diagonal ![P - SignType.sign a * (pr.M * P) / 3,
          P - SignType.sign a * (pr.M * P) / 3, P + 2 * (SignType.sign a * (pr.M * P)) / 3] i j| < ε := by
    intro i j
    have := Metric.tendsto_nhds.mp (tendsto_pi_nhds.mp (tendsto_pi_nhds.mp l2 i) j) ε hε
    simpa only [Real.dist_eq] using this
  have l4 := Metric.tendsto_nhds.mp l1 ε hε
  simp only [Real.dist_eq] at l4
  obtain ⟨N, hN⟩ := eventually_atTop.mp (l4.and (eventually_all.mpr fun i => eventually_all.mpr fun j => l3 i j))
  refine ⟨N + 1, fun numSteps stride tr hrun k hk hkN => ?_⟩
  simp only [TriaxialTest.run] at hrun
  split_ifs at hrun
  obtain ⟨-, r2⟩ := scanRows_index _ _ _ _ _ hrun
  obtain ⟨j, hj⟩ : ∃ j, (k + 1) * stride = j + off := ⟨(k + 1) * stride - off, by omega⟩
  have hck : tr[k] = (mp (j + off), .mcc (pc (j + off)) (some ref) (eps (j + off))) := by
    have e1 : scanCarry (t.stepIdx realExpm grad) (mp 0, .mcc (pc 0) (some ref) (eps 0)) (List.range ((k + 1) * stride)) = .ok tr[k] :=
      r2 k hk
    rw [hj, drained_carry ht] at e1
    exact (Except.ok.inj e1).symm
  obtain ⟨q1, q2⟩ := hN j (by omega)
  rw [hck]
  exact ⟨⟨_, _, rfl, q1⟩, q2⟩

/-! ### Tests that meet the hypotheses -/

open Classical in
/-- A derivative with which Newton's method for the lateral rate arrives at a root that neither expands nor unloads the
sample, if there is one. -/
noncomputable def rootGrad (a : ℝ) (f : ℝ → ℝ) (_ : ℝ) : ℝ :=
  if f 0 = 0 then 1 else -(4 / 5) * f 0 / Classical.epsilon fun b => f b = 0 ∧ 0 ≤ 2 * b + a ∧ b ≤ a

theorem rootGrad_hits {a : ℝ} (ha : 0 < a) (f : ℝ → ℝ) (hex : ∃ b, f b = 0 ∧ 0 ≤ 2 * b + a ∧ b ≤ a) (n : ℕ) :
    let b := newtonIterate (rootGrad a) f (n + 1)
    f b = 0 ∧ 0 ≤ 2 * b + a ∧ b ≤ a := by
  classical
  have hsp := Classical.epsilon_spec hex
  set z := Classical.epsilon fun b => f b = 0 ∧ 0 ≤ 2 * b + a ∧ b ≤ a with hz
  have hstay : ∀ x, f x = 0 → (if rootGrad a f x = 0 then x else x + 4 / 5 * (-f x / rootGrad a f x)) = x := by
    intro x hx
    split_ifs
    · rfl
    · rw [hx]; simp
  by_cases h0 : f 0 = 0
  · have : ∀ n, newtonIterate (rootGrad a) f n = 0 := by
      intro n
      induction n with
      | zero => rfl
      | succ n ih =>
        rw [newtonIterate]
        simp only [ih]
        exact hstay 0 h0
    intro b
    have hb : b = 0 := this (n + 1)
    rw [hb]
    exact ⟨h0, by linarith, ha.le⟩
  · have hz0 : z ≠ 0 := by rintro e; rw [e] at hsp; exact h0 hsp.1
    have hg : rootGrad a f 0 = -(4 / 5) * f 0 / z := by rw [rootGrad, if_neg h0]
    have hg0 : rootGrad a f 0 ≠ 0 := by rw [hg]; exact div_ne_zero (mul_ne_zero (by norm_num) h0) hz0
    have : ∀ n, newtonIterate (rootGrad a) f (n + 1) = z := by
      intro n
      induction n with
      | zero =>
        have e : newtonIterate (rootGrad a) f (0 + 1) = 0 + 4 / 5 * (-f 0 / rootGrad a f 0) := if_neg hg0
        rw [e, hg]; field_simp; ring
      | succ n ih =>
        rw [newtonIterate]
        simp only [ih]
        exact hstay z hsp.1
    intro b
    have hb : b = z := this n
    rw [hb]
    exact hsp

theorem driver_mcc_volume (d : Driver ℝ dim (LawState ℝ)) (mp : MPState ℝ dim 1) (ls : LawState ℝ) (L : Mat3 ℝ) (dt : ℝ)
    (c : MPState ℝ dim 1 × LawState ℝ) (h : d.step realExpm mp ls L dt = .ok c) :
    c.1.mass = mp.mass ∧ c.1.volume0 = mp.volume0 ∧ c.1.F 0 = realExpm (-(dt • L)) * mp.F 0 ∧
      c.1.volume 0 = (c.1.F 0).det * mp.volume0 0 := by
  unfold Driver.step at h
  simp only [reduceCtorEq, if_false] at h
  cases hu : d.law.update { mp with L := fun _ => L, F := fun p => realExpm (-(dt • L)) * mp.F p } ls dt with
  | error e => rw [hu] at h; simp [andThen] at h
  | ok r =>
    rw [hu] at h
    simp only [andThen, Except.ok.injEq] at h
    subst h
    exact ⟨rfl, rfl, rfl, rfl⟩

/-- **Drained compression of wet clay can be controlled**: from every state inside the yield surface, on the wet side, and with
the prescribed controlled stress, there is an exact run of the test. -/
theorem drained_test_exists {t : TriaxialTest ℝ dim (LawState ℝ)} {pr : MCCParams ℝ} (reset : Bool)
    (hd : t.solver.law = mccLaw realFns rootOps pr reset) (h : pr.Clay) (hpM : 0 < pr.pMin) (hu : t.isUndrained = false)
    (hn : t.numNewton ≠ 0) {a dt : ℝ} (ha : t.axialRate = .scalar a) (ha0 : 0 < a) (hdt : t.dt = .scalar dt) (hdt0 : 0 < dt)
    (hmin : pr.pMin ≤ t.confine) (hconf : 1 ≤ t.confine) (hM : drainedSlope t.isPConstant * pr.M < 1) (mp0 : MPState ℝ dim 1)
    (pc0 : ℕ → ℝ) (ref eps0 : ℕ → Mat3 ℝ) (hvol : mp0.volume 0 = (mp0.F 0).det * mp0.volume0 0)
    (hv0 : 0 ≤ mp0.volume 0)
    (hrho : 0 ≤ pr.rhoP) (hmass : 0 ≤ mp0.mass 0) (hv : pr.rhoP / mp0.density 0 ≤ pr.N * (999999 / 1000000))
    (hinv : DrainedInv pr t.isPConstant t.confine (testStart mp0 pc0 eps0)) :
    ∃ mp pc eps, mp 0 = mp0 ∧ pc 0 = pc0 ∧ eps 0 = eps0 ∧ Spec.DrainedTest (rootGrad a) t rootOps pr ref a dt mp pc eps := by
  -- states of the run
  let Ok : MPState ℝ dim 1 × (ℕ → ℝ) × (ℕ → Mat3 ℝ) → Prop := fun s =>
    DrainedInv pr t.isPConstant t.confine (testStart s.1 s.2.1 s.2.2) ∧ s.1.volume 0 = (s.1.F 0).det * s.1.volume0 0 ∧
      0 ≤ s.1.volume 0 ∧ s.1.mass 0 = mp0.mass 0 ∧ pr.rhoP / s.1.density 0 ≤ pr.N * (999999 / 1000000)
  have hlat : ∀ s, Ok s → let b := t.lateral realExpm (rootGrad a) s.1 (.mcc s.2.1 (some ref) s.2.2) a dt
      Spec.controlled t.isPConstant (mccUpdate realFns rootOps pr (triaxialL b a) (s.2.2 0) (s.1.stress 0) (s.2.1 0) (ref 0)
        (pr.rhoP / s.1.density 0) dt).stress = t.confine ∧ 0 ≤ 2 * b + a ∧ b ≤ a := by
    intro s hs b
    have hf : ∀ x, t.residual realExpm s.1 (.mcc s.2.1 (some ref) s.2.2) a dt x = Spec.controlled t.isPConstant
        (mccUpdate realFns rootOps pr (triaxialL x a) (s.2.2 0) (s.1.stress 0) (s.2.1 0) (ref 0) (pr.rhoP / s.1.density 0)
          dt).stress - t.confine := by
      intro x
      obtain ⟨c, pc', eps', hc, e1, e2⟩ := driver_mcc_path t.solver rootOps pr reset hd s.1 s.2.1 ref s.2.2 (triaxialL x a) dt
      rw [residual_eq t s.1 _ a dt x c hc]
      simp only [Prod.mk.injEq] at e2
      rw [e2.1]
    obtain ⟨b0, c1, c2, c3⟩ := drained_step_exists h hpM hmin hconf hM ha0 hdt0 (ref 0) hs.2.2.2.2 hs.1
    have hex : ∃ b, t.residual realExpm s.1 (.mcc s.2.1 (some ref) s.2.2) a dt b = 0 ∧ 0 ≤ 2 * b + a ∧ b ≤ a :=
      ⟨b0, by rw [hf]; exact sub_eq_zero.mpr c3, c1, c2⟩
    obtain ⟨m, hm⟩ := Nat.exists_eq_succ_of_ne_zero hn
    have hb : b = newtonIterate (rootGrad a) (t.residual realExpm s.1 (.mcc s.2.1 (some ref) s.2.2) a dt) (m + 1) := by
      simp only [b, TriaxialTest.lateral, hu, Bool.false_eq_true, if_false, hm]
    have := rootGrad_hits ha0 _ hex m
    simp only at this
    rw [← hb, hf] at this
    exact ⟨sub_eq_zero.mp this.1, this.2⟩
  have hnext : ∀ s n, Ok s → ∃ s', Ok s' ∧ t.stepIdx realExpm (rootGrad a) (s.1, .mcc s.2.1 (some ref) s.2.2) n =
      .ok (s'.1, .mcc s'.2.1 (some ref) s'.2.2) := by
    intro s n hs
    by_cases h0 : t.startStatic = true ∧ n = 0
    · exact ⟨s, hs, by unfold TriaxialTest.stepIdx; rw [if_pos h0]⟩
    obtain ⟨l1, l2, l3⟩ := hlat s hs
    set b := t.lateral realExpm (rootGrad a) s.1 (.mcc s.2.1 (some ref) s.2.2) a dt with hb
    obtain ⟨c, pc', eps', hc, e1, e2⟩ := driver_mcc_path t.solver rootOps pr reset hd s.1 s.2.1 ref s.2.2 (triaxialL b a) dt
    obtain ⟨k1, -, -⟩ := drained_step_keeps h hpM hmin hconf hM hdt0 (ref 0) hs.2.2.2.2 hs.1 l2 l3 l1
    obtain ⟨v1, v2, v3, v4⟩ := driver_mcc_volume _ _ _ _ _ _ hc
    simp only [Prod.mk.injEq] at e2
    refine ⟨(c.1, pc', eps'), ⟨?_, ?_, ?_⟩, ?_⟩
    · simp only [testStart] at k1 ⊢
      rw [e2.1, e2.2.1, e2.2.2]
      exact k1
    · rw [v4, v2]
    · have hdet : (realExpm (-(dt • triaxialL b a))).det = Real.exp (-(dt * (2 * b + a))) := by
        have : -(dt • triaxialL b a) = Matrix.diagonal ![-(dt * b), -(dt * b), -(dt * a)] := by
          ext i j; fin_cases i <;> fin_cases j <;> simp [triaxialL, Matrix.diagonal]
        rw [this, realExpm_diagonal, Matrix.det_diagonal, Fin.prod_univ_three]
        simp only [Matrix.cons_val]
        rw [← Real.exp_add, ← Real.exp_add]
        congr 1; ring
      have hcv : c.1.volume 0 = Real.exp (-(dt * (2 * b + a))) * s.1.volume 0 := by
        rw [v4, v3, Matrix.det_mul, hdet, hs.2.1]; ring
      have hexp : Real.exp (-(dt * (2 * b + a))) ≤ 1 := by
        rw [← Real.exp_zero, Real.exp_le_exp]
        have := mul_nonneg hdt0.le l2
        linarith
      have hle : c.1.volume 0 ≤ s.1.volume 0 := by rw [hcv]; exact mul_le_of_le_one_left hs.2.2.1 hexp
      have hv' := hs.2.2.2.2
      simp only [MPState.density] at hv'
      refine ⟨by rw [hcv]; exact mul_nonneg (Real.exp_pos _).le hs.2.2.1, by rw [v1]; exact hs.2.2.2.1, ?_⟩
      simp only [MPState.density, v1]
      refine le_trans ?_ hv'
      rw [div_div_eq_mul_div, div_div_eq_mul_div]
      exact div_le_div_of_nonneg_right (mul_le_mul_of_nonneg_left (by linarith) hrho) (by rw [hs.2.2.2.1]; exact hmass)
    · unfold TriaxialTest.stepIdx
      rw [if_neg h0]
      simp only [ha, hdt, Sched.at]
      rw [← hb, hc, ← e1]
  choose! nxt hok hst using hnext
  let seq : ℕ → MPState ℝ dim 1 × (ℕ → ℝ) × (ℕ → Mat3 ℝ) := fun n => Nat.rec (mp0, pc0, eps0) (fun n s => nxt s n) n
  have hseq : ∀ n, Ok (seq n) := by
    intro n
    induction n with
    | zero => exact ⟨hinv, hvol, hv0, rfl, hv⟩
    | succ n ih => exact hok _ _ ih
  refine ⟨fun n => (seq n).1, fun n => (seq n).2.1, fun n => (seq n).2.2, rfl, rfl, rfl, fun n => hst _ _ (hseq n),
    fun n => (hseq n).2.2.2.2, fun n => (hseq n).1.control, fun n => ?_, fun n => ?_, fun n => hmin.trans (hseq n).1.mean_ge, fun n => ?_⟩
  · obtain ⟨l1, l2, l3⟩ := hlat _ (hseq n)
    exact (drained_step_keeps h hpM hmin hconf hM hdt0 (ref 0) (hseq n).2.2.2.2 (hseq n).1 l2 l3 l1).2.1
  · obtain ⟨l1, l2, l3⟩ := hlat _ (hseq n)
    exact (drained_step_keeps h hpM hmin hconf hM hdt0 (ref 0) (hseq n).2.2.2.2 (hseq n).1 l2 l3 l1).2.2
  · have hside : 0 ≤ (seq n).1.stress 0 2 2 - (seq n).1.stress 0 0 0 := (hseq n).1.side
    rw [sign_pos ha0]
    simpa using hside

/-! ### Example -/

/-- Drained compression of slightly overconsolidated clay at a lateral stress of 100. -/
noncomputable def exClayDrained (pConstant : Bool) : TriaxialTest ℝ 3 (LawState ℝ) :=
  { solver := { law := mccLaw realFns rootOps exMCC false }
    confine := 100
    axialRate := .scalar 1
    dt := .scalar (1 / 1000)
    isPConstant := pConstant }

/-- With the lateral stress held the test tends to `p = 150` and an axial stress of 250 (`M = 1`); with the mean stress held, to
an axial stress of 500/3. -/
theorem exClayDrained_limit (b : Bool) {ε : ℝ} (hε : 0 < ε) : ∃ N, ∀ numSteps stride tr,
    { exClayDrained b with numSteps := numSteps, stride := stride }.run realExpm (rootGrad 1) (exPoint 2000 100)
      (.mcc (fun _ => 110) (some fun _ => 0) fun _ => 0) = .ok tr →
    ∀ k (hk : k < tr.length), N ≤ (k + 1) * stride → |tr[k].1.stress 0 2 2 - if b then 500 / 3 else 250| < ε := by
  have hm : Spec.meanStress ((exPoint 2000 100).stress 0) = 100 := by norm_num [exPoint, Spec.meanStress]
  have hax : Spec.Axisymmetric ((exPoint 2000 100).stress 0) := by
    refine ⟨100, 100, ?_⟩
    ext i j
    fin_cases i <;> fin_cases j <;> simp [exPoint]
  have hs : ∀ i, (exPoint 2000 100).stress 0 i i = 100 := fun i => by simp [exPoint]
  have hF : Spec.mccF exMCC.M 110 ((exPoint 2000 100).stress 0) ≤ 0 := by
    rw [mccF_axisymmetric hax, hm, hs, hs]; norm_num
  have hk : drainedSlope b ≤ 1 / 3 := by unfold drainedSlope; split_ifs <;> norm_num
  have hinv : DrainedInv exMCC b 100 (testStart (exPoint 2000 100) (fun _ => 110) fun _ => 0) := by
    refine ⟨hax, ?_, ?_, hF, ?_, ?_, ?_, ?_⟩
    · simp only [Spec.controlled, testStart, hs]; split_ifs <;> norm_num
    · simp only [testStart, hs]; norm_num
    · simp only [testStart, hm]; norm_num
    · simp only [testStart, Drained.pcs, drainedSlope, exMCC]; split_ifs <;> norm_num
    · simp only [testStart]; norm_num
    · intro u h1 h2
      simp only [testStart, exMCC]
      have h3 : u ≤ 101 := by linarith
      nlinarith
  obtain ⟨mp, pc, eps, m1, m2, m3, htest⟩ := drained_test_exists (t := exClayDrained b) (pr := exMCC) false rfl exMCC_clay
    (by norm_num [exMCC]) rfl (by simp [exClayDrained]) (a := 1) rfl one_pos (dt := 1 / 1000) rfl (by norm_num) (by norm_num [exMCC, exClayDrained])
    (by norm_num [exClayDrained]) (by cases b <;> norm_num [exClayDrained, drainedSlope, exMCC]) (exPoint 2000 100)
    (fun _ => 110) (fun _ => 0) (fun _ => 0) (by simp [exPoint]) (by norm_num [exPoint]) (by norm_num [exMCC]) (by norm_num [exPoint])
    (by norm_num [exMCC, exPoint, MPState.density]) hinv
  obtain ⟨N, hN⟩ := drained_critical_partial false rfl exMCC_clay (by norm_num [exMCC]) rfl one_ne_zero rfl (by norm_num) htest
    (by norm_num [exClayDrained]) (fun _ => by norm_num [exMCC]) (by rw [m1]; exact hax) (by rw [m2]; norm_num [exClayDrained])
    (by rw [m1, m2]; exact hF) hε
  rw [m1, m2, m3] at hN
  refine ⟨N, fun numSteps stride tr hr k hk hkN => ?_⟩
  have := (hN numSteps stride tr hr k hk hkN).2 2 2
  simp only [Matrix.diagonal_apply_eq, sign_one] at this
  convert this using 2
  cases b <;> simp [exMCC, exClayDrained, Spec.drainedPressure] <;> norm_num

end Hydrax
