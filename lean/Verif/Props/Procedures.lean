import Verif.Model.Procedures
import Verif.Props.DriverControl

/-!
# Property C127: the loading procedures of the element test scripts
-/

set_option linter.unusedSectionVars false

namespace Hydrax

variable {dim : ℕ} {LS : Type*} (grad : (ℝ → ℝ) → ℝ → ℝ)

/-! ### Specification -/

/-- Axial compression (logarithmic strain) of a point since the start. -/
noncomputable def Spec.axialCompression (mp0 mp : MPState ℝ dim 1) : ℝ := -Real.log (mp.F 0 2 2 / mp0.F 0 2 2)

/-- Strain of a measured record: sum of rates (percent per hour) times durations (seconds). -/
noncomputable def Spec.recordStrain (rates dts : List ℝ) (k : ℕ) : ℝ :=
  ∑ i ∈ Finset.range (k + 1), rates.getD i 0 / 100 / 3600 * dts.getD i 0

/-! ### The numerical procedure -/

theorem axialStrain_static (r d : ℝ) (k : ℕ) :
    Spec.axialStrain (Sched.scalar r).at (Sched.scalar d).at true (k + 1) = k * (r * d) := by
  rw [Spec.axialStrain, Finset.sum_range_succ']
  simp [Sched.at]

/-- **C127**: after entry `k` the point of a numerical test with any law, drained or not, has been compressed by
`k/n` of the requested strain. -/
theorem sip_strain (law : Law ℝ dim LS) (confine totalStrain totalTime : ℝ) (n : ℕ) (undrained : Bool) (hn : 0 < n)
    (hT : totalTime ≠ 0) (mp : MPState ℝ dim 1) (ls : LS) (tr : List (MPState ℝ dim 1 × LS))
    (h : (sipTest law confine n totalStrain totalTime undrained).run realExpm grad mp ls = .ok tr) (hF : mp.F 0 2 2 ≠ 0)
    (k : ℕ) (hk : k < tr.length) : Spec.axialCompression mp tr[k].1 = totalStrain * k / n := by
  have hn' : (n : ℝ) ≠ 0 := by exact_mod_cast hn.ne'
  rw [Spec.axialCompression, prescribed_axial_strain grad _ mp ls tr h k hk hF]
  have h1 : (sipTest law confine n totalStrain totalTime undrained).stride = 1 := rfl
  rw [h1, mul_one]
  have := axialStrain_static (sipRate n totalStrain totalTime) (sipDt n totalTime) k
  refine this.trans ?_
  unfold sipRate sipDt
  field_simp

theorem sip_length (law : Law ℝ dim LS) (confine totalStrain totalTime : ℝ) (n : ℕ) (undrained : Bool)
    (mp : MPState ℝ dim 1) (ls : LS) (tr : List (MPState ℝ dim 1 × LS))
    (h : (sipTest law confine n totalStrain totalTime undrained).run realExpm grad mp ls = .ok tr) : tr.length = n := by
  simp only [TriaxialTest.run] at h
  split_ifs at h
  have h1 := (scanRows_index _ _ _ _ _ h).1
  rw [h1]
  exact Nat.div_one n

/-- **C127** (refuted): a numerical test does not reach the strain that is asked for; the first of its `n` steps is spent at
rest. What is missing is one `n`-th. -/
theorem sip_strain_missed (law : Law ℝ dim LS) (confine totalStrain totalTime : ℝ) (n : ℕ) (undrained : Bool) (hn : 0 < n)
    (hT : totalTime ≠ 0) (hE : totalStrain ≠ 0) (mp : MPState ℝ dim 1) (ls : LS) (tr : List (MPState ℝ dim 1 × LS))
    (h : (sipTest law confine n totalStrain totalTime undrained).run realExpm grad mp ls = .ok tr) (hF : mp.F 0 2 2 ≠ 0)
    (hk : n - 1 < tr.length) :
    Spec.axialCompression mp tr[n - 1].1 = totalStrain - totalStrain / n ∧ Spec.axialCompression mp tr[n - 1].1 ≠ totalStrain := by
  have hn' : (n : ℝ) ≠ 0 := by exact_mod_cast hn.ne'
  have h1 : Spec.axialCompression mp tr[n - 1].1 = totalStrain - totalStrain / n := by
    rw [sip_strain grad law confine totalStrain totalTime n undrained hn hT mp ls tr h hF _ hk, Nat.cast_sub (by omega)]
    field_simp
    simp
  refine ⟨h1, ?_⟩
  rw [h1]
  have : totalStrain / n ≠ 0 := div_ne_zero hE hn'
  intro h2
  exact this (by linarith)

/-- **C127** (refuted): the axial strains returned with the trajectory run from 0 to the whole strain; entry `k` is larger than
the strain of the point by the factor `n/(n-1)`. -/
theorem sip_reported_wrong (law : Law ℝ dim LS) (confine totalStrain totalTime : ℝ) (n : ℕ) (undrained : Bool) (hn : 2 ≤ n)
    (hT : totalTime ≠ 0) (mp : MPState ℝ dim 1) (ls : LS) (tr : List (MPState ℝ dim 1 × LS))
    (h : (sipTest law confine n totalStrain totalTime undrained).run realExpm grad mp ls = .ok tr) (hF : mp.F 0 2 2 ≠ 0) :
    ∃ ε, (sipTest law confine n totalStrain totalTime undrained).axialStrain = some ε ∧ ε.length = tr.length ∧
      ∀ k (hk : k < tr.length), ε[k]? = some (Spec.axialCompression mp tr[k].1 * (n / (n - 1))) := by
  have hl := sip_length grad law confine totalStrain totalTime n undrained mp ls tr h
  have hn' : (n : ℝ) ≠ 0 := by exact_mod_cast (by omega : n ≠ 0)
  have hn1 : (n : ℝ) - 1 ≠ 0 := by
    have : (2 : ℝ) ≤ n := by exact_mod_cast hn
    linarith
  refine ⟨_, rfl, ?_, fun k hk => ?_⟩
  · simp [everyNth, linspace0, sipTest, hl]
  · have hlen : k * 1 < (linspace0 (sipRate n totalStrain totalTime * sipDt n totalTime * n) n).length := by
      simp [linspace0]; omega
    refine (everyNth_get 1 one_pos _ k hlen).trans ?_
    rw [sip_strain grad law confine totalStrain totalTime n undrained (by omega) hT mp ls tr h hF k hk]
    simp only [linspace0, List.getElem_map, List.getElem_range, mul_one, if_neg (by omega : n ≠ 1)]
    congr 1
    unfold sipRate sipDt
    field_simp

/-- **C127**: the strain rate and the duration that are printed belong to the strain that is asked for. -/
theorem sip_label (totalStrain totalTime : ℝ) (n : ℕ) (hn : 0 < n) (hT : totalTime ≠ 0) :
    sipRateHr n totalStrain totalTime * sipHours totalTime = 100 * totalStrain := by
  have hn' : (n : ℝ) ≠ 0 := by exact_mod_cast hn.ne'
  unfold sipRateHr sipHours sipRate sipDt
  field_simp

/-! ### Replaying a record -/

theorem recordDt_length (times : List ℝ) : (recordDt times).length = times.length := by simp [recordDt]

/-- **C127**: the time steps of a record add up to its duration, up to the `1e-16` of the first row. -/
theorem record_duration (times : List ℝ) (k : ℕ) (hk : k < times.length) :
    ∑ i ∈ Finset.range (k + 1), (recordDt times).getD i 0 = 1 / 10 ^ 16 + (times.getD k 0 - times.getD 0 0) := by
  induction k with
  | zero =>
    rw [Finset.sum_range_one, List.getD_eq_getElem _ _ (by rw [recordDt_length]; exact hk)]
    simp [recordDt]
  | succ k ih =>
    rw [Finset.sum_range_succ, ih (by omega), List.getD_eq_getElem (recordDt times) _ (by rw [recordDt_length]; exact hk)]
    simp only [recordDt, List.getElem_map, List.getElem_range, if_neg (Nat.succ_ne_zero k), Nat.add_sub_cancel]
    ring

theorem london_strain (law : Law ℝ dim LS) (confine : ℝ) (undrained : Bool) (rates dts : List ℝ) (hl : rates.length = dts.length)
    (mp : MPState ℝ dim 1) (ls : LS) (tr : List (MPState ℝ dim 1 × LS))
    (h : (londonTest law confine undrained (recordRates rates) dts).run realExpm grad mp ls = .ok tr) (hF : mp.F 0 2 2 ≠ 0)
    (k : ℕ) (hk : k < tr.length) (hkd : k < dts.length) :
    Spec.axialCompression mp tr[k].1 = ∑ i ∈ Finset.range (k + 1), |rates.getD i 0| / 100 / 3600 * dts.getD i 0 := by
  rw [Spec.axialCompression, prescribed_axial_strain grad _ mp ls tr h k hk hF, Spec.axialStrain]
  have h1 : (londonTest law confine undrained (recordRates rates) dts).stride = 1 := rfl
  have h2 : (londonTest law confine undrained (recordRates rates) dts).startStatic = false := rfl
  rw [h1, mul_one, h2]
  refine Finset.sum_congr rfl fun i hi => ?_
  have hi' : i < dts.length := by have := Finset.mem_range.mp hi; omega
  rw [if_neg (by simp)]
  change (Sched.array (recordRates rates)).at i * (Sched.array dts).at i = _
  have hlen : (recordRates rates).length = dts.length := by simp [recordRates, hl]
  simp only [Sched.at]
  rw [min_eq_left (by omega : i ≤ dts.length - 1), min_eq_left (by omega : i ≤ (recordRates rates).length - 1),
    List.getD_eq_getElem (recordRates rates) _ (by omega), List.getD_eq_getElem rates _ (by omega)]
  simp only [recordRates, List.getElem_map, abs_eq_max_neg]

/-- **C127** (partial): a record of loading only is replayed with its strains, and these are also what is reported. -/
theorem london_replay_partial (law : Law ℝ dim LS) (confine : ℝ) (undrained : Bool) (rates dts : List ℝ)
    (hl : rates.length = dts.length) (hr : ∀ r ∈ rates, 0 ≤ r)
    (mp : MPState ℝ dim 1) (ls : LS) (tr : List (MPState ℝ dim 1 × LS))
    (h : (londonTest law confine undrained (recordRates rates) dts).run realExpm grad mp ls = .ok tr) (hF : mp.F 0 2 2 ≠ 0)
    (k : ℕ) (hk : k < tr.length) (hkd : k < dts.length) :
    Spec.axialCompression mp tr[k].1 = Spec.recordStrain rates dts k ∧
      ∃ ε, (londonTest law confine undrained (recordRates rates) dts).axialStrain = some ε ∧
        ε[k]? = some (Spec.recordStrain rates dts k) := by
  have h1 : Spec.axialCompression mp tr[k].1 = Spec.recordStrain rates dts k := by
    rw [london_strain grad law confine undrained rates dts hl mp ls tr h hF k hk hkd, Spec.recordStrain]
    refine Finset.sum_congr rfl fun i hi => ?_
    have hi' : i < rates.length := by have := Finset.mem_range.mp hi; omega
    rw [List.getD_eq_getElem rates _ hi', abs_of_nonneg (hr _ (List.getElem_mem _))]
  refine ⟨h1, ?_⟩
  have h2 := reported_strain_partial grad (londonTest law confine undrained (recordRates rates) dts) dts rfl
    (Or.inr ⟨_, rfl, by simp [recordRates, hl]⟩) rfl rfl mp ls tr h hF k hk hkd
  rwa [show -Real.log (tr[k].1.F 0 2 2 / mp.F 0 2 2) = Spec.recordStrain rates dts k from h1] at h2

/-- **C127** (refuted): the script drops the sign of the measured rates, so that any unloading is replayed as loading. -/
theorem london_unloading_lost (law : Law ℝ dim LS) (confine : ℝ) (undrained : Bool) (rates dts : List ℝ)
    (hl : rates.length = dts.length) (hd : ∀ d ∈ dts, 0 < d)
    (mp : MPState ℝ dim 1) (ls : LS) (tr : List (MPState ℝ dim 1 × LS))
    (h : (londonTest law confine undrained (recordRates rates) dts).run realExpm grad mp ls = .ok tr) (hF : mp.F 0 2 2 ≠ 0)
    (k : ℕ) (hk : k < tr.length) (hkd : k < dts.length) (j : ℕ) (hj : j ≤ k) (hneg : rates.getD j 0 < 0) :
    Spec.recordStrain rates dts k < Spec.axialCompression mp tr[k].1 := by
  rw [london_strain grad law confine undrained rates dts hl mp ls tr h hF k hk hkd, Spec.recordStrain]
  have hdt : ∀ i ≤ k, 0 < dts.getD i 0 := fun i hi => by
    rw [List.getD_eq_getElem dts _ (by omega)]; exact hd _ (List.getElem_mem _)
  refine Finset.sum_lt_sum (fun i hi => ?_) ⟨j, Finset.mem_range.mpr (by omega), ?_⟩
  · have := hdt i (by have := Finset.mem_range.mp hi; omega)
    have := le_abs_self (rates.getD i 0)
    gcongr
  · have := hdt j hj
    have h2 : rates.getD j 0 < |rates.getD j 0| := lt_of_lt_of_le hneg (abs_nonneg _)
    gcongr

/-! ### The data set -/

/-- **C127** (refuted): the samples called drained are compressed at constant mean stress. Whatever the law and whatever the
Newton iteration left over, the lateral stress has fallen by a third of the stress difference, so that it is the confining
stress only where there is no stress difference. -/
theorem dataset_drained_lateral (law : Law ℝ dim LS) (confine : ℝ) (mp : MPState ℝ dim 1) (ls : LS) (rate dt x : ℝ)
    (r : MPState ℝ dim 1 × LS)
    (h : (datasetTest law confine .drained).solver.step realExpm mp ls (triaxialL x rate) dt = .ok r)
    (hs : r.1.stress 0 0 0 = r.1.stress 0 1 1) :
    r.1.stress 0 0 0 = confine - (r.1.stress 0 2 2 - r.1.stress 0 0 0) / 3 +
      (datasetTest law confine .drained).residual realExpm mp ls rate dt x ∧
    ((datasetTest law confine .drained).residual realExpm mp ls rate dt x = 0 →
      (r.1.stress 0 0 0 = confine ↔ r.1.stress 0 2 2 = r.1.stress 0 0 0)) := by
  have h1 := residual_eq (datasetTest law confine .drained) mp ls rate dt x r h
  have h2 : Spec.controlled (datasetTest law confine .drained).isPConstant (r.1.stress 0) =
      (r.1.stress 0 0 0 + r.1.stress 0 1 1 + r.1.stress 0 2 2) / 3 := rfl
  have h3 : (datasetTest law confine .drained).confine = confine := rfl
  rw [h1, h2, h3, ← hs]
  refine ⟨by ring, fun h0 => ⟨fun h4 => by linarith, fun h4 => by linarith⟩⟩

/-- **C127**: the samples called undrained keep their volume. -/
theorem dataset_undrained_volume (law : Law ℝ dim LS) (confine : ℝ) (mp : MPState ℝ dim 1) (ls : LS)
    (tr : List (MPState ℝ dim 1 × LS)) (h : (datasetTest law confine .undrained).run realExpm grad mp ls = .ok tr)
    (r : MPState ℝ dim 1 × LS) (hr : r ∈ tr) : (r.1.F 0).det = (mp.F 0).det :=
  (undrained_volume_constant grad _ rfl mp ls tr h r hr).1

/-- **C127** (refuted): row `k` of a sample is stored with the strain of `k/999` of the test, while its stress is the one after
`(k+1)/1000` of it. -/
theorem dataset_strain_shifted (law : Law ℝ dim LS) (confine : ℝ) (m : DatasetMode) (mp : MPState ℝ dim 1) (ls : LS)
    (ax : Option (List ℝ)) (st : List (Mat3 ℝ)) (h : datasetRow realExpm grad law confine m mp ls = .ok (ax, st))
    (hF : mp.F 0 2 2 ≠ 0) : ∃ (tr : List (MPState ℝ dim 1 × LS)) (ε : List ℝ),
      (datasetTest law confine m).run realExpm grad mp ls = .ok tr ∧ tr.length = 1000 ∧ ax = some ε ∧
      st = tr.map (fun r => (1 / 1000 : ℝ) • r.1.stress 0) ∧
      ∀ k (hk : k < tr.length), ε[k]? = some (20 * (k : ℝ) / 999) ∧ Spec.axialCompression mp tr[k].1 = 2 / 10000 * (k + 1) := by
  unfold datasetRow at h
  cases hr : (datasetTest law confine m).run realExpm grad mp ls with
  | error e => rw [hr] at h; cases h
  | ok tr =>
    rw [hr] at h
    have h1 := Prod.mk.inj (Except.ok.inj h)
    have hl : tr.length = 1000 := by
      have h2 := hr
      simp only [TriaxialTest.run] at h2
      split_ifs at h2
      exact (scanRows_index _ _ _ _ _ h2).1.trans (Nat.div_one 1000)
    have hax : (datasetTest law confine m).axialStrain = some (everyNth 1 (linspace0 (2 / 100 * (1 / 100) * ((1000 : ℕ) : ℝ)) 1000)) := rfl
    rw [hax] at h1
    refine ⟨tr, _, rfl, hl, h1.1.symm, h1.2.symm, fun k hk => ⟨?_, ?_⟩⟩
    · have hlen : k * 1 < (linspace0 (2 / 100 * (1 / 100) * ((1000 : ℕ) : ℝ)) 1000).length := by
        simp [linspace0]; omega
      rw [List.getElem?_map, everyNth_get 1 one_pos _ k hlen, Option.map_some]
      simp only [linspace0, List.getElem_map, List.getElem_range, mul_one]
      congr 1
      norm_num
      ring
    · rw [Spec.axialCompression, prescribed_axial_strain grad _ mp ls tr hr k hk hF, Spec.axialStrain]
      have h3 : (datasetTest law confine m).stride = 1 := rfl
      have h4 : (datasetTest law confine m).startStatic = false := rfl
      rw [h3, h4, mul_one]
      have : ∀ i, (datasetTest law confine m).axialRate.at i * (datasetTest law confine m).dt.at i = 2 / 10000 := by
        intro i
        change (2 / 100 : ℝ) * (1 / 100) = _
        norm_num
      simp only [Bool.false_eq_true, false_and, if_false, this, Finset.sum_const, Finset.card_range, nsmul_eq_mul]
      push_cast
      ring

/-! ### Examples -/

/-- Tests of a linear elastic point run to their end. -/
theorem elastic_runs (t : TriaxialTest ℝ 3 (LawState ℝ)) (hl : t.solver.law = elasticLaw 1000 (1 / 4) false) (hs : t.stride = 1) :
    ∃ tr, t.run realExpm deriv (exPoint 1 5) (.elastic fun _ => 0) = .ok tr ∧ tr.length = t.steps := by
  have hstep : ∀ c i, ∃ c', t.stepIdx realExpm deriv c i = .ok c' := by
    intro c i
    unfold TriaxialTest.stepIdx
    split_ifs
    · exact ⟨c, rfl⟩
    · exact (step_elastic t.solver 1000 (1 / 4) false hl c.1 c.2 (triaxialL (t.lateral realExpm deriv c.1 c.2
        (t.axialRate.at i) (t.dt.at i)) (t.axialRate.at i)) (t.dt.at i)).imp fun _ h => h.1
  obtain ⟨tr, h1, h2⟩ := run_total deriv t hstep (exPoint 1 5) (.elastic fun _ => 0) (by rw [hs]; exact Nat.one_pos)
    (by rw [hs]; exact one_dvd _)
  exact ⟨tr, h1, by rw [h2, hs, Nat.div_one]⟩

/-- Half of the strain in 2000 steps within an hour. -/
example : ∃ tr, (sipTest (elasticLaw 1000 (1 / 4) false) 5 2000 (1 / 2) 3600 false).run realExpm deriv (exPoint 1 5)
      (.elastic fun _ => 0) = .ok tr ∧ ∃ hk : 2000 - 1 < tr.length,
    Spec.axialCompression (exPoint 1 5) tr[2000 - 1].1 = 1 / 2 - 1 / 2 / (2000 : ℕ) := by
  obtain ⟨tr, h1, h2⟩ := elastic_runs (sipTest (elasticLaw 1000 (1 / 4) false) 5 2000 (1 / 2) 3600 false) rfl rfl
  have h3 : tr.length = 2000 := h2
  have hk : 2000 - 1 < tr.length := by omega
  exact ⟨tr, h1, hk, (sip_strain_missed deriv _ 5 (1 / 2) 3600 2000 false (by norm_num) (by norm_num) (by norm_num) _ _ tr h1
    (by norm_num [exPoint]) hk).1⟩

/-- A record with a stretch of unloading. -/
example : ∃ tr, (londonTest (elasticLaw 1000 (1 / 4) false) 5 true (recordRates [5, -5, 5]) [1, 10, 10]).run realExpm deriv
      (exPoint 1 5) (.elastic fun _ => 0) = .ok tr ∧ ∃ hk : 2 < tr.length,
    Spec.recordStrain [5, -5, 5] [1, 10, 10] 2 < Spec.axialCompression (exPoint 1 5) tr[2].1 := by
  obtain ⟨tr, h1, h2⟩ := elastic_runs (londonTest (elasticLaw 1000 (1 / 4) false) 5 true (recordRates [5, -5, 5]) [1, 10, 10]) rfl rfl
  have h3 : tr.length = 3 := h2
  have hk : 2 < tr.length := by omega
  refine ⟨tr, h1, hk, london_unloading_lost deriv _ 5 true [5, -5, 5] [1, 10, 10] rfl ?_ _ _ tr h1 (by norm_num [exPoint]) 2 hk
    (by norm_num) 1 (by norm_num) (by norm_num)⟩
  intro d hd
  fin_cases hd <;> norm_num

/-- A record of loading. -/
example : ∃ tr, (londonTest (elasticLaw 1000 (1 / 4) false) 5 true (recordRates [5, 7]) [1, 10]).run realExpm deriv
      (exPoint 1 5) (.elastic fun _ => 0) = .ok tr ∧ ∃ hk : 1 < tr.length,
    Spec.axialCompression (exPoint 1 5) tr[1].1 = Spec.recordStrain [5, 7] [1, 10] 1 := by
  obtain ⟨tr, h1, h2⟩ := elastic_runs (londonTest (elasticLaw 1000 (1 / 4) false) 5 true (recordRates [5, 7]) [1, 10]) rfl rfl
  have h3 : tr.length = 2 := h2
  have hk : 1 < tr.length := by omega
  refine ⟨tr, h1, hk, (london_replay_partial deriv _ 5 true [5, 7] [1, 10] rfl ?_ _ _ tr h1 (by norm_num [exPoint]) 1 hk
    (by norm_num)).1⟩
  intro d hd
  fin_cases hd <;> norm_num

/-- A sample of a linear elastic point. -/
example (m : DatasetMode) : ∃ ax st, datasetRow realExpm deriv (elasticLaw 1000 (1 / 4) false) 5 m (exPoint 1 5)
      (.elastic fun _ => 0) = .ok (ax, st) ∧ st.length = 1000 := by
  obtain ⟨tr, h1, h2⟩ := elastic_runs (datasetTest (elasticLaw 1000 (1 / 4) false) 5 m) rfl rfl
  refine ⟨_, tr.map (fun r => (1 / 1000 : ℝ) • r.1.stress 0), by rw [datasetRow, h1]; rfl, by rw [List.length_map, h2]; rfl⟩

/-- A drained step of an elastic point under axial compression, without lateral strain. -/
example : ∃ r, (datasetTest (elasticLaw 1000 (1 / 4) false) 5 .drained).solver.step realExpm (exPoint 1 5) (.elastic fun _ => 0)
      (triaxialL (-(1 / 4)) (1 / 2)) 1 = .ok r ∧ r.1.stress 0 0 0 = r.1.stress 0 1 1 ∧ r.1.stress 0 2 2 ≠ r.1.stress 0 0 0 := by
  obtain ⟨r, h1, h2⟩ := step_elastic (datasetTest (elasticLaw 1000 (1 / 4) false) 5 .drained).solver 1000 (1 / 4) false rfl
    (exPoint 1 5) (.elastic fun _ => 0) (triaxialL (-(1 / 4)) (1 / 2)) 1
  refine ⟨r, h1, ?_, ?_⟩
  · rw [h2 0]
    simp [elasticStress, triaxialL, isoT, exPoint]
  · rw [h2 0]
    simp [elasticStress, triaxialL, isoT, exPoint, shearModulus]
    norm_num

end Hydrax
