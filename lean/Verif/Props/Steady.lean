import Verif.Model.Figures
import Verif.Props.Uepi
import Verif.Props.Spin
import Mathlib.Topology.Order.IntermediateValue
import Mathlib.Analysis.SpecialFunctions.Log.Basic

/-!
# Property C131: steady states of the elasto-plastic-inertial clay
-/

set_option linter.unusedVariables false
set_option linter.unusedSectionVars false

namespace Hydrax

/-! ### Specification -/

/-- Inertial number of a grain assembly of grain size `d` and grain density `rhoP` sheared at `rate` under the pressure `p`;
the law does not let the pressure fall below `p_ref` here. -/
noncomputable def Spec.inertialNumber (pr : UepiParams ℝ) (rate p : ℝ) : ℝ := rate * pr.d * Real.sqrt (pr.rhoP / max p pr.pRef)

/-- Flow at the inertial steady state: the state is at the apex of the yield surface of the current inertial number, and the
deformation is isochoric and parallel to the stress deviator. -/
structure Spec.SteadyFlow (pr : UepiParams ℝ) (dt : ℝ) (Δε σ : Matrix (Fin 3) (Fin 3) ℝ) (ps I : ℝ) : Prop where
  apex : Spec.meanStress σ = ps
  strength : Spec.qVM σ = pr.Mcsl * Spec.inertialStrength pr.IM pr.Mcsl pr.Minf I * Spec.meanStress σ
  isochoric : Δε.trace = 0
  coaxial : ∃ c : ℝ, 0 < c ∧ Δε = c • Spec.dev σ
  inertial : I = Spec.inertialNumber pr (Spec.shearEq Δε / dt) (Spec.meanStress σ)

/-- Specific volume of a steady flow. -/
noncomputable def Spec.steadyVolume (pr : UepiParams ℝ) (rate p : ℝ) : ℝ :=
  pr.gamma * (pr.pRef / p) ^ pr.lam * Real.exp (Spec.inertialNumber pr rate p / pr.Iv)

/-- Shear stress of a steady flow. -/
noncomputable def Spec.steadyShear (pr : UepiParams ℝ) (rate p : ℝ) : ℝ :=
  pr.Mcsl * Spec.inertialStrength pr.IM pr.Mcsl pr.Minf (Spec.inertialNumber pr rate p) * p

/-! ### Lemmas -/

theorem shearEq_nonneg (e : Mat3 ℝ) : 0 ≤ Spec.shearEq e := Real.sqrt_nonneg _

theorem mean_of_trace_zero {A : Mat3 ℝ} (h : A.trace = 0) : Spec.meanStress A = 0 := by
  rw [meanStress_trace, h, zero_div]

theorem dev_of_trace_zero {A : Mat3 ℝ} (h : A.trace = 0) : Spec.dev A = A := by
  have h0 : Spec.meanStress A = 0 := mean_of_trace_zero h
  have := dev_add_mean A
  rwa [h0, show isoT (0 : ℝ) = 0 by simp [isoT], add_zero] at this

theorem eq_zero_of_dev_trace {A : Mat3 ℝ} (h1 : Spec.dev A = 0) (h2 : A.trace = 0) : A = 0 := by
  rw [← dev_of_trace_zero h2, h1]

theorem inertialNumber_nonneg {pr : UepiParams ℝ} (h : pr.Good) {rate : ℝ} (hr : 0 ≤ rate) (p : ℝ) :
    0 ≤ Spec.inertialNumber pr rate p :=
  mul_nonneg (mul_nonneg hr h.d.le) (Real.sqrt_nonneg _)

theorem pRef_pos {pr : UepiParams ℝ} (h : pr.Good) : 0 < pr.pRef := one_pos.trans_le h.pRef

/-- The inertial number falls with the pressure. -/
theorem inertialNumber_anti {pr : UepiParams ℝ} (h : pr.Good) {rate p p' : ℝ} (hr : 0 ≤ rate) (hp : p ≤ p') :
    Spec.inertialNumber pr rate p' ≤ Spec.inertialNumber pr rate p := by
  unfold Spec.inertialNumber
  have h0 : 0 < max p pr.pRef := lt_max_of_lt_right (pRef_pos h)
  exact mul_le_mul_of_nonneg_left (Real.sqrt_le_sqrt (div_le_div_of_nonneg_left h.rhoP.le h0 (max_le_max_right _ hp)))
    (mul_nonneg hr h.d.le)

/-- It grows with the rate. -/
theorem inertialNumber_rate {pr : UepiParams ℝ} (h : pr.Good) {rate rate' : ℝ} (hr : rate < rate') (p : ℝ) :
    Spec.inertialNumber pr rate p < Spec.inertialNumber pr rate' p := by
  unfold Spec.inertialNumber
  have h0 : 0 < max p pr.pRef := lt_max_of_lt_right (pRef_pos h)
  have h1 : 0 < Real.sqrt (pr.rhoP / max p pr.pRef) := Real.sqrt_pos.mpr (div_pos h.rhoP h0)
  exact mul_lt_mul_of_pos_right (mul_lt_mul_of_pos_right hr h.d) h1

theorem inertialNumber_cont {pr : UepiParams ℝ} (h : pr.Good) (rate : ℝ) : Continuous fun p => Spec.inertialNumber pr rate p := by
  unfold Spec.inertialNumber
  refine continuous_const.mul (Real.continuous_sqrt.comp (continuous_const.div (continuous_id.max continuous_const) fun p => ?_))
  exact (lt_max_of_lt_right (pRef_pos h)).ne'

theorem inertialStrength_mono {IM Mcsl Minf I J : ℝ} (hIM : 0 < IM) (hM : 0 < Mcsl) (hinf : Mcsl ≤ Minf) (hI : 0 ≤ I) (hIJ : I ≤ J) :
    Spec.inertialStrength IM Mcsl Minf I ≤ Spec.inertialStrength IM Mcsl Minf J := by
  have h1 : 1 ≤ Minf / Mcsl := (one_le_div hM).mpr hinf
  unfold Spec.inertialStrength
  rw [div_le_div_iff₀ (by positivity) (by linarith)]
  nlinarith [mul_nonneg hIM.le (sub_nonneg.mpr hIJ), mul_nonneg (mul_nonneg hIM.le (sub_nonneg.mpr hIJ)) (sub_nonneg.mpr h1)]

theorem log_steadyVolume {pr : UepiParams ℝ} (h : pr.Good) {p : ℝ} (hp : 0 < p) (rate : ℝ) :
    Real.log (Spec.steadyVolume pr rate p) =
      Real.log pr.gamma + pr.lam * Real.log pr.pRef - pr.lam * Real.log p + Spec.inertialNumber pr rate p / pr.Iv := by
  have h1 : 0 < pr.pRef / p := div_pos (pRef_pos h) hp
  have a1 := Real.rpow_pos_of_pos h1 pr.lam
  unfold Spec.steadyVolume
  rw [Real.log_mul (mul_pos h.gamma a1).ne' (Real.exp_pos _).ne', Real.log_mul h.gamma.ne' a1.ne', Real.log_rpow h1,
    Real.log_div (pRef_pos h).ne' hp.ne', Real.log_exp]
  ring

theorem steadyVolume_pos {pr : UepiParams ℝ} (h : pr.Good) {p : ℝ} (hp : 0 < p) (rate : ℝ) : 0 < Spec.steadyVolume pr rate p := by
  have a1 := Real.rpow_pos_of_pos (div_pos (pRef_pos h) hp) pr.lam
  have := h.gamma
  unfold Spec.steadyVolume
  positivity

/-! ### C131: which states are steady -/

/-- **C131**: a backward Euler step of the law with a non-zero increment leaves stress, shift pressure and inertial number
unchanged exactly at the inertial steady state. -/
theorem uepi_steady_iff {pr : UepiParams ℝ} (h : pr.Good) {G dt : ℝ} (hG : 0 < G) (hdt : 0 < dt) {Δε σ : Mat3 ℝ} (he : Δε ≠ 0)
    (hp : 0 < Spec.meanStress σ) {ps I : ℝ} :
    (∃ (Λ : ℝ) (ep : Mat3 ℝ), Spec.UepiStep pr G dt σ Δε σ ep ps ps I I Λ 0 0) ↔ Spec.SteadyFlow pr dt Δε σ ps I := by
  have hM := h.Mcsl
  constructor
  · rintro ⟨Λ, ep, s⟩
    have htr : ep.trace = 0 := by
      have := s.hardening
      simpa using this
    have hdev : Spec.dev (Δε - ep) = 0 := by
      have := s.elasticDev
      have h1 : (2 * G) • Spec.dev (Δε - ep) = 0 := left_eq_add.mp this
      exact (smul_eq_zero.mp h1).resolve_left (by positivity)
    have hvol : (Δε - ep).trace = 0 := by
      have h1 : Spec.meanStress σ * 1 = Spec.meanStress σ * Real.exp ((Δε - ep).trace / pr.kap) := by
        rw [mul_one]; exact s.elasticVol
      have h2 := (Real.exp_eq_one_iff _).mp (mul_left_cancel₀ hp.ne' h1).symm
      exact (div_eq_zero_iff.mp h2).resolve_right h.kap.ne'
    have hep : Δε = ep := sub_eq_zero.mp (eq_zero_of_dev_trace hdev hvol)
    subst hep
    have hd : Δε = (Λ * (3 / pr.Mcsl ^ 2)) • Spec.dev σ := by rw [← s.flowDev, dev_of_trace_zero htr]
    have hΛ : 0 < Λ := by
      refine lt_of_le_of_ne s.multiplier fun h0 => he ?_
      rw [hd, ← h0, zero_mul, zero_smul]
    have hps : Spec.meanStress σ = ps := by
      have h1 := s.flowVol
      rw [htr, sub_zero] at h1
      have h2 := (mul_eq_zero.mp h1.symm).resolve_left hΛ.ne'
      linarith
    have hI : I = Spec.inertialNumber pr (Spec.shearEq Δε / dt) (Spec.meanStress σ) := by rw [hps]; exact s.inertial
    have hI0 : 0 ≤ I := by rw [hI]; exact inertialNumber_nonneg h (div_nonneg (shearEq_nonneg _) hdt.le) _
    have hm : 0 < Spec.inertialStrength pr.IM pr.Mcsl pr.Minf I := by
      linarith [(strength_bounds hI0 h.IM hM h.Minf).1]
    refine ⟨hps, ?_, htr, ⟨_, by positivity, hd⟩, hI⟩
    have h1 := s.onSurface
    rw [Spec.inertialF, ← hps] at h1
    have hA : 0 < pr.Mcsl * Spec.inertialStrength pr.IM pr.Mcsl pr.Minf I := mul_pos hM hm
    have h2 : Spec.qVM σ ^ 2 = (pr.Mcsl * Spec.inertialStrength pr.IM pr.Mcsl pr.Minf I * Spec.meanStress σ) ^ 2 := by
      field_simp at h1
      nlinarith
    exact (pow_left_inj₀ (qVM_nonneg σ) (by positivity) two_ne_zero).mp h2
  · rintro ⟨hps, hq, htr, ⟨c, hc, hd⟩, hI⟩
    have hI0 : 0 ≤ I := by rw [hI]; exact inertialNumber_nonneg h (div_nonneg (shearEq_nonneg _) hdt.le) _
    have hm : 0 < Spec.inertialStrength pr.IM pr.Mcsl pr.Minf I := by
      linarith [(strength_bounds hI0 h.IM hM h.Minf).1]
    refine ⟨c * pr.Mcsl ^ 2 / 3, Δε, by positivity, ?_, ?_, ?_, ?_, ?_, ?_, ?_⟩
    · rw [Spec.inertialF, hq, ← hps]
      field_simp
      ring
    · rw [dev_of_trace_zero htr, show c * pr.Mcsl ^ 2 / 3 * (3 / pr.Mcsl ^ 2) = c by field_simp]; exact hd
    · rw [htr, hps]; ring
    · rw [sub_self, dev_zero, smul_zero, add_zero]
    · rw [sub_self, Matrix.trace_zero, zero_div, Real.exp_zero, mul_one]
    · rw [htr, sub_self, sub_self, mul_zero, zero_div, sub_zero]
    · rw [← hps]; exact hI

theorem jaumannRotated_symm {L : Mat3 ℝ} (hL : L.IsSymm) (σ : Mat3 ℝ) (dt : ℝ) : Spec.jaumannRotated L σ dt = σ := by
  unfold Spec.jaumannRotated
  simp only
  rw [hL.eq, sub_self, smul_zero, zero_mul, mul_zero, sub_zero, smul_zero, add_zero]

/-- **C131**, the code: if a yielding step of the law without spin ends where it began, then up to what Newton's method leaves over the
state is the inertial steady state. Here Newton's method is exact. -/
theorem uepi_update_steady (ops : NewtonOps ℝ) {pr : UepiParams ℝ} (h : pr.Good) (σref : Mat3 ℝ) {L : Mat3 ℝ} (hL : L.IsSymm)
    {dt : ℝ} (hdt : 0 < dt) {st : UepiState ℝ} (hp : 1 ≤ Spec.meanStress st.stress) (hps : 1 ≤ st.ps)
    (hy : 0 < (uepiTrial realFns pr L st σref dt).yf) (hq : 1 / 10 ^ 6 ≤ (uepiTrial realFns pr L st σref dt).qTr)
    (he : Spec.strainInc L dt ≠ 0)
    (hr : uepiLeft ops pr (uepiTrial realFns pr L st σref dt) st dt = 0)
    (h1 : (uepiUpdate realFns ops pr σref L dt st).stress = st.stress) (h2 : (uepiUpdate realFns ops pr σref L dt st).ps = st.ps)
    (h3 : (uepiUpdate realFns ops pr σref L dt st).I = st.I) :
    Spec.SteadyFlow pr dt (Spec.strainInc L dt) st.stress st.ps st.I := by
  obtain ⟨Λ, ep, s⟩ := uepi_return_map ops pr h σref L dt hdt st hp hps hy hq
  rw [h1, h2, h3, hr, jaumannRotated_symm hL] at s
  simp only [Pi.zero_apply, zero_div] at s
  exact (uepi_steady_iff h (uepiTrial_Gc pr L σref st dt h (one_pos.trans_le hp)) hdt he (one_pos.trans_le hp)).mp ⟨Λ, ep, s⟩

/-! ### C131: steady states exist and are unique -/

theorem shearEq_pos {e : Mat3 ℝ} (h0 : e ≠ 0) (htr : e.trace = 0) : 0 < Spec.shearEq e := by
  unfold Spec.shearEq
  rw [dev_of_trace_zero htr]
  exact Real.sqrt_pos.mpr (mul_pos (by norm_num) (ddot_pos h0))

theorem qVM_shearEq {e : Mat3 ℝ} (htr : e.trace = 0) : Spec.qVM e = 3 / 2 * Spec.shearEq e := by
  unfold Spec.qVM Spec.shearEq
  have h1 : 3 * Spec.J2 e = (3 / 2) ^ 2 * (2 / 3 * Spec.ddot (Spec.dev e) (Spec.dev e)) := by
    unfold Spec.J2; ring
  rw [h1, Real.sqrt_mul (by positivity), Real.sqrt_sq (by norm_num)]

/-- **C131**: at every pressure, every isochoric rate of deformation has exactly one steady state. -/
theorem steady_unique {pr : UepiParams ℝ} (h : pr.Good) {dt p : ℝ} (hdt : 0 < dt) (hp : 0 < p) {Δε : Mat3 ℝ} (he : Δε ≠ 0)
    (htr : Δε.trace = 0) : ∃! s : Mat3 ℝ × ℝ × ℝ, Spec.meanStress s.1 = p ∧ Spec.SteadyFlow pr dt Δε s.1 s.2.1 s.2.2 := by
  set r := Spec.shearEq Δε with hr
  have hr0 : 0 < r := shearEq_pos he htr
  set I := Spec.inertialNumber pr (r / dt) p with hI
  have hI0 : 0 ≤ I := inertialNumber_nonneg h (div_nonneg hr0.le hdt.le) _
  set q := pr.Mcsl * Spec.inertialStrength pr.IM pr.Mcsl pr.Minf I * p with hq
  have hm : 0 < Spec.inertialStrength pr.IM pr.Mcsl pr.Minf I := by
    linarith [(strength_bounds hI0 h.IM h.Mcsl h.Minf).1]
  have hq0 : 0 < q := mul_pos (mul_pos h.Mcsl hm) hp
  set k := q / (3 / 2 * r) with hk
  have hk0 : 0 < k := by positivity
  have hmean : Spec.meanStress (k • Δε) = 0 := mean_of_trace_zero (by rw [Matrix.trace_smul, htr, smul_zero])
  have hdev : Spec.dev (k • Δε + isoT p) = k • Δε := dev_add_iso hmean p
  have hmp : Spec.meanStress (k • Δε + isoT p) = p := by
    exact mean_add_iso hmean p
  refine ⟨(k • Δε + isoT p, p, I), ⟨hmp, hmp, ?_, htr, ⟨1 / k, by positivity, ?_⟩, ?_⟩, ?_⟩
  · simp only
    rw [qVM_add_iso hmean, qVM_smul hk0.le, qVM_shearEq htr, hmp, hk]
    field_simp
    linarith
  · rw [hdev, smul_smul, one_div, inv_mul_cancel₀ hk0.ne', one_smul]
  · simp only [hmp, hI, hr]
  · rintro ⟨σ, ps, J⟩ ⟨hσ, hs⟩
    simp only at hσ hs
    have hJ : J = I := by rw [hs.inertial, hσ]
    have hqs : Spec.qVM σ = q := by rw [hs.strength, hJ, hσ]
    obtain ⟨c, hc, hd⟩ := hs.coaxial
    have hdv : Spec.dev σ = (1 / c) • Δε := by
      rw [hd, smul_smul, one_div, inv_mul_cancel₀ hc.ne', one_smul]
    have h1 : Spec.qVM σ = 1 / c * (3 / 2 * r) := by
      have e1 : σ = Spec.dev σ + isoT (Spec.meanStress σ) := (dev_add_mean σ).symm
      have h0 : Spec.meanStress ((1 / c) • Δε) = 0 := mean_of_trace_zero (by rw [Matrix.trace_smul, htr, smul_zero])
      rw [e1, hdv, qVM_add_iso h0, qVM_smul (by positivity), qVM_shearEq htr]
    have h2 : 1 / c = k := by
      rw [hk, ← hqs, h1]; field_simp
    have e1 : σ = k • Δε + isoT p := by
      rw [← h2, ← hdv, ← hσ]; exact (dev_add_mean σ).symm
    rw [e1, hJ, ← hs.apex, hσ]

/-- **C131**: an undrained test has exactly one steady state: for every specific volume and rate there is exactly one pressure. -/
theorem steady_undrained_unique {pr : UepiParams ℝ} (h : pr.Good) {rate v : ℝ} (hr : 0 ≤ rate) (hv : 0 < v) :
    ∃! p, 0 < p ∧ Spec.steadyVolume pr rate p = v := by
  have hlam : 0 < pr.lam := h.kap.trans h.lam
  set c := Real.log pr.gamma + pr.lam * Real.log pr.pRef with hc
  set g : ℝ → ℝ := fun x => c - pr.lam * x + Spec.inertialNumber pr rate (Real.exp x) / pr.Iv with hg
  have hgv : ∀ p, 0 < p → Real.log (Spec.steadyVolume pr rate p) = g (Real.log p) := by
    intro p hp
    rw [log_steadyVolume h hp, hg]
    simp only
    rw [Real.exp_log hp]
  have hanti : StrictAnti g := by
    intro x y hxy
    have h1 := inertialNumber_anti h hr (Real.exp_le_exp.mpr hxy.le)
    have h2 : Spec.inertialNumber pr rate (Real.exp y) / pr.Iv ≤ Spec.inertialNumber pr rate (Real.exp x) / pr.Iv :=
      div_le_div_of_nonneg_right h1 h.Iv.le
    have h3 := mul_lt_mul_of_pos_left hxy hlam
    simp only [hg]
    linarith
  have hcont : Continuous g := by
    refine (continuous_const.sub (continuous_const.mul continuous_id)).add
      (((inertialNumber_cont h rate).comp Real.continuous_exp).div_const _)
  set B := Spec.inertialNumber pr rate 0 / pr.Iv with hB
  have hB0 : 0 ≤ B := div_nonneg (inertialNumber_nonneg h hr _) h.Iv.le
  set x0 := (c - Real.log v) / pr.lam with hx0
  set x1 := (c + B - Real.log v) / pr.lam with hx1
  have h01 : x0 ≤ x1 := div_le_div_of_nonneg_right (by linarith) hlam.le
  have hlo : Real.log v ≤ g x0 := by
    have e : pr.lam * x0 = c - Real.log v := by rw [hx0]; field_simp
    have := div_nonneg (inertialNumber_nonneg h hr (Real.exp x0)) h.Iv.le
    simp only [hg]
    linarith
  have hhi : g x1 ≤ Real.log v := by
    have e : pr.lam * x1 = c + B - Real.log v := by rw [hx1]; field_simp
    have := div_le_div_of_nonneg_right (inertialNumber_anti h hr (Real.exp_pos x1).le) h.Iv.le
    simp only [hg]
    linarith
  obtain ⟨x, -, hx⟩ := intermediate_value_Icc' h01 hcont.continuousOn ⟨hhi, hlo⟩
  refine ⟨Real.exp x, ⟨Real.exp_pos x, ?_⟩, ?_⟩
  · have := hgv _ (Real.exp_pos x)
    rw [Real.log_exp, hx] at this
    exact Real.log_injOn_pos (steadyVolume_pos h (Real.exp_pos x) rate) hv this
  · rintro p ⟨hp, hpv⟩
    have h1 := hgv p hp
    rw [hpv, ← hx] at h1
    rw [hanti.injective h1, Real.exp_log hp]

theorem steadyStrength_tendsto {pr : UepiParams ℝ} (h : pr.Good) (rate : ℝ) :
    Filter.Tendsto (fun p => Spec.inertialStrength pr.IM pr.Mcsl pr.Minf (Spec.inertialNumber pr rate p)) Filter.atTop (nhds 1) := by
  have hI : Filter.Tendsto (fun p => Spec.inertialNumber pr rate p) Filter.atTop (nhds 0) := by
    have h1 : Filter.Tendsto (fun p : ℝ => max p pr.pRef) Filter.atTop Filter.atTop :=
      Filter.tendsto_atTop_mono (fun p => le_max_left p pr.pRef) Filter.tendsto_id
    have h2 : Filter.Tendsto (fun p => Real.sqrt (pr.rhoP / max p pr.pRef)) Filter.atTop (nhds 0) := by
      have := (Real.continuous_sqrt.tendsto 0).comp (h1.const_div_atTop pr.rhoP)
      rwa [Real.sqrt_zero] at this
    have := h2.const_mul (rate * pr.d)
    rwa [mul_zero] at this
  have hs : Filter.Tendsto (fun I : ℝ => Spec.inertialStrength pr.IM pr.Mcsl pr.Minf I) (nhds 0) (nhds 1) := by
    have hc : ContinuousAt (fun I : ℝ => Spec.inertialStrength pr.IM pr.Mcsl pr.Minf I) 0 := by
      unfold Spec.inertialStrength
      refine ContinuousAt.div (by fun_prop) (by fun_prop) ?_
      simpa using h.IM.ne'
    have := hc.tendsto
    have e : Spec.inertialStrength pr.IM pr.Mcsl pr.Minf 0 = 1 := by
      unfold Spec.inertialStrength
      have := h.IM.ne'
      rw [zero_mul, add_zero, add_zero, mul_one, div_self this]
    rwa [e] at this
  exact hs.comp hI

theorem steadyStrength_cont {pr : UepiParams ℝ} (h : pr.Good) {rate : ℝ} (hr : 0 ≤ rate) :
    Continuous fun p => Spec.inertialStrength pr.IM pr.Mcsl pr.Minf (Spec.inertialNumber pr rate p) := by
  have hI := inertialNumber_cont h rate
  unfold Spec.inertialStrength
  refine Continuous.div (by fun_prop) (by fun_prop) fun p => ?_
  have := inertialNumber_nonneg h hr p
  have := h.IM
  positivity

theorem steadyStrength_anti {pr : UepiParams ℝ} (h : pr.Good) {rate p p' : ℝ} (hr : 0 ≤ rate) (hp : p ≤ p') :
    Spec.inertialStrength pr.IM pr.Mcsl pr.Minf (Spec.inertialNumber pr rate p') ≤
      Spec.inertialStrength pr.IM pr.Mcsl pr.Minf (Spec.inertialNumber pr rate p) :=
  inertialStrength_mono h.IM h.Mcsl h.Minf (inertialNumber_nonneg h hr _) (inertialNumber_anti h hr hp)

/-- **C131**: a drained test with constant lateral stress `p0`, `q = 3 (p - p0)`, has exactly one steady state if the critical state
line is flatter than the stress path. -/
theorem steady_drained_unique {pr : UepiParams ℝ} (h : pr.Good) (hM3 : pr.Mcsl < 3) {rate p0 : ℝ} (hr : 0 ≤ rate) (hp0 : 0 < p0) :
    ∃! p, 0 < p ∧ Spec.steadyShear pr rate p = 3 * (p - p0) := by
  set m : ℝ → ℝ := fun p => Spec.inertialStrength pr.IM pr.Mcsl pr.Minf (Spec.inertialNumber pr rate p) with hm
  have hm1 : ∀ p, 1 ≤ m p := fun p => (strength_bounds (inertialNumber_nonneg h hr p) h.IM h.Mcsl h.Minf).1
  set f : ℝ → ℝ := fun p => pr.Mcsl * m p - 3 * (1 - p0 / p) with hf
  have hiff : ∀ p, 0 < p → (Spec.steadyShear pr rate p = 3 * (p - p0) ↔ f p = 0) := by
    intro p hp
    have e : Spec.steadyShear pr rate p - 3 * (p - p0) = f p * p := by
      simp only [hf, hm]
      unfold Spec.steadyShear
      field_simp
    constructor
    · intro h1
      rw [h1, sub_self] at e
      exact (mul_eq_zero.mp e.symm).resolve_right hp.ne'
    · intro h1
      rw [h1, zero_mul] at e
      linarith
  have hanti : ∀ p p', 0 < p → p < p' → f p' < f p := by
    intro p p' hp hpp
    have h1 : m p' ≤ m p := steadyStrength_anti h hr hpp.le
    have h2 := mul_le_mul_of_nonneg_left h1 h.Mcsl.le
    have h3 : p0 / p' < p0 / p := div_lt_div_of_pos_left hp0 hp hpp
    simp only [hf]
    linarith
  have hlim : Filter.Tendsto f Filter.atTop (nhds (pr.Mcsl * 1 - 3 * (1 - 0))) := by
    have h1 := (steadyStrength_tendsto h rate).const_mul pr.Mcsl
    have h2 : Filter.Tendsto (fun p : ℝ => p0 / p) Filter.atTop (nhds 0) := Filter.tendsto_id.const_div_atTop p0
    exact h1.sub ((tendsto_const_nhds.sub h2).const_mul 3)
  have hev := (hlim.eventually (gt_mem_nhds (show pr.Mcsl * 1 - 3 * (1 - 0) < 0 by linarith))).and (Filter.eventually_ge_atTop p0)
  obtain ⟨P, hP, hPp⟩ := hev.exists
  have hstart : 0 ≤ f p0 := by
    have := mul_le_mul_of_nonneg_left (hm1 p0) h.Mcsl.le
    have hM := h.Mcsl
    simp only [hf]
    rw [div_self hp0.ne']
    linarith
  have hcont : ContinuousOn f (Set.Icc p0 P) := by
    have h1 : ContinuousOn (fun p => pr.Mcsl * m p) (Set.Icc p0 P) := (continuous_const.mul (steadyStrength_cont h hr)).continuousOn
    have h2 : ContinuousOn (fun p : ℝ => p0 / p) (Set.Icc p0 P) :=
      continuousOn_const.div continuousOn_id fun p hp => (hp0.trans_le hp.1).ne'
    exact h1.sub (continuousOn_const.mul (continuousOn_const.sub h2))
  obtain ⟨p, hpm, hp⟩ := intermediate_value_Icc' hPp hcont ⟨hP.le, hstart⟩
  have hpp : 0 < p := hp0.trans_le hpm.1
  refine ⟨p, ⟨hpp, (hiff p hpp).mpr hp⟩, ?_⟩
  rintro p' ⟨hp', he⟩
  have h0 := (hiff p' hp').mp he
  rcases lt_trichotomy p' p with hlt | heq | hgt
  · have := hanti p' p hp' hlt; rw [h0, hp] at this; exact absurd this (lt_irrefl _)
  · exact heq
  · have := hanti p p' hpp hgt; rw [h0, hp] at this; exact absurd this (lt_irrefl _)

/-! ### C131: the code at a steady state -/

/-- **C131**, the code: from a steady state the next step of the same deformation yields, and the equations its Newton loop
solves have a root at which the step leaves stress, shift pressure and inertial number as they are. -/
theorem uepi_keeps_steady {pr : UepiParams ℝ} (h : pr.Good) (σref : Mat3 ℝ) {L : Mat3 ℝ} (hL : L.IsSymm) {dt : ℝ} (hdt : 0 < dt)
    {st : UepiState ℝ} (hp : 1 ≤ Spec.meanStress st.stress) (hq : 1 / 10 ^ 6 ≤ Spec.qVM st.stress)
    (s : Spec.SteadyFlow pr dt (Spec.strainInc L dt) st.stress st.ps st.I) :
    let t := uepiTrial realFns pr L st σref dt
    0 < t.yf ∧ Spec.qVM st.stress < t.qTr ∧
    ∃ pm, 0 < pm ∧
      (uepiResiduals realFns pr t st dt ![pm, Real.log st.ps]).res = 0 ∧
      (uepiResiduals realFns pr t st dt ![pm, Real.log st.ps]).factor • t.sTr +
        isoT (uepiResiduals realFns pr t st dt ![pm, Real.log st.ps]).p = st.stress ∧
      (uepiResiduals realFns pr t st dt ![pm, Real.log st.ps]).I = st.I := by
  intro t
  have hp0 : 0 < Spec.meanStress st.stress := one_pos.trans_le hp
  obtain ⟨c, hc, hd⟩ := s.coaxial
  have hps : st.ps = Spec.meanStress st.stress := s.apex.symm
  have hM := h.Mcsl
  have hI0 : 0 ≤ st.I := by rw [s.inertial]; exact inertialNumber_nonneg h (div_nonneg (shearEq_nonneg _) hdt.le) _
  have hm1 := (strength_bounds hI0 h.IM hM h.Minf).1
  have hG : 0 < t.Gc := uepiTrial_Gc pr L σref st dt h hp0
  have hpp : t.pPrev = Spec.meanStress st.stress := uepiTrial_pPrev pr L σref st dt
  have hdv : t.deV = 0 := (uepiTrial_deV pr L σref st dt).trans s.isochoric
  have hpt : t.pTr = Spec.meanStress st.stress := by
    have := uepiTrial_pTr pr L σref st dt
    rwa [s.isochoric, zero_div, Real.exp_zero, mul_one] at this
  have hsT : t.sTr = (1 + 2 * t.Gc * c) • Spec.dev st.stress := by
    have h1 := uepiTrial_sTr pr L σref st dt
    rw [jaumannRotated_symm hL, dev_of_trace_zero s.isochoric, hd, smul_smul] at h1
    rw [add_smul, one_smul]
    exact h1
  have hqd : Spec.qVM (Spec.dev st.stress) = Spec.qVM st.stress := by
    unfold Spec.qVM Spec.J2; rw [dev_dev]
  have hqT : t.qTr = (1 + 2 * t.Gc * c) * Spec.qVM st.stress := by
    have h1 : t.qTr = Spec.qVM t.sTr := uepiTrial_qTr pr L σref st dt
    rw [h1, hsT, qVM_smul (by positivity), hqd]
  have hq0 : 0 < Spec.qVM st.stress := lt_of_lt_of_le (by positivity) hq
  have hlt : Spec.qVM st.stress < t.qTr := by
    rw [hqT]
    have : 0 < 2 * t.Gc * c * Spec.qVM st.stress := by positivity
    linarith
  have hyf : t.yf = t.qTr * t.qTr / (pr.Mcsl * 1 * (pr.Mcsl * 1)) + t.pTr * t.pTr - st.ps * 2 * t.pTr := rfl
  have hqM : pr.Mcsl * Spec.meanStress st.stress ≤ Spec.qVM st.stress := by
    rw [s.strength]
    have := mul_le_mul_of_nonneg_left hm1 (mul_pos hM hp0).le
    linarith
  have hy : 0 < t.yf := by
    rw [hyf, hpt, hps]
    have h1 : (pr.Mcsl * Spec.meanStress st.stress) ^ 2 < t.qTr ^ 2 :=
      pow_lt_pow_left₀ (hqM.trans_lt hlt) (mul_pos hM hp0).le two_ne_zero
    have h2 : Spec.meanStress st.stress ^ 2 < t.qTr * t.qTr / (pr.Mcsl * 1 * (pr.Mcsl * 1)) := by
      rw [lt_div_iff₀ (by positivity)]; nlinarith
    nlinarith
  refine ⟨hy, hlt, c / 3, by positivity, ?_⟩
  set x : Fin 2 → ℝ := ![c / 3, Real.log st.ps] with hx
  have hps0 : 0 < st.ps := by rw [hps]; exact hp0
  have hps1 : 1 ≤ st.ps := by rw [hps]; exact hp
  set a := uepiResiduals realFns pr t st dt x with ha
  have hfac : a.factor = 1 / (1 + 2 * t.Gc * c) := by
    change 1 / (1 + 6 * t.Gc * (c / 3)) = _
    congr 1; ring
  have hden : 0 < 1 + 2 * t.Gc * c := by positivity
  have hqa : max t.qTr (1 / 10 ^ 6) * (1 / (1 + 6 * t.Gc * (c / 3))) = Spec.qVM st.stress := by
    rw [max_eq_left (hq.trans hlt.le), hqT, show 1 + 6 * t.Gc * (c / 3) = 1 + 2 * t.Gc * c by ring]
    field_simp
  have hsh : 2 * (c / 3) * Spec.qVM st.stress = Spec.shearEq (Spec.strainInc L dt) := by
    have h1 := qVM_shearEq s.isochoric
    have h2 : Spec.qVM (Spec.strainInc L dt) = c * Spec.qVM st.stress := by
      conv_lhs => rw [hd]
      rw [qVM_smul hc.le, hqd]
    linarith
  have hIa : a.I = st.I := by
    have e : a.I = uIp realFns (max (Real.exp (Real.log st.ps)) pr.pRef)
        (2 * (c / 3) * (max t.qTr (1 / 10 ^ 6) * (1 / (1 + 6 * t.Gc * (c / 3)))) / dt) pr.d pr.rhoP := rfl
    rw [e, hqa, hsh, Real.exp_log hps0, s.inertial, hps]
    unfold uIp Spec.inertialNumber
    simp only [realFns_sqrt]
    rw [max_eq_left]
    exact le_trans (by norm_num) (hp.trans (le_max_left _ _))
  have hdp : a.depsPV = 0 := by
    have e : a.depsPV = (pr.lam - pr.kap) * (Real.log st.ps - Real.log (max st.ps 1)) - (a.I - st.I) / pr.Iv := rfl
    rw [e, hIa, max_eq_left hps1]; ring
  have hpa : a.p = Spec.meanStress st.stress := by
    have e : a.p = max t.pPrev 1 * Real.exp ((t.deV - a.depsPV) / pr.kap) := rfl
    rw [e, hdp, hdv, hpp, max_eq_left hp, sub_zero, zero_div, Real.exp_zero, mul_one]
  refine ⟨?_, ?_, hIa⟩
  · ext i
    fin_cases i
    · have e : a.res 0 = uYield a.p (Real.exp (Real.log st.ps)) (max t.qTr (1 / 10 ^ 6) * (1 / (1 + 6 * t.Gc * (c / 3)))) pr.Mcsl
          (uMI a.I pr.IM pr.Mcsl pr.Minf) := rfl
      change a.res 0 = 0
      rw [e, hqa, hpa, Real.exp_log hps0, hIa, uMI_spec hI0 h.IM, s.strength, hps]
      unfold uYield
      have hm : 0 < Spec.inertialStrength pr.IM pr.Mcsl pr.Minf st.I := by linarith
      field_simp
      ring
    · have e : a.res 1 = (c / 3 * (2 * (a.p - Real.exp (Real.log st.ps))) * pr.Mcsl ^ 2 - a.depsPV) * 10 ^ 4 := rfl
      change a.res 1 = 0
      rw [e, hdp, hpa, Real.exp_log hps0, hps]
      ring
  · rw [hfac, hpa, hsT, smul_smul, one_div, inv_mul_cancel₀ hden.ne', one_smul]
    exact dev_add_mean _

/-! ### C131: faster is stronger -/

/-- **C131**: at the same volume faster shearing is steady at a higher pressure, inertial number and shear stress. -/
theorem steady_undrained_faster {pr : UepiParams ℝ} (h : pr.Good) {rate rate' p p' : ℝ} (hr : 0 ≤ rate) (hrr : rate < rate')
    (hp : 0 < p) (hp' : 0 < p') (hv : Spec.steadyVolume pr rate p = Spec.steadyVolume pr rate' p') :
    p < p' ∧ Spec.inertialNumber pr rate p < Spec.inertialNumber pr rate' p' ∧
      Spec.steadyShear pr rate p < Spec.steadyShear pr rate' p' := by
  have hlam : 0 < pr.lam := h.kap.trans h.lam
  have hl : Real.log (Spec.steadyVolume pr rate p) = Real.log (Spec.steadyVolume pr rate' p') := by rw [hv]
  rw [log_steadyVolume h hp, log_steadyVolume h hp'] at hl
  have hpp : p < p' := by
    by_contra hn
    have hle := not_lt.mp hn
    have h1 := (inertialNumber_anti h hr hle).trans_lt (inertialNumber_rate h hrr p')
    have h2 := div_lt_div_of_pos_right h1 h.Iv
    have h3 := mul_le_mul_of_nonneg_left (Real.log_le_log hp' hle) hlam.le
    linarith
  have hI : Spec.inertialNumber pr rate p < Spec.inertialNumber pr rate' p' := by
    have h3 := mul_lt_mul_of_pos_left (Real.log_lt_log hp hpp) hlam
    have h4 : Spec.inertialNumber pr rate p / pr.Iv < Spec.inertialNumber pr rate' p' / pr.Iv := by linarith
    exact (div_lt_div_iff_of_pos_right h.Iv).mp h4
  refine ⟨hpp, hI, ?_⟩
  have hI0 := inertialNumber_nonneg h hr p
  have h1 := inertialStrength_mono h.IM h.Mcsl h.Minf hI0 hI.le
  have h2 : 0 < Spec.inertialStrength pr.IM pr.Mcsl pr.Minf (Spec.inertialNumber pr rate' p') := by
    linarith [(strength_bounds hI0 h.IM h.Mcsl h.Minf).1]
  unfold Spec.steadyShear
  have h3 := mul_le_mul_of_nonneg_left h1 h.Mcsl.le
  calc _ ≤ pr.Mcsl * Spec.inertialStrength pr.IM pr.Mcsl pr.Minf (Spec.inertialNumber pr rate' p') * p :=
        mul_le_mul_of_nonneg_right h3 hp.le
    _ < _ := mul_lt_mul_of_pos_left hpp (mul_pos h.Mcsl h2)

/-- **C131**: at the same lateral stress faster shearing is steady at no lower pressure and shear stress. -/
theorem steady_drained_faster {pr : UepiParams ℝ} (h : pr.Good) {rate rate' p0 p p' : ℝ} (hr : 0 ≤ rate) (hrr : rate < rate')
    (hp0 : 0 < p0) (hp : 0 < p) (hp' : 0 < p') (h1 : Spec.steadyShear pr rate p = 3 * (p - p0))
    (h2 : Spec.steadyShear pr rate' p' = 3 * (p' - p0)) : p ≤ p' ∧ Spec.steadyShear pr rate p ≤ Spec.steadyShear pr rate' p' := by
  have hpp : p ≤ p' := by
    by_contra hn
    have hlt := not_le.mp hn
    have hm := inertialStrength_mono h.IM h.Mcsl h.Minf (inertialNumber_nonneg h hr p)
      ((inertialNumber_anti h hr hlt.le).trans (inertialNumber_rate h hrr p').le)
    have hM := mul_le_mul_of_nonneg_left hm h.Mcsl.le
    unfold Spec.steadyShear at h1 h2
    set a := pr.Mcsl * Spec.inertialStrength pr.IM pr.Mcsl pr.Minf (Spec.inertialNumber pr rate p)
    set b := pr.Mcsl * Spec.inertialStrength pr.IM pr.Mcsl pr.Minf (Spec.inertialNumber pr rate' p')
    have e1 : (3 - a) * p = 3 * p0 := by linarith
    have e2 : (3 - b) * p' = 3 * p0 := by linarith
    have ha : 0 < 3 - a := by
      by_contra hneg
      have := mul_nonpos_of_nonpos_of_nonneg (not_lt.mp hneg) hp.le
      linarith
    nlinarith [mul_lt_mul_of_pos_left hlt ha, mul_nonneg (sub_nonneg.mpr hM) hp'.le]
  exact ⟨hpp, by rw [h1, h2]; linarith⟩

/-! ### C131: where the figures draw them -/

theorem figLine_eq {M pmax p : ℝ} (hp : 0 < pmax) : figLine M pmax p = M * p := by
  unfold figLine; field_simp

theorem logSegment_power {a b x0 x1 x : ℝ} (ha : 0 < a) (h0 : 0 < x0) (h1 : 0 < x1) (hne : x0 ≠ x1) (hx : 0 < x) :
    logSegment realFns x0 (a * x0 ^ b) x1 (a * x1 ^ b) x = a * x ^ b := by
  have hl : Real.log x1 - Real.log x0 ≠ 0 := fun h => hne (Real.log_injOn_pos h0 h1 (by linarith))
  have e : ∀ y, 0 < y → Real.log (a * y ^ b) = Real.log a + b * Real.log y := fun y hy => by
    rw [Real.log_mul ha.ne' (Real.rpow_pos_of_pos hy b).ne', Real.log_rpow hy]
  have e2 := e x hx
  unfold logSegment
  simp only [realFns_exp, realFns_log]
  rw [e x0 h0, e x1 h1]
  have e3 : Real.log a + b * Real.log x0 + (Real.log x - Real.log x0) / (Real.log x1 - Real.log x0) *
      (Real.log a + b * Real.log x1 - (Real.log a + b * Real.log x0)) = Real.log (a * x ^ b) := by
    rw [e2, show Real.log a + b * Real.log x1 - (Real.log a + b * Real.log x0) = b * (Real.log x1 - Real.log x0) by ring]
    field_simp
    ring
  rw [e3, Real.exp_log (mul_pos ha (Real.rpow_pos_of_pos hx b))]

/-- `get_v_csl` as a power law of the pressure. -/
theorem uVCsl_power {gamma lam p pref : ℝ} (hr : 0 < pref) (hp : 0 < p) :
    uVCsl realFns p pref gamma lam = gamma * pref ^ lam * p ^ (-lam) := by
  unfold uVCsl
  simp only [realFns_pow]
  rw [Real.div_rpow hr.le hp.le, Real.rpow_neg hp.le]
  ring

/-- **C131**, the drawn lines: a state in steady flow lies on the drawn steady state line, at the apex of the drawn yield surface,
and in the `(p, v)` plot on the drawn steady state line, if these are drawn for the inertial number of the law. -/
theorem steady_drawn {pr : UepiParams ℝ} (h : pr.Good) (href : pr.pRef = 1000) {dt ps I pmax : ℝ} (hdt : 0 < dt) (hm : 0 < pmax)
    (h1 : pmax ≠ 1) {Δε σ : Mat3 ℝ} (hp : 0 < Spec.meanStress σ) (s : Spec.SteadyFlow pr dt Δε σ ps I) :
    figLine (uIssM I pr.IM pr.Mcsl pr.Minf) pmax (Spec.meanStress σ) = Spec.qVM σ ∧
    figIys realFns pr (Spec.meanStress σ) I (Spec.meanStress σ) = Spec.qVM σ ∧
    (∀ p, 0 < p → p ≠ Spec.meanStress σ → figIys realFns pr (Spec.meanStress σ) I p < Spec.qVM σ) ∧
    figIssV realFns pr I pmax (Spec.meanStress σ) = Spec.inertialLine pr.gamma pr.pRef pr.lam pr.kap pr.Iv ps (Spec.meanStress σ) I ∧
    figIssV realFns pr I pmax (Spec.meanStress σ) = Spec.steadyVolume pr (Spec.shearEq Δε / dt) (Spec.meanStress σ) := by
  have hI0 : 0 ≤ I := by rw [s.inertial]; exact inertialNumber_nonneg h (div_nonneg (shearEq_nonneg _) hdt.le) _
  have hb := strength_bounds hI0 h.IM h.Mcsl h.Minf
  have hA : 0 < pr.Mcsl * Spec.inertialStrength pr.IM pr.Mcsl pr.Minf I := mul_pos h.Mcsl (by linarith [hb.1])
  set P := Spec.meanStress σ with hP
  have hys : ∀ p, figIys realFns pr P I p =
      pr.Mcsl * Spec.inertialStrength pr.IM pr.Mcsl pr.Minf I * (Real.sqrt (2 * (P / p) - 1) * p) := by
    intro p
    unfold figIys uUnifiedM uMXi
    simp only [realFns_sqrt]
    rw [uMI_spec hI0 h.IM]
    ring
  have hv : figIssV realFns pr I pmax P = pr.gamma * (pr.pRef / P) ^ pr.lam * Real.exp (I / pr.Iv) := by
    have e : ∀ p, 0 < p → uIssV realFns (uVCsl realFns p 1000 pr.gamma pr.lam) I pr.Iv =
        pr.gamma * 1000 ^ pr.lam * Real.exp (I / pr.Iv) * p ^ (-pr.lam) := by
      intro p hp0
      unfold uIssV uVI
      rw [uVCsl_power (by norm_num) hp0]
      simp only [realFns_exp]
      ring
    have ha : 0 < pr.gamma * 1000 ^ pr.lam * Real.exp (I / pr.Iv) := by
      have := h.gamma
      positivity
    unfold figIssV
    rw [e 1 one_pos, e pmax hm, logSegment_power ha one_pos hm h1.symm hp, href, Real.div_rpow (by norm_num) hp.le,
      Real.rpow_neg hp.le]
    ring
  refine ⟨?_, ?_, ?_, ?_, ?_⟩
  · rw [figLine_eq hm, uIssM, uMI_spec hI0 h.IM, s.strength]
  · rw [hys, div_self hp.ne', s.strength, show (2 : ℝ) * 1 - 1 = 1 by norm_num, Real.sqrt_one, one_mul]
  · intro p hp0 hne
    rw [hys, s.strength]
    refine mul_lt_mul_of_pos_left ?_ hA
    have e : Real.sqrt (2 * (P / p) - 1) * p = Real.sqrt ((2 * P - p) * p) := by
      rw [show (2 * P - p) * p = (2 * (P / p) - 1) * p ^ 2 by field_simp, Real.sqrt_mul' _ (sq_nonneg p), Real.sqrt_sq hp0.le]
    rw [e]
    refine (Real.sqrt_lt' hp).mpr ?_
    have : 0 < (P - p) ^ 2 := by
      have : P - p ≠ 0 := sub_ne_zero.mpr hne.symm
      positivity
    nlinarith
  · have hps : ps = P := s.apex.symm
    rw [hv, Spec.inertialLine, hps, div_self hp.ne', Real.one_rpow, mul_one]
  · rw [hv, Spec.steadyVolume, ← s.inertial]

/-! ### C131: the inertial number of the figures -/

/-- The rate of a step is the von Mises rate of its velocity gradient. -/
theorem shearEq_strainInc (L : Mat3 ℝ) {dt : ℝ} (hdt : 0 < dt) :
    Spec.shearEq (Spec.strainInc L dt) / dt = Spec.shearEq (symTensor L) := by
  have e : Spec.strainInc L dt = dt • symTensor L := by
    unfold Spec.strainInc symTensor
    rw [smul_smul]; congr 1; ring
  have e2 : Spec.dev (dt • symTensor L) = dt • Spec.dev (symTensor L) := by
    have := dev_smul_add dt 0 (symTensor L)
    have e3 : Spec.dev (dt • symTensor L) = dt • symTensor L - isoT (Spec.meanStress (dt • symTensor L)) :=
      eq_sub_of_add_eq (dev_add_mean _)
    have e4 : Spec.dev (symTensor L) = symTensor L - isoT (Spec.meanStress (symTensor L)) := eq_sub_of_add_eq (dev_add_mean _)
    rw [e3, e4, meanStress_smul, smul_sub]
    congr 1
    unfold isoT
    rw [smul_smul]
  unfold Spec.shearEq
  rw [e, e2, ddot_smul, show 2 / 3 * (dt * dt * Spec.ddot (Spec.dev (symTensor L)) (Spec.dev (symTensor L))) =
    dt ^ 2 * (2 / 3 * Spec.ddot (Spec.dev (symTensor L)) (Spec.dev (symTensor L))) by ring, Real.sqrt_mul (sq_nonneg _),
    Real.sqrt_sq hdt.le]
  field_simp

theorem shearStrainVm_eq (e : Mat3 ℝ) : shearStrainVm realFns e = Real.sqrt (Spec.shearEq e ^ 2 + 1 / 10 ^ 16) := by
  unfold shearStrainVm Spec.shearEq
  have hd : devStrain e = Spec.dev e := by
    unfold devStrain devStrainV volStrain
    have := eq_sub_of_add_eq (dev_add_mean e)
    rw [this, meanStress_trace]; rfl
  simp only [realFns_sqrt]
  rw [hd, dcontr_eq, Real.sq_sqrt (mul_nonneg (by norm_num) (ddot_self_nonneg _))]

/-- **C131** (partial), the inertial number the figures are drawn for: above the reference pressure it is that of the law up to a shear
rate of `1e-8`. Missing: that it is the one of the law; it is always too large (`figI_missed`), below the reference pressure by
the factor `sqrt (p_ref / p)` and more (`figI_low_pressure`). -/
theorem figI_steady_partial {pr : UepiParams ℝ} (h : pr.Good) {dt ps I : ℝ} (hdt : 0 < dt) {L σ : Mat3 ℝ}
    (hp : pr.pRef ≤ Spec.meanStress σ) (s : Spec.SteadyFlow pr dt (Spec.strainInc L dt) σ ps I) :
    I ≤ figI realFns (shearStrainVm realFns (symTensor L)) (Spec.meanStress σ) pr.d pr.rhoP ∧
    figI realFns (shearStrainVm realFns (symTensor L)) (Spec.meanStress σ) pr.d pr.rhoP ≤
      I + 1 / 10 ^ 8 * pr.d * Real.sqrt (pr.rhoP / Spec.meanStress σ) := by
  have hp0 : 0 < Spec.meanStress σ := (pRef_pos h).trans_le hp
  set P := Spec.meanStress σ with hP
  set r := Spec.shearEq (symTensor L) with hr
  have hr0 : 0 ≤ r := shearEq_nonneg _
  have hI : I = r * pr.d * Real.sqrt (pr.rhoP / P) := by
    rw [s.inertial, shearEq_strainInc L hdt, Spec.inertialNumber, ← hP, max_eq_left hp]
  have hf : figI realFns (shearStrainVm realFns (symTensor L)) P pr.d pr.rhoP =
      Real.sqrt (r ^ 2 + 1 / 10 ^ 16) * pr.d * Real.sqrt (pr.rhoP / P) := by
    unfold figI
    rw [shearStrainVm_eq, ← hr]
    simp only [realFns_sqrt]
    rw [div_eq_mul_inv _ (Real.sqrt (P / pr.rhoP)), ← Real.sqrt_inv, inv_div]
  have hk : 0 ≤ pr.d * Real.sqrt (pr.rhoP / P) := mul_nonneg h.d.le (Real.sqrt_nonneg _)
  rw [hf, hI]
  constructor
  · have h1 : r ≤ Real.sqrt (r ^ 2 + 1 / 10 ^ 16) := Real.le_sqrt_of_sq_le (by norm_num)
    have := mul_le_mul_of_nonneg_right h1 hk
    linarith
  · have h1 : Real.sqrt (r ^ 2 + 1 / 10 ^ 16) ≤ r + 1 / 10 ^ 8 := by
      refine Real.sqrt_le_iff.mpr ⟨by positivity, ?_⟩
      nlinarith
    have := mul_le_mul_of_nonneg_right h1 hk
    linarith

/-- Below the reference pressure the inertial number of the figures is too large by `sqrt (p_ref / p)`. -/
theorem figI_low_pressure {pr : UepiParams ℝ} (h : pr.Good) {dt ps I : ℝ} (hdt : 0 < dt) {L σ : Mat3 ℝ} (hp0 : 0 < Spec.meanStress σ)
    (hp : Spec.meanStress σ ≤ pr.pRef) (s : Spec.SteadyFlow pr dt (Spec.strainInc L dt) σ ps I) :
    I * Real.sqrt (pr.pRef / Spec.meanStress σ) < figI realFns (shearStrainVm realFns (symTensor L)) (Spec.meanStress σ) pr.d pr.rhoP := by
  set P := Spec.meanStress σ with hP
  set r := Spec.shearEq (symTensor L) with hr
  have hr0 : 0 ≤ r := shearEq_nonneg _
  have hR := pRef_pos h
  have hI : I = r * pr.d * Real.sqrt (pr.rhoP / pr.pRef) := by
    rw [s.inertial, shearEq_strainInc L hdt, Spec.inertialNumber, ← hP, max_eq_right hp]
  have hf : figI realFns (shearStrainVm realFns (symTensor L)) P pr.d pr.rhoP =
      Real.sqrt (r ^ 2 + 1 / 10 ^ 16) * pr.d * Real.sqrt (pr.rhoP / P) := by
    unfold figI
    rw [shearStrainVm_eq, ← hr]
    simp only [realFns_sqrt]
    rw [div_eq_mul_inv _ (Real.sqrt (P / pr.rhoP)), ← Real.sqrt_inv, inv_div]
  have hk : 0 < pr.d * Real.sqrt (pr.rhoP / P) := mul_pos h.d (Real.sqrt_pos.mpr (div_pos h.rhoP hp0))
  have e : Real.sqrt (pr.rhoP / pr.pRef) * Real.sqrt (pr.pRef / P) = Real.sqrt (pr.rhoP / P) := by
    rw [← Real.sqrt_mul (div_pos h.rhoP hR).le]
    congr 1
    field_simp
  have h1 : r < Real.sqrt (r ^ 2 + 1 / 10 ^ 16) := by
    refine Real.lt_sqrt_of_sq_lt ?_
    norm_num
  have := mul_lt_mul_of_pos_right h1 hk
  rw [hf, hI, mul_assoc, e]
  linarith

/-- Why C131 is partial: a state in steady flow lies strictly below the steady state line of the figure, which is drawn for an
inertial number that is too large. -/
theorem figI_missed {pr : UepiParams ℝ} (h : pr.Good) (hinf : pr.Mcsl < pr.Minf) {dt ps I pmax : ℝ} (hdt : 0 < dt) (hm : 0 < pmax)
    {L σ : Mat3 ℝ} (hp : 0 < Spec.meanStress σ) (s : Spec.SteadyFlow pr dt (Spec.strainInc L dt) σ ps I) :
    I < figI realFns (shearStrainVm realFns (symTensor L)) (Spec.meanStress σ) pr.d pr.rhoP ∧
    Spec.qVM σ < figLine (uIssM (figI realFns (shearStrainVm realFns (symTensor L)) (Spec.meanStress σ) pr.d pr.rhoP) pr.IM pr.Mcsl pr.Minf)
      pmax (Spec.meanStress σ) := by
  have hI0 : 0 ≤ I := by rw [s.inertial]; exact inertialNumber_nonneg h (div_nonneg (shearEq_nonneg _) hdt.le) _
  have hlt : I < figI realFns (shearStrainVm realFns (symTensor L)) (Spec.meanStress σ) pr.d pr.rhoP := by
    set P := Spec.meanStress σ with hP
    set r := Spec.shearEq (symTensor L) with hr
    have hI : I = r * pr.d * Real.sqrt (pr.rhoP / max P pr.pRef) := by
      rw [s.inertial, shearEq_strainInc L hdt, Spec.inertialNumber]
    have hf : figI realFns (shearStrainVm realFns (symTensor L)) P pr.d pr.rhoP =
        Real.sqrt (r ^ 2 + 1 / 10 ^ 16) * pr.d * Real.sqrt (pr.rhoP / P) := by
      unfold figI
      rw [shearStrainVm_eq, ← hr]
      simp only [realFns_sqrt]
      rw [div_eq_mul_inv _ (Real.sqrt (P / pr.rhoP)), ← Real.sqrt_inv, inv_div]
    have h1 : r < Real.sqrt (r ^ 2 + 1 / 10 ^ 16) := by
      refine Real.lt_sqrt_of_sq_lt ?_
      norm_num
    have hk : 0 < pr.d * Real.sqrt (pr.rhoP / P) := mul_pos h.d (Real.sqrt_pos.mpr (div_pos h.rhoP hp))
    have h2 : Real.sqrt (pr.rhoP / max P pr.pRef) ≤ Real.sqrt (pr.rhoP / P) :=
      Real.sqrt_le_sqrt (div_le_div_of_nonneg_left h.rhoP.le hp (le_max_left _ _))
    have h3 := mul_le_mul_of_nonneg_left h2 (mul_nonneg (shearEq_nonneg (symTensor L)) h.d.le)
    have h4 := mul_lt_mul_of_pos_right h1 hk
    rw [hf, hI]
    linarith
  refine ⟨hlt, ?_⟩
  set J := figI realFns (shearStrainVm realFns (symTensor L)) (Spec.meanStress σ) pr.d pr.rhoP with hJ
  have hJ0 : 0 ≤ J := hI0.trans hlt.le
  rw [figLine_eq hm, uIssM, uMI_spec hJ0 h.IM, s.strength]
  refine mul_lt_mul_of_pos_right (mul_lt_mul_of_pos_left ?_ h.Mcsl) hp
  have h1 : 1 < pr.Minf / pr.Mcsl := (one_lt_div h.Mcsl).mpr hinf
  have hIM := h.IM
  unfold Spec.inertialStrength
  rw [div_lt_div_iff₀ (by positivity) (by positivity)]
  nlinarith [mul_pos hIM (sub_pos.mpr hlt), mul_pos (mul_pos hIM (sub_pos.mpr hlt)) (sub_pos.mpr h1)]

/-! ### C131: examples -/

theorem exShearL_inc : Spec.strainInc exShearL 1 = exShearL := by
  unfold Spec.strainInc exShearL
  rw [Matrix.diagonal_transpose, ← two_smul ℝ, smul_smul]
  norm_num

/-- Steady flow under 2000 Pa and under 500 Pa, half of the reference pressure. -/
theorem exSteadyFlow {p : ℝ} (hp : 0 < p) : ∃ (σ : Mat3 ℝ) (ps I : ℝ), Spec.meanStress σ = p ∧
    Spec.SteadyFlow exUepi 1 (Spec.strainInc exShearL 1) σ ps I := by
  have hne : exShearL ≠ 0 := by
    intro h0
    have := congrFun (congrFun h0 0) 0
    norm_num [exShearL] at this
  have htr : exShearL.trace = 0 := by
    simp [exShearL, Matrix.trace, Fin.sum_univ_three]; norm_num
  rw [exShearL_inc]
  obtain ⟨s, ⟨h1, h2⟩, -⟩ := steady_unique exUepi_good (dt := 1) one_pos hp hne htr
  exact ⟨s.1, s.2.1, s.2.2, h1, h2⟩

example : ∃ σ : Mat3 ℝ, Spec.qVM σ <
    figLine (uIssM (figI realFns (shearStrainVm realFns (symTensor exShearL)) (Spec.meanStress σ) exUepi.d exUepi.rhoP)
      exUepi.IM exUepi.Mcsl exUepi.Minf) 100000 (Spec.meanStress σ) := by
  obtain ⟨σ, ps, I, hp, s⟩ := exSteadyFlow (p := 2000) (by norm_num)
  exact ⟨σ, (figI_missed exUepi_good (by norm_num [exUepi]) one_pos (by norm_num) (by rw [hp]; norm_num) s).2⟩

example : ∃ (σ : Mat3 ℝ) (I : ℝ),
    I * Real.sqrt (1000 / Spec.meanStress σ) < figI realFns (shearStrainVm realFns (symTensor exShearL)) (Spec.meanStress σ) (1 / 1000) 2700 ∧
      Spec.meanStress σ = 250 := by
  obtain ⟨σ, ps, I, hp, s⟩ := exSteadyFlow (p := 250) (by norm_num)
  exact ⟨σ, I, figI_low_pressure exUepi_good one_pos (by rw [hp]; norm_num) (by rw [hp]; norm_num [exUepi]) s, hp⟩

example : ∃ σ : Mat3 ℝ, ∃ I, figLine (uIssM I exUepi.IM exUepi.Mcsl exUepi.Minf) 100000 (Spec.meanStress σ) = Spec.qVM σ ∧ 0 < Spec.qVM σ ∧
    I ≤ figI realFns (shearStrainVm realFns (symTensor exShearL)) (Spec.meanStress σ) exUepi.d exUepi.rhoP := by
  obtain ⟨σ, ps, I, hp, s⟩ := exSteadyFlow (p := 2000) (by norm_num)
  have h1 := steady_drawn exUepi_good rfl one_pos (pmax := 100000) (by norm_num) (by norm_num) (by rw [hp]; norm_num) s
  refine ⟨σ, I, h1.1, ?_, (figI_steady_partial exUepi_good one_pos (by rw [hp]; norm_num [exUepi]) s).1⟩
  obtain ⟨c, hc, hd⟩ := s.coaxial
  have hI0 : 0 ≤ I := by rw [s.inertial]; exact inertialNumber_nonneg exUepi_good (div_nonneg (shearEq_nonneg _) zero_le_one) _
  have := (strength_bounds hI0 exUepi_good.IM exUepi_good.Mcsl exUepi_good.Minf).1
  rw [s.strength, hp]
  have := exUepi_good.Mcsl
  positivity

/-- The steady flow is a step of the law from a state to itself. -/
example : ∃ (σ : Mat3 ℝ) (ps I Λ : ℝ) (ep : Mat3 ℝ),
    Spec.UepiStep exUepi 1 1 σ (Spec.strainInc exShearL 1) σ ep ps ps I I Λ 0 0 ∧ Spec.meanStress σ = 2000 := by
  obtain ⟨σ, ps, I, hp, s⟩ := exSteadyFlow (p := 2000) (by norm_num)
  have hne : Spec.strainInc exShearL 1 ≠ 0 := by
    rw [exShearL_inc]
    intro h0
    have := congrFun (congrFun h0 0) 0
    norm_num [exShearL] at this
  obtain ⟨Λ, ep, h⟩ := (uepi_steady_iff exUepi_good one_pos one_pos hne (by rw [hp]; norm_num)).mpr s
  exact ⟨σ, ps, I, Λ, ep, h, hp⟩

/-- A Newton step can move one unknown to any non-negative value, depending on the Jacobian; then the loop stays at a root. -/
theorem uepiNewton_can_hit (R : (Fin 2 → ℝ) → Fin 2 → ℝ) (s : Fin 2 → ℝ) (y : ℝ) (h0 : R s 0 ≠ 0) (hy : 0 ≤ y) (hne : y ≠ s 0) (n : ℕ) :
    ∃ ops : NewtonOps ℝ, uepiNewton ops R (n + 1) s = ![y, s 1] := by
  classical
  set a := R s 0 with ha
  set b := R s 1 with hb
  set w := (s 0 - y) * (10 / 4) with hw
  have hw0 : w ≠ 0 := mul_ne_zero (sub_ne_zero.mpr hne.symm) (by norm_num)
  set c := (1 - 1 / 10 ^ 20) / w with hc
  set J : Matrix (Fin 2) (Fin 2) ℝ := !![a * c, 0; b * c, w / a] with hJ
  have hdet : J.det = 1 - 1 / 10 ^ 20 := by
    rw [hJ, Matrix.det_fin_two_of, hc]; field_simp; ring
  have hreg : Spec.regularised J.det = 1 := by
    rw [hdet, Spec.regularised, if_pos (by norm_num)]; norm_num
  have hinv : inv2 (10 ^ 6) J = !![w / a, 0; -(b * c), a * c] := by
    have hd : J 0 0 * J 1 1 - J 0 1 * J 1 0 = J.det := (Matrix.det_fin_two J).symm
    simp only [inv2, hd, (safeInv_value _ J.det).1, hreg]
    simp [hJ]
  refine ⟨⟨fun _ x => if x = s then J else 0, fun _ => false⟩, ?_⟩
  have hfirst : uepiNewtonStep ⟨fun _ x => if x = s then J else 0, fun _ => false⟩ R s = ![y, s 1] := by
    have e0 : (inv2 (10 ^ 6) J).mulVec (R s) 0 = w := by
      rw [hinv]
      simp only [Matrix.mulVec, dotProduct, Fin.sum_univ_two, Matrix.of_apply, Matrix.cons_val', Matrix.cons_val_zero,
        Matrix.cons_val_one, Matrix.cons_val_fin_one, ← ha, zero_mul, add_zero]
      field_simp
    have e1 : (inv2 (10 ^ 6) J).mulVec (R s) 1 = 0 := by
      rw [hinv]
      simp only [Matrix.mulVec, dotProduct, Fin.sum_univ_two, Matrix.of_apply, Matrix.cons_val', Matrix.cons_val_zero,
        Matrix.cons_val_one, Matrix.cons_val_fin_one, ← ha, ← hb]
      ring
    simp only [uepiNewtonStep, if_true, e0, e1, Bool.false_eq_true, if_false, Matrix.cons_val_zero, Matrix.cons_val_one,
      Matrix.cons_val_fin_one, neg_zero]
    have e2 : s 0 + 4 / 10 * -w = y := by rw [hw]; ring
    have e3 : clipK (-(1 / 10)) (1 / 10) (0 : ℝ) = 0 := by norm_num [clipK]
    rw [e2, e3, max_eq_left hy, mul_zero, add_zero]
  have hstay : ∀ m, uepiNewton ⟨fun _ x => if x = s then J else 0, fun _ => false⟩ R m ![y, s 1] = ![y, s 1] := by
    intro m
    induction m with
    | zero => rfl
    | succ m ih =>
      have ht' : (![y, s 1] : Fin 2 → ℝ) ≠ s := fun e => hne (congrFun e 0)
      have h00 : inv2 (10 ^ 6) (0 : Matrix (Fin 2) (Fin 2) ℝ) = 0 := by
        ext i j; fin_cases i <;> fin_cases j <;> simp [inv2]
      have e3 : clipK (-(1 / 10)) (1 / 10) (0 : ℝ) = 0 := by norm_num [clipK]
      have : uepiNewtonStep ⟨fun _ x => if x = s then J else 0, fun _ => false⟩ R ![y, s 1] = ![y, s 1] := by
        simp only [uepiNewtonStep, if_neg ht', h00, Matrix.zero_mulVec, Pi.zero_apply, neg_zero, mul_zero, add_zero, e3,
          Bool.false_eq_true, if_false, Matrix.cons_val_zero, Matrix.cons_val_one, Matrix.cons_val_fin_one]
        rw [max_eq_left hy]
      rw [uepiNewton, this, ih]
  rw [uepiNewton, hfirst, hstay]

/-- There are Jacobians with which the code keeps the steady state, as `uepi_update_steady` asks. -/
example : ∃ (st : UepiState ℝ) (ops : NewtonOps ℝ), Spec.meanStress st.stress = 2000 ∧
    (uepiUpdate realFns ops exUepi (isoT 2000) exShearL 1 st).stress = st.stress ∧
    (uepiUpdate realFns ops exUepi (isoT 2000) exShearL 1 st).ps = st.ps ∧
    (uepiUpdate realFns ops exUepi (isoT 2000) exShearL 1 st).I = st.I ∧
    uepiLeft ops exUepi (uepiTrial realFns exUepi exShearL st (isoT 2000) 1) st 1 = 0 := by
  obtain ⟨σ, ps, I, hp, s⟩ := exSteadyFlow (p := 2000) (by norm_num)
  set st : UepiState ℝ := { stress := σ, epsE := 0, ps := ps, I := I } with hst
  have hI0 : 0 ≤ I := by rw [s.inertial]; exact inertialNumber_nonneg exUepi_good (div_nonneg (shearEq_nonneg _) zero_le_one) _
  have hm1 := (strength_bounds hI0 exUepi_good.IM exUepi_good.Mcsl exUepi_good.Minf).1
  have hpsv : ps = 2000 := by rw [← s.apex, hp]
  have hq : 890 * 2 ≤ Spec.qVM σ := by
    rw [s.strength, hp, show exUepi.Mcsl = 89 / 100 from rfl] at *
    linarith
  obtain ⟨hy, hlt, pm, hpm, h1, h2, h3⟩ := uepi_keeps_steady exUepi_good (isoT 2000) (L := exShearL) (Matrix.diagonal_transpose _)
    one_pos (st := st) (by change 1 ≤ Spec.meanStress σ; rw [hp]; norm_num)
    (by change _ ≤ Spec.qVM σ; exact le_trans (by norm_num) hq) s
  set t := uepiTrial realFns exUepi exShearL st (isoT 2000) 1 with ht
  have hR : (uepiResiduals realFns exUepi t st 1 ![0, Real.log ps]).res 0 ≠ 0 := by
    set p1 := (uepiResiduals realFns exUepi t st 1 ![0, Real.log ps]).p with hp1
    have e : (uepiResiduals realFns exUepi t st 1 ![0, Real.log ps]).res 0 =
        uYield p1 (Real.exp (Real.log ps)) (max t.qTr (1 / 10 ^ 6) * (1 / (1 + 6 * t.Gc * 0))) (89 / 100)
          (uMI (uIp realFns (max (Real.exp (Real.log ps)) exUepi.pRef)
            (2 * 0 * (max t.qTr (1 / 10 ^ 6) * (1 / (1 + 6 * t.Gc * 0))) / 1) exUepi.d exUepi.rhoP) (1 / 100) (89 / 100) (135 / 100)) := rfl
    have hqt : 1780 < t.qTr := lt_of_le_of_lt (by linarith) hlt
    rw [e, Real.exp_log (by rw [hpsv]; norm_num), max_eq_left (le_trans (by norm_num) hqt.le), hpsv]
    unfold uYield uMI uIp
    have h4 : t.qTr * t.qTr > 1780 * 1780 := by nlinarith
    have h5 : 0 < t.qTr * t.qTr / (89 / 100 * (89 / 100)) + p1 * p1 - 4000 * p1 := by
      have : 2000 * 2000 < t.qTr * t.qTr / (89 / 100 * (89 / 100)) := by
        rw [lt_div_iff₀ (by norm_num)]; linarith
      nlinarith [sq_nonneg (p1 - 2000)]
    norm_num
    norm_num at h5
    exact fun h6 => h5.ne' (by linarith)
  obtain ⟨ops, hops⟩ := uepiNewton_can_hit (fun x => (uepiResiduals realFns exUepi t st 1 x).res) ![0, Real.log ps] pm hR hpm.le
    hpm.ne' 19
  have hfin : uepiFinal realFns ops exUepi t st 1 = ![pm, Real.log ps] := by
    unfold uepiFinal
    have : max st.ps 1 = ps := max_eq_left (by change 1 ≤ ps; rw [hpsv]; norm_num)
    rw [this]
    exact hops
  have hup : uepiUpdate realFns ops exUepi (isoT 2000) exShearL 1 st = uepiPlastic realFns ops exUepi t st 1 := by
    unfold uepiUpdate; simp only; rw [if_pos hy]
  refine ⟨st, ops, hp, ?_, ?_, ?_, ?_⟩
  · rw [hup]; unfold uepiPlastic; simp only; rw [hfin]; exact h2
  · rw [hup]; unfold uepiPlastic; simp only; rw [hfin]
    change Real.exp (Real.log ps) = ps
    rw [Real.exp_log (by rw [hpsv]; norm_num)]
  · rw [hup]; unfold uepiPlastic; simp only; rw [hfin]; exact h3
  · unfold uepiLeft; rw [hfin]; exact h1

/-- Two undrained tests of the same volume at different rates. -/
example : ∃ p p', 0 < p ∧ p < p' ∧ Spec.steadyShear exUepi (1 / 100) p < Spec.steadyShear exUepi 1 p' := by
  obtain ⟨p, ⟨hp, hv⟩, -⟩ := steady_undrained_unique exUepi_good (rate := 1 / 100) (v := 2) (by norm_num) (by norm_num)
  obtain ⟨p', ⟨hp', hv'⟩, -⟩ := steady_undrained_unique exUepi_good (rate := 1) (v := 2) (by norm_num) (by norm_num)
  have := steady_undrained_faster exUepi_good (by norm_num) (by norm_num) hp hp' (hv.trans hv'.symm)
  exact ⟨p, p', hp, this.1, this.2.2⟩

example : ∃ p p', Spec.steadyShear exUepi (1 / 100) p ≤ Spec.steadyShear exUepi 1 p' ∧ 0 < p ∧ p ≤ p' := by
  obtain ⟨p, ⟨hp, hv⟩, -⟩ := steady_drained_unique exUepi_good (by norm_num [exUepi]) (rate := 1 / 100) (p0 := 50000) (by norm_num) (by norm_num)
  obtain ⟨p', ⟨hp', hv'⟩, -⟩ := steady_drained_unique exUepi_good (by norm_num [exUepi]) (rate := 1) (p0 := 50000) (by norm_num) (by norm_num)
  have := steady_drained_faster exUepi_good (by norm_num) (by norm_num) (by norm_num) hp hp' hv hv'
  exact ⟨p, p', this.2, hp, this.1⟩

example := steady_undrained_unique exUepi_good (rate := 1 / 100) (v := 2) (by norm_num) (by norm_num)

example := steady_drained_unique exUepi_good (by norm_num [exUepi]) (rate := 1 / 100) (p0 := 50000) (by norm_num) (by norm_num)

end Hydrax
