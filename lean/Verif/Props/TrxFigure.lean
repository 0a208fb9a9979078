import Verif.Model.TrxFigure
import Verif.Props.Figures
import Verif.Props.CriticalTest
import Verif.Model.Calibration

/-!
# The figure of the Cam-Clay triaxial example (C156)
-/

namespace Hydrax

/-- Specific volume of the normal compression line at pressure `p`: the preconsolidation pressure is the pressure. -/
noncomputable def Spec.nclVolume (pr : MCCParams ℝ) (p : ℝ) : ℝ := Spec.mccLine pr.N pr.pRef pr.lam pr.kap p p

/-- Specific volume of the critical state at pressure `p`: the preconsolidation pressure is twice the pressure, which puts the
top of the yield surface at `p`. -/
noncomputable def Spec.cslVolume (pr : MCCParams ℝ) (p : ℝ) : ℝ := Spec.mccLine pr.N pr.pRef pr.lam pr.kap (2 * p) p

theorem trx_power {a r l y : ℝ} (hr : 0 < r) (hy : 0 < y) :
    a * (r / (1000 * y)) ^ l = a * (r / 1000) ^ l * y ^ (-l) := by
  rw [← div_div, Real.div_rpow (by positivity) hy.le, Real.rpow_neg hy.le]
  ring

/-- **C156**: the segments drawn through the volumes at 1 kPa and 100 kPa are the normal compression line and the critical state
line of the clay, at every pressure. -/
theorem trx_lines_shown (pr : MCCParams ℝ) (h : pr.Lines) {x : ℝ} (hx : 0 < x) :
    trxNcl realFns pr x = Spec.nclVolume pr (1000 * x) ∧ trxCsl realFns pr x = Spec.cslVolume pr (1000 * x) := by
  have hr := h.pRef
  have hN := h.N
  have k1 : (1000 : ℝ) = 1000 * 1 := by norm_num
  have k2 : (100000 : ℝ) = 1000 * 100 := by norm_num
  constructor
  · unfold trxNcl vNcl Spec.nclVolume Spec.mccLine
    simp only [realFns_pow]
    rw [k2, show pr.pRef / 1000 = pr.pRef / (1000 * 1) by norm_num, trx_power hr one_pos, trx_power hr (by norm_num : (0 : ℝ) < 100),
      logSegment_power (by positivity) one_pos (by norm_num) (by norm_num) hx, trx_power hr hx, div_self (by positivity), Real.one_rpow, mul_one]
  · unfold trxCsl vCsl Spec.cslVolume Spec.mccLine
    simp only [realFns_pow]
    rw [k2, show pr.pRef / 1000 = pr.pRef / (1000 * 1) by norm_num, trx_power hr one_pos, trx_power hr (by norm_num : (0 : ℝ) < 100),
      logSegment_power (by positivity) one_pos (by norm_num) (by norm_num) hx]
    have e1 : pr.pRef / (2 * (1000 * x)) = pr.pRef / (1000 * x) / 2 := by field_simp
    have e2 : 2 * (1000 * x) / (1000 * x) = 2 := by field_simp
    have e3 : pr.N * 2 ^ (pr.kap - pr.lam) * (pr.pRef / 1000) ^ pr.lam * x ^ (-pr.lam) =
        pr.N * 2 ^ (pr.kap - pr.lam) * (pr.pRef / (1000 * x)) ^ pr.lam := (trx_power hr hx).symm
    have e4 : (pr.pRef / (1000 * x) / 2) ^ pr.lam = (pr.pRef / (1000 * x)) ^ pr.lam / 2 ^ pr.lam :=
      Real.div_rpow (by positivity) (by norm_num) _
    have e5 : (2 : ℝ) ^ (pr.kap - pr.lam) = 2 ^ pr.kap / 2 ^ pr.lam := Real.rpow_sub (by norm_num) _ _
    rw [e1, e2, e3, e4, e5]
    ring

/-- **C156**: the envelope has the slope `M`. -/
theorem trx_envelope_shown (M x : ℝ) : trxEnvelope M x = M * x := by
  unfold trxEnvelope
  ring

theorem mccLine_pos (pr : MCCParams ℝ) (h : pr.Lines) {pc p : ℝ} (hc : 0 < pc) (hp : 0 < p) :
    0 < Spec.mccLine pr.N pr.pRef pr.lam pr.kap pc p :=
  mul_pos (mul_pos h.N (Real.rpow_pos_of_pos (div_pos h.pRef hc) _)) (Real.rpow_pos_of_pos (div_pos hc hp) _)

/-- At one pressure the volume falls with the preconsolidation pressure. -/
theorem mccLine_le_iff (pr : MCCParams ℝ) (h : pr.Lines) {pc pc' p : ℝ} (hc : 0 < pc) (hc' : 0 < pc') (hp : 0 < p) :
    Spec.mccLine pr.N pr.pRef pr.lam pr.kap pc p ≤ Spec.mccLine pr.N pr.pRef pr.lam pr.kap pc' p ↔ pc' ≤ pc := by
  rw [← Real.log_le_log_iff (mccLine_pos pr h hc hp) (mccLine_pos pr h hc' hp), mccLine_log _ _ _ _ _ _ h.N h.pRef hc hp,
    mccLine_log _ _ _ _ _ _ h.N h.pRef hc' hp, ← Real.log_le_log_iff hc' hc]
  have := h.kap
  constructor
  · intro k
    by_contra hlt
    have := mul_pos (sub_pos.2 h.kap) (sub_pos.2 (not_le.1 hlt))
    nlinarith
  · intro k
    nlinarith [mul_nonneg (sub_pos.2 h.kap).le (sub_nonneg.2 k)]

/-- **C156**: where a state of the clay lies among the drawn lines says how it was consolidated: below the normal compression
line exactly when its pressure is at most the preconsolidation pressure, on it exactly when they are equal, and below (on) the
critical state line exactly when the pressure is at most (is) half of it. -/
theorem trx_reading (pr : MCCParams ℝ) (h : pr.Lines) {m V pc : ℝ} {σ : Mat3 ℝ} (hl : Spec.OnLines pr m V σ pc) :
    (pr.rhoP * V / m ≤ trxNcl realFns pr (Spec.meanStress σ / 1000) ↔ Spec.meanStress σ ≤ pc) ∧
    (pr.rhoP * V / m = trxNcl realFns pr (Spec.meanStress σ / 1000) ↔ Spec.meanStress σ = pc) ∧
    (pr.rhoP * V / m ≤ trxCsl realFns pr (Spec.meanStress σ / 1000) ↔ Spec.meanStress σ ≤ pc / 2) ∧
    (pr.rhoP * V / m = trxCsl realFns pr (Spec.meanStress σ / 1000) ↔ Spec.meanStress σ = pc / 2) := by
  have hp := hl.pos
  have hc := hl.posPc
  obtain ⟨e1, e2⟩ := trx_lines_shown pr h (x := Spec.meanStress σ / 1000) (by positivity)
  have e : 1000 * (Spec.meanStress σ / 1000) = Spec.meanStress σ := by ring
  rw [e] at e1 e2
  have h2 : 0 < 2 * Spec.meanStress σ := by positivity
  rw [e1, e2, hl.line]
  unfold Spec.nclVolume Spec.cslVolume
  refine ⟨mccLine_le_iff pr h hc hp hp, ?_, (mccLine_le_iff pr h hc h2 hp).trans ⟨fun k => by linarith, fun k => by linarith⟩, ?_⟩
  · rw [le_antisymm_iff, mccLine_le_iff pr h hc hp hp, mccLine_le_iff pr h hp hc hp, ← le_antisymm_iff]
  · rw [le_antisymm_iff, mccLine_le_iff pr h hc h2 hp, mccLine_le_iff pr h h2 hc hp, ← le_antisymm_iff]
    exact ⟨fun k => by linarith, fun k => by linarith⟩

/-- **C156**: the two panels agree. A yielding state is drawn on the envelope `q = M p` exactly when it is drawn on the critical
state line, and below the envelope exactly when it is drawn above the critical state line. -/
theorem trx_panels_agree (pr : MCCParams ℝ) (h : pr.Lines) (hM : 0 < pr.M) {m V pc : ℝ} {σ : Mat3 ℝ}
    (hl : Spec.OnLines pr m V σ pc) (hy : Spec.mccF pr.M pc σ = 0) :
    (Spec.qVM σ / 1000 = trxEnvelope pr.M (Spec.meanStress σ / 1000) ↔
      pr.rhoP * V / m = trxCsl realFns pr (Spec.meanStress σ / 1000)) ∧
    (Spec.qVM σ / 1000 < trxEnvelope pr.M (Spec.meanStress σ / 1000) ↔
      trxCsl realFns pr (Spec.meanStress σ / 1000) < pr.rhoP * V / m) := by
  have hp := hl.pos
  have hq : 0 ≤ Spec.qVM σ := Real.sqrt_nonneg _
  obtain ⟨-, -, r1, r2⟩ := trx_reading pr h hl
  rw [trx_envelope_shown, r2, ← not_le, ← not_le (a := pr.rhoP * V / m), r1]
  unfold Spec.mccF at hy
  set q := Spec.qVM σ
  set p := Spec.meanStress σ
  have hy' : q ^ 2 = pr.M ^ 2 * (p * (pc - p)) := by
    field_simp at hy
    linear_combination hy
  have hMp : 0 < pr.M * p := mul_pos hM hp
  have k : ∀ b : ℝ, q ^ 2 - (pr.M * p) ^ 2 = pr.M ^ 2 * p * (pc - 2 * p) := fun _ => by rw [hy']; ring
  have hk := k 0
  have hw : 0 < pr.M ^ 2 * p := by positivity
  have key : q ≤ pr.M * p ↔ pc ≤ 2 * p := by
    rw [← sq_le_sq₀ hq hMp.le]
    constructor
    · intro a
      by_contra c
      have := mul_pos hw (sub_pos.2 (not_le.1 c))
      linarith
    · intro a
      have := mul_nonneg hw.le (sub_nonneg.2 a)
      nlinarith
  have key' : pr.M * p ≤ q ↔ 2 * p ≤ pc := by
    rw [← sq_le_sq₀ hMp.le hq]
    constructor
    · intro a
      by_contra c
      have := mul_pos hw (sub_pos.2 (not_le.1 c))
      nlinarith
    · intro a
      have := mul_nonneg hw.le (sub_nonneg.2 a)
      nlinarith
  constructor
  · constructor
    · intro a
      have a1 := key.1 (by linarith)
      have a2 := key'.1 (by linarith)
      linarith
    · intro a
      have a1 := key.2 (by linarith)
      have a2 := key'.2 (by linarith)
      linarith
  · rw [not_iff_not]
    constructor
    · intro a
      have := key'.1 (by linarith)
      linarith
    · intro a
      have := key'.2 (by linarith)
      linarith

/-! ### The states of the test -/

/-- The point of the script starts on the lines of its clay, at the given pressure and overconsolidation ratio. -/
theorem ocrPoint_onLines (pr : MCCParams ℝ) (h : pr.Lines) {p ocr : ℝ} (hp : 0 < p) (ho : 0 < ocr) :
    Spec.OnLines pr ((ocrPoint realFns pr p ocr).1.mass 0) ((ocrPoint realFns pr p ocr).1.volume 0)
      ((ocrPoint realFns pr p ocr).1.stress 0) (p * ocr) ∧
    Spec.meanStress ((ocrPoint realFns pr p ocr).1.stress 0) = p := by
  have hm : Spec.meanStress ((ocrPoint realFns pr p ocr).1.stress 0) = p := by
    simp [ocrPoint, mccFromOcr, MPState.create, triaxialStress, Spec.meanStress]
    try ring
  refine ⟨⟨by rw [hm]; exact hp, mul_pos hp ho, ?_⟩, hm⟩
  have hv := mccLine_pos pr h (mul_pos hp ho) hp
  rw [hm]
  simp only [ocrPoint, mccFromOcr, MPState.create, vSl, vNcl, vKappa, Option.getD_some, Option.getD_none, realFns_pow]
  unfold Spec.mccLine at hv ⊢
  have := h.rhoP
  field_simp

/-- **C156**: in the test of the example, drained or undrained and at any confinement and overconsolidation ratio, the volume drawn
for each state exceeds the specific volume by the factor `1 + 1e-16 / volume` of the guard in `density_stack`, and the specific
volume lies among the drawn lines as the pressure lies among the preconsolidation pressure and its half, as long as the states
before are connected and have mean stress at least `p_min_calc`. -/
theorem trx_run_reading (grad : (ℝ → ℝ) → ℝ → ℝ) (t : TriaxialTest ℝ 3 (LawState ℝ)) (ops : NewtonOps ℝ)
    (pr : MCCParams ℝ) (reset : Bool) (hd : t.solver.law = mccLaw realFns ops pr reset) (h : pr.Elastic) (hL : pr.Lines)
    (hmin : 0 < pr.pMin) {p ocr : ℝ} (hp : 0 < p) (ho : 0 < ocr) (m : ℕ)
    (hconn : ∀ k < m, ∀ b, scanCarry (t.stepIdx realExpm grad) (ocrPoint realFns pr p ocr) (List.range k) = .ok b →
      pr.rhoP / b.1.density 0 ≤ pr.N * (999999 / 1000000) ∧ pr.pMin ≤ Spec.meanStress (b.1.stress 0)) :
    ∃ c pc ref eps, scanCarry (t.stepIdx realExpm grad) (ocrPoint realFns pr p ocr) (List.range m) = .ok c ∧
      c.2 = .mcc pc (some ref) eps ∧ ∃ v, (trxMarker pr c.1).2 * c.1.volume 0 = v * (c.1.volume 0 + 1 / 10 ^ 16) ∧
      (v ≤ trxNcl realFns pr (trxMarker pr c.1).1 ↔ Spec.meanStress (c.1.stress 0) ≤ pc 0) ∧
      (v = trxNcl realFns pr (trxMarker pr c.1).1 ↔ Spec.meanStress (c.1.stress 0) = pc 0) ∧
      (v ≤ trxCsl realFns pr (trxMarker pr c.1).1 ↔ Spec.meanStress (c.1.stress 0) ≤ pc 0 / 2) ∧
      (v = trxCsl realFns pr (trxMarker pr c.1).1 ↔ Spec.meanStress (c.1.stress 0) = pc 0 / 2) := by
  obtain ⟨c, pc, eps, h1, h2, h3⟩ := driver_mcc_line_run grad t ops pr reset hd h hL.N hL.pRef hmin (ocrPoint realFns pr p ocr).1
    (fun _ => p * ocr) (fun _ => (mccFromOcr realFns pr p ocr none).stress) (fun _ => 0)
    (by simp [ocrPoint, MPState.create]) (ocrPoint_onLines pr hL hp ho).1 m hconn
  refine ⟨c, pc, _, eps, h1, h2, pr.rhoP * c.1.volume 0 / c.1.mass 0, ?_, ?_⟩
  · unfold trxMarker MPState.density
    simp only
    rw [div_div_eq_mul_div]
    ring
  · unfold trxMarker
    rw [pressureOf_eq]
    exact trx_reading pr hL h3

/-! ### The swelling line -/

theorem logSegment_eq {x0 y0 x1 y1 x : ℝ} : logSegment realFns x0 y0 x1 y1 x =
    Real.exp (Real.log y0 + (Real.log x - Real.log x0) / (Real.log x1 - Real.log x0) * (Real.log y1 - Real.log y0)) := rfl

/-- Specific volume on the swelling line through the initial state of the script at pressure `p`. -/
noncomputable def Spec.trxSwelling (pr : MCCParams ℝ) (p : ℝ) : ℝ := Spec.mccLine pr.N pr.pRef pr.lam pr.kap 10000 p

/-- **C156** fails for the swelling line: the left end carries the volume of 10 Pa at the abscissa of 1 kPa, so that the line
drawn has three times the slope `kap`, and at `x` kPa shows the volume of the swelling line times `(10 / x) ^ (2 kap)`. -/
theorem trx_sl_value (pr : MCCParams ℝ) (h : pr.Lines) {x : ℝ} (hx : 0 < x) :
    trxSl realFns pr (trxInit realFns pr).pc x = Spec.trxSwelling pr (1000 * x) * (10 / x) ^ (2 * pr.kap) := by
  have hpc : (trxInit realFns pr).pc = 10000 := by norm_num [trxInit, mccFromOcr]
  rw [hpc]
  have e : ∀ p, vSl realFns 10000 p pr.pRef pr.N pr.lam pr.kap = Spec.trxSwelling pr p := fun p => rfl
  unfold trxSl
  rw [e, e, logSegment_eq]
  have hN := h.N
  have hr := h.pRef
  have p1 : ∀ p, 0 < p → 0 < Spec.trxSwelling pr p := fun p hp => mccLine_pos pr h (by norm_num) hp
  have l : ∀ p, 0 < p → Real.log (Spec.trxSwelling pr p) = Real.log pr.N + pr.lam * Real.log pr.pRef -
      (pr.kap * Real.log p + (pr.lam - pr.kap) * Real.log 10000) := fun p hp => mccLine_log _ _ _ _ _ _ hN hr (by norm_num) hp
  have h10 : 0 < Real.log 10 := Real.log_pos (by norm_num)
  have l3 : Real.log 1000 = 3 * Real.log 10 := by rw [show (1000 : ℝ) = 10 ^ 3 by norm_num, Real.log_pow]; norm_num
  have l4 : Real.log 10000 = 4 * Real.log 10 := by rw [show (10000 : ℝ) = 10 ^ 4 by norm_num, Real.log_pow]; norm_num
  have hw : 0 < (10 / x) ^ (2 * pr.kap) := Real.rpow_pos_of_pos (by positivity) _
  rw [← Real.exp_log (mul_pos (p1 (1000 * x) (by positivity)) hw), Real.log_mul (p1 (1000 * x) (by positivity)).ne' hw.ne',
    Real.log_rpow (by positivity), l 10 (by norm_num), l 10000 (by norm_num), l (1000 * x) (by positivity),
    Real.log_mul (by norm_num) hx.ne', Real.log_div (by norm_num) hx.ne', Real.log_one, l3, l4]
  congr 1
  have ha := h10.ne'
  generalize Real.log 10 = a at ha ⊢
  field_simp
  ring

/-- **C156**: the right end of the drawn swelling line is right: it is the initial state of the test, which lies on the drawn
normal compression line. -/
theorem trx_sl_end_partial (pr : MCCParams ℝ) (h : pr.Lines) :
    trxSl realFns pr (trxInit realFns pr).pc 10 = Spec.trxSwelling pr 10000 ∧
    trxNcl realFns pr 10 = Spec.trxSwelling pr 10000 ∧ pr.rhoP / (trxInit realFns pr).density = Spec.trxSwelling pr 10000 := by
  refine ⟨?_, ?_, ?_⟩
  · rw [trx_sl_value pr h (by norm_num)]
    norm_num
  · rw [(trx_lines_shown pr h (by norm_num : (0 : ℝ) < 10)).1, Spec.nclVolume, Spec.trxSwelling]
    norm_num
  · have hv := mccLine_pos pr h (by norm_num : (0 : ℝ) < 10000) (by norm_num : (0 : ℝ) < 10000)
    have := h.rhoP
    have e : (trxInit realFns pr).density = pr.rhoP / Spec.trxSwelling pr 10000 := by
      norm_num [trxInit, mccFromOcr, vSl, vNcl, vKappa, Spec.trxSwelling, Spec.mccLine, realFns_pow]
    rw [e, Spec.trxSwelling]
    field_simp

/-- **C156** fails everywhere else: left of its right end the line drawn lies above the swelling line. -/
theorem trx_sl_wrong (pr : MCCParams ℝ) (h : pr.Lines) (hk : 0 < pr.kap) {x : ℝ} (hx : 0 < x) (h10 : x < 10) :
    Spec.trxSwelling pr (1000 * x) < trxSl realFns pr (trxInit realFns pr).pc x := by
  rw [trx_sl_value pr h hx]
  have h1 : 1 < (10 / x) ^ (2 * pr.kap) := Real.one_lt_rpow (by rwa [one_lt_div hx]) (by linarith)
  have h2 : 0 < Spec.trxSwelling pr (1000 * x) := mccLine_pos pr h (by norm_num) (by positivity)
  nlinarith

/-- Taken at the pressures at which they are drawn, the two volumes give the swelling line. -/
theorem trx_sl_repaired (pr : MCCParams ℝ) (h : pr.Lines) {x : ℝ} (hx : 0 < x) :
    logSegment realFns 1 (vSl realFns 10000 1000 pr.pRef pr.N pr.lam pr.kap) 10
      (vSl realFns 10000 (trxInit realFns pr).pc pr.pRef pr.N pr.lam pr.kap) x = Spec.trxSwelling pr (1000 * x) := by
  have hpc : (trxInit realFns pr).pc = 1000 * 10 := by norm_num [trxInit, mccFromOcr]
  have hN := h.N
  have hr := h.pRef
  have e : ∀ y, 0 < y → Spec.trxSwelling pr (1000 * y) = pr.N * (pr.pRef / 10000) ^ pr.lam * (10000 / 1000) ^ pr.kap * y ^ (-pr.kap) := by
    intro y hy
    exact trx_power (by norm_num) hy
  have e' : ∀ p, vSl realFns 10000 p pr.pRef pr.N pr.lam pr.kap = Spec.trxSwelling pr p := fun p => rfl
  rw [hpc, e', e', show (Spec.trxSwelling pr 1000) = Spec.trxSwelling pr (1000 * 1) by norm_num, e 1 one_pos, e 10 (by norm_num),
    logSegment_power (by positivity) one_pos (by norm_num) (by norm_num) hx, e x hx]

/-! ### Examples -/

/-- The clay of the script (mcc.py:35; defaults modifiedcamclay.py:160-177). -/
noncomputable def trxClay : MCCParams ℝ :=
  { nu := 3 / 10, M := 9 / 10, lam := 2 / 10, kap := 5 / 100, N := 2, pRef := 1000, KMin := none, KMax := none, pMin := 10
    rhoP := 2675 }

theorem trxClay_lines : trxClay.Lines := by constructor <;> norm_num [trxClay]

/-- For the clay of the script the volume drawn at 1 kPa is too large by more than a quarter. -/
theorem trx_sl_counterexample : 5 / 4 * Spec.trxSwelling trxClay 1000 < trxSl realFns trxClay (trxInit realFns trxClay).pc 1 := by
  have h := trx_sl_value trxClay trxClay_lines one_pos
  rw [mul_one] at h
  rw [h, mul_comm]
  have h2 : 0 < Spec.trxSwelling trxClay 1000 := mccLine_pos trxClay trxClay_lines (by norm_num) (by norm_num)
  have h3 : (5 / 4 : ℝ) < (10 / 1) ^ (2 * trxClay.kap) := by
    have e : (5 / 4 : ℝ) = ((5 / 4 : ℝ) ^ (10 : ℝ)) ^ (1 / 10 : ℝ) := by rw [← Real.rpow_mul (by norm_num)]; norm_num
    have e2 : 2 * trxClay.kap = (1 / 10 : ℝ) := by norm_num [trxClay]
    rw [e, e2, div_one]
    refine Real.rpow_lt_rpow (by positivity) ?_ (by norm_num)
    rw [show (10 : ℝ) = ((10 : ℕ) : ℝ) by norm_num, Real.rpow_natCast]
    norm_num
  exact mul_lt_mul_of_pos_left h3 h2

example := trx_lines_shown trxClay trxClay_lines (x := 10) (by norm_num)
example := trx_sl_end_partial trxClay trxClay_lines
example := trx_sl_wrong trxClay trxClay_lines (by norm_num [trxClay]) (x := 1) (by norm_num) (by norm_num)
example := trx_sl_repaired trxClay trxClay_lines (x := 1) (by norm_num)

/-- The initial state of the script is drawn on the normal compression line and above the critical state line. -/
example : trxClay.rhoP * (ocrPoint realFns trxClay 10000 1).1.volume 0 / (ocrPoint realFns trxClay 10000 1).1.mass 0 =
    trxNcl realFns trxClay (Spec.meanStress ((ocrPoint realFns trxClay 10000 1).1.stress 0) / 1000) := by
  obtain ⟨h1, h2⟩ := ocrPoint_onLines trxClay trxClay_lines (p := 10000) (ocr := 1) (by norm_num) one_pos
  rw [(trx_reading trxClay trxClay_lines h1).2.1, h2]
  norm_num

/-- A yielding state on the lines: the initial state. -/
example := trx_panels_agree trxClay trxClay_lines (by norm_num [trxClay])
  (ocrPoint_onLines trxClay trxClay_lines (p := 10000) (ocr := 1) (by norm_num) one_pos).1 (by
    simp [Spec.mccF, Spec.qVM, Spec.J2, Spec.ddot, Spec.dev, Spec.meanStress, ocrPoint, mccFromOcr, MPState.create, triaxialStress,
      Fin.sum_univ_three, Matrix.diagonal]
    norm_num)

/-- The first step of the drained test of the script starts from a connected state. -/
example (ops : NewtonOps ℝ) (grad : (ℝ → ℝ) → ℝ → ℝ) (t : TriaxialTest ℝ 3 (LawState ℝ)) (hd : t.solver.law = mccLaw realFns ops trxClay true) :=
  trx_run_reading grad t ops trxClay true hd ⟨by norm_num [trxClay], by norm_num [trxClay], by norm_num [trxClay], by simp [trxClay]⟩
    trxClay_lines (by norm_num [trxClay]) (p := 10000) (ocr := 1) (by norm_num) one_pos 1 (by
      intro k hk b hb
      obtain rfl : k = 0 := by omega
      obtain rfl : ocrPoint realFns trxClay 10000 1 = b := Except.ok.inj hb
      refine ⟨?_, ?_⟩
      · have hv : (0 : ℝ) < (1 / 10) ^ (1 / 5 : ℝ) := by positivity
        have hle : ((1 : ℝ) / 10) ^ (1 / 5 : ℝ) ≤ 9 / 10 := by
          have e : (9 / 10 : ℝ) = ((9 / 10 : ℝ) ^ (5 : ℝ)) ^ (1 / 5 : ℝ) := by rw [← Real.rpow_mul (by norm_num)]; norm_num
          rw [e]
          refine Real.rpow_le_rpow (by norm_num) ?_ (by norm_num)
          rw [show (5 : ℝ) = ((5 : ℕ) : ℝ) by norm_num, Real.rpow_natCast]
          norm_num
        have e : trxClay.rhoP / (ocrPoint realFns trxClay 10000 1).1.density 0 = 2 * (1 / 10) ^ (1 / 5 : ℝ) * (1 + 4 / 10 ^ 16) := by
          have e1 : (ocrPoint realFns trxClay 10000 1).1.density 0 = 2675 / (2 * (1 / 10) ^ (1 / 5 : ℝ)) / (1 + 4 / 10 ^ 16) := by
            norm_num [ocrPoint, mccFromOcr, MPState.create, MPState.density, vSl, vNcl, vKappa, trxClay, realFns_pow]
            try ring
          rw [e1, show trxClay.rhoP = 2675 from rfl]
          field_simp
        rw [e, show trxClay.N = 2 from rfl]
        nlinarith
      · rw [(ocrPoint_onLines trxClay trxClay_lines (by norm_num) one_pos).2]
        norm_num [trxClay])

end Hydrax
