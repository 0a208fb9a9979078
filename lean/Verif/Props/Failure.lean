import Verif.Props.CriticalTest
import Verif.Props.DruckerPrager

/-!
# Sustained shearing brings Drucker-Prager material to failure (C135)
-/

set_option linter.unusedSectionVars false

namespace Hydrax

open Filter Topology

/-! ### Specification -/

/-- Shear strength of the cone at pressure `p` after accumulated plastic strain `eps`. -/
def Spec.dpStrength (pr : DPParams ℝ) (p eps : ℝ) : ℝ := pr.mu1 * p + pr.mu2 * (pr.c0 + pr.H * eps)

/-- Deviatoric stress of an elastic strain. -/
noncomputable def Spec.dpDev (pr : DPParams ℝ) (e : Mat3 ℝ) : Mat3 ℝ := (2 * pr.shear) • Spec.dev e

/-- Pressure of an elastic strain. -/
def Spec.dpMean (pr : DPParams ℝ) (p0 : ℝ) (e : Mat3 ℝ) : ℝ := pr.bulk * e.trace + p0

/-- Size of a deviatoric stress, `√J₂`. -/
noncomputable def Spec.rootJ2 (s : Mat3 ℝ) : ℝ := Real.sqrt (Spec.ddot s s / 2)

/-- Repeated updates with one velocity gradient and density. -/
noncomputable def dpPath (pr : DPParams ℝ) (L : Mat3 ℝ) (p0 rho dt : ℝ) (r : DPResult ℝ) : ℕ → DPResult ℝ
  | 0 => r
  | n + 1 => dpUpdate realFns pr L (dpPath pr L p0 rho dt r n).epsE (dpPath pr L p0 rho dt r n).epsP p0 rho dt

/-! ### One step -/

theorem rootJ2_smul {f : ℝ} (hf : 0 ≤ f) (s : Mat3 ℝ) : Spec.rootJ2 (f • s) = f * Spec.rootJ2 s := by
  rw [Spec.rootJ2, ddot_smul, mul_div_assoc, Real.sqrt_mul (mul_self_nonneg f), Real.sqrt_mul_self hf, Spec.rootJ2]

theorem rootJ2_sq (s : Mat3 ℝ) : Spec.rootJ2 s ^ 2 = Spec.ddot s s / 2 :=
  Real.sq_sqrt (div_nonneg (ddot_self_nonneg s) (by norm_num))

theorem rootJ2_nonneg (s : Mat3 ℝ) : 0 ≤ Spec.rootJ2 s := Real.sqrt_nonneg _

theorem dev_traceless {L : Mat3 ℝ} (ht : L.trace = 0) : Spec.dev L = L := by
  have := dev_add_mean L
  rw [meanStress_trace, ht, zero_div, show isoT (0 : ℝ) = 0 from by simp [isoT], add_zero] at this
  exact this

theorem dev_add_smul (A B : Mat3 ℝ) (c : ℝ) : Spec.dev (A + c • B) = Spec.dev A + c • Spec.dev B := by
  ext i j
  simp only [Spec.dev, meanStress_add, meanStress_smul, Matrix.add_apply, Matrix.smul_apply, smul_eq_mul]
  split_ifs <;> ring

/-- Conditions on the parameters. -/
structure DPParams.Sound (pr : DPParams ℝ) : Prop where
  bulk : 0 < pr.bulk
  shear : 0 < pr.shear
  mu1 : 0 ≤ pr.mu1
  hat : 0 ≤ pr.mu1Hat
  H : 0 ≤ pr.H

/-- The divisor of the multiplier. -/
def Spec.dpStiffness (pr : DPParams ℝ) : ℝ := pr.shear + pr.bulk * pr.mu1 * pr.mu1Hat + pr.H * pr.mu2 * pr.mu2

theorem DPParams.Sound.stiff {pr : DPParams ℝ} (h : pr.Sound) : pr.shear ≤ Spec.dpStiffness pr := by
  have h1 := mul_nonneg (mul_nonneg h.bulk.le h.mu1) h.hat
  have h2 := mul_nonneg h.H (mul_self_nonneg pr.mu2)
  rw [Spec.dpStiffness]
  linarith [mul_assoc pr.H pr.mu2 pr.mu2]

/-- One step of shearing at constant volume. -/
theorem dp_shear_step {pr : DPParams ℝ} (h : pr.Sound) {L : Mat3 ℝ} (hs : L.transpose = L) (ht : L.trace = 0) (e : Mat3 ℝ)
    (epsP p0 dt : ℝ) {rho : ℝ} (hr : pr.rho0 ≤ rho) (hR : 1 / 10 ^ 6 ≤ Spec.dpStrength pr (Spec.dpMean pr p0 e) epsP) :
    let r := dpUpdate realFns pr L e epsP p0 rho dt
    let T := Spec.dpDev pr e + (2 * pr.shear * dt) • L
    let R := Spec.dpStrength pr (Spec.dpMean pr p0 e) epsP
    r.stress = Spec.dpDev pr r.epsE + isoT (Spec.dpMean pr p0 r.epsE) ∧
    ((Spec.rootJ2 T ≤ R ∧ Spec.dpDev pr r.epsE = T ∧ Spec.dpMean pr p0 r.epsE = Spec.dpMean pr p0 e ∧ r.epsP = epsP) ∨
     (R < Spec.rootJ2 T ∧ ∃ pm, pm * Spec.dpStiffness pr = Spec.rootJ2 T - R ∧ 0 < pm ∧
        Spec.dpDev pr r.epsE = ((Spec.rootJ2 T - pr.shear * pm) / Spec.rootJ2 T) • T ∧
        Spec.dpMean pr p0 r.epsE = Spec.dpMean pr p0 e - pr.bulk * pm * pr.mu1Hat ∧ r.epsP = epsP + pr.mu2 * pm)) := by
  intro r T R
  have hst := h.stiff
  have hstp : 0 < Spec.dpStiffness pr := h.shear.trans_le hst
  have hcons := (dp_stress_strain_consistent realFns pr h.bulk.ne' h.shear.ne' L e epsP p0 rho dt).1 hr
  refine ⟨hcons, ?_⟩
  have he : (dpTrial realFns pr L e epsP p0 dt).epsETr = e + dt • L := by
    simp only [dpTrial, symTensor, spinTensor, jaumann, hs, sub_self, smul_zero, zero_mul, mul_zero, add_zero]
    rw [← two_smul ℝ L, smul_smul, smul_smul]
    congr 2
    ring
  have htr : (e + dt • L).trace = e.trace := by rw [Matrix.trace_add, Matrix.trace_smul, ht, smul_zero, add_zero]
  have hdev : Spec.dev (e + dt • L) = Spec.dev e + dt • L := by
    rw [dev_add_smul, dev_traceless ht]
  have hsT : (dpTrial realFns pr L e epsP p0 dt).sTr = T := by
    rw [dpTrial_sTr, he, hdev, smul_add, smul_smul]; rfl
  have hpT : (dpTrial realFns pr L e epsP p0 dt).pTr = Spec.dpMean pr p0 e := by
    have : (dpTrial realFns pr L e epsP p0 dt).pTr = pr.bulk * (dpTrial realFns pr L e epsP p0 dt).epsETr.trace + p0 := rfl
    rw [this, he, htr]; rfl
  have hy : (dpTrial realFns pr L e epsP p0 dt).yf = (dpTrial realFns pr L e epsP p0 dt).sqrtJ2 - R := by
    rw [dpTrial_yf, hpT]
    simp only [R, Spec.dpStrength]; ring
  have hsq : (dpTrial realFns pr L e epsP p0 dt).sqrtJ2 = Real.sqrt (max (Spec.ddot T T / 2) (1 / 10 ^ 12)) := by
    rw [dpTrial_sqrtJ2, hsT]
  have hRp : 0 < R := lt_of_lt_of_le (by norm_num) hR
  have hTz : Spec.meanStress T = 0 := by rw [← hsT]; exact dpTrial_mean realFns pr L e epsP p0 dt
  have hJle : Spec.rootJ2 T ≤ (dpTrial realFns pr L e epsP p0 dt).sqrtJ2 := by
    rw [hsq]; exact Real.sqrt_le_sqrt (le_max_left _ _)
  by_cases hyf : (dpTrial realFns pr L e epsP p0 dt).yf > 0
  · right
    have hbig : R < (dpTrial realFns pr L e epsP p0 dt).sqrtJ2 := by rw [hy] at hyf; linarith
    have hJ : (dpTrial realFns pr L e epsP p0 dt).sqrtJ2 = Spec.rootJ2 T := by
      rw [hsq] at hbig ⊢
      rcases le_total (1 / 10 ^ 12) (Spec.ddot T T / 2) with h1 | h1
      · rw [max_eq_left h1]; rfl
      · rw [max_eq_right h1] at hbig
        have : Real.sqrt (1 / 10 ^ 12) = 1 / 10 ^ 6 := by
          rw [show (1 / 10 ^ 12 : ℝ) = (1 / 10 ^ 6) ^ 2 by norm_num, Real.sqrt_sq (by norm_num)]
        rw [this] at hbig
        exact absurd (hbig.trans_le hR) (lt_irrefl _)
    rw [hJ] at hbig
    have hJp : 0 < Spec.rootJ2 T := hRp.trans hbig
    have hpm : dpMulti pr (dpTrial realFns pr L e epsP p0 dt) * Spec.dpStiffness pr = Spec.rootJ2 T - R := by
      rw [dpMulti, hy, hJ]
      exact div_mul_cancel₀ _ hstp.ne'
    set pm := dpMulti pr (dpTrial realFns pr L e epsP p0 dt) with hpmd
    have hpm0 : 0 < pm := by
      have : 0 < pm * Spec.dpStiffness pr := by rw [hpm]; linarith
      exact (mul_pos_iff_of_pos_right hstp).mp this
    have hGp : pr.shear * pm ≤ Spec.rootJ2 T - R := by
      rw [← hpm, mul_comm]; exact mul_le_mul_of_nonneg_left hst hpm0.le
    have hcone : ¬ (dpTrial realFns pr L e epsP p0 dt).sqrtJ2 - pr.shear * pm < 0 := by rw [hJ]; push Not; linarith
    have hrr : r = dpCone pr (dpTrial realFns pr L e epsP p0 dt) epsP p0 := by
      simp only [r, dpUpdate]
      rw [if_pos hr, if_pos hyf, if_neg hcone]
    have hdv : (1 / (2 * pr.shear)) • ((1 - pr.shear * pm / Spec.rootJ2 T) • T) +
        isoT (1 / 3 * ((Spec.dpMean pr p0 e - pr.bulk * pm * pr.mu1Hat - p0) / pr.bulk)) = r.epsE := by
      rw [hrr]
      simp only [dpCone, ← hpmd, hJ, hsT, hpT]
    refine ⟨hbig, pm, hpm, hpm0, ?_, ?_, ?_⟩
    · rw [← hdv, Spec.dpDev, dev_add_iso (by rw [meanStress_smul, meanStress_smul, hTz]; ring), smul_smul,
        mul_one_div_cancel (mul_ne_zero two_ne_zero h.shear.ne'), one_smul]
      congr 1
      field_simp
    · rw [← hdv, Spec.dpMean, Matrix.trace_add, Matrix.trace_smul, Matrix.trace_smul]
      have hT0 : T.trace = 0 := by
        rw [meanStress_trace] at hTz
        exact (div_eq_zero_iff.mp hTz).resolve_right (by norm_num)
      rw [hT0, smul_zero, smul_zero, zero_add, trace3]
      simp only [isoT_apply, if_true]
      have := h.bulk.ne'
      field_simp
      ring
    · rw [hrr]; rfl
  · left
    have hle : (dpTrial realFns pr L e epsP p0 dt).sqrtJ2 ≤ R := by rw [hy] at hyf; linarith
    have hrr : r = dpElastic (dpTrial realFns pr L e epsP p0 dt) epsP := by
      simp only [r, dpUpdate]
      rw [if_pos hr, if_neg hyf]
    have hep : r.epsE = e + dt • L := by rw [hrr]; exact he
    refine ⟨hJle.trans hle, ?_, ?_, by rw [hrr]; rfl⟩
    · rw [hep, Spec.dpDev, hdev, smul_add, smul_smul]; rfl
    · rw [hep, Spec.dpMean, htr]; rfl

/-- Both cases in one: the stress moves along the shearing and is scaled down. -/
theorem dp_shear_scaled {pr : DPParams ℝ} (h : pr.Sound) {L : Mat3 ℝ} (hs : L.transpose = L) (ht : L.trace = 0) (e : Mat3 ℝ)
    (epsP p0 dt : ℝ) {rho : ℝ} (hr : pr.rho0 ≤ rho) (hR : 1 / 10 ^ 6 ≤ Spec.dpStrength pr (Spec.dpMean pr p0 e) epsP) :
    let r := dpUpdate realFns pr L e epsP p0 rho dt
    let T := Spec.dpDev pr e + (2 * pr.shear * dt) • L
    let R := Spec.dpStrength pr (Spec.dpMean pr p0 e) epsP
    r.stress = Spec.dpDev pr r.epsE + isoT (Spec.dpMean pr p0 r.epsE) ∧
    ∃ k pm, 0 ≤ k ∧ 0 ≤ pm ∧ (1 + k) • Spec.dpDev pr r.epsE = T ∧ k * Spec.rootJ2 (Spec.dpDev pr r.epsE) = pr.shear * pm ∧
      Spec.dpMean pr p0 r.epsE = Spec.dpMean pr p0 e - pr.bulk * pm * pr.mu1Hat ∧ r.epsP = epsP + pr.mu2 * pm ∧
      ((Spec.rootJ2 T ≤ R ∧ k = 0 ∧ pm = 0) ∨
        (R < Spec.rootJ2 T ∧ 0 < pm ∧ Spec.rootJ2 (Spec.dpDev pr r.epsE) = R + (Spec.dpStiffness pr - pr.shear) * pm)) := by
  intro r T R
  obtain ⟨h1, h2⟩ := dp_shear_step h hs ht e epsP p0 dt hr hR
  refine ⟨h1, ?_⟩
  rcases h2 with ⟨a1, a2, a3, a4⟩ | ⟨a1, pm, a2, a3, a4, a5, a6⟩
  · refine ⟨0, 0, le_rfl, le_rfl, ?_, by ring, ?_, ?_, .inl ⟨a1, rfl, rfl⟩⟩
    · rw [add_zero, one_smul]; exact a2
    · rw [mul_zero, zero_mul, sub_zero]; exact a3
    · rw [mul_zero, add_zero]; exact a4
  · have hst := h.stiff
    have hRp : 0 < R := lt_of_lt_of_le (by norm_num) hR
    have hJp : 0 < Spec.rootJ2 T := hRp.trans a1
    have hle : pr.shear * pm ≤ Spec.rootJ2 T - R := by
      rw [← a2, mul_comm]; exact mul_le_mul_of_nonneg_left hst a3.le
    have hq : 0 < Spec.rootJ2 T - pr.shear * pm := by linarith
    have hJ : Spec.rootJ2 (Spec.dpDev pr r.epsE) = Spec.rootJ2 T - pr.shear * pm := by
      rw [a4, rootJ2_smul (div_nonneg hq.le hJp.le)]
      exact div_mul_cancel₀ _ hJp.ne'
    have hGp := mul_pos h.shear a3
    refine ⟨pr.shear * pm / (Spec.rootJ2 T - pr.shear * pm), pm, by positivity, a3.le, ?_, ?_, a5, a6, .inr ⟨a1, a3, ?_⟩⟩
    · rw [a4, smul_smul]
      have : (1 + pr.shear * pm / (Spec.rootJ2 T - pr.shear * pm)) * ((Spec.rootJ2 T - pr.shear * pm) / Spec.rootJ2 T) = 1 := by
        field_simp
        ring
      rw [this, one_smul]
    · rw [hJ]; exact div_mul_cancel₀ _ hq.ne'
    · rw [hJ]; linarith

/-! ### Failure without dilatancy -/

/-- A stress of size `R` that is moved along the shearing leaves the ball of this size. -/
theorem rootJ2_grows {s L : Mat3 ℝ} {a : ℝ} (ha : 0 < a) (hL : L ≠ 0) (hc : 0 < Spec.ddot s L) :
    Spec.rootJ2 s < Spec.rootJ2 (s + a • L) := by
  have e : Spec.ddot (s + a • L) (s + a • L) = Spec.ddot s s + 2 * a * Spec.ddot s L + a ^ 2 * Spec.ddot L L := by
    simp [Spec.ddot, Fin.sum_univ_three]; ring
  have h1 := ddot_pos hL
  refine Real.sqrt_lt_sqrt (div_nonneg (ddot_self_nonneg s) (by norm_num)) ?_
  rw [e]
  have := mul_pos ha hc
  have := mul_pos (pow_pos ha 2) h1
  linarith

/-- The part of a stress along the shearing is bounded by its size. -/
theorem along_le {s L : Mat3 ℝ} {u : ℝ} (hu : 0 < u) (hL : Spec.ddot L L = u ^ 2) {R : ℝ} (hR : 0 ≤ R) (h : Spec.rootJ2 s ≤ R) :
    |Spec.ddot s L / u| ≤ 2 * R := by
  have h1 := ddot_split s L hu hL
  have h2 := ddot_self_nonneg (s - (Spec.ddot s L / u / u) • L)
  have h3 := rootJ2_sq s
  have h4 : Spec.rootJ2 s ^ 2 ≤ R ^ 2 := pow_le_pow_left₀ (rootJ2_nonneg s) h 2
  refine abs_le_of_sq_le_sq ?_ (by linarith)
  nlinarith

set_option maxHeartbeats 1000000 in
/-- **C135**: sustained shearing at constant volume brings material without dilatancy to failure: the pressure does not
change, from some step on the shear stress is the strength, and the direction of the stress tends to that of the shearing
(partial: `mu_1_hat = 0`). -/
theorem dp_failure_partial {pr : DPParams ℝ} (h : pr.Sound) (hhat : pr.mu1Hat = 0) {L : Mat3 ℝ} (hs : L.transpose = L)
    (ht : L.trace = 0) (hL : L ≠ 0) {rho dt p0 : ℝ} (hdt : 0 < dt) (hr : pr.rho0 ≤ rho) (r : DPResult ℝ)
    (hR : 1 / 10 ^ 6 ≤ Spec.dpStrength pr (Spec.dpMean pr p0 r.epsE) r.epsP)
    (h0 : Spec.rootJ2 (Spec.dpDev pr r.epsE) ≤ Spec.dpStrength pr (Spec.dpMean pr p0 r.epsE) r.epsP) :
    let x := dpPath pr L p0 rho dt r
    let R := fun n => Spec.dpStrength pr (Spec.dpMean pr p0 r.epsE) (x n).epsP
    (∀ n, 0 < n → Spec.meanStress (x n).stress = Spec.dpMean pr p0 r.epsE) ∧
    (∃ N, ∀ n, N ≤ n → Real.sqrt (Spec.J2 (x n).stress) = R n) ∧
    Tendsto (fun n => (1 / R n) • Spec.dev (x n).stress) atTop (𝓝 ((Real.sqrt 2 / Real.sqrt (Spec.ddot L L)) • L)) := by
  intro x R
  set u := Real.sqrt (Spec.ddot L L) with hu
  have hu0 : 0 < u := Real.sqrt_pos.mpr (ddot_pos hL)
  have hu2 : Spec.ddot L L = u ^ 2 := (Real.sq_sqrt (ddot_self_nonneg L)).symm
  set s := fun n => Spec.dpDev pr (x n).epsE with hsd
  have hstep := fun n hRn => dp_shear_scaled h hs ht (x n).epsE (x n).epsP p0 dt hr hRn
  -- invariants
  have hinv : ∀ n, Spec.dpMean pr p0 (x n).epsE = Spec.dpMean pr p0 r.epsE ∧ 1 / 10 ^ 6 ≤ R n ∧ Spec.rootJ2 (s n) ≤ R n := by
    intro n
    induction n with
    | zero => exact ⟨rfl, hR, h0⟩
    | succ n ih =>
      obtain ⟨i1, i2, i3⟩ := ih
      have hRn : 1 / 10 ^ 6 ≤ Spec.dpStrength pr (Spec.dpMean pr p0 (x n).epsE) (x n).epsP := by rw [i1]; exact i2
      obtain ⟨-, k, pm, hk, hpm, e1, -, e3, e4, e5⟩ := hstep n hRn
      have hx : x (n + 1) = dpUpdate realFns pr L (x n).epsE (x n).epsP p0 rho dt := rfl
      rw [← hx] at e1 e3 e4 e5
      have hgain : R (n + 1) = R n + (Spec.dpStiffness pr - pr.shear) * pm := by
        simp only [R, Spec.dpStrength, e4, Spec.dpStiffness, hhat]; ring
      have hst := mul_nonneg (sub_nonneg.mpr h.stiff) hpm
      refine ⟨by rw [e3, hhat, mul_zero, sub_zero, i1], by linarith, ?_⟩
      rcases e5 with ⟨f1, f2, f3⟩ | ⟨f1, f2, f3⟩
      · rw [f2, add_zero, one_smul] at e1
        rw [hgain, f3, mul_zero, add_zero]
        simp only [hsd, e1]
        rw [i1] at f1
        exact f1
      · rw [i1] at f3
        rw [hgain]
        exact f3.le
  have hRn : ∀ n, 1 / 10 ^ 6 ≤ Spec.dpStrength pr (Spec.dpMean pr p0 (x n).epsE) (x n).epsP := fun n => by
    rw [(hinv n).1]; exact (hinv n).2.1
  have hRp : ∀ n, 0 < R n := fun n => lt_of_lt_of_le (by norm_num) (hinv n).2.1
  choose k pm hk hpm e1 e2 e3 e4 e5 using fun n => (hstep n (hRn n)).2
  have hx : ∀ n, dpUpdate realFns pr L (x n).epsE (x n).epsP p0 rho dt = x (n + 1) := fun n => rfl
  simp only [hx] at e1 e2 e3 e4 e5
  have hst : ∀ n, (x (n + 1)).stress = s (n + 1) + isoT (Spec.dpMean pr p0 r.epsE) := fun n => by
    have := (hstep n (hRn n)).1
    simp only [hx] at this
    rw [this, (hinv (n + 1)).1]
  have hsz : ∀ n, Spec.meanStress (s n) = 0 := fun n => by
    simp only [hsd, Spec.dpDev, meanStress_smul, meanStress_dev, mul_zero]
  have hgain : ∀ n, R (n + 1) = R n + (Spec.dpStiffness pr - pr.shear) * pm n := fun n => by
    simp only [R, Spec.dpStrength, e4, Spec.dpStiffness, hhat]; ring
  have hmono : Monotone R := monotone_nat_of_le_succ fun n => by
    rw [hgain]; linarith [mul_nonneg (sub_nonneg.mpr h.stiff) (hpm n)]
  have hyield : ∀ n, (Spec.rootJ2 (s n + (2 * pr.shear * dt) • L) ≤ R n ∧ k n = 0 ∧ R (n + 1) = R n) ∨
      (R n < Spec.rootJ2 (s n + (2 * pr.shear * dt) • L) ∧ Spec.rootJ2 (s (n + 1)) = R (n + 1)) := by
    intro n
    have := e5 n
    rw [(hinv n).1] at this
    rcases this with ⟨f1, f2, f3⟩ | ⟨f1, f2, f3⟩
    · exact .inl ⟨f1, f2, by rw [hgain, f3, mul_zero, add_zero]⟩
    · exact .inr ⟨f1, by rw [hgain]; exact f3⟩
  clear_value x
  have ha : 0 < 2 * pr.shear * dt := by have := h.shear; positivity
  set a := 2 * pr.shear * dt with had
  set c := fun n => Spec.ddot (s n) L / u with hcd
  have hcs : ∀ n, Spec.ddot (s n) L = c n * u := fun n => by simp only [hcd]; field_simp
  have hcstep : ∀ n, c (n + 1) * (1 + k n) = c n + a * u := by
    intro n
    have e := congrArg (fun A => Spec.ddot A L) (e1 n)
    have e0 : ∀ (b : ℝ) (A : Mat3 ℝ), Spec.ddot (b • A) L = b * Spec.ddot A L := fun b A => by
      have := ddot_smul b 1 A L
      rw [one_smul, mul_one] at this; exact this
    change Spec.ddot ((1 + k n) • s (n + 1)) L = Spec.ddot (s n + a • L) L at e
    rw [e0, ddot_add_smul, hu2, hcs, hcs] at e
    apply mul_left_cancel₀ hu0.ne'
    linarith
  have hau : 0 < a * u := mul_pos ha hu0
  have hcB : ∀ n, |c n| ≤ 2 * R n := fun n => along_le hu0 hu2 (hRp n).le (hinv n).2.2
  obtain ⟨N1, hN1⟩ := drive_pos (a := fun _ => a * u) hau hk (fun _ => le_rfl) hcstep
  -- failure is reached
  have hex : ∃ n1, N1 ≤ n1 ∧ Spec.rootJ2 (s n1) = R n1 := by
    by_contra hcon
    push Not at hcon
    have hel : ∀ n, N1 ≤ n → k n = 0 ∧ R (n + 1) = R n := by
      intro n hn
      rcases hyield n with h1 | h1
      · exact h1.2
      · exact absurd h1.2 (hcon (n + 1) (by omega))
    have hgrow : ∀ m : ℕ, c (N1 + m) = c N1 + m * (a * u) ∧ R (N1 + m) = R N1 := by
      intro m
      induction m with
      | zero => simp
      | succ m ih =>
        obtain ⟨h1, h2⟩ := hel (N1 + m) (by omega)
        have h3 := hcstep (N1 + m)
        rw [h1, add_zero, mul_one, ih.1] at h3
        refine ⟨?_, ?_⟩
        · rw [← add_assoc, h3]; push_cast; ring
        · rw [← add_assoc, h2, ih.2]
    obtain ⟨m, hm⟩ := exists_nat_gt ((2 * R N1 - c N1) / (a * u))
    rw [div_lt_iff₀ hau] at hm
    obtain ⟨g1, g2⟩ := hgrow m
    have := (le_abs_self _).trans (hcB (N1 + m))
    rw [g1, g2] at this
    linarith
  obtain ⟨n1, hn1, hon1⟩ := hex
  have hon : ∀ n, n1 ≤ n → Spec.rootJ2 (s n) = R n := by
    intro n hn
    induction n, hn using Nat.le_induction with
    | base => exact hon1
    | succ n hn ih =>
      have hcn : 0 < Spec.ddot (s n) L := by rw [hcs]; exact mul_pos (hN1 n (by omega)) hu0
      have := rootJ2_grows ha hL hcn
      rw [ih] at this
      rcases hyield n with h1 | h1
      · exact absurd (this.trans_le h1.1) (lt_irrefl _)
      · exact h1.2
  -- the part across the shearing
  set d := fun n => s n - (c n / u) • L with hdd
  have hdstep : ∀ i j n, d (n + 1) i j * (1 + k n) = d n i j := by
    intro i j n
    have e := congrFun (congrFun (e1 n) i) j
    simp only [Matrix.smul_apply, Matrix.add_apply, smul_eq_mul] at e
    have e' : (1 + k n) * s (n + 1) i j = s n i j + a * L i j := e
    have e2 := hcstep n
    have e3 : c (n + 1) / u * L i j * (1 + k n) = c n / u * L i j + a * L i j := by
      rw [show c (n + 1) / u * L i j * (1 + k n) = c (n + 1) * (1 + k n) / u * L i j by ring, e2]
      field_simp
    simp only [hdd, Matrix.sub_apply, Matrix.smul_apply, smul_eq_mul]
    linarith
  have hdR : ∀ i j, Tendsto (fun n => d n i j / R n) atTop (𝓝 0) := by
    intro i j
    by_cases hb : ∃ B, ∀ n, R n ≤ B
    · obtain ⟨B, hB⟩ := hb
      have hB0 : 0 < B := (hRp 0).trans_le (hB 0)
      have hcB' : ∀ n, |c n| ≤ 2 * B := fun n => (hcB n).trans (by linarith [hB n])
      have hsum : ∀ S, ∃ n, S < ∑ i ∈ Finset.range n, k i := by
        intro S
        obtain ⟨n, hn⟩ := exists_nat_gt ((2 * (2 * B) + 2 * B * S) / (a * u))
        rw [div_lt_iff₀ hau] at hn
        have h1 := drive_sum (a := fun _ => a * u) hcB' hk (fun _ => le_rfl) hcstep n
        have h2 := (le_abs_self _).trans (hcB' n)
        have h3 := (neg_le_abs _).trans (hcB' 0)
        refine ⟨n, ?_⟩
        by_contra hcon
        have := mul_le_mul_of_nonneg_left (not_lt.mp hcon) (by linarith : 0 ≤ 2 * B)
        linarith
      have hd0 := drive_decay (d := fun n => d n i j) hk hsum (hdstep i j)
      refine squeeze_zero_norm (fun n => ?_) (a := fun n => |d n i j| / R 0) ?_
      · rw [Real.norm_eq_abs, abs_div, abs_of_pos (hRp n)]
        exact div_le_div_of_nonneg_left (abs_nonneg _) (hRp 0) (hmono (Nat.zero_le n))
      · have := hd0.abs.div_const (R 0)
        simpa using this
    · push Not at hb
      have hinf : Tendsto R atTop atTop := tendsto_atTop_atTop_of_monotone hmono fun B => by
        obtain ⟨n, hn⟩ := hb B
        exact ⟨n, hn.le⟩
      have hdb : ∀ n, |d n i j| ≤ |d 0 i j| := by
        intro n
        induction n with
        | zero => exact le_rfl
        | succ n ih =>
          refine le_trans ?_ ih
          rw [← hdstep i j n, abs_mul, abs_of_nonneg (by linarith [hk n] : 0 ≤ 1 + k n)]
          nlinarith [abs_nonneg (d (n + 1) i j), hk n]
      refine squeeze_zero_norm (fun n => ?_) (a := fun n => |d 0 i j| / R n) (hinf.const_div_atTop _)
      rw [Real.norm_eq_abs, abs_div, abs_of_pos (hRp n)]
      exact div_le_div_of_nonneg_right (hdb n) (hRp n).le
  -- the part along the shearing
  have hdd0 : Tendsto (fun n => Spec.ddot (d n) (d n) / R n ^ 2) atTop (𝓝 0) := by
    have : Tendsto (fun n => ∑ i, ∑ j, d n i j / R n * (d n i j / R n)) atTop (𝓝 (∑ i : Fin 3, ∑ j : Fin 3, (0 : ℝ) * 0)) :=
      tendsto_finsetSum _ fun i _ => tendsto_finsetSum _ fun j _ => (hdR i j).mul (hdR i j)
    simp only [mul_zero, Finset.sum_const_zero] at this
    refine this.congr fun n => ?_
    rw [Spec.ddot, Finset.sum_div]
    refine Finset.sum_congr rfl fun i _ => ?_
    rw [Finset.sum_div]
    refine Finset.sum_congr rfl fun j _ => ?_
    rw [div_mul_div_comm, sq]
  have hcR : Tendsto (fun n => c n / R n) atTop (𝓝 (Real.sqrt 2)) := by
    have h2 : Tendsto (fun n => Real.sqrt (2 - Spec.ddot (d n) (d n) / R n ^ 2)) atTop (𝓝 (Real.sqrt (2 - 0))) :=
      (tendsto_const_nhds.sub hdd0).sqrt
    rw [sub_zero] at h2
    refine h2.congr' ?_
    filter_upwards [eventually_ge_atTop n1] with n hn
    have h3 := ddot_split (s n) L hu0 hu2
    have h4 := rootJ2_sq (s n)
    rw [hon n hn] at h4
    have h5 : 2 - Spec.ddot (d n) (d n) / R n ^ 2 = (c n / R n) ^ 2 := by
      have h6 : Spec.ddot (d n) (d n) = 2 * R n ^ 2 - c n ^ 2 := by
        change Spec.ddot (s n) (s n) = c n ^ 2 + Spec.ddot (d n) (d n) at h3
        linarith
      have := (hRp n).ne'
      rw [h6]; field_simp; ring
    rw [h5, Real.sqrt_sq (div_nonneg (hN1 n (by omega)).le (hRp n).le)]
  refine ⟨fun n hn => ?_, ⟨n1 + 1, fun n hn => ?_⟩, ?_⟩
  · obtain ⟨m, rfl⟩ : ∃ m, n = m + 1 := ⟨n - 1, by omega⟩
    rw [hst, meanStress_add, hsz, meanStress_isoT, zero_add]
  · obtain ⟨m, rfl⟩ : ∃ m, n = m + 1 := ⟨n - 1, by omega⟩
    rw [hst, J2_add_iso (hsz _)]
    exact hon _ (by omega)
  · have hlim : Tendsto (fun n => (1 / R n) • s n) atTop (𝓝 ((Real.sqrt 2 / u) • L)) := by
      refine tendsto_pi_nhds.mpr fun i => tendsto_pi_nhds.mpr fun j => ?_
      have h1 := ((hcR.div_const u).mul_const (L i j)).add (hdR i j)
      rw [add_zero] at h1
      refine h1.congr fun n => ?_
      simp only [hdd, Matrix.sub_apply, Matrix.smul_apply, smul_eq_mul]
      ring
    refine hlim.congr' ?_
    filter_upwards [eventually_ge_atTop 1] with n hn
    obtain ⟨m, rfl⟩ : ∃ m, n = m + 1 := ⟨n - 1, by omega⟩
    rw [hst, dev_add_iso (hsz _)]

/-! ### Dilatant material -/

set_option maxHeartbeats 1000000 in
/-- **C135**, refuted: material that dilates (`mu_1_hat > 0`) should gain pressure, and with it strength, when it is sheared at
constant volume. Whatever its state, it loses its strength instead, after finitely many steps. -/
theorem dp_dilatant_fails {pr : DPParams ℝ} (h : pr.Sound) (hhat : pr.H * pr.mu2 ^ 2 < pr.bulk * pr.mu1 * pr.mu1Hat) {L : Mat3 ℝ}
    (hs : L.transpose = L) (ht : L.trace = 0) (hL : L ≠ 0) {rho dt p0 : ℝ} (hdt : 0 < dt) (hr : pr.rho0 ≤ rho) (r : DPResult ℝ) :
    ∃ n, Spec.dpStrength pr (Spec.dpMean pr p0 (dpPath pr L p0 rho dt r n).epsE) (dpPath pr L p0 rho dt r n).epsP < 1 / 10 ^ 6 := by
  by_contra hcon
  push Not at hcon
  set x := dpPath pr L p0 rho dt r with hxd
  set u := Real.sqrt (Spec.ddot L L) with hu
  have hu0 : 0 < u := Real.sqrt_pos.mpr (ddot_pos hL)
  have hu2 : Spec.ddot L L = u ^ 2 := (Real.sq_sqrt (ddot_self_nonneg L)).symm
  set s := fun n => Spec.dpDev pr (x n).epsE with hsd
  set R := fun n => Spec.dpStrength pr (Spec.dpMean pr p0 (x n).epsE) (x n).epsP with hRd
  have hRn : ∀ n, 1 / 10 ^ 6 ≤ R n := hcon
  have hRp : ∀ n, 0 < R n := fun n => lt_of_lt_of_le (by norm_num) (hRn n)
  choose k pm hk hpm e1 e2 e3 e4 e5 using fun n => (dp_shear_scaled h hs ht (x n).epsE (x n).epsP p0 dt hr (hRn n)).2
  have hx : ∀ n, dpUpdate realFns pr L (x n).epsE (x n).epsP p0 rho dt = x (n + 1) := fun n => rfl
  simp only [hx] at e1 e2 e3 e4 e5
  clear_value x
  set κ := pr.bulk * pr.mu1 * pr.mu1Hat - pr.H * pr.mu2 ^ 2 with hκ
  have hκ0 : 0 < κ := sub_pos.mpr hhat
  have hloss : ∀ n, R (n + 1) = R n - κ * pm n := fun n => by
    simp only [hRd, Spec.dpStrength, e3, e4, hκ]; ring
  have hsumpm : ∀ n, κ * ∑ i ∈ Finset.range n, pm i = R 0 - R n := by
    intro n
    induction n with
    | zero => simp
    | succ n ih => rw [Finset.sum_range_succ, mul_add, ih, hloss]; ring
  have hpmB : ∀ n, ∑ i ∈ Finset.range n, pm i ≤ R 0 / κ := fun n => by
    rw [le_div_iff₀ hκ0, mul_comm, hsumpm]; linarith [hRp n]
  have hpm1 : ∀ n, pm n ≤ R 0 / κ := fun n =>
    (Finset.single_le_sum (f := pm) (fun i _ => hpm i) (Finset.self_mem_range_succ n)).trans (hpmB (n + 1))
  have hRle : ∀ n, R n ≤ R 0 := fun n => by
    have := mul_nonneg hκ0.le (Finset.sum_nonneg fun i (_ : i ∈ Finset.range n) => hpm i)
    rw [hsumpm] at this; linarith
  have hG := h.shear
  have hst := sub_nonneg.mpr h.stiff
  have hq0 : 0 ≤ R 0 / κ := (div_pos (hRp 0) hκ0).le
  set B := R 0 + (Spec.dpStiffness pr - pr.shear) * (R 0 / κ) with hB
  have hB0 : 0 ≤ B := by have := hRp 0; positivity
  have hsB : ∀ n, Spec.rootJ2 (s (n + 1)) ≤ B := by
    intro n
    rcases e5 n with ⟨f1, f2, -⟩ | ⟨f1, f2, f3⟩
    · have := e1 n
      rw [f2, add_zero, one_smul] at this
      simp only [hsd, this]
      exact f1.trans ((hRle n).trans (by rw [hB]; linarith [mul_nonneg hst hq0]))
    · simp only [hsd, f3]
      exact add_le_add (hRle n) (mul_le_mul_of_nonneg_left (hpm1 n) hst)
  have hkle : ∀ n, k n ≤ 10 ^ 6 * pr.shear * pm n := by
    intro n
    rcases e5 n with ⟨-, f2, f3⟩ | ⟨-, f2, f3⟩
    · rw [f2, f3]; simp
    · have h1 : 1 / 10 ^ 6 ≤ Spec.rootJ2 (Spec.dpDev pr (x (n + 1)).epsE) := by
        rw [f3]
        have := mul_nonneg hst f2.le
        linarith [hRn n]
      have h2 := mul_le_mul_of_nonneg_left h1 (hk n)
      rw [e2 n] at h2
      linarith
  have hksum : ∀ n, ∑ i ∈ Finset.range n, k i ≤ 10 ^ 6 * pr.shear * (R 0 / κ) := fun n => by
    refine (Finset.sum_le_sum fun i _ => hkle i).trans ?_
    rw [← Finset.mul_sum]
    exact mul_le_mul_of_nonneg_left (hpmB n) (by positivity)
  have ha : 0 < 2 * pr.shear * dt := by positivity
  set a := 2 * pr.shear * dt with had
  set c := fun n => Spec.ddot (s n) L / u with hcd
  have hcs : ∀ n, Spec.ddot (s n) L = c n * u := fun n => by simp only [hcd]; field_simp
  have hcstep : ∀ n, c (n + 1) * (1 + k n) = c n + a * u := by
    intro n
    have e := congrArg (fun A => Spec.ddot A L) (e1 n)
    have e0 : ∀ (b : ℝ) (A : Mat3 ℝ), Spec.ddot (b • A) L = b * Spec.ddot A L := fun b A => by
      have := ddot_smul b 1 A L
      rw [one_smul, mul_one] at this; exact this
    change Spec.ddot ((1 + k n) • s (n + 1)) L = Spec.ddot (s n + a • L) L at e
    rw [e0, ddot_add_smul, hu2, hcs, hcs] at e
    apply mul_left_cancel₀ hu0.ne'
    linarith
  have hau : 0 < a * u := mul_pos ha hu0
  set C := |c 0| + 2 * B with hC
  have hcB : ∀ n, |c n| ≤ C := by
    intro n
    cases n with
    | zero => rw [hC]; linarith
    | succ n => exact (along_le hu0 hu2 hB0 (hsB n)).trans (by rw [hC]; linarith [abs_nonneg (c 0)])
  have hC0 : 0 ≤ C := (abs_nonneg _).trans (hcB 0)
  obtain ⟨n, hn⟩ := exists_nat_gt ((2 * C + C * (10 ^ 6 * pr.shear * (R 0 / κ))) / (a * u))
  rw [div_lt_iff₀ hau] at hn
  have h1 := drive_sum (a := fun _ => a * u) hcB hk (fun _ => le_rfl) hcstep n
  have h2 := (le_abs_self _).trans (hcB n)
  have h3 := (neg_le_abs _).trans (hcB 0)
  have h4 := mul_le_mul_of_nonneg_left (hksum n) hC0
  linarith

/-! ### Undrained tests -/

variable {dim : ℕ}

theorem driver_dp_path (d : Driver ℝ dim (LawState ℝ)) (pr : DPParams ℝ) (reset : Bool)
    (hd : d.law = dpLaw realFns pr reset) (mp : MPState ℝ dim 1) (e : ℕ → Mat3 ℝ) (epsP p0 : ℕ → ℝ) (L : Mat3 ℝ) (dt : ℝ) :
    ∃ c e' epsP', d.step realExpm mp (.dp e epsP p0) L dt = .ok c ∧ c.2 = .dp e' epsP' p0 ∧
      (⟨c.1.stress 0, e' 0, epsP' 0⟩ : DPResult ℝ) = dpUpdate realFns pr L (e 0) (epsP 0) (p0 0) (mp.density 0) dt := by
  unfold Driver.step
  rw [hd]
  exact ⟨_, _, _, rfl, rfl, rfl⟩

/-- The initial state of a test as a state of the path. -/
noncomputable def dpStart (mp : MPState ℝ dim 1) (e : ℕ → Mat3 ℝ) (epsP : ℕ → ℝ) : DPResult ℝ :=
  ⟨mp.stress 0, e 0, epsP 0⟩

theorem undrained_dp_path (grad : (ℝ → ℝ) → ℝ → ℝ) (t : TriaxialTest ℝ dim (LawState ℝ)) (pr : DPParams ℝ) (reset : Bool)
    (hd : t.solver.law = dpLaw realFns pr reset) (hu : t.isUndrained = true) {a dt : ℝ}
    (ha : t.axialRate = .scalar a) (hdt : t.dt = .scalar dt) (mp : MPState ℝ dim 1) (e : ℕ → Mat3 ℝ) (epsP p0 : ℕ → ℝ)
    (hvol : mp.volume 0 = (mp.F 0).det * mp.volume0 0) (m : ℕ) :
    ∃ c e' epsP', scanCarry (t.stepIdx realExpm grad) (mp, .dp e epsP p0) (List.range m) = .ok c ∧
      c.2 = .dp e' epsP' p0 ∧ dpStart c.1 e' epsP' =
        dpPath pr (triaxialL (-(1 / 2) * a) a) (p0 0) (mp.density 0) dt (dpStart mp e epsP)
          (if t.startStatic then m - 1 else m) := by
  induction m with
  | zero => exact ⟨_, e, epsP, rfl, rfl, by split_ifs <;> rfl⟩
  | succ m ih =>
    obtain ⟨b, be, beps, hb, b2, b3⟩ := ih
    obtain ⟨-, i2, -, i4⟩ := carry_invariant grad t mp _ m b hb
    have hv := (i2 hu).2 hvol
    obtain ⟨bm, bl⟩ := b
    simp only at b2 b3 i4 hv
    subst b2
    have hden : bm.density 0 = mp.density 0 := by simp only [MPState.density, hv, i4]
    rw [List.range_succ, scanCarry_append, hb]
    simp only [andThen, scanCarry]
    unfold TriaxialTest.stepIdx
    by_cases h0 : t.startStatic = true ∧ m = 0
    · rw [if_pos h0]
      obtain ⟨h0a, h0b⟩ := h0
      subst h0b
      refine ⟨_, be, beps, rfl, rfl, ?_⟩
      rw [b3, if_pos h0a, if_pos h0a]
    · rw [if_neg h0]
      obtain ⟨c, e', eps', hc, e1, e2⟩ := driver_dp_path t.solver pr reset hd bm be beps p0
        (triaxialL (-(1 / 2) * a) a) dt
      simp only [TriaxialTest.lateral, hu, if_true, ha, hdt, Sched.at, hc]
      refine ⟨c, e', eps', rfl, e1, ?_⟩
      have hk : (if t.startStatic = true then m + 1 - 1 else m + 1) = (if t.startStatic = true then m - 1 else m) + 1 := by
        split_ifs with h1
        · have hm : m ≠ 0 := fun e => h0 ⟨h1, e⟩
          omega
        · rfl
      rw [hk, dpPath, ← b3]
      simp only [dpStart, hden] at e2 ⊢
      exact e2

/-- The direction of triaxial shearing. -/
theorem triaxial_direction {a : ℝ} (ha : a ≠ 0) :
    (Real.sqrt 2 / Real.sqrt (Spec.ddot (triaxialL (-(1 / 2) * a) a) (triaxialL (-(1 / 2) * a) a))) • triaxialL (-(1 / 2) * a) a =
      Matrix.diagonal ![-(SignType.sign a * Real.sqrt 3 / 3), -(SignType.sign a * Real.sqrt 3 / 3), 2 * (SignType.sign a * Real.sqrt 3 / 3)] := by
  have hd : Spec.ddot (triaxialL (-(1 / 2) * a) a) (triaxialL (-(1 / 2) * a) a) = 3 / 2 * a ^ 2 := by
    simp [Spec.ddot, triaxialL, Fin.sum_univ_three]; ring
  have hs : Real.sqrt (3 / 2 * a ^ 2) = Real.sqrt (3 / 2) * |a| := by
    rw [Real.sqrt_mul (by norm_num), Real.sqrt_sq_eq_abs]
  have h3 : Real.sqrt 2 / Real.sqrt (3 / 2) = 2 / 3 * Real.sqrt 3 := by
    rw [← Real.sqrt_div (by norm_num), show (2 : ℝ) / (3 / 2) = (2 / 3) ^ 2 * 3 by norm_num,
      Real.sqrt_mul (by norm_num), Real.sqrt_sq (by norm_num)]
  have hsg : a / |a| = SignType.sign a := by
    rcases lt_or_gt_of_ne ha with h | h
    · rw [abs_of_neg h, sign_neg h, div_neg, div_self ha]; rfl
    · rw [abs_of_pos h, sign_pos h, div_self ha]; rfl
  have hk : Real.sqrt 2 / (Real.sqrt (3 / 2) * |a|) = 2 / 3 * Real.sqrt 3 / |a| := by
    rw [← h3, div_div]
  rw [hd, hs, hk, ← hsg]
  ext i j
  fin_cases i <;> fin_cases j <;> simp [triaxialL] <;> ring

/-- **C135**: undrained tests of Drucker-Prager material without dilatancy and hardening that are run for long enough end at
failure: the mean stress is that of the start, and the axial stress differs from the lateral stress by `√3` times the strength
(partial: `mu_1_hat = 0`). -/
theorem undrained_failure_partial (grad : (ℝ → ℝ) → ℝ → ℝ) (t : TriaxialTest ℝ dim (LawState ℝ)) {pr : DPParams ℝ}
    (reset : Bool) (hd : t.solver.law = dpLaw realFns pr reset) (h : pr.Sound) (hhat : pr.mu1Hat = 0) (hH : pr.H = 0)
    (hu : t.isUndrained = true) {a dt : ℝ} (ha : t.axialRate = .scalar a) (ha0 : a ≠ 0) (hdt : t.dt = .scalar dt) (hdt0 : 0 < dt)
    (mp : MPState ℝ dim 1) (e : ℕ → Mat3 ℝ) (epsP p0 : ℕ → ℝ) (hvol : mp.volume 0 = (mp.F 0).det * mp.volume0 0)
    (hr : pr.rho0 ≤ mp.density 0)
    (hR : 1 / 10 ^ 6 ≤ Spec.dpStrength pr (Spec.dpMean pr (p0 0) (e 0)) (epsP 0))
    (h0 : Spec.rootJ2 (Spec.dpDev pr (e 0)) ≤ Spec.dpStrength pr (Spec.dpMean pr (p0 0) (e 0)) (epsP 0)) {ε : ℝ} (hε : 0 < ε) :
    let P := Spec.dpMean pr (p0 0) (e 0)
    let q := SignType.sign a * (Real.sqrt 3 * Spec.dpStrength pr P (epsP 0))
    ∃ N, ∀ numSteps stride tr, { t with numSteps := numSteps, stride := stride }.run realExpm grad mp (.dp e epsP p0) = .ok tr →
      ∀ k (hk : k < tr.length), N ≤ (k + 1) * stride →
        ∀ i j, |tr[k].1.stress 0 i j - Matrix.diagonal ![P - q / 3, P - q / 3, P + 2 * q / 3] i j| < ε := by
  intro P q
  have hs : (triaxialL (-(1 / 2) * a) a).transpose = triaxialL (-(1 / 2) * a) a := Matrix.diagonal_transpose _
  have htr : (triaxialL (-(1 / 2) * a) a).trace = 0 := by
    simp [triaxialL, Matrix.trace, Fin.sum_univ_three]
    try ring
  have hL : triaxialL (-(1 / 2) * a) a ≠ 0 := by
    intro e
    have := congrFun (congrFun e 2) 2
    simp [triaxialL] at this
    exact ha0 this
  obtain ⟨l1, -, l2⟩ := dp_failure_partial h hhat hs htr hL hdt0 hr (dpStart mp e epsP) hR h0
  rw [triaxial_direction ha0] at l2
  set x := dpPath pr (triaxialL (-(1 / 2) * a) a) (p0 0) (mp.density 0) dt (dpStart mp e epsP) with hx
  set R := Spec.dpStrength pr P (epsP 0) with hRd
  have hRc : ∀ n, Spec.dpStrength pr (Spec.dpMean pr (p0 0) (dpStart mp e epsP).epsE) (x n).epsP = R := fun n => by
    simp only [Spec.dpStrength, hH, zero_mul, hRd]; rfl
  have hRp : 0 < R := lt_of_lt_of_le (by norm_num) hR
  simp only [hRc] at l2
  have l3 : ∀ i j, Tendsto (fun n => (x n).stress i j) atTop (𝓝 (Matrix.diagonal ![P - q / 3, P - q / 3, P + 2 * q / 3] i j)) := by
    intro i j
    have := ((tendsto_pi_nhds.mp (tendsto_pi_nhds.mp l2 i) j).const_mul R).add_const (isoT P i j)
    have hv : R * Matrix.diagonal ![-(SignType.sign a * Real.sqrt 3 / 3), -(SignType.sign a * Real.sqrt 3 / 3),
        2 * (SignType.sign a * Real.sqrt 3 / 3)] i j + isoT P i j = Matrix.diagonal ![P - q / 3, P - q / 3, P + 2 * q / 3] i j := by
      fin_cases i <;> fin_cases j <;> simp [isoT, q] <;> ring
    rw [hv] at this
    refine this.congr' ?_
    filter_upwards [eventually_ge_atTop 1] with n hn
    have h1 := l1 n (by omega)
    have h2 := congrFun (congrFun (dev_add_mean (x n).stress) i) j
    rw [h1] at h2
    rw [← h2]
    simp only [Matrix.smul_apply, Matrix.add_apply, smul_eq_mul]
    congr 1
    field_simp
  have l4 : ∀ i j, ∀ᶠ n in atTop, |(x n).stress i j - Matrix.diagonal ![P - q / 3, P - q / 3, P + 2 * q / 3] i j| < ε := by
    intro i j
    have := Metric.tendsto_nhds.mp (l3 i j) ε hε
    simpa only [Real.dist_eq] using this
  obtain ⟨N, hN⟩ := eventually_atTop.mp (eventually_all.mpr fun i => eventually_all.mpr fun j => l4 i j)
  refine ⟨N + 1, fun numSteps stride tr hrun k hk hkN => ?_⟩
  simp only [TriaxialTest.run] at hrun
  split_ifs at hrun
  obtain ⟨-, r2⟩ := scanRows_index _ _ _ _ _ hrun
  obtain ⟨c, e', eps', c1, c2, c3⟩ := undrained_dp_path grad t pr reset hd hu ha hdt mp e epsP p0 hvol ((k + 1) * stride)
  have hck : tr[k] = c := by
    have e1 : scanCarry (t.stepIdx realExpm grad) (mp, .dp e epsP p0) (List.range ((k + 1) * stride)) = .ok tr[k] := r2 k hk
    rw [c1] at e1
    exact (Except.ok.inj e1).symm
  have hidx : N ≤ (if t.startStatic = true then (k + 1) * stride - 1 else (k + 1) * stride) := by
    split_ifs <;> omega
  have q2 := hN _ hidx
  rw [← hx] at c3
  rw [← c3] at q2
  rw [hck]
  exact q2

/-! ### Examples -/

/-- Undrained compression. -/
noncomputable def exFailing : TriaxialTest ℝ 3 (LawState ℝ) :=
  { solver := { law := dpLaw realFns (exDP 0) false }
    confine := 100
    axialRate := .scalar 1
    dt := .scalar (1 / 1000)
    isUndrained := true }

theorem exDP_sound {hat : ℝ} (h : 0 ≤ hat) : (exDP hat).Sound :=
  ⟨by norm_num [exDP], by norm_num [exDP], by norm_num [exDP], h, by norm_num [exDP]⟩

theorem exDP_start (hat p0 : ℝ) : Spec.dpStrength (exDP hat) (Spec.dpMean (exDP hat) p0 0) 0 = p0 / 2 := by
  simp [Spec.dpStrength, Spec.dpMean, exDP]; ring

theorem rootJ2_start (pr : DPParams ℝ) : Spec.rootJ2 (Spec.dpDev pr 0) = 0 := by
  have : Spec.dpDev pr 0 = 0 := by
    ext i j; simp [Spec.dpDev, Spec.dev, Spec.meanStress]
  rw [this, Spec.rootJ2]
  simp [Spec.ddot]

/-- Material of strength `p / 2` at pressure 100 fails at a stress difference of `50 √3`. -/
example {ε : ℝ} (hε : 0 < ε) : ∃ N, ∀ numSteps stride tr, { exFailing with numSteps := numSteps, stride := stride }.run realExpm deriv
    (exPoint 2000 100) (.dp (fun _ => 0) (fun _ => 0) fun _ => 100) = .ok tr → ∀ k (hk : k < tr.length), N ≤ (k + 1) * stride →
      |tr[k].1.stress 0 2 2 - (100 + 100 / 3 * Real.sqrt 3)| < ε := by
  obtain ⟨N, hN⟩ := undrained_failure_partial deriv exFailing (pr := exDP 0) false rfl (exDP_sound le_rfl) rfl rfl rfl
    (a := 1) (dt := 1 / 1000) rfl one_ne_zero rfl (by norm_num) (exPoint 2000 100) (fun _ => 0) (fun _ => 0) (fun _ => 100)
    (by simp [exPoint]) (by norm_num [exDP, exPoint, MPState.density]) (by rw [exDP_start]; norm_num)
    (by rw [exDP_start, rootJ2_start]; norm_num) hε
  refine ⟨N, fun numSteps stride tr hr k hk hkN => ?_⟩
  have := hN numSteps stride tr hr k hk hkN 2 2
  rw [exDP_start] at this
  simp only [Matrix.diagonal_apply_eq, sign_one] at this
  convert this using 2
  simp [Spec.dpMean, exDP]
  ring

/-- Dilatant material at pressure 100 loses its strength. -/
example : ∃ n, Spec.dpStrength (exDP 1) (Spec.dpMean (exDP 1) 100
    (dpPath (exDP 1) (triaxialL (-(1 / 2) * 1) 1) 100 2000 (1 / 1000) ⟨isoT 100, 0, 0⟩ n).epsE)
    (dpPath (exDP 1) (triaxialL (-(1 / 2) * 1) 1) 100 2000 (1 / 1000) ⟨isoT 100, 0, 0⟩ n).epsP < 1 / 10 ^ 6 :=
  dp_dilatant_fails (exDP_sound zero_le_one) (by norm_num [exDP]) (Matrix.diagonal_transpose _)
    (by simp [triaxialL, Matrix.trace, Fin.sum_univ_three]; norm_num)
    (fun e => by have := congrFun (congrFun e 2) 2; simp [triaxialL] at this) (by norm_num) (by norm_num [exDP]) _

end Hydrax
