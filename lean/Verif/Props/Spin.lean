import Verif.Props.Helpers
import Verif.Props.Gather
import Verif.Props.CamClay
import Verif.Props.DruckerPrager
import Mathlib.Analysis.Calculus.Deriv.Mul
import Mathlib.Analysis.Asymptotics.Lemmas
import Mathlib.Analysis.SpecialFunctions.Trigonometric.Deriv

/-!
# C93: a body that turns rigidly carries its stress along
-/

set_option linter.unusedSectionVars false

namespace Hydrax

open Spec

section
variable {K : Type*} [Field K] [LinearOrder K] [IsStrictOrderedRing K]

/-- A rate of rotation. -/
def Spec.Skew (Ω : Mat3 K) : Prop := Ω.transpose = -Ω

/-- `Ω A - A Ω`. -/
def Spec.turning (Ω A : Mat3 K) : Mat3 K := Ω * A - A * Ω

variable {Ω : Mat3 K}

theorem Skew.apply (h : Skew Ω) (i j : Fin 3) : Ω j i = -Ω i j := congrFun (congrFun h i) j

theorem Skew.diag (h : Skew Ω) (i : Fin 3) : Ω i i = 0 := by have := Skew.apply h i i; linarith

theorem Skew.sym (h : Skew Ω) : symTensor Ω = 0 := by
  ext i j; simp [symTensor, Skew.apply h i j]

theorem Skew.spin (h : Skew Ω) : spinTensor Ω = Ω := by
  ext i j
  simp only [spinTensor, Matrix.smul_apply, Matrix.sub_apply, Matrix.transpose_apply, Skew.apply h i j, smul_eq_mul]
  ring

theorem jaumann_comm (A Ω : Mat3 K) (dt : K) : jaumann A Ω dt = A + dt • turning Ω A := rfl

theorem turning_add (A B : Mat3 K) : turning Ω (A + B) = turning Ω A + turning Ω B := by
  simp only [turning, mul_add, add_mul]; abel

theorem turning_smul (c : K) (A : Mat3 K) : turning Ω (c • A) = c • turning Ω A := by
  simp only [turning, mul_smul_comm, smul_mul_assoc, smul_sub]

theorem turning_isoT (c : K) : turning Ω (isoT c) = 0 := by
  simp [turning, isoT]

theorem turning_dev (A : Mat3 K) : turning Ω (dev A) = turning Ω A := by
  conv_rhs => rw [← dev_add_mean A, turning_add, turning_isoT, add_zero]

theorem turning_mean (A : Mat3 K) : meanStress (turning Ω A) = 0 := by
  rw [meanStress_trace, turning, Matrix.trace_sub, Matrix.trace_mul_comm, sub_self, zero_div]

/-- Commutation with a rate of rotation is skew for the scalar product of tensors. -/
theorem ddot_turning_skew (h : Skew Ω) (A B : Mat3 K) : ddot (turning Ω A) B = -ddot A (turning Ω B) := by
  have h10 := Skew.apply h 0 1
  have h20 := Skew.apply h 0 2
  have h21 := Skew.apply h 1 2
  simp only [ddot, turning, Fin.sum_univ_three, Matrix.sub_apply, Matrix.mul_apply, h10, h20, h21, Skew.diag h]
  ring

theorem ddot_turning_self (h : Skew Ω) (A : Mat3 K) : ddot A (turning Ω A) = 0 := by
  have := ddot_turning_skew h A A
  rw [ddot_comm] at this
  linarith

theorem ddot_jaumann (h : Skew Ω) (A : Mat3 K) (dt : K) :
    ddot (jaumann A Ω dt) (jaumann A Ω dt) = ddot A A + dt ^ 2 * ddot (turning Ω A) (turning Ω A) := by
  have e : ddot (jaumann A Ω dt) (jaumann A Ω dt)
      = ddot A A + 2 * dt * ddot A (turning Ω A) + dt ^ 2 * ddot (turning Ω A) (turning Ω A) := by
    rw [jaumann_comm]
    generalize turning Ω A = B
    simp only [ddot, Fin.sum_univ_three, Matrix.add_apply, Matrix.smul_apply, smul_eq_mul]
    ring
  rw [e, ddot_turning_self h, mul_zero, add_zero]

theorem dev_jaumann (A : Mat3 K) (dt : K) : dev (jaumann A Ω dt) = jaumann (dev A) Ω dt := by
  have e : jaumann A Ω dt = jaumann (dev A) Ω dt + isoT (meanStress A) := by
    rw [jaumann_comm, jaumann_comm, turning_dev]
    conv_lhs => rw [← dev_add_mean A, turning_add, turning_isoT, add_zero, turning_dev]
    abel
  rw [e]
  refine dev_add_iso ?_ _
  rw [jaumann_comm, meanStress_add, meanStress_dev, meanStress_smul, turning_mean, mul_zero, add_zero]

theorem mean_jaumann (A : Mat3 K) (dt : K) : meanStress (jaumann A Ω dt) = meanStress A := by
  rw [jaumann_comm, meanStress_add, meanStress_smul, turning_mean, mul_zero, add_zero]

/-- Repeated increments. -/
def Spec.spun (Ω : Mat3 K) (dt : K) : ℕ → Mat3 K → Mat3 K
  | 0, A => A
  | n + 1, A => jaumann (spun Ω dt n A) Ω dt

theorem turning_spun (n : ℕ) (dt : K) (A : Mat3 K) : turning Ω (spun Ω dt n A) = spun Ω dt n (turning Ω A) := by
  induction n with
  | zero => rfl
  | succ n ih => simp only [spun, jaumann_comm, turning_add, turning_smul, ih]

theorem ddot_spun_mono (h : Skew Ω) (n : ℕ) (dt : K) (A : Mat3 K) : ddot A A ≤ ddot (spun Ω dt n A) (spun Ω dt n A) := by
  induction n with
  | zero => exact le_rfl
  | succ n ih =>
    rw [spun, ddot_jaumann h]
    have := mul_nonneg (sq_nonneg dt) (ddot_self_nonneg (turning Ω (spun Ω dt n A)))
    linarith

theorem ddot_spun_growth (h : Skew Ω) (n : ℕ) (dt : K) (A : Mat3 K) :
    ddot A A + n * (dt ^ 2 * ddot (turning Ω A) (turning Ω A)) ≤ ddot (spun Ω dt n A) (spun Ω dt n A) := by
  induction n with
  | zero => simp [spun]
  | succ n ih =>
    rw [spun, ddot_jaumann h, turning_spun]
    have := mul_le_mul_of_nonneg_left (ddot_spun_mono h n dt (turning Ω A)) (sq_nonneg dt)
    push_cast
    linarith

theorem dev_spun (n : ℕ) (dt : K) (A : Mat3 K) : dev (spun Ω dt n A) = spun Ω dt n (dev A) := by
  induction n with
  | zero => rfl
  | succ n ih => rw [spun, dev_jaumann, ih, spun]

theorem mean_spun (n : ℕ) (dt : K) (A : Mat3 K) : meanStress (spun Ω dt n A) = meanStress A := by
  induction n with
  | zero => rfl
  | succ n ih => rw [spun, mean_jaumann, ih]

/-- **C93 (partial): the pressure.** The co-rotational increment keeps the mean stress, over any number of steps. It does not
keep the shear stress, see `spin_J2_grows`. -/
theorem spin_pressure_partial (n : ℕ) (dt : K) (σ : Mat3 K) :
    pressureOf (spun Ω dt n σ) = pressureOf σ := by
  rw [pressureOf_eq, pressureOf_eq, mean_spun]

/-- **C93 refuted: the shear stress.** Every step of a pure rotation increases `J2` by exactly `dt² |Ω s - s Ω|² / 2`; over `n` steps
by at least `n` times as much. -/
theorem spin_J2_grows (h : Skew Ω) (dt : K) (σ : Mat3 K) :
    J2 (jaumann σ Ω dt) = J2 σ + dt ^ 2 / 2 * ddot (turning Ω σ) (turning Ω σ) ∧
    ∀ n : ℕ, J2 σ + n * (dt ^ 2 / 2 * ddot (turning Ω σ) (turning Ω σ)) ≤ J2 (spun Ω dt n σ) := by
  refine ⟨?_, fun n => ?_⟩
  · unfold J2
    rw [dev_jaumann, ddot_jaumann h, turning_dev]
    ring
  · unfold J2
    have := ddot_spun_growth h n dt (dev σ)
    rw [turning_dev] at this
    rw [dev_spun]
    linarith

/-! ### What the laws do in a pure rotation -/

/-- **C93 refuted for linear elasticity**: the stress does not turn at all. -/
theorem elastic_spin_keeps (h : Skew Ω) (E nu : K) (σ : Mat3 K) (dt : K) : elasticStress E nu Ω σ dt = σ := by
  have : (1 / 2 : K) • (Ω + Ω.transpose) = 0 := Skew.sym h
  simp only [elasticStress, this]
  simp [isoT]

/-- The elastic stress of Drucker-Prager. -/
def Spec.dpElasticStress (pr : DPParams K) (p0 : K) (e : Mat3 K) : Mat3 K :=
  (2 * pr.shear) • dev e + isoT (3 * pr.bulk * meanStress e + p0)

theorem devStrainV_dev (e : Mat3 K) : devStrainV e (volStrain e) = dev e := by
  ext i j
  simp only [devStrainV, volStrain, dev, meanStress_trace, Matrix.sub_apply, Matrix.smul_apply, Matrix.one_apply, smul_eq_mul,
    mul_ite, mul_one, mul_zero]

theorem dpTrial_spin (h : Skew Ω) (fn : MathFns K) (pr : DPParams K) (e : Mat3 K) (epsP p0 dt : K) :
    (dpTrial fn pr Ω e epsP p0 dt).epsETr = jaumann e Ω dt ∧
    (dpTrial fn pr Ω e epsP p0 dt).pTr = 3 * pr.bulk * meanStress e + p0 ∧
    (dpTrial fn pr Ω e epsP p0 dt).sTr = (2 * pr.shear) • dev (jaumann e Ω dt) := by
  have e1 : (dpTrial fn pr Ω e epsP p0 dt).epsETr = jaumann e Ω dt := by
    simp only [dpTrial, Skew.sym h, Skew.spin h, smul_zero, add_zero]
  refine ⟨e1, ?_, ?_⟩
  · change pr.bulk * volStrain (dpTrial fn pr Ω e epsP p0 dt).epsETr + p0 = _
    rw [e1, volStrain]
    have := mean_jaumann (Ω := Ω) e dt
    rw [meanStress_trace] at this
    linear_combination 3 * pr.bulk * this
  · change (2 * pr.shear) • devStrainV (dpTrial fn pr Ω e epsP p0 dt).epsETr (volStrain (dpTrial fn pr Ω e epsP p0 dt).epsETr) = _
    rw [e1, devStrainV_dev]

/-- **C93 (Drucker-Prager)**: an elastic step with stored velocity gradient `Ω` turns the elastic strain, and with it the stress, by the
increment `dt (Ω σ - σ Ω)`. -/
theorem dp_spin_step (h : Skew Ω) (fn : MathFns K) (pr : DPParams K) (e : Mat3 K) (epsP p0 rho dt : K) (hrho : pr.rho0 ≤ rho)
    (hy : (dpTrial fn pr Ω e epsP p0 dt).yf ≤ 0) :
    (dpUpdate fn pr Ω e epsP p0 rho dt).epsE = jaumann e Ω dt ∧ (dpUpdate fn pr Ω e epsP p0 rho dt).epsP = epsP ∧
    (dpUpdate fn pr Ω e epsP p0 rho dt).stress = jaumann (dpElasticStress pr p0 e) Ω dt := by
  obtain ⟨e1, e2, e3⟩ := dpTrial_spin h fn pr e epsP p0 dt
  have eu : dpUpdate fn pr Ω e epsP p0 rho dt = dpElastic (dpTrial fn pr Ω e epsP p0 dt) epsP := by
    unfold dpUpdate
    rw [if_pos hrho, if_neg (not_lt.mpr hy)]
  rw [eu]
  refine ⟨e1, rfl, ?_⟩
  simp only [dpElastic, e2, e3, dpElasticStress, dev_jaumann]
  rw [jaumann_comm, jaumann_comm, turning_add, turning_isoT, add_zero, turning_smul, smul_add, smul_comm dt]
  abel

end

/-- **C93 (Cam-Clay)**: an elastic, connected step with stored velocity gradient `Ω` adds `dt (Ω σ - σ Ω)` to the stress. -/
theorem mcc_spin_step {Ω : Mat3 ℝ} (h : Skew Ω) (ops : NewtonOps ℝ) (pr : MCCParams ℝ) (e σ : Mat3 ℝ) (pc : ℝ) (σref : Mat3 ℝ)
    (v dt : ℝ) (hp : pr.pMin ≤ meanStress σ) (hv : v ≤ pr.N * (999999 / 1000000))
    (hy : (mccTrial realFns pr Ω e σ pc σref dt).yf ≤ 0) :
    (mccUpdate realFns ops pr Ω e σ pc σref v dt).stress = jaumann σ Ω dt ∧
    (mccUpdate realFns ops pr Ω e σ pc σref v dt).pc = pc := by
  have eu : mccUpdate realFns ops pr Ω e σ pc σref v dt = mccElastic (mccTrial realFns pr Ω e σ pc σref dt) pc := by
    unfold mccUpdate
    rw [if_pos hv, if_neg (not_lt.mpr hy)]
  rw [eu]
  refine ⟨?_, rfl⟩
  have hz : volStrain (0 : Mat3 ℝ) = 0 := by simp [volStrain]
  have hd : devStrainV (0 : Mat3 ℝ) 0 = 0 := by simp [devStrainV]
  simp only [mccElastic, mccTrial, Skew.sym h, Skew.spin h, smul_zero, hz, hd, pressureOf_eq, mean_jaumann, max_eq_left hp]
  have e1 : mccPressure realFns 0 pr.kap (meanStress σ) = meanStress σ := by simp [mccPressure, realFns]
  rw [e1]
  simp only [mccS, smul_zero, zero_add, devStressP, isoT]
  abel

/-! ### A spinning body yields, whatever its strength -/

/-- Elastic strain and accumulated plastic strain of a Drucker-Prager point that turns at the rate `Ω`. -/
noncomputable def Spec.dpSpinHistory (pr : DPParams ℝ) (Ω : Mat3 ℝ) (p0 rho dt : ℝ) : ℕ → Mat3 ℝ × ℝ → Mat3 ℝ × ℝ
  | 0, s => s
  | n + 1, s =>
    let r := dpUpdate realFns pr Ω (dpSpinHistory pr Ω p0 rho dt n s).1 (dpSpinHistory pr Ω p0 rho dt n s).2 p0 rho dt
    (r.epsE, r.epsP)

theorem exists_above {a : ℝ} (ha : 0 < a) (B : ℝ) : ∃ n : ℕ, B < (n + 1) * a := by
  obtain ⟨n, hn⟩ := exists_nat_gt (B / a)
  refine ⟨n, ?_⟩
  rw [div_lt_iff₀ ha] at hn
  linarith

theorem ddot_pos {A : Mat3 ℝ} (h : A ≠ 0) : 0 < ddot A A := by
  rcases (ddot_self_nonneg A).lt_or_eq with h1 | h1
  · exact h1
  · exfalso
    apply h
    ext i j
    have h2 : ∑ i, ∑ j, A i j * A i j = 0 := h1.symm
    have h3 := (Finset.sum_eq_zero_iff_of_nonneg (fun i _ => Finset.sum_nonneg fun j _ => mul_self_nonneg (A i j))).mp h2 i
      (Finset.mem_univ i)
    have h4 := (Finset.sum_eq_zero_iff_of_nonneg (fun j _ => mul_self_nonneg (A i j))).mp h3 j (Finset.mem_univ j)
    exact mul_self_eq_zero.mp h4

/-- **C93 refuted over time (Drucker-Prager).** A point under any shear stress that does not commute with the rotation yields after
finitely many steps of pure rotation, however strong the material and however small the time step. -/
theorem dp_spin_yields {Ω : Mat3 ℝ} (h : Skew Ω) (pr : DPParams ℝ) (hG : pr.shear ≠ 0) (e : Mat3 ℝ) (he : turning Ω e ≠ 0)
    (epsP p0 rho dt : ℝ) (hdt : dt ≠ 0) (hrho : pr.rho0 ≤ rho) :
    ∃ n, 0 < (dpTrial realFns pr Ω (dpSpinHistory pr Ω p0 rho dt n (e, epsP)).1
      (dpSpinHistory pr Ω p0 rho dt n (e, epsP)).2 p0 dt).yf := by
  by_contra hno
  push Not at hno
  have hist : ∀ n, dpSpinHistory pr Ω p0 rho dt n (e, epsP) = (spun Ω dt n e, epsP) := by
    intro n
    induction n with
    | zero => rfl
    | succ n ih =>
      have hy := hno n
      rw [ih] at hy
      obtain ⟨a, b, -⟩ := dp_spin_step h realFns pr (spun Ω dt n e) epsP p0 rho dt hrho hy
      simp only [dpSpinHistory, ih]
      rw [a, b]
      rfl
  set B := pr.mu1 * (3 * pr.bulk * meanStress e + p0) + pr.mu2 * (pr.c0 + pr.H * epsP) with hB
  have bound : ∀ n : ℕ, (n + 1) * (2 * pr.shear ^ 2 * (dt ^ 2 * ddot (turning Ω e) (turning Ω e))) ≤ B ^ 2 := by
    intro n
    have hy := hno n
    rw [hist] at hy
    obtain ⟨-, b, c⟩ := dpTrial_spin h realFns pr (spun Ω dt n e) epsP p0 dt
    have hs : (dpTrial realFns pr Ω (spun Ω dt n e) epsP p0 dt).sTr = (2 * pr.shear) • dev (spun Ω dt (n + 1) e) := c
    have hy2 : Real.sqrt (max (J2dev (dpTrial realFns pr Ω (spun Ω dt n e) epsP p0 dt).sTr) (1 / 10 ^ 12))
        - pr.mu1 * (dpTrial realFns pr Ω (spun Ω dt n e) epsP p0 dt).pTr - pr.mu2 * (pr.c0 + pr.H * epsP) ≤ 0 := hy
    rw [b, mean_spun, hs, J2dev_eq, ddot_smul] at hy2
    have hle : Real.sqrt (max (2 * pr.shear * (2 * pr.shear) * ddot (dev (spun Ω dt (n + 1) e)) (dev (spun Ω dt (n + 1) e)) / 2)
        (1 / 10 ^ 12)) ≤ B := by rw [hB]; linarith
    have h0 : 0 ≤ B := (Real.sqrt_nonneg _).trans hle
    have h1 := (Real.sqrt_le_left h0).mp hle
    have h2 := (le_max_left _ _).trans h1
    have g := ddot_spun_growth h (n + 1) dt (dev e)
    rw [turning_dev] at g
    rw [dev_spun] at h2
    have h3 : 0 ≤ ddot (dev e) (dev e) := ddot_self_nonneg _
    have hG2 : 0 < pr.shear ^ 2 := by positivity
    push_cast at g
    nlinarith
  obtain ⟨n, hn⟩ := exists_above (a := 2 * pr.shear ^ 2 * (dt ^ 2 * ddot (turning Ω e) (turning Ω e)))
    (by have := ddot_pos he; positivity) (B ^ 2)
  exact absurd (bound n) (not_le.mpr hn)

/-- Stress and preconsolidation pressure of a Cam-Clay point that turns at the rate `Ω`. -/
noncomputable def Spec.mccSpinHistory (ops : NewtonOps ℝ) (pr : MCCParams ℝ) (Ω σref : Mat3 ℝ) (v dt : ℝ) :
    ℕ → Mat3 ℝ × Mat3 ℝ × ℝ → Mat3 ℝ × Mat3 ℝ × ℝ
  | 0, s => s
  | n + 1, s =>
    let t := mccSpinHistory ops pr Ω σref v dt n s
    let r := mccUpdate realFns ops pr Ω t.1 t.2.1 t.2.2 σref v dt
    (r.epsE, r.stress, r.pc)

theorem mccTrial_spin {Ω : Mat3 ℝ} (h : Skew Ω) (pr : MCCParams ℝ) (e σ : Mat3 ℝ) (pc : ℝ) (σref : Mat3 ℝ) (dt : ℝ)
    (hp : pr.pMin ≤ meanStress σ) : (mccTrial realFns pr Ω e σ pc σref dt).yf
      = 3 * J2 (jaumann σ Ω dt) / (pr.M * pr.M) + meanStress σ * meanStress σ - pc * meanStress σ := by
  have hz : volStrain (0 : Mat3 ℝ) = 0 := by simp [volStrain]
  have hd : devStrainV (0 : Mat3 ℝ) 0 = 0 := by simp [devStrainV]
  simp only [mccTrial, Skew.sym h, Skew.spin h, smul_zero, hz, hd, pressureOf_eq, mean_jaumann, max_eq_left hp]
  have e1 : mccPressure realFns 0 pr.kap (meanStress σ) = meanStress σ := by simp [mccPressure, realFns]
  have e2 : ∀ G, mccS (0 : Mat3 ℝ) G (devStressP (jaumann σ Ω dt) (meanStress σ)) = dev (jaumann σ Ω dt) := by
    intro G
    rw [← devStress_eq, devStress, pressureOf_eq, mean_jaumann]
    simp [mccS]
  have e3 : qVmDev realFns (dev (jaumann σ Ω dt)) * qVmDev realFns (dev (jaumann σ Ω dt)) = 3 * J2 (jaumann σ Ω dt) := by
    unfold qVmDev
    rw [J2dev_eq]
    exact Real.mul_self_sqrt (mul_nonneg (by norm_num) (div_nonneg (ddot_self_nonneg _) (by norm_num)))
  rw [e1, e2, mccYield, e3]

/-- **C93 refuted over time (Cam-Clay).** As `dp_spin_yields`, however large the preconsolidation pressure. -/
theorem mcc_spin_yields {Ω : Mat3 ℝ} (h : Skew Ω) (ops : NewtonOps ℝ) (pr : MCCParams ℝ) (hM : pr.M ≠ 0) (e σ : Mat3 ℝ) (pc : ℝ)
    (σref : Mat3 ℝ) (v dt : ℝ) (hdt : dt ≠ 0) (hp : pr.pMin ≤ meanStress σ) (hv : v ≤ pr.N * (999999 / 1000000))
    (hσ : turning Ω σ ≠ 0) :
    ∃ n, 0 < (mccTrial realFns pr Ω (mccSpinHistory ops pr Ω σref v dt n (e, σ, pc)).1
      (mccSpinHistory ops pr Ω σref v dt n (e, σ, pc)).2.1 (mccSpinHistory ops pr Ω σref v dt n (e, σ, pc)).2.2 σref dt).yf := by
  by_contra hno
  push Not at hno
  have hist : ∀ n, (mccSpinHistory ops pr Ω σref v dt n (e, σ, pc)).2 = (spun Ω dt n σ, pc) := by
    intro n
    induction n with
    | zero => rfl
    | succ n ih =>
      have hy := hno n
      rw [ih] at hy
      obtain ⟨a, b⟩ := mcc_spin_step h ops pr _ (spun Ω dt n σ) pc σref v dt (by rwa [mean_spun]) hv hy
      simp only [mccSpinHistory, ih]
      rw [a, b]
      rfl
  set B := (pc * meanStress σ - meanStress σ * meanStress σ) * (pr.M * pr.M) with hB
  have hM2 : 0 < pr.M * pr.M := mul_self_pos.mpr hM
  have bound : ∀ n : ℕ, (n + 1) * (3 * (dt ^ 2 / 2 * ddot (turning Ω σ) (turning Ω σ))) ≤ B := by
    intro n
    have hy := hno n
    rw [hist, mccTrial_spin h pr _ _ _ _ _ (by rwa [mean_spun]), mean_spun] at hy
    have g := (spin_J2_grows h dt σ).2 (n + 1)
    have e1 : jaumann (spun Ω dt n σ) Ω dt = spun Ω dt (n + 1) σ := rfl
    rw [e1] at hy
    have h3 : 0 ≤ J2 σ := div_nonneg (ddot_self_nonneg _) (by norm_num)
    have h4 : 3 * J2 (spun Ω dt (n + 1) σ) / (pr.M * pr.M) ≤ pc * meanStress σ - meanStress σ * meanStress σ := by linarith
    rw [div_le_iff₀ hM2] at h4
    push_cast at g
    rw [hB]
    linarith
  obtain ⟨n, hn⟩ := exists_above (a := 3 * (dt ^ 2 / 2 * ddot (turning Ω σ) (turning Ω σ)))
    (by have := ddot_pos hσ; positivity) B
  exact absurd (bound n) (not_le.mpr hn)

/-! ### Sense of rotation -/

/-- A motion that turns everything, starting at time 0 with the rate `Ω`: the velocity at `x` is `Ω x`. -/
structure Spec.Rotation (R : ℝ → Mat3 ℝ) (Ω : Mat3 ℝ) : Prop where
  orth : ∀ t, Orthogonal3 (R t)
  start : R 0 = 1
  rate : ∀ i j, HasDerivAt (fun t => R t i j) (Ω i j) 0

/-- For small times the stress is the initial stress carried along. -/
def Spec.CarriedBy (upd : ℝ → Mat3 ℝ) (R : ℝ → Mat3 ℝ) (σ : Mat3 ℝ) : Prop :=
  ∀ i j, (fun t => upd t i j - rotated (R t) σ i j) =o[nhds 0] fun t => t

variable {R : ℝ → Mat3 ℝ} {Ω : Mat3 ℝ}

theorem Rotation.skew (h : Rotation R Ω) : Skew Ω := by
  ext i j
  have e : ∀ t, ∑ k, R t k i * R t k j = (1 : Mat3 ℝ) i j := fun t => by
    have := congrFun (congrFun (h.orth t) i) j
    simpa [Matrix.mul_apply] using this
  have d : HasDerivAt (fun t => ∑ k, R t k i * R t k j) (∑ k, (Ω k i * R 0 k j + R 0 k i * Ω k j)) 0 :=
    HasDerivAt.fun_sum fun k _ => (h.rate k i).mul (h.rate k j)
  have d0 : HasDerivAt (fun t => ∑ k, R t k i * R t k j) 0 0 := by
    simp only [e]
    exact hasDerivAt_const _ _
  have u := d.unique d0
  simp only [h.start, Matrix.one_apply, mul_ite, mul_one, mul_zero, ite_mul, one_mul, zero_mul, Finset.sum_add_distrib,
    Finset.sum_ite_eq', Finset.mem_univ, if_true] at u
  simp only [Matrix.transpose_apply, Matrix.neg_apply]
  linarith

theorem Rotation.carried (h : Rotation R Ω) (σ : Mat3 ℝ) (i j : Fin 3) :
    HasDerivAt (fun t => rotated (R t) σ i j) (turning Ω σ i j) 0 := by
  have e : (fun t => rotated (R t) σ i j) = fun t => ∑ l, (∑ k, R t i k * σ k l) * R t j l := by
    funext t
    simp only [rotated, Matrix.mul_apply, Matrix.transpose_apply]
  rw [e]
  have d : HasDerivAt (fun t => ∑ l, (∑ k, R t i k * σ k l) * R t j l)
      (∑ l, ((∑ k, Ω i k * σ k l) * R 0 j l + (∑ k, R 0 i k * σ k l) * Ω j l)) 0 :=
    HasDerivAt.fun_sum fun l _ => (HasDerivAt.fun_sum fun k _ => (h.rate i k).mul_const _).mul (h.rate j l)
  refine d.congr_deriv ?_
  simp only [h.start, Matrix.one_apply, mul_ite, mul_one, mul_zero, ite_mul, one_mul, zero_mul, Finset.sum_add_distrib,
    Finset.sum_ite_eq, Finset.mem_univ, if_true, turning, Matrix.sub_apply, Matrix.mul_apply]
  rw [sub_eq_add_neg, ← Finset.sum_neg_distrib]
  congr 1
  refine Finset.sum_congr rfl fun l _ => ?_
  rw [Skew.apply (Rotation.skew h) l j]
  ring

theorem isLittleO_of_deriv {f : ℝ → ℝ} (h0 : f 0 = 0) : HasDerivAt f 0 0 ↔ f =o[nhds 0] fun t => t := by
  rw [hasDerivAt_iff_isLittleO]
  simp [h0]

theorem jaumann_deriv (σ W : Mat3 ℝ) (i j : Fin 3) : HasDerivAt (fun t => jaumann σ W t i j) (turning W σ i j) 0 := by
  have : (fun t => jaumann σ W t i j) = fun t => σ i j + t * turning W σ i j := by
    funext t; simp [jaumann_comm]
  rw [this]
  exact (((hasDerivAt_id (0 : ℝ)).mul_const (turning W σ i j)).const_add _).congr_deriv (by simp)

/-- The increment with the spin of the motion carries the stress along. -/
theorem jaumann_carried (h : Rotation R Ω) (σ : Mat3 ℝ) : CarriedBy (fun dt => jaumann σ Ω dt) R σ := by
  intro i j
  refine (isLittleO_of_deriv ?_).mp (((jaumann_deriv σ Ω i j).sub (Rotation.carried h σ i j)).congr_deriv (sub_self _))
  simp [jaumann_comm, h.start, rotated]

/-- The increment with the opposite spin does not. -/
theorem jaumann_backwards (h : Rotation R Ω) {σ : Mat3 ℝ} (hσ : turning Ω σ ≠ 0) :
    CarriedBy (fun dt => jaumann σ (-Ω) dt) (fun t => (R t).transpose) σ ∧ ¬ CarriedBy (fun dt => jaumann σ (-Ω) dt) R σ := by
  have hT : Rotation (fun t => (R t).transpose) (-Ω) := by
    refine ⟨fun t => ?_, by simp [h.start], fun i j => ?_⟩
    · have := orth_mul_transpose (h.orth t)
      unfold Orthogonal3
      rwa [Matrix.transpose_transpose]
    · rw [← Rotation.skew h]
      exact h.rate j i
  refine ⟨jaumann_carried hT σ, fun hc => hσ ?_⟩
  ext i j
  have hd := (isLittleO_of_deriv (by simp [jaumann_comm, h.start, rotated])).mpr (hc i j)
  have u := hd.unique ((jaumann_deriv σ (-Ω) i j).sub (Rotation.carried h σ i j))
  have e : turning (-Ω) σ i j = -turning Ω σ i j := by simp [turning]; ring
  rw [e] at u
  simp only [Matrix.zero_apply]
  linarith

theorem CarriedBy.congr {f g : ℝ → Mat3 ℝ} {σ : Mat3 ℝ} (hf : CarriedBy f R σ) (e : ∀ᶠ t in nhds 0, g t = f t) :
    CarriedBy g R σ := fun i j => (hf i j).congr' (e.mono fun t ht => by simp only [ht]) (Filter.EventuallyEq.refl _ _)

/-- **C93 (Drucker-Prager), partial.** Given the gradient `Ω` of the rotation, as the USL solver does, the stress is carried along up
to second order in the time step, as long as the step stays elastic. Exactly it is not: `spin_J2_grows`. -/
theorem dp_carried_partial (h : Rotation R Ω) (pr : DPParams ℝ) (e : Mat3 ℝ) (epsP p0 rho : ℝ) (hrho : pr.rho0 ≤ rho)
    (hy : ∀ᶠ dt in nhds 0, (dpTrial realFns pr Ω e epsP p0 dt).yf ≤ 0) :
    CarriedBy (fun dt => (dpUpdate realFns pr Ω e epsP p0 rho dt).stress) R (dpElasticStress pr p0 e) :=
  CarriedBy.congr (jaumann_carried h _) (hy.mono fun dt hdt =>
    (dp_spin_step (Rotation.skew h) realFns pr e epsP p0 rho dt hrho hdt).2.2)

/-- **C93 (Cam-Clay), partial.** As `dp_carried_partial`. -/
theorem mcc_carried_partial (h : Rotation R Ω) (ops : NewtonOps ℝ) (pr : MCCParams ℝ) (e σ : Mat3 ℝ) (pc : ℝ) (σref : Mat3 ℝ)
    (v : ℝ) (hp : pr.pMin ≤ meanStress σ) (hv : v ≤ pr.N * (999999 / 1000000))
    (hy : ∀ᶠ dt in nhds 0, (mccTrial realFns pr Ω e σ pc σref dt).yf ≤ 0) :
    CarriedBy (fun dt => (mccUpdate realFns ops pr Ω e σ pc σref v dt).stress) R σ :=
  CarriedBy.congr (jaumann_carried h _) (hy.mono fun dt hdt =>
    (mcc_spin_step (Rotation.skew h) ops pr e σ pc σref v dt hp hv hdt).1)

/-- **C93 refuted (Drucker-Prager in ASFLIP).** Given `-Ω`, the stress is not carried along. -/
theorem dp_backwards (h : Rotation R Ω) (pr : DPParams ℝ) (e : Mat3 ℝ) (epsP p0 rho : ℝ) (hrho : pr.rho0 ≤ rho)
    (hy : ∀ᶠ dt in nhds 0, (dpTrial realFns pr (-Ω) e epsP p0 dt).yf ≤ 0)
    (hσ : turning Ω (dpElasticStress pr p0 e) ≠ 0) :
    ¬ CarriedBy (fun dt => (dpUpdate realFns pr (-Ω) e epsP p0 rho dt).stress) R (dpElasticStress pr p0 e) := fun hc => by
  have hn : Skew (-Ω) := by
    have := Rotation.skew h
    unfold Skew at this ⊢
    rw [Matrix.transpose_neg, this]
  exact (jaumann_backwards h hσ).2 (CarriedBy.congr hc (hy.mono fun dt hdt =>
    ((dp_spin_step hn realFns pr e epsP p0 rho dt hrho hdt).2.2).symm))

/-- **C93 refuted for linear elasticity**, in both solvers: the stress of a turning body does not follow it. -/
theorem elastic_not_carried (h : Rotation R Ω) (E nu : ℝ) {σ : Mat3 ℝ} (hσ : turning Ω σ ≠ 0) :
    ¬ CarriedBy (fun dt => elasticStress E nu Ω σ dt) R σ ∧ ¬ CarriedBy (fun dt => elasticStress E nu (-Ω) σ dt) R σ := by
  have hn : Skew (-Ω) := by
    have := Rotation.skew h
    unfold Skew at this ⊢
    rw [Matrix.transpose_neg, this]
  have key : ¬ CarriedBy (fun _ => σ) R σ := fun hc => hσ (by
    ext i j
    have hd := (isLittleO_of_deriv (by simp [h.start, rotated])).mpr (hc i j)
    have u := hd.unique ((hasDerivAt_const (0 : ℝ) (σ i j)).sub (Rotation.carried h σ i j))
    simp only [Matrix.zero_apply]
    linarith)
  constructor
  · simpa only [elastic_spin_keeps (Rotation.skew h)] using key
  · simpa only [elastic_spin_keeps hn] using key

end Hydrax

namespace Hydrax

open Spec

section
variable {K : Type*} [Field K] [LinearOrder K] [IsStrictOrderedRing K] [FloorRing K] {n : ℕ} {Ω : Mat3 K}

/-- **C93 (USL).** In a body that turns at the rate `Ω` (nodal velocities `b + Ω x`) the law is given `L = Ω`: the transposition of the
velocity gradient and the sign convention cancel, and the stress turns with the body. -/
theorem usl_spin_gradient (hΩ : Skew Ω) (ker : Kernel) (o e : Fin 3 → K) (h : K) (hh : 0 < h) (pad : ℕ) (hpad : 2 ≤ pad)
    (s : MPState K 3 n) (p : Fin n) (hx : InBox o e (s.position p))
    (hlin : ker = .linear → ∀ d, ∀ z : ℤ, (s.position p d - o d) / h ≠ z) (gr : GridArrays K 3) (b : Fin 3 → K)
    (hA : AffineNodes uslCutoff (GridDomain.create o e h pad)
      (compute ker (GridDomain.create o e h pad) s.position) gr p b Ω) (alpha dt : K) :
    (g2pBody alpha dt (compute ker (GridDomain.create o e h pad) s.position) none gr s).L p = Ω := by
  ext i j
  have := usl_velocity_gradient_transposed (.inr rfl) ker o e h hh pad hpad s p hx hlin gr b Ω hA alpha dt i j
  rw [Skew.apply hΩ i j, neg_neg] at this
  exact this

/-- **C93 refuted (ASFLIP).** There the law is given `L = -Ω`, so that Drucker-Prager and Cam-Clay turn the stress against the motion of
the body (`jaumann_backwards`). -/
theorem aflip_spin_gradient (ker : Kernel) (o e : Fin 3 → K) (h : K) (hh : 0 < h) (pad : ℕ) (hpad : 2 ≤ pad)
    (s : MPState K 3 n) (p : Fin n) (hx : InBox o e (s.position p))
    (hlin : ker = .linear → ∀ d, ∀ z : ℤ, (s.position p d - o d) / h ≠ z) (sqrt : K → K) (pr : AflipParams K)
    (hcut : 0 ≤ pr.cutoff) (gr : GridArrays K 3) (b : Fin 3 → K)
    (hA : AffineNodes pr.cutoff (GridDomain.create o e h pad)
      (compute ker (GridDomain.create o e h pad) s.position) gr p b Ω) (dt : K) (r : MPState K 3 n × (Fin n → Mat3 K))
    (hr : aflipG2pBody sqrt pr h dt (compute ker (GridDomain.create o e h pad) s.position) gr s = .ok r) :
    r.1.L p = -Ω := by
  ext i j
  exact aflip_velocity_gradient (.inr rfl) ker o e h hh pad hpad s p hx hlin sqrt pr hcut gr b Ω hA dt r hr i j

end

/-! ### Cases meeting the hypotheses -/

/-- A turn about the third axis at unit rate. -/
def exTurnRate : Mat3 ℝ := !![0, -1, 0; 1, 0, 0; 0, 0, 0]

theorem exTurnRate_skew : Skew exTurnRate := by
  ext i j; fin_cases i <;> fin_cases j <;> simp [exTurnRate]

/-- Uniaxial compression does not commute with it. -/
theorem exTurnRate_turning (c : ℝ) (hc : c ≠ 0) : turning exTurnRate !![c, 0, 0; 0, 0, 0; 0, 0, 0] ≠ 0 := by
  intro h
  have := congrFun (congrFun h 1) 0
  simp [turning, exTurnRate] at this
  exact hc this

example : Rotation (fun t => !![Real.cos t, -Real.sin t, 0; Real.sin t, Real.cos t, 0; 0, 0, 1]) exTurnRate where
  orth t := by
    unfold Orthogonal3
    ext i j
    have := Real.sin_sq_add_cos_sq t
    fin_cases i <;> fin_cases j <;> simp [Matrix.mul_apply, Fin.sum_univ_three] <;> nlinarith
  start := by
    ext i j
    fin_cases i <;> fin_cases j <;> simp
  rate i j := by
    have hc : HasDerivAt Real.cos 0 0 := by simpa using Real.hasDerivAt_cos 0
    have hs : HasDerivAt Real.sin 1 0 := by simpa using Real.hasDerivAt_sin 0
    fin_cases i <;> fin_cases j
    · exact hc
    · exact hs.neg
    · exact hasDerivAt_const _ _
    · exact hs
    · exact hc
    · exact hasDerivAt_const _ _
    · exact hasDerivAt_const _ _
    · exact hasDerivAt_const _ _
    · exact hasDerivAt_const _ _

/-- Sand with a cohesion of a million, elastically compressed by one percent along one axis,
time step a millionth. -/
example : ∃ n, 0 < (dpTrial realFns { exDP 0 with c0 := 1000000, mu2 := 1 } exTurnRate
    (dpSpinHistory { exDP 0 with c0 := 1000000, mu2 := 1 } exTurnRate 1000 2000 (1 / 1000000) n
      (!![1 / 100, 0, 0; 0, 0, 0; 0, 0, 0], 0)).1
    (dpSpinHistory { exDP 0 with c0 := 1000000, mu2 := 1 } exTurnRate 1000 2000 (1 / 1000000) n
      (!![1 / 100, 0, 0; 0, 0, 0; 0, 0, 0], 0)).2 1000 (1 / 1000000)).yf :=
  dp_spin_yields exTurnRate_skew _ (by simp [exDP]) _ (exTurnRate_turning _ (by norm_num)) 0 1000 2000 _ (by norm_num)
    (by norm_num [exDP])

/-- Clay under uniaxial stress 300 with a preconsolidation pressure of a million. -/
example (ops : NewtonOps ℝ) : ∃ n, 0 < (mccTrial realFns exMCC exTurnRate
    (mccSpinHistory ops exMCC exTurnRate 0 1 (1 / 1000000) n (0, !![300, 0, 0; 0, 0, 0; 0, 0, 0], 1000000)).1
    (mccSpinHistory ops exMCC exTurnRate 0 1 (1 / 1000000) n (0, !![300, 0, 0; 0, 0, 0; 0, 0, 0], 1000000)).2.1
    (mccSpinHistory ops exMCC exTurnRate 0 1 (1 / 1000000) n (0, !![300, 0, 0; 0, 0, 0; 0, 0, 0], 1000000)).2.2 0
    (1 / 1000000)).yf :=
  mcc_spin_yields exTurnRate_skew ops exMCC (by norm_num [exMCC]) 0 _ 1000000 0 1 _ (by norm_num)
    (by rw [meanStress]; simp only [Matrix.of_apply, Matrix.cons_val]; norm_num [exMCC]) (by norm_num [exMCC]) (exTurnRate_turning _ (by norm_num))

/-- The uniaxial stress 300 of the clay is well inside its yield surface for small steps. -/
example (e σref : Mat3 ℝ) : ∀ᶠ dt in nhds 0,
    (mccTrial realFns exMCC exTurnRate e !![300, 0, 0; 0, 0, 0; 0, 0, 0] 1000000 σref dt).yf ≤ 0 := by
  have hm : meanStress (!![300, 0, 0; 0, 0, 0; 0, 0, 0] : Mat3 ℝ) = 100 := by
    rw [meanStress]; simp only [Matrix.of_apply, Matrix.cons_val]; norm_num
  have hc : Continuous fun dt : ℝ => 3 * J2 (jaumann !![300, 0, 0; 0, 0, 0; 0, 0, 0] exTurnRate dt) / (exMCC.M * exMCC.M)
      + 100 * 100 - 1000000 * 100 := by
    simp only [(spin_J2_grows exTurnRate_skew _ _).1]
    fun_prop
  have h0 : 3 * J2 (jaumann !![300, 0, 0; 0, 0, 0; 0, 0, 0] exTurnRate 0) / (exMCC.M * exMCC.M) + 100 * 100 - 1000000 * 100 < (0:ℝ) := by
    rw [(spin_J2_grows exTurnRate_skew _ _).1]
    have : J2 (!![300, 0, 0; 0, 0, 0; 0, 0, 0] : Mat3 ℝ) = 30000 := by
      simp only [J2, ddot, dev, hm, Fin.sum_univ_three, Matrix.of_apply, Matrix.cons_val,
        show ¬(0 : Fin 3) = 1 by decide, show ¬(0 : Fin 3) = 2 by decide, show ¬(1 : Fin 3) = 0 by decide,
        show ¬(1 : Fin 3) = 2 by decide, show ¬(2 : Fin 3) = 0 by decide, show ¬(2 : Fin 3) = 1 by decide, if_true, if_false]
      norm_num
    rw [this]
    norm_num [exMCC]
  filter_upwards [(hc.tendsto 0).eventually (gt_mem_nhds h0)] with dt hdt
  rw [mccTrial_spin exTurnRate_skew _ _ _ _ _ _ (by rw [hm]; norm_num [exMCC]), hm]
  exact hdt.le

end Hydrax
