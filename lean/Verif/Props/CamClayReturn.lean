import Verif.Props.CamClay
import Mathlib.Analysis.Calculus.Deriv.Add
import Mathlib.Analysis.Calculus.Deriv.Mul
import Mathlib.Analysis.Calculus.Deriv.Pow

/-!
# Properties C84, C85 and C86: Cam-Clay return map, compression lines and elastic strain
-/

set_option linter.unusedSectionVars false

namespace Hydrax

/-! ### Specification -/

/-- Gradient of the yield function `Spec.mccF` with respect to the stress (`mccGrad_deriv`): direction of
associated plastic flow. -/
noncomputable def Spec.mccGrad (M pc : ℝ) (σ : Matrix (Fin 3) (Fin 3) ℝ) : Matrix (Fin 3) (Fin 3) ℝ :=
  (3 / M ^ 2) • Spec.dev σ + ((2 * Spec.meanStress σ - pc) / 3) • (1 : Matrix (Fin 3) (Fin 3) ℝ)

/-- Pressure dependent bulk modulus `p / κ` with `p ≥ 1` and optional bounds. -/
noncomputable def Spec.mccBulk (kap : ℝ) (lo hi : Option ℝ) (p : ℝ) : ℝ :=
  (hi.elim id fun b y => min y b) ((lo.elim id fun a y => max y a) (max p 1 / kap))

/-- Shear modulus with a constant Poisson ratio. -/
noncomputable def Spec.mccShear (nu k : ℝ) : ℝ := 3 * k * (1 - 2 * nu) / (2 * (1 + nu))

/-- Strain increment `Δt (L + Lᵀ)/2`. -/
noncomputable def Spec.strainInc (L : Matrix (Fin 3) (Fin 3) ℝ) (dt : ℝ) : Matrix (Fin 3) (Fin 3) ℝ :=
  (dt / 2) • (L + L.transpose)

/-- Previous stress rotated with the body (Jaumann increment, `w` the skew part of `L`). -/
noncomputable def Spec.jaumannRotated (L σ : Matrix (Fin 3) (Fin 3) ℝ) (dt : ℝ) : Matrix (Fin 3) (Fin 3) ℝ :=
  let w := (1 / 2 : ℝ) • (L - L.transpose)
  σ + dt • (w * σ - σ * w)

/-- Stress if the whole increment were elastic: `p` grows exponentially with the volumetric strain over
`κ`, the deviator linearly with the shear modulus at the end pressure (at least `pMin`). -/
noncomputable def Spec.mccTrialStress (pr : MCCParams ℝ) (L σ : Matrix (Fin 3) (Fin 3) ℝ) (dt : ℝ) :
    Matrix (Fin 3) (Fin 3) ℝ :=
  let p := Spec.meanStress σ * Real.exp ((Spec.strainInc L dt).trace / pr.kap)
  let G := Spec.mccShear pr.nu (Spec.mccBulk pr.kap pr.KMin pr.KMax (max p pr.pMin))
  Spec.dev (Spec.jaumannRotated L σ dt) + (2 * G) • Spec.dev (Spec.strainInc L dt) + p • (1 : Matrix (Fin 3) (Fin 3) ℝ)

/-- `Spec.mccGrad` is the gradient of the yield function. -/
theorem mccGrad_deriv (M pc : ℝ) (σ H : Mat3 ℝ) :
    HasDerivAt (fun t : ℝ => Spec.mccF M pc (σ + t • H)) (Spec.ddot (Spec.mccGrad M pc σ) H) 0 := by
  have hpoly : (fun t : ℝ => Spec.mccF M pc (σ + t • H)) = fun t : ℝ =>
      Spec.mccF M pc σ + t * Spec.ddot (Spec.mccGrad M pc σ) H +
        t ^ 2 * (3 * Spec.J2 H / M ^ 2 + Spec.meanStress H ^ 2) := by
    funext t
    simp only [Spec.mccF, qVM_sq, Spec.J2, Spec.mccGrad, Spec.ddot, Spec.dev, Spec.meanStress,
      Fin.sum_univ_three, Matrix.add_apply, Matrix.smul_apply, smul_eq_mul, Matrix.one_apply]
    simp only [Fin.isValue, Fin.reduceEq, ↓reduceIte]
    ring
  rw [hpoly]
  have h1 := ((hasDerivAt_id (0 : ℝ)).mul_const (Spec.ddot (Spec.mccGrad M pc σ) H)).const_add
    (Spec.mccF M pc σ)
  have h2 := ((hasDerivAt_id (0 : ℝ)).pow 2).mul_const (3 * Spec.J2 H / M ^ 2 + Spec.meanStress H ^ 2)
  refine (h1.add h2).congr_deriv ?_
  simp

/-! ### What the update computes -/

section

theorem mccK_spec (kap p : ℝ) (lo hi : Option ℝ) : mccK kap p lo hi = Spec.mccBulk kap lo hi p := by
  cases lo <;> cases hi <;> simp [mccK, clipOpt, Spec.mccBulk, div_eq_inv_mul]

theorem mccG_spec (nu k : ℝ) : mccG nu k = Spec.mccShear nu k := by
  unfold mccG Spec.mccShear; ring

/-- Unknowns `(Δλ, ln p_c)` at the end of the Newton loop of a yielding step. -/
noncomputable def mccFinal (ops : NewtonOps ℝ) (pr : MCCParams ℝ) (t : MCCTrial ℝ) (pc : ℝ) : Fin 2 → ℝ :=
  mccNewton ops (fun x => (mccResiduals realFns pr t pc x).res) 10 ![0, Real.log pc]

/-- The two residuals left over at the end of the Newton loop of a yielding step. -/
noncomputable def mccLeft (ops : NewtonOps ℝ) (pr : MCCParams ℝ) (t : MCCTrial ℝ) (pc : ℝ) : Fin 2 → ℝ :=
  (mccResiduals realFns pr t pc (mccFinal ops pr t pc)).res

theorem strainInc_eq (L : Mat3 ℝ) (dt : ℝ) : dt • symTensor L = Spec.strainInc L dt := by
  rw [symTensor, Spec.strainInc, smul_smul]; congr 1; ring

theorem jaumannRotated_eq (L σ : Mat3 ℝ) (dt : ℝ) : jaumann σ (spinTensor L) dt = Spec.jaumannRotated L σ dt := rfl

theorem mccTrial_pTr' (pr : MCCParams ℝ) (L e σ : Mat3 ℝ) (pc : ℝ) (σref : Mat3 ℝ) (dt : ℝ)
    (hmin : pr.pMin ≤ Spec.meanStress σ) :
    (mccTrial realFns pr L e σ pc σref dt).pTr =
      Spec.meanStress σ * Real.exp ((Spec.strainInc L dt).trace / pr.kap) := by
  rw [mccTrial_pTr, max_eq_left hmin, strainInc_eq]

theorem mccTrial_KTr (pr : MCCParams ℝ) (L e σ : Mat3 ℝ) (pc : ℝ) (σref : Mat3 ℝ) (dt : ℝ)
    (hmin : pr.pMin ≤ Spec.meanStress σ) :
    (mccTrial realFns pr L e σ pc σref dt).KTr = Spec.mccBulk pr.kap pr.KMin pr.KMax
      (max (Spec.meanStress σ * Real.exp ((Spec.strainInc L dt).trace / pr.kap)) pr.pMin) := by
  rw [← mccTrial_pTr' pr L e σ pc σref dt hmin, ← mccK_spec]; rfl

/-- Trial deviator: previous deviator rotated by the Jaumann increment plus the elastic increment. -/
theorem mccTrial_dev (pr : MCCParams ℝ) (L e σ : Mat3 ℝ) (pc : ℝ) (σref : Mat3 ℝ) (dt : ℝ)
    (hmin : pr.pMin ≤ Spec.meanStress σ) :
    (mccTrial realFns pr L e σ pc σref dt).sTr = Spec.dev (Spec.jaumannRotated L σ dt) +
      (2 * mccG pr.nu (mccTrial realFns pr L e σ pc σref dt).KTr) • Spec.dev (Spec.strainInc L dt) := by
  have hp := mccTrial_pPrev pr L e σ pc σref dt
  rw [max_eq_left hmin, ← jaumann_mean σ (spinTensor L) dt, jaumannRotated_eq] at hp
  have : (mccTrial realFns pr L e σ pc σref dt).sTr =
      (2 * mccG pr.nu (mccTrial realFns pr L e σ pc σref dt).KTr) • Spec.dev (dt • symTensor L) +
      (jaumann σ (spinTensor L) dt - (mccTrial realFns pr L e σ pc σref dt).pPrev • (1 : Mat3 ℝ)) := by
    rw [← devStrainV_eq]
    simp only [mccTrial, mccS, devStressP]
  rw [this, hp, add_comm, strainInc_eq, jaumannRotated_eq]
  congr 1
  ext i j
  simp [Spec.dev, Matrix.one_apply]

theorem mccTrial_stress (pr : MCCParams ℝ) (L e σ : Mat3 ℝ) (pc : ℝ) (σref : Mat3 ℝ) (dt : ℝ)
    (hmin : pr.pMin ≤ Spec.meanStress σ) :
    (mccTrial realFns pr L e σ pc σref dt).sTr + isoT (mccTrial realFns pr L e σ pc σref dt).pTr =
      Spec.mccTrialStress pr L σ dt := by
  rw [mccTrial_dev pr L e σ pc σref dt hmin, mccTrial_KTr pr L e σ pc σref dt hmin,
    mccTrial_pTr' pr L e σ pc σref dt hmin, mccG_spec]
  rfl

/-- The yield test of the update is the sign of the yield function at the trial stress. -/
theorem mccTrial_yf_spec (pr : MCCParams ℝ) (L e σ : Mat3 ℝ) (pc : ℝ) (σref : Mat3 ℝ) (dt : ℝ)
    (hmin : pr.pMin ≤ Spec.meanStress σ) :
    (mccTrial realFns pr L e σ pc σref dt).yf = Spec.mccF pr.M pc (Spec.mccTrialStress pr L σ dt) := by
  have hm := mccTrial_sMean pr L e σ pc σref dt
  rw [max_eq_left hmin, sub_self] at hm
  rw [mccTrial_yf, ← mccTrial_stress pr L e σ pc σref dt hmin, Spec.mccF, Spec.qVM, J2_add_iso hm,
    mean_add_iso hm, ← mccTrial_qTr]

/-- Plastic branch of a yielding step in terms of the last Newton iterate. -/
theorem mccPlastic_values (ops : NewtonOps ℝ) (pr : MCCParams ℝ) (h : pr.Elastic) (t : MCCTrial ℝ) (pc : ℝ)
    (hy : 0 < t.yf) (hp : 0 < t.pPrev) :
    (mccPlastic realFns ops pr t pc).pc = Real.exp (mccFinal ops pr t pc 1) ∧
    (mccPlastic realFns ops pr t pc).stress =
      (1 / (1 + 6 * (mccResiduals realFns pr t pc (mccFinal ops pr t pc)).G * mccFinal ops pr t pc 0)) • t.sTr +
      isoT (mccResiduals realFns pr t pc (mccFinal ops pr t pc)).p ∧
    0 < (mccResiduals realFns pr t pc (mccFinal ops pr t pc)).p ∧
    0 ≤ (mccResiduals realFns pr t pc (mccFinal ops pr t pc)).G ∧ 0 ≤ mccFinal ops pr t pc 0 := by
  have hfin : mccNewton ops (fun x => (mccResiduals realFns pr t pc x).res) 10
      ![0, realFns.log (if t.yf > 0 then pc else 2)] = mccFinal ops pr t pc := by
    rw [if_pos hy]; rfl
  have hpm : 0 ≤ mccFinal ops pr t pc 0 := mccNewton_nonneg ops _ 10 _ 0 (by simp)
  have hG0 : 0 ≤ (mccResiduals realFns pr t pc (mccFinal ops pr t pc)).G :=
    mccG_nonneg pr h (mccK_nonneg pr h _)
  have hp0 : 0 < (mccResiduals realFns pr t pc (mccFinal ops pr t pc)).p := by
    refine mul_pos ?_ (Real.exp_pos _)
    rw [if_pos hy]; exact hp
  refine ⟨by rw [mccPlastic_pc, hfin], ?_, hp0, hG0, hpm⟩
  have hf0 : 0 < 1 / (1 + 6 * (mccResiduals realFns pr t pc (mccFinal ops pr t pc)).G *
      mccFinal ops pr t pc 0) := by
    have := mul_nonneg hG0 hpm
    apply one_div_pos.mpr; nlinarith
  have hs : (mccResiduals realFns pr t pc (mccFinal ops pr t pc)).s =
    (1 / (1 + 6 * (mccResiduals realFns pr t pc (mccFinal ops pr t pc)).G *
      mccFinal ops pr t pc 0)) • t.sTr := rfl
  unfold mccPlastic
  simp only
  rw [hfin, if_pos hp0.ne']
  congr 1
  ext i j
  rw [hs]
  simp only [Matrix.smul_apply, smul_eq_mul]
  split_ifs with hz
  · rfl
  · have h0 := not_not.mp hz
    rw [h0]
    exact (mul_eq_zero.mp h0).resolve_left hf0.ne'

theorem mccBulk_pos (pr : MCCParams ℝ) (hk : 0 < pr.kap) (hK : ∀ b, pr.KMax = some b → 0 < b) (p : ℝ) :
    0 < Spec.mccBulk pr.kap pr.KMin pr.KMax p := by
  have h0 : 0 < max p 1 / pr.kap := div_pos (lt_max_of_lt_right one_pos) hk
  unfold Spec.mccBulk
  have h1 : 0 < (pr.KMin.elim id fun a y => max y a) (max p 1 / pr.kap) := by
    cases pr.KMin with
    | none => exact h0
    | some a => exact lt_max_of_lt_left h0
  cases hb : pr.KMax with
  | none => exact h1
  | some b => exact lt_min h1 (hK b hb)

theorem trace_dev (A : Mat3 ℝ) : (Spec.dev A).trace = 0 := by
  have := meanStress_dev A
  rw [meanStress_trace] at this
  linarith

theorem dev_dev (A : Mat3 ℝ) : Spec.dev (Spec.dev A) = Spec.dev A := by
  have h := dev_add_iso (meanStress_dev A) 0
  rwa [show isoT (0 : ℝ) = 0 by simp [isoT], add_zero] at h

theorem dev_smul_add (a c : ℝ) (A : Mat3 ℝ) :
    Spec.dev (a • Spec.dev A + c • (1 : Mat3 ℝ)) = a • Spec.dev A :=
  dev_add_iso (by rw [meanStress_smul, meanStress_dev, mul_zero]) c

theorem trace_smul_add (a c : ℝ) (A : Mat3 ℝ) : (a • Spec.dev A + c • (1 : Mat3 ℝ)).trace = 3 * c := by
  rw [Matrix.trace_add, Matrix.trace_smul, trace_dev, smul_zero, zero_add, Matrix.trace_smul]
  simp [mul_comm]

/-- The residuals of a yielding step. -/
theorem mccResiduals_values (pr : MCCParams ℝ) (t : MCCTrial ℝ) (pc : ℝ) (hy : 0 < t.yf) (x : Fin 2 → ℝ) :
    (mccResiduals realFns pr t pc x).res 0 =
      mccYield (mccResiduals realFns pr t pc x).p (Real.exp (x 1)) (max t.qTr (1 / 10 ^ 6) *
        (1 / (1 + 6 * (mccResiduals realFns pr t pc x).G * x 0))) pr.M / t.KTr ∧
    (mccResiduals realFns pr t pc x).res 1 =
      x 0 * (2 * (mccResiduals realFns pr t pc x).p - Real.exp (x 1)) * pr.M ^ 2 -
        pr.cp * (x 1 - Real.log pc) := by
  have hy' : t.yf > 0 := hy
  constructor
  · simp only [mccResiduals, if_pos hy', Matrix.cons_val_zero]
    rfl
  · simp only [mccResiduals, if_pos hy', Matrix.cons_val_one, Matrix.cons_val_fin_one, div_one]
    rfl

theorem sub_smul_one_eq (f G x : ℝ) (h : f * (1 + 6 * G * x) = 1) (A : Mat3 ℝ) :
    f • A = A - (2 * G) • ((3 * x) • (f • A)) := by
  ext i j
  simp only [Matrix.smul_apply, Matrix.sub_apply, smul_eq_mul]
  linear_combination A i j * h

/-- **C84**: a yielding step returns the backward Euler solution of Cam-Clay plasticity, up to the two
residuals `mccLeft` the Newton loop stopped with. There are a plastic multiplier `Δλ ≥ 0` and a plastic
strain increment `ep` such that pressure and preconsolidation pressure follow exactly from the elastic and
plastic volumetric strain, the deviator is the trial deviator minus `2 G ep`, the deviatoric flow is
associated, and the volumetric flow rule and the yield condition hold up to the residuals. Trial shear
stresses below `10⁻⁶` are replaced by `10⁻⁶` in the yield condition. -/
theorem mcc_return_map (ops : NewtonOps ℝ) (pr : MCCParams ℝ) (h : pr.Elastic)
    (hK : ∀ b, pr.KMax = some b → 0 < b) (hM : 0 < pr.M) (hlk : pr.kap < pr.lam) (L e σ : Mat3 ℝ) (pc : ℝ)
    (σref : Mat3 ℝ) (v dt : ℝ) (hv : v ≤ pr.N * (999999 / 1000000)) (hpc : 0 < pc) (hp : 0 < pr.pMin)
    (hmin : pr.pMin ≤ Spec.meanStress σ) (hy : 0 < Spec.mccF pr.M pc (Spec.mccTrialStress pr L σ dt)) :
    let r := mccUpdate realFns ops pr L e σ pc σref v dt
    let left := mccLeft ops pr (mccTrial realFns pr L e σ pc σref dt) pc
    let KTr := Spec.mccBulk pr.kap pr.KMin pr.KMax
      (max (Spec.meanStress (Spec.mccTrialStress pr L σ dt)) pr.pMin)
    let G := Spec.mccShear pr.nu (Spec.mccBulk pr.kap pr.KMin pr.KMax (Spec.meanStress r.stress))
    ∃ (lam : ℝ) (ep : Mat3 ℝ), 0 ≤ lam ∧
      Spec.meanStress r.stress =
        Spec.meanStress σ * Real.exp (((Spec.strainInc L dt).trace - ep.trace) / pr.kap) ∧
      r.pc = pc * Real.exp (ep.trace / (pr.lam - pr.kap)) ∧
      Spec.dev r.stress = Spec.dev (Spec.mccTrialStress pr L σ dt) - (2 * G) • Spec.dev ep ∧
      Spec.dev ep = Spec.dev (lam • Spec.mccGrad pr.M r.pc r.stress) ∧
      ep.trace = (lam • Spec.mccGrad pr.M r.pc r.stress).trace - left 1 ∧
      (1 / 10 ^ 6 ≤ Spec.qVM (Spec.mccTrialStress pr L σ dt) →
        Spec.mccF pr.M r.pc r.stress = KTr * left 0) ∧
      |Spec.mccF pr.M r.pc r.stress - KTr * left 0| ≤ (1 / 10 ^ 6 / pr.M) ^ 2 := by
  intro r left KTr G
  set t := mccTrial realFns pr L e σ pc σref dt with ht
  have hyf : 0 < t.yf := by rw [ht, mccTrial_yf_spec pr L e σ pc σref dt hmin]; exact hy
  have hpp : t.pPrev = Spec.meanStress σ := by rw [ht, mccTrial_pPrev, max_eq_left hmin]
  have hp0 : 0 < t.pPrev := by rw [hpp]; linarith
  have hsm : Spec.meanStress t.sTr = 0 := by
    have := mccTrial_sMean pr L e σ pc σref dt
    rwa [max_eq_left hmin, sub_self] at this
  have htr : t.sTr + isoT t.pTr = Spec.mccTrialStress pr L σ dt := mccTrial_stress pr L e σ pc σref dt hmin
  have hdtr : Spec.dev (Spec.mccTrialStress pr L σ dt) = t.sTr := by rw [← htr]; exact dev_add_iso hsm _
  have hmtr : Spec.meanStress (Spec.mccTrialStress pr L σ dt) = t.pTr := by rw [← htr]; exact mean_add_iso hsm _
  have hKt : t.KTr = KTr := by
    have h1 := mccTrial_KTr pr L e σ pc σref dt hmin
    rw [← mccTrial_pTr' pr L e σ pc σref dt hmin] at h1
    simp only [KTr]
    rw [hmtr]; exact h1
  have hqt : Spec.qVM (Spec.mccTrialStress pr L σ dt) = t.qTr := by
    rw [← htr, Spec.qVM, J2_add_iso hsm, ht, ← mccTrial_qTr]
  have hq0 : 0 ≤ t.qTr := by rw [← hqt]; exact Real.sqrt_nonneg _
  have hr : r = mccPlastic realFns ops pr t pc := by
    simp only [r, mccUpdate]
    rw [if_pos hv, if_pos hyf]
  obtain ⟨hpc', hst, hpn, hG, hlam⟩ := mccPlastic_values ops pr h t pc hyf hp0
  rw [← hr] at hpc' hst
  set x := mccFinal ops pr t pc with hx
  set A := mccResiduals realFns pr t pc x with hA
  set f := 1 / (1 + 6 * A.G * x 0) with hf
  have hden : 0 < 1 + 6 * A.G * x 0 := by nlinarith [mul_nonneg hG hlam]
  have hfden : f * (1 + 6 * A.G * x 0) = 1 := by rw [hf]; field_simp
  have hf0 : 0 < f := one_div_pos.mpr hden
  have hf1 : f ≤ 1 := by rw [hf, div_le_one hden]; nlinarith [mul_nonneg hG hlam]
  have hfs : Spec.meanStress (f • t.sTr) = 0 := by rw [meanStress_smul, hsm, mul_zero]
  have hrm : Spec.meanStress r.stress = A.p := by rw [hst]; exact mean_add_iso hfs _
  have hrd : Spec.dev r.stress = f • t.sTr := by rw [hst]; exact dev_add_iso hfs _
  have hAp : A.p = Spec.meanStress σ *
      Real.exp (((Spec.strainInc L dt).trace - pr.cp * (x 1 - Real.log pc)) / pr.kap) := by
    rw [← hpp, ← strainInc_eq]
    simp only [hA, mccResiduals, if_pos hyf, mccPressure, realFns]
    rfl
  have hGs : A.G = G := by
    simp only [G]
    rw [hrm, ← mccK_spec, ← mccG_spec]
    rfl
  have hcp : 0 < pr.lam - pr.kap := sub_pos.mpr hlk
  have hl1 : left 1 = x 0 * (2 * A.p - r.pc) * pr.M ^ 2 - pr.cp * (x 1 - Real.log pc) := by
    rw [hpc']
    exact (mccResiduals_values pr t pc hyf x).2
  have hl0 : KTr * left 0 = mccYield A.p r.pc (max t.qTr (1 / 10 ^ 6) * f) pr.M := by
    have hne : t.KTr ≠ 0 := by rw [hKt]; exact (mccBulk_pos pr h.kap hK _).ne'
    rw [hpc', ← hKt]
    have : left 0 = mccYield A.p (Real.exp (x 1)) (max t.qTr (1 / 10 ^ 6) * f) pr.M / t.KTr :=
      (mccResiduals_values pr t pc hyf x).1
    rw [this, mul_div_cancel₀ _ hne]
  have hF : Spec.mccF pr.M r.pc r.stress = mccYield A.p r.pc (t.qTr * f) pr.M := by
    have hq : Spec.qVM r.stress ^ 2 = f ^ 2 * t.qTr ^ 2 := by
      rw [qVM_sq, Spec.J2, hrd, ddot_smul, ht, mccTrial_qTr, ← ht, Real.sq_sqrt]
      · ring
      · have := ddot_self_nonneg t.sTr; positivity
    rw [Spec.mccF, hq, hrm, mccYield]; ring
  have hMne := hM.ne'
  refine ⟨x 0 * pr.M ^ 2, (3 * x 0) • Spec.dev r.stress + (pr.cp * (x 1 - Real.log pc) / 3) • (1 : Mat3 ℝ),
    mul_nonneg hlam (sq_nonneg _), ?_, ?_, ?_, ?_, ?_, ?_, ?_⟩
  · rw [trace_smul_add, hrm, hAp, show 3 * (pr.cp * (x 1 - Real.log pc) / 3) = pr.cp * (x 1 - Real.log pc) by ring]
  · rw [trace_smul_add, hpc', show 3 * (pr.cp * (x 1 - Real.log pc) / 3) / (pr.lam - pr.kap) = x 1 - Real.log pc by
      unfold MCCParams.cp; field_simp, Real.exp_sub, Real.exp_log hpc]
    field_simp
  · rw [dev_smul_add, hdtr, hrd, ← hGs]
    exact sub_smul_one_eq f A.G (x 0) hfden _
  · rw [dev_smul_add, Spec.mccGrad, smul_add, smul_smul, smul_smul, dev_smul_add]
    congr 1
    field_simp
  · rw [trace_smul_add, Matrix.trace_smul, Spec.mccGrad, trace_smul_add, hl1, hrm, smul_eq_mul]
    ring
  · intro hq
    rw [hqt] at hq
    rw [hl0, hF, max_eq_left hq]
  · rw [hl0, hF, mccYield, mccYield]
    rcases le_total (1 / 10 ^ 6) t.qTr with hq | hq
    · rw [max_eq_left hq, sub_self, abs_zero]; positivity
    · rw [max_eq_right hq]
      have e1 : t.qTr * f * (t.qTr * f) / (pr.M * pr.M) + A.p * A.p - r.pc * A.p -
          (1 / 10 ^ 6 * f * (1 / 10 ^ 6 * f) / (pr.M * pr.M) + A.p * A.p - r.pc * A.p) =
          -((f ^ 2 * ((1 / 10 ^ 6) ^ 2 - t.qTr ^ 2)) / pr.M ^ 2) := by ring
      rw [e1, abs_neg, abs_of_nonneg, div_pow (1 / 10 ^ 6 : ℝ) pr.M 2]
      · apply div_le_div_of_nonneg_right _ (sq_nonneg _)
        have h1 : f ^ 2 ≤ 1 := pow_le_one₀ hf0.le hf1
        have h2 : 0 ≤ (1 / 10 ^ 6 : ℝ) ^ 2 - t.qTr ^ 2 := sub_nonneg.mpr (pow_le_pow_left₀ hq0 hq 2)
        nlinarith [sq_nonneg t.qTr]
      · apply div_nonneg _ (sq_nonneg _)
        exact mul_nonneg (sq_nonneg _) (sub_nonneg.mpr (pow_le_pow_left₀ hq0 hq 2))

/-- Work of the returned stress on associated plastic flow with volumetric defect `r1`. -/
theorem plastic_work (M pc lam r1 : ℝ) (σ ep : Mat3 ℝ)
    (hd : Spec.dev ep = Spec.dev (lam • Spec.mccGrad M pc σ))
    (ht : ep.trace = (lam • Spec.mccGrad M pc σ).trace - r1) :
    Spec.ddot σ ep = lam * (pc * Spec.meanStress σ + 2 * Spec.mccF M pc σ) - Spec.meanStress σ * r1 := by
  have hep : ep = (lam * (3 / M ^ 2)) • Spec.dev σ +
      isoT ((lam * (2 * Spec.meanStress σ - pc) - r1) / 3) := by
    rw [← dev_add_mean ep, hd, meanStress_trace ep, ht, Spec.mccGrad, smul_add, smul_smul, smul_smul,
      dev_smul_add, trace_smul_add]
    congr 3
    ring
  rw [hep, Spec.mccF, qVM_sq]
  simp only [Spec.J2, Spec.ddot, Spec.dev, Spec.meanStress, Fin.sum_univ_three, Matrix.add_apply,
    Matrix.smul_apply, smul_eq_mul, isoT_apply]
  simp only [Fin.isValue, Fin.reduceEq, ↓reduceIte]
  ring

/-- **C84**, second law: with the plastic strain of `mcc_return_map` the plastic work of a yielding step is
`Δλ p_c p` plus terms proportional to the residuals, so it is non-negative once the Newton loop converged. -/
theorem mcc_return_dissipates (ops : NewtonOps ℝ) (pr : MCCParams ℝ) (h : pr.Elastic)
    (hK : ∀ b, pr.KMax = some b → 0 < b) (hM : 0 < pr.M) (hlk : pr.kap < pr.lam) (L e σ : Mat3 ℝ) (pc : ℝ)
    (σref : Mat3 ℝ) (v dt : ℝ) (hv : v ≤ pr.N * (999999 / 1000000)) (hpc : 0 < pc) (hp : 0 < pr.pMin)
    (hmin : pr.pMin ≤ Spec.meanStress σ) (hy : 0 < Spec.mccF pr.M pc (Spec.mccTrialStress pr L σ dt)) :
    let r := mccUpdate realFns ops pr L e σ pc σref v dt
    let left := mccLeft ops pr (mccTrial realFns pr L e σ pc σref dt) pc
    ∃ (lam : ℝ) (ep : Mat3 ℝ), 0 ≤ lam ∧
      r.pc = pc * Real.exp (ep.trace / (pr.lam - pr.kap)) ∧
      Spec.dev ep = Spec.dev (lam • Spec.mccGrad pr.M r.pc r.stress) ∧
      Spec.ddot r.stress ep = lam * (r.pc * Spec.meanStress r.stress + 2 * Spec.mccF pr.M r.pc r.stress) -
        Spec.meanStress r.stress * left 1 ∧
      0 ≤ lam * (r.pc * Spec.meanStress r.stress) := by
  intro r left
  obtain ⟨lam, ep, h0, h1, h2, -, h4, h5, -⟩ :=
    mcc_return_map ops pr h hK hM hlk L e σ pc σref v dt hv hpc hp hmin hy
  refine ⟨lam, ep, h0, h2, h4, plastic_work _ _ _ _ _ _ h4 h5, mul_nonneg h0 (mul_nonneg ?_ ?_)⟩
  · rw [h2]; positivity
  · rw [h1]; exact mul_nonneg (by linarith) (Real.exp_pos _).le

/-! ### C85 -/

/-- Pressure and preconsolidation pressure of a connected step, whatever the Newton loop does. -/
theorem mcc_line_step (ops : NewtonOps ℝ) (pr : MCCParams ℝ) (h : pr.Elastic) (L e σ : Mat3 ℝ) (pc : ℝ)
    (σref : Mat3 ℝ) (v dt : ℝ) (hv : v ≤ pr.N * (999999 / 1000000)) (hpc : 0 < pc) (hp : 0 < pr.pMin)
    (hmin : pr.pMin ≤ Spec.meanStress σ) :
    let r := mccUpdate realFns ops pr L e σ pc σref v dt
    0 < Spec.meanStress r.stress ∧ 0 < r.pc ∧
    pr.kap * (Real.log (Spec.meanStress r.stress) - Real.log (Spec.meanStress σ)) +
      (pr.lam - pr.kap) * (Real.log r.pc - Real.log pc) = (Spec.strainInc L dt).trace := by
  intro r
  have hp0 : 0 < Spec.meanStress σ := hp.trans_le hmin
  refine ⟨mcc_no_tension_partial ops pr h L e σ pc σref v dt hv hp hmin, mcc_pc_pos ops pr L e σ pc σref v dt hpc, ?_⟩
  have hsm : Spec.meanStress (mccTrial realFns pr L e σ pc σref dt).sTr = 0 := by
    have := mccTrial_sMean pr L e σ pc σref dt
    rwa [max_eq_left hmin, sub_self] at this
  have hpp : (mccTrial realFns pr L e σ pc σref dt).pPrev = Spec.meanStress σ := by
    rw [mccTrial_pPrev, max_eq_left hmin]
  have hk := h.kap.ne'
  by_cases hy : 0 < (mccTrial realFns pr L e σ pc σref dt).yf
  · have hr : r = mccPlastic realFns ops pr (mccTrial realFns pr L e σ pc σref dt) pc := by
      simp only [r, mccUpdate]; rw [if_pos hv, if_pos hy]
    obtain ⟨h1, h2, -⟩ := mccPlastic_values ops pr h _ pc hy (hpp ▸ hp0)
    rw [hr, h1, h2, mean_add_iso (by rw [meanStress_smul, hsm, mul_zero]), Real.log_exp]
    set x := mccFinal ops pr (mccTrial realFns pr L e σ pc σref dt) pc
    have hA : (mccResiduals realFns pr (mccTrial realFns pr L e σ pc σref dt) pc x).p = Spec.meanStress σ *
        Real.exp (((Spec.strainInc L dt).trace - pr.cp * (x 1 - Real.log pc)) / pr.kap) := by
      rw [← hpp, ← strainInc_eq]
      simp only [mccResiduals, if_pos hy, mccPressure]
      rfl
    rw [hA, Real.log_mul hp0.ne' (Real.exp_pos _).ne', Real.log_exp, MCCParams.cp]
    field_simp
    ring
  · have hr : r = mccElastic (mccTrial realFns pr L e σ pc σref dt) pc := by
      simp only [r, mccUpdate]; rw [if_pos hv, if_neg hy]
    rw [hr]
    simp only [mccElastic]
    rw [mean_add_iso hsm, mccTrial_pTr' pr L e σ pc σref dt hmin,
      Real.log_mul hp0.ne' (Real.exp_pos _).ne', Real.log_exp]
    field_simp
    ring

/-- Specific volume on the swelling line through `(p, p_c)` below the normal compression line. -/
noncomputable def Spec.mccLine (N pRef lam kap pc p : ℝ) : ℝ := N * (pRef / pc) ^ lam * (pc / p) ^ kap

theorem mccLine_log (N pRef lam kap pc p : ℝ) (hN : 0 < N) (hr : 0 < pRef) (hc : 0 < pc) (hp : 0 < p) :
    Real.log (Spec.mccLine N pRef lam kap pc p) = Real.log N + lam * Real.log pRef -
      (kap * Real.log p + (lam - kap) * Real.log pc) := by
  unfold Spec.mccLine
  have h1 : 0 < pRef / pc := div_pos hr hc
  have h2 : 0 < pc / p := div_pos hc hp
  rw [Real.log_mul (mul_pos hN (Real.rpow_pos_of_pos h1 _)).ne' (Real.rpow_pos_of_pos h2 _).ne',
    Real.log_mul hN.ne' (Real.rpow_pos_of_pos h1 _).ne', Real.log_rpow h1, Real.log_rpow h2,
    Real.log_div hr.ne' hc.ne', Real.log_div hc.ne' hp.ne']
  ring

/-- **C85** (partial): along any history of connected steps with mean stress at least `p_min_calc`, elastic or
plastic, converged or not, the specific volume that follows the logarithmic volumetric strain stays on the
compression lines of the current `(p, p_c)`. Missing: the specific volume the code uses, mass over volume
with the volume from `det (1 - Δt L)`, which leaves the lines (`mcc_volume_drift`). -/
theorem mcc_line_run_partial (ops : NewtonOps ℝ) (pr : MCCParams ℝ) (h : pr.Elastic) (hN : 0 < pr.N)
    (hr : 0 < pr.pRef) (hp : 0 < pr.pMin) (L : ℕ → Mat3 ℝ) (v dt : ℕ → ℝ) (σref : Mat3 ℝ)
    (st : ℕ → MCCResult ℝ) (w : ℕ → ℝ) (n : ℕ)
    (hst : ∀ k < n, st (k + 1) = mccUpdate realFns ops pr (L k) (st k).epsE (st k).stress (st k).pc σref (v k) (dt k))
    (hw : ∀ k < n, w (k + 1) = w k * Real.exp (-(Spec.strainInc (L k) (dt k)).trace))
    (hv : ∀ k < n, v k ≤ pr.N * (999999 / 1000000)) (hmin : ∀ k < n, pr.pMin ≤ Spec.meanStress (st k).stress)
    (hpc : 0 < (st 0).pc)
    (h0 : w 0 = Spec.mccLine pr.N pr.pRef pr.lam pr.kap (st 0).pc (Spec.meanStress (st 0).stress)) :
    w n = Spec.mccLine pr.N pr.pRef pr.lam pr.kap (st n).pc (Spec.meanStress (st n).stress) := by
  have hpos : ∀ pc p : ℝ, 0 < pc → 0 < p → 0 < Spec.mccLine pr.N pr.pRef pr.lam pr.kap pc p :=
    fun pc p h1 h2 => mul_pos (mul_pos hN (Real.rpow_pos_of_pos (div_pos hr h1) _))
      (Real.rpow_pos_of_pos (div_pos h1 h2) _)
  have key : ∀ m ≤ n, 0 < (st m).pc ∧
      w m = Spec.mccLine pr.N pr.pRef pr.lam pr.kap (st m).pc (Spec.meanStress (st m).stress) := by
    intro m
    induction m with
    | zero => exact fun _ => ⟨hpc, h0⟩
    | succ m ih =>
      intro hm
      obtain ⟨hc, hwn⟩ := ih (by omega)
      have hmn : m < n := hm
      have hpn : 0 < Spec.meanStress (st m).stress := hp.trans_le (hmin m hmn)
      obtain ⟨a1, a2, a3⟩ := mcc_line_step ops pr h (L m) (st m).epsE (st m).stress (st m).pc σref (v m) (dt m)
        (hv m hmn) hc hp (hmin m hmn)
      rw [← hst m hmn] at a1 a2 a3
      refine ⟨a2, ?_⟩
      have hw0 : 0 < w m := by rw [hwn]; exact hpos _ _ hc hpn
      have hw1 : 0 < w (m + 1) := by rw [hw m hmn]; exact mul_pos hw0 (Real.exp_pos _)
      apply Real.log_injOn_pos hw1 (hpos _ _ a2 a1)
      rw [hw m hmn, Real.log_mul hw0.ne' (Real.exp_pos _).ne', Real.log_exp, hwn,
        mccLine_log _ _ _ _ _ _ hN hr hc hpn, mccLine_log _ _ _ _ _ _ hN hr a2 a1, ← a3]
      ring
  exact (key n le_rfl).2

/-- Why C85 is partial: for every isotropic increment other than zero, compression or extension, the volume
factor `det (1 - Δt L)` used by the solver is smaller than the one that keeps the state on the compression
lines. -/
theorem mcc_volume_drift (c dt : ℝ) (hne : c * dt ≠ 0) (hlt : c * dt < 1) :
    (1 - dt • (c • (1 : Mat3 ℝ))).det < Real.exp (-(Spec.strainInc (c • (1 : Mat3 ℝ)) dt).trace) := by
  have h1 : (1 - dt • (c • (1 : Mat3 ℝ))).det = (1 - c * dt) ^ 3 := by
    have : (1 - dt • (c • (1 : Mat3 ℝ))) = (1 - c * dt) • (1 : Mat3 ℝ) := by
      rw [sub_smul, one_smul, smul_smul, mul_comm dt c]
    rw [this, Matrix.det_smul, Matrix.det_one]
    simp
  have h2 : (Spec.strainInc (c • (1 : Mat3 ℝ)) dt).trace = 3 * (c * dt) := by
    simp only [Spec.strainInc, Matrix.transpose_smul, Matrix.transpose_one, Matrix.trace_smul, Matrix.trace_add,
      Matrix.trace_one, smul_eq_mul, Fintype.card_fin]
    push_cast
    ring
  rw [h1, h2, show -(3 * (c * dt)) = (3 : ℕ) * (-(c * dt)) by push_cast; ring, Real.exp_nat_mul]
  have h3 : 1 - c * dt < Real.exp (-(c * dt)) := by
    have := Real.add_one_lt_exp (neg_ne_zero.mpr hne)
    linarith
  exact pow_lt_pow_left₀ h3 (by linarith) (by norm_num)

/-! ### C86 -/

/-- **C86** (partial): after a yielding step the stored elastic strain and the stress are related by the secant
moduli at the new pressure. Missing: elastic steps, after which the relation fails
(`mcc_elastic_strain_fails`). -/
theorem mcc_elastic_strain_partial (ops : NewtonOps ℝ) (pr : MCCParams ℝ) (h : pr.Elastic) (hnu : pr.nu < 1 / 2)
    (hK : ∀ b, pr.KMax = some b → 0 < b) (L e σ : Mat3 ℝ) (pc : ℝ)
    (σref : Mat3 ℝ) (v dt : ℝ) (hv : v ≤ pr.N * (999999 / 1000000)) (hp : 0 < pr.pMin)
    (hmin : pr.pMin ≤ Spec.meanStress σ) (hy : 0 < Spec.mccF pr.M pc (Spec.mccTrialStress pr L σ dt)) :
    let r := mccUpdate realFns ops pr L e σ pc σref v dt
    let Kb := Spec.mccBulk pr.kap pr.KMin pr.KMax (Spec.meanStress r.stress)
    Spec.meanStress r.stress = Spec.meanStress σref + Kb * r.epsE.trace ∧
    Spec.dev r.stress = Spec.dev σref + (2 * Spec.mccShear pr.nu Kb) • Spec.dev r.epsE := by
  intro r Kb
  set t := mccTrial realFns pr L e σ pc σref dt with ht
  have hyf : 0 < t.yf := by rw [ht, mccTrial_yf_spec pr L e σ pc σref dt hmin]; exact hy
  have hp0 : 0 < t.pPrev := by rw [ht, mccTrial_pPrev, max_eq_left hmin]; linarith
  have hsm : Spec.meanStress t.sTr = 0 := by
    have := mccTrial_sMean pr L e σ pc σref dt
    rwa [max_eq_left hmin, sub_self] at this
  have hr : r = mccPlastic realFns ops pr t pc := by
    simp only [r, mccUpdate]
    rw [if_pos hv, if_pos hyf]
  obtain ⟨-, hst, hpn, -, -⟩ := mccPlastic_values ops pr h t pc hyf hp0
  rw [← hr] at hst
  set x := mccFinal ops pr t pc with hx
  set A := mccResiduals realFns pr t pc x with hA
  set f := 1 / (1 + 6 * A.G * x 0) with hf
  have hfs : Spec.meanStress (f • t.sTr) = 0 := by rw [meanStress_smul, hsm, mul_zero]
  have hrm : Spec.meanStress r.stress = A.p := by rw [hst]; exact mean_add_iso hfs _
  have hrd : Spec.dev r.stress = f • t.sTr := by rw [hst]; exact dev_add_iso hfs _
  have hAK : A.Kb = Kb := by simp only [Kb]; rw [hrm, ← mccK_spec]; rfl
  have hAG : A.G = Spec.mccShear pr.nu Kb := by rw [← mccG_spec, ← hAK]; rfl
  have hKpos : 0 < Kb := mccBulk_pos pr h.kap hK _
  have hGpos : 0 < Spec.mccShear pr.nu Kb := by
    unfold Spec.mccShear
    have := h.nuLo
    apply div_pos
    · apply mul_pos (by linarith); linarith
    · linarith
  have href : t.s0 = Spec.dev σref ∧ t.p0 = Spec.meanStress σref := by
    refine ⟨?_, ?_⟩
    · rw [← devStress_eq]; rfl
    · rw [← pressureOf_eq]; rfl
  have he : r.epsE = (1 / (2 * A.G)) • (f • t.sTr - t.s0) + isoT (1 / 3 * ((A.p - t.p0) / A.Kb)) := by
    have e1 : (mccPlastic realFns ops pr t pc).stress - isoT A.p = f • t.sTr := by
      rw [← hr, hst, add_sub_cancel_right]
    have hfin : mccNewton ops (fun x => (mccResiduals realFns pr t pc x).res) 10
        ![0, realFns.log (if t.yf > 0 then pc else 2)] = x := by
      rw [if_pos hyf]; rfl
    rw [hr, ← e1]
    unfold mccPlastic
    simp only
    rw [hfin, ← hA, if_pos hpn.ne']
    congr 2
    exact congrArg (· - t.s0) (add_sub_cancel_right (G := Mat3 ℝ) _ (isoT A.p)).symm
  have hd0 : Spec.meanStress ((1 / (2 * A.G)) • (f • t.sTr - t.s0)) = 0 := by
    rw [meanStress_smul, sub_eq_add_neg, meanStress_add, hfs, href.1, ← neg_one_smul ℝ, meanStress_smul,
      meanStress_dev]
    ring
  constructor
  · have : r.epsE.trace = (A.p - t.p0) / A.Kb := by
      have h1 := mean_add_iso hd0 (1 / 3 * ((A.p - t.p0) / A.Kb))
      rw [← he, meanStress_trace] at h1
      linarith
    rw [this, hrm, hAK, href.2, mul_div_cancel₀ _ hKpos.ne']
    ring
  · have : Spec.dev r.epsE = (1 / (2 * A.G)) • (f • t.sTr - t.s0) := by rw [he]; exact dev_add_iso hd0 _
    rw [this, hrd, hAG, href.1, smul_smul, mul_one_div_cancel (by positivity), one_smul, add_sub_cancel]

/-- Why C86 is partial: elastic isotropic compression by one `kappa` from the reference state. The stored
elastic strain is the strain increment, which the secant relation of the yielding steps does not give. -/
theorem mcc_elastic_strain_fails (ops : NewtonOps ℝ) :
    let r := mccUpdate realFns ops exMCC ((1 / 300 : ℝ) • 1) 0 (isoT 50) 1000 (isoT 50) (3 / 2) 1
    let Kb := Spec.mccBulk exMCC.kap exMCC.KMin exMCC.KMax (Spec.meanStress r.stress)
    r.epsE.trace = 1 / 100 ∧ Spec.meanStress r.stress = 50 * Real.exp 1 ∧
    Spec.meanStress r.stress ≠ Spec.meanStress (isoT 50) + Kb * r.epsE.trace := by
  intro r Kb
  have hmin : exMCC.pMin ≤ Spec.meanStress (isoT (50 : ℝ)) := by rw [meanStress_isoT]; norm_num [exMCC]
  have hinc : Spec.strainInc ((1 / 300 : ℝ) • (1 : Mat3 ℝ)) 1 = isoT (1 / 300) := by
    rw [Spec.strainInc, isoT, Matrix.transpose_smul, Matrix.transpose_one, ← two_smul ℝ, smul_smul]
    norm_num
  have htr : (Spec.strainInc ((1 / 300 : ℝ) • (1 : Mat3 ℝ)) 1).trace = 1 / 100 := by
    rw [hinc, trace3]; simp only [isoT_apply, ↓reduceIte]; norm_num
  have hdiv : (1 / 100 : ℝ) / exMCC.kap = 1 := by norm_num [exMCC]
  have hrot : Spec.jaumannRotated ((1 / 300 : ℝ) • (1 : Mat3 ℝ)) (isoT 50) 1 = isoT 50 := by
    simp [Spec.jaumannRotated]
  have hσ : Spec.mccTrialStress exMCC ((1 / 300 : ℝ) • 1) (isoT 50) 1 = isoT (50 * Real.exp 1) := by
    unfold Spec.mccTrialStress
    have ht : (isoT (1 / 300 : ℝ)).trace = 1 / 100 := by rw [← hinc]; exact htr
    simp only [hrot, hinc, ht, hdiv, dev_isoT, meanStress_isoT, smul_zero, zero_add]
    rfl
  have he : Real.exp 1 < 3 := by have := Real.exp_one_lt_d9; linarith
  have he2 : 2 < Real.exp 1 := by have := Real.exp_one_gt_d9; linarith
  have hyf : ¬ 0 < (mccTrial realFns exMCC ((1 / 300 : ℝ) • 1) 0 (isoT 50) 1000 (isoT 50) 1).yf := by
    rw [mccTrial_yf_spec _ _ _ _ _ _ _ hmin, hσ, Spec.mccF, qVM_sq, J2_isoT, meanStress_isoT]
    norm_num
    nlinarith
  have hr : r = mccElastic (mccTrial realFns exMCC ((1 / 300 : ℝ) • 1) 0 (isoT 50) 1000 (isoT 50) 1) 1000 := by
    simp only [r, mccUpdate]; rw [if_pos (by norm_num [exMCC]), if_neg hyf]
  have hst : r.stress = isoT (50 * Real.exp 1) := by
    rw [hr]
    simp only [mccElastic]
    rw [mccTrial_stress _ _ _ _ _ _ _ hmin, hσ]
  have hep : r.epsE.trace = 1 / 100 := by
    have : r.epsE = Spec.strainInc ((1 / 300 : ℝ) • (1 : Mat3 ℝ)) 1 := by
      rw [hr, ← strainInc_eq]
      simp [mccElastic, mccTrial, jaumann]
    rw [this, htr]
  refine ⟨hep, by rw [hst, meanStress_isoT], ?_⟩
  rw [hep, hst, meanStress_isoT, meanStress_isoT]
  have hKb : Kb = 5000 * Real.exp 1 := by
    simp only [Kb, Spec.mccBulk, hst, meanStress_isoT, exMCC, Option.elim, id]
    rw [max_eq_left (by linarith)]
    ring
  rw [hKb]
  intro hcon
  linarith

/-! ### Examples -/

/-- Uniaxial compression by one `kappa` of a normally consolidated point. -/
noncomputable def exSqueeze : Mat3 ℝ := Matrix.diagonal ![1 / 100, 0, 0]

theorem exSqueeze_yields : 0 < Spec.mccF exMCC.M 100 (Spec.mccTrialStress exMCC exSqueeze (isoT 100) 1) := by
  have htr : (Spec.strainInc exSqueeze 1).trace / exMCC.kap = 1 := by
    rw [trace3]
    simp [Spec.strainInc, exSqueeze, exMCC]
    norm_num
  have hm : Spec.meanStress (Spec.mccTrialStress exMCC exSqueeze (isoT 100) 1) = 100 * Real.exp 1 := by
    unfold Spec.mccTrialStress
    simp only [htr, meanStress_isoT]
    rw [show ∀ c : ℝ, c • (1 : Matrix (Fin 3) (Fin 3) ℝ) = isoT c from fun _ => rfl, mean_add_iso]
    rw [meanStress_add, meanStress_smul, meanStress_dev, meanStress_dev]
    ring
  have he : 2 < Real.exp 1 := by have := Real.exp_one_gt_d9; linarith
  rw [Spec.mccF, hm]
  have : 0 ≤ Spec.qVM (Spec.mccTrialStress exMCC exSqueeze (isoT 100) 1) ^ 2 / exMCC.M ^ 2 := by positivity
  nlinarith

example (ops : NewtonOps ℝ) := mcc_return_map ops exMCC exMCC_elastic (by simp [exMCC]) (by norm_num [exMCC])
  (by norm_num [exMCC]) exSqueeze 0 (isoT 100) 100 (isoT 100) (3 / 2) 1 (by norm_num [exMCC]) (by norm_num)
  (by norm_num [exMCC]) (by rw [meanStress_isoT]; norm_num [exMCC]) exSqueeze_yields

example (ops : NewtonOps ℝ) := mcc_return_dissipates ops exMCC exMCC_elastic (by simp [exMCC])
  (by norm_num [exMCC]) (by norm_num [exMCC]) exSqueeze 0 (isoT 100) 100 (isoT 100) (3 / 2) 1
  (by norm_num [exMCC]) (by norm_num) (by norm_num [exMCC]) (by rw [meanStress_isoT]; norm_num [exMCC])
  exSqueeze_yields

/-- A yielding step from a state on the normal compression line, as a history of length one. -/
example (ops : NewtonOps ℝ) (w : ℝ) (hw : w = Spec.mccLine 2 1000 (2 / 100) (1 / 100) 100 100) :=
  mcc_line_run_partial ops exMCC exMCC_elastic (by norm_num [exMCC]) (by norm_num [exMCC]) (by norm_num [exMCC])
    (fun _ => exSqueeze) (fun _ => 3 / 2) (fun _ => 1) (isoT 100)
    (fun k => Nat.rec ⟨isoT 100, 0, 100⟩
      (fun _ r => mccUpdate realFns ops exMCC exSqueeze r.epsE r.stress r.pc (isoT 100) (3 / 2) 1) k)
    (fun k => Nat.rec w (fun _ u => u * Real.exp (-(Spec.strainInc exSqueeze 1).trace)) k) 1
    (fun _ _ => rfl) (fun _ _ => rfl) (fun _ _ => by norm_num [exMCC])
    (fun k hk => by
      obtain rfl : k = 0 := by omega
      change (1 : ℝ) ≤ Spec.meanStress (isoT 100)
      rw [meanStress_isoT]; norm_num)
    (by norm_num)
    (by
      change w = Spec.mccLine 2 1000 (2 / 100) (1 / 100) 100 (Spec.meanStress (isoT 100))
      rw [meanStress_isoT]; exact hw)

example (ops : NewtonOps ℝ) := mcc_elastic_strain_partial ops exMCC exMCC_elastic (by norm_num [exMCC])
  (by simp [exMCC]) exSqueeze 0 (isoT 100) 100 (isoT 100) (3 / 2) 1 (by norm_num [exMCC])
  (by norm_num [exMCC]) (by rw [meanStress_isoT]; norm_num [exMCC]) exSqueeze_yields

example := mcc_volume_drift (1 / 300) 1 (by norm_num) (by norm_num)

end
end Hydrax
