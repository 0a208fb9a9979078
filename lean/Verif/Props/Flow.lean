import Verif.Lemmas.Tensor
import Verif.Lemmas.RealFns
import Verif.Model.LawTable

/-!
# Properties C35, C36 and the fluid and mu(I) parts of C37
-/

set_option linter.unusedSectionVars false

namespace Hydrax

/-- Symmetric part of a velocity gradient. -/
def Spec.strainRate {K : Type*} [Field K] (L : Matrix (Fin 3) (Fin 3) K) : Matrix (Fin 3) (Fin 3) K :=
  fun i j => (L i j + L j i) / 2

/-- Shear rate: `sqrt(2 e:e)` of the deviatoric strain rate. -/
noncomputable def Spec.gammaDot (L : Matrix (Fin 3) (Fin 3) ℝ) : ℝ :=
  Real.sqrt (2 * Spec.ddot (Spec.dev (Spec.strainRate L)) (Spec.dev (Spec.strainRate L)))

/-- Friction coefficient of Jop, Forterre and Pouliquen (2006) at inertial number `I`. -/
noncomputable def Spec.muOfI (muS muD I0 I : ℝ) : ℝ := muS + (muD - muS) * I / (I0 + I)

/-- Inertial number. -/
noncomputable def Spec.inertial (d rho gd p : ℝ) : ℝ := d * gd / Real.sqrt (p / rho)

section
variable {K : Type*} [Field K] [LinearOrder K] [IsStrictOrderedRing K]

theorem strainRate_eq (L : Mat3 K) : (1 / 2 : K) • (L + L.transpose) = Spec.strainRate L := by
  ext i j
  simp only [Matrix.smul_apply, Matrix.add_apply, Matrix.transpose_apply, smul_eq_mul, Spec.strainRate]
  ring

theorem dev_of_trace (A : Mat3 K) : A - (A.trace / 3) • (1 : Mat3 K) = Spec.dev A := by
  ext i j
  simp only [Spec.dev, Matrix.sub_apply, Matrix.smul_apply, Matrix.one_apply, smul_eq_mul, mul_ite,
    mul_one, mul_zero, meanStress_trace]

/-! ### mu(I) -/

theorem muIStress_eq (fn : MathFns K) (pr : MuIParams K) (L : Mat3 K) (m v r : K) (h : 1 < m / v / r) :
    muIStress fn pr L m v r =
      muIViscosity fn pr (max (pr.bulk * (m / v / r - 1)) pr.pMin)
        (fn.sqrt (2 * Spec.ddot (Spec.dev (Spec.strainRate L)) (Spec.dev (Spec.strainRate L)))) •
        Spec.dev (Spec.strainRate L) + isoT (max (pr.bulk * (m / v / r - 1)) pr.pMin) := by
  unfold muIStress
  simp only
  rw [if_pos h, strainRate_eq, dev_of_trace, add_comm]
  rfl

/-- **C35**, pressure: compression-positive mean stress from the equation of state above the reference
density, no stress at all below it. -/
theorem muI_pressure (fn : MathFns K) (pr : MuIParams K) (hK : 0 ≤ pr.bulk) (L : Mat3 K) (m v r : K) :
    (1 < m / v / r →
      Spec.meanStress (muIStress fn pr L m v r) = max (pr.bulk * (m / v / r - 1)) pr.pMin ∧
      0 ≤ Spec.meanStress (muIStress fn pr L m v r)) ∧
    (m / v / r ≤ 1 → muIStress fn pr L m v r = 0) := by
  constructor
  · intro h
    have e : Spec.meanStress (muIStress fn pr L m v r) = max (pr.bulk * (m / v / r - 1)) pr.pMin := by
      rw [muIStress_eq fn pr L m v r h]
      exact mean_add_iso (by rw [meanStress_smul, meanStress_dev, mul_zero]) _
    refine ⟨e, ?_⟩
    rw [e]
    exact le_max_of_le_left (mul_nonneg hK (by linarith))
  · intro h
    unfold muIStress
    simp only
    rw [if_neg (not_lt.mpr h)]

end

section

/-- Parameters for which the law makes sense. -/
structure MuIParams.Valid (pr : MuIParams ℝ) : Prop where
  muS : 0 ≤ pr.muS
  muD : pr.muS ≤ pr.muD
  I0 : 0 < pr.I0
  bulk : 0 < pr.bulk
  rhoP : 0 < pr.rhoP
  dP : 0 < pr.dP
  alpha : 0 ≤ pr.alpha

theorem muI_visc_nonneg (pr : MuIParams ℝ) (h : pr.Valid) {p gd : ℝ} (hp : 0 ≤ p) (hg : 0 ≤ gd) :
    0 ≤ muIViscosity realFns pr p gd := by
  unfold muIViscosity
  simp only [realFns_sqrt]
  refine add_nonneg (div_nonneg (mul_nonneg h.muS hp) (Real.sqrt_nonneg _)) ?_
  refine div_nonneg (mul_nonneg (mul_nonneg h.dP.le hp) (sub_nonneg.mpr h.muD)) ?_
  exact add_nonneg (mul_nonneg h.I0.le (Real.sqrt_nonneg _)) (mul_nonneg h.dP.le hg)

theorem gammaDot_nonneg (L : Mat3 ℝ) : 0 ≤ Spec.gammaDot L := Real.sqrt_nonneg _

theorem gammaDot_sq (L : Mat3 ℝ) : Spec.gammaDot L ^ 2 =
    2 * Spec.ddot (Spec.dev (Spec.strainRate L)) (Spec.dev (Spec.strainRate L)) := by
  unfold Spec.gammaDot
  exact Real.sq_sqrt (mul_nonneg (by norm_num) (ddot_self_nonneg _))

/-- Equation-of-state pressure with its floor. -/
noncomputable def Spec.muIPressure (bulk pMin ratio : ℝ) : ℝ := max (bulk * (ratio - 1)) pMin

theorem muIPressure_pos (pr : MuIParams ℝ) (h : pr.Valid) {r : ℝ} (hr : 1 < r) :
    0 < Spec.muIPressure pr.bulk pr.pMin r :=
  lt_max_of_lt_left (mul_pos h.bulk (by linarith))

/-- **C35**, dissipation: the power of the deviatoric stress on the strain rate is never negative. -/
theorem muI_dissipative (pr : MuIParams ℝ) (h : pr.Valid) (L : Mat3 ℝ) (m v r : ℝ) :
    0 ≤ Spec.ddot (Spec.dev (muIStress realFns pr L m v r)) (Spec.strainRate L) := by
  rcases lt_or_ge 1 (m / v / r) with hr | hr
  · rw [muIStress_eq realFns pr L m v r hr,
      dev_add_iso (by rw [meanStress_smul, meanStress_dev, mul_zero])]
    rw [← ddot_dev_right (by rw [meanStress_smul, meanStress_dev, mul_zero])]
    rw [← one_smul ℝ (Spec.dev (Spec.strainRate L)), smul_smul, ddot_smul]
    refine mul_nonneg ?_ (ddot_self_nonneg _)
    rw [one_smul]
    refine mul_nonneg (mul_nonneg ?_ zero_le_one) zero_le_one
    exact muI_visc_nonneg pr h (muIPressure_pos pr h hr).le (gammaDot_nonneg L)
  · rw [(muI_pressure realFns pr h.bulk.le L m v r).2 hr, dev_zero]
    simp [Spec.ddot]

/-- The equivalent shear stress of the law in closed form. -/
theorem muI_shear_stress (pr : MuIParams ℝ) (h : pr.Valid) (L : Mat3 ℝ) (m v r : ℝ) (hr : 1 < m / v / r) :
    Real.sqrt (Spec.J2 (muIStress realFns pr L m v r)) =
      1 / 2 * (pr.muS * Spec.muIPressure pr.bulk pr.pMin (m / v / r) *
          (Spec.gammaDot L / Real.sqrt (Spec.gammaDot L ^ 2 + pr.alpha ^ 2)) +
        (pr.muD - pr.muS) * Spec.muIPressure pr.bulk pr.pMin (m / v / r) *
          (Spec.inertial pr.dP pr.rhoP (Spec.gammaDot L) (Spec.muIPressure pr.bulk pr.pMin (m / v / r)) /
          (pr.I0 + Spec.inertial pr.dP pr.rhoP (Spec.gammaDot L)
            (Spec.muIPressure pr.bulk pr.pMin (m / v / r))))) := by
  have hp := muIPressure_pos pr h hr
  have hg := gammaDot_nonneg L
  rw [muIStress_eq realFns pr L m v r hr]
  rw [J2_add_iso (by rw [meanStress_smul, meanStress_dev, mul_zero]), ddot_smul]
  have hv := muI_visc_nonneg pr h hp.le hg
  have e : Spec.ddot (Spec.dev (Spec.strainRate L)) (Spec.dev (Spec.strainRate L)) =
      Spec.gammaDot L ^ 2 / 2 := by rw [gammaDot_sq]; ring
  change Real.sqrt (muIViscosity realFns pr (Spec.muIPressure pr.bulk pr.pMin (m / v / r)) (Spec.gammaDot L) *
    muIViscosity realFns pr (Spec.muIPressure pr.bulk pr.pMin (m / v / r)) (Spec.gammaDot L) *
    Spec.ddot (Spec.dev (Spec.strainRate L)) (Spec.dev (Spec.strainRate L)) / 2) = _
  rw [e]
  set p := Spec.muIPressure pr.bulk pr.pMin (m / v / r)
  set g := Spec.gammaDot L
  rw [show muIViscosity realFns pr p g * muIViscosity realFns pr p g * (g ^ 2 / 2) / 2 =
    (1 / 2 * (muIViscosity realFns pr p g * g)) ^ 2 by ring,
    Real.sqrt_sq (by positivity)]
  congr 1
  unfold muIViscosity Spec.inertial
  simp only [realFns_sqrt]
  have hs : 0 < Real.sqrt (p / pr.rhoP) := Real.sqrt_pos.mpr (div_pos hp h.rhoP)
  have h1 : pr.dP * g / Real.sqrt (p / pr.rhoP) /
      (pr.I0 + pr.dP * g / Real.sqrt (p / pr.rhoP)) =
      pr.dP * g / (pr.I0 * Real.sqrt (p / pr.rhoP) + pr.dP * g) := by
    have : 0 < pr.I0 * Real.sqrt (p / pr.rhoP) + pr.dP * g :=
      add_pos_of_pos_of_nonneg (mul_pos h.I0 hs) (mul_nonneg h.dP.le hg)
    have h2 : 0 < pr.I0 + pr.dP * g / Real.sqrt (p / pr.rhoP) :=
      add_pos_of_pos_of_nonneg h.I0 (div_nonneg (mul_nonneg h.dP.le hg) hs.le)
    rw [div_div, div_eq_div_iff (mul_pos hs h2).ne' this.ne']
    field_simp
  rw [h1]
  ring

theorem muI_static_fraction (g a : ℝ) (hg : 0 ≤ g) :
    0 ≤ g / Real.sqrt (g ^ 2 + a ^ 2) ∧ g / Real.sqrt (g ^ 2 + a ^ 2) ≤ 1 := by
  refine ⟨div_nonneg hg (Real.sqrt_nonneg _), ?_⟩
  refine div_le_one_of_le₀ ?_ (Real.sqrt_nonneg _)
  exact Real.le_sqrt_of_sq_le (by nlinarith [sq_nonneg a])

/-- **C35**, friction bound and friction law (partial): the shear stress is at most **half** of `mu(I) p`,
hence at most `mu_d p`. Missing: the documented law `tau = mu(I) p`, which is off by the factor 2
(`muI_friction_law_half`, `muI_friction_law_fails`). -/
theorem muI_friction_bound_partial (pr : MuIParams ℝ) (h : pr.Valid) (L : Mat3 ℝ) (m v r : ℝ)
    (hr : 1 < m / v / r) :
    Real.sqrt (Spec.J2 (muIStress realFns pr L m v r)) ≤
      1 / 2 * Spec.muOfI pr.muS pr.muD pr.I0 (Spec.inertial pr.dP pr.rhoP (Spec.gammaDot L)
        (Spec.meanStress (muIStress realFns pr L m v r))) *
        Spec.meanStress (muIStress realFns pr L m v r) ∧
    Real.sqrt (Spec.J2 (muIStress realFns pr L m v r)) ≤
      pr.muD * Spec.meanStress (muIStress realFns pr L m v r) := by
  have hp := muIPressure_pos pr h hr
  have hg := gammaDot_nonneg L
  have e := ((muI_pressure realFns pr h.bulk.le L m v r).1 hr).1
  have e' : Spec.meanStress (muIStress realFns pr L m v r) =
    Spec.muIPressure pr.bulk pr.pMin (m / v / r) := e
  rw [muI_shear_stress pr h L m v r hr, e']
  set p := Spec.muIPressure pr.bulk pr.pMin (m / v / r)
  obtain ⟨f0, f1⟩ := muI_static_fraction (Spec.gammaDot L) pr.alpha hg
  set f := Spec.gammaDot L / Real.sqrt (Spec.gammaDot L ^ 2 + pr.alpha ^ 2)
  have hI : 0 ≤ Spec.inertial pr.dP pr.rhoP (Spec.gammaDot L) p :=
    div_nonneg (mul_nonneg h.dP.le hg) (Real.sqrt_nonneg _)
  set I := Spec.inertial pr.dP pr.rhoP (Spec.gammaDot L) p
  have b0 : 0 ≤ I / (pr.I0 + I) := div_nonneg hI (by linarith [h.I0])
  have b1 : I / (pr.I0 + I) ≤ 1 := div_le_one_of_le₀ (by linarith [h.I0]) (by linarith [h.I0])
  have hs := mul_nonneg h.muS hp.le
  have hd := mul_nonneg (sub_nonneg.mpr h.muD) hp.le
  constructor
  · unfold Spec.muOfI
    have : (pr.muD - pr.muS) * I / (pr.I0 + I) = (pr.muD - pr.muS) * (I / (pr.I0 + I)) := by ring
    rw [this]
    nlinarith [mul_le_mul_of_nonneg_left f1 hs]
  · have hd' : 0 ≤ pr.muD * p := mul_nonneg (h.muS.trans h.muD) hp.le
    nlinarith [mul_le_mul_of_nonneg_left f1 hs, mul_le_mul_of_nonneg_left b1 hd]

/-- Without regularisation the shear stress of a sheared point is exactly half of `mu(I) p`. -/
theorem muI_friction_law_half (pr : MuIParams ℝ) (h : pr.Valid) (ha : pr.alpha = 0) (L : Mat3 ℝ)
    (m v r : ℝ) (hr : 1 < m / v / r) (hg : 0 < Spec.gammaDot L) :
    Real.sqrt (Spec.J2 (muIStress realFns pr L m v r)) =
      1 / 2 * (Spec.muOfI pr.muS pr.muD pr.I0 (Spec.inertial pr.dP pr.rhoP (Spec.gammaDot L)
        (Spec.meanStress (muIStress realFns pr L m v r))) *
        Spec.meanStress (muIStress realFns pr L m v r)) := by
  have e' : Spec.meanStress (muIStress realFns pr L m v r) =
    Spec.muIPressure pr.bulk pr.pMin (m / v / r) := ((muI_pressure realFns pr h.bulk.le L m v r).1 hr).1
  rw [muI_shear_stress pr h L m v r hr, e', ha]
  have : Real.sqrt (Spec.gammaDot L ^ 2 + 0 ^ 2) = Spec.gammaDot L := by
    rw [zero_pow two_ne_zero, add_zero, Real.sqrt_sq hg.le]
  rw [this, div_self hg.ne']
  unfold Spec.muOfI
  ring

/-- **C35** refuted: whatever the parameters (with `mu_s > 0`), a sheared point carries strictly less than the
documented `mu(I) p`. -/
theorem muI_friction_law_fails (pr : MuIParams ℝ) (h : pr.Valid) (hs : 0 < pr.muS) (L : Mat3 ℝ)
    (m v r : ℝ) (hr : 1 < m / v / r) :
    Real.sqrt (Spec.J2 (muIStress realFns pr L m v r)) <
      Spec.muOfI pr.muS pr.muD pr.I0 (Spec.inertial pr.dP pr.rhoP (Spec.gammaDot L)
        (Spec.meanStress (muIStress realFns pr L m v r))) *
        Spec.meanStress (muIStress realFns pr L m v r) := by
  have hb := (muI_friction_bound_partial pr h L m v r hr).1
  have e' : Spec.meanStress (muIStress realFns pr L m v r) =
    Spec.muIPressure pr.bulk pr.pMin (m / v / r) := ((muI_pressure realFns pr h.bulk.le L m v r).1 hr).1
  have hp := muIPressure_pos pr h hr
  rw [e'] at hb ⊢
  set p := Spec.muIPressure pr.bulk pr.pMin (m / v / r)
  have hI : 0 ≤ Spec.inertial pr.dP pr.rhoP (Spec.gammaDot L) p :=
    div_nonneg (mul_nonneg h.dP.le (gammaDot_nonneg L)) (Real.sqrt_nonneg _)
  set I := Spec.inertial pr.dP pr.rhoP (Spec.gammaDot L) p
  have : 0 < Spec.muOfI pr.muS pr.muD pr.I0 I := by
    unfold Spec.muOfI
    have : 0 ≤ (pr.muD - pr.muS) * I / (pr.I0 + I) :=
      div_nonneg (mul_nonneg (sub_nonneg.mpr h.muD) hI) (by linarith [h.I0])
    linarith
  have := mul_pos this hp
  linarith

/-- A valid parameter set (glass beads). -/
noncomputable def exMuI : MuIParams ℝ :=
  { muS := 38 / 100, muD := 64 / 100, I0 := 279 / 1000, bulk := 10 ^ 6, rhoP := 2500, dP := 53 / 10000,
    alpha := 1 / 10 ^ 6, pMin := 0 }

theorem exMuI_valid : exMuI.Valid := by constructor <;> norm_num [exMuI]

/-- A compressed point in simple shear. -/
example := muI_dissipative exMuI exMuI_valid !![0, 2, 0; 0, 0, 0; 0, 0, 0] 1600 1 1500
example := muI_shear_stress exMuI exMuI_valid !![0, 2, 0; 0, 0, 0; 0, 0, 0] 1600 1 1500 (by norm_num)
example := muI_friction_bound_partial exMuI exMuI_valid !![0, 2, 0; 0, 0, 0; 0, 0, 0] 1600 1 1500 (by norm_num)
example : Spec.meanStress (muIStress realFns exMuI !![0, 2, 0; 0, 0, 0; 0, 0, 0] 1600 1 1500) =
    max (exMuI.bulk * (1600 / 1 / 1500 - 1)) exMuI.pMin :=
  ((muI_pressure realFns exMuI (by norm_num [exMuI]) _ 1600 1 1500).1 (by norm_num)).1

/-- The hypotheses of the mu(I) theorems hold for a compressed point in simple shear. -/
example : Real.sqrt (Spec.J2 (muIStress realFns exMuI !![0, 2, 0; 0, 0, 0; 0, 0, 0] 1600 1 1500)) <
    Spec.muOfI exMuI.muS exMuI.muD exMuI.I0 (Spec.inertial exMuI.dP exMuI.rhoP
      (Spec.gammaDot !![0, 2, 0; 0, 0, 0; 0, 0, 0])
      (Spec.meanStress (muIStress realFns exMuI !![0, 2, 0; 0, 0, 0; 0, 0, 0] 1600 1 1500))) *
    Spec.meanStress (muIStress realFns exMuI !![0, 2, 0; 0, 0, 0; 0, 0, 0] 1600 1 1500) :=
  muI_friction_law_fails exMuI exMuI_valid (by norm_num [exMuI]) _ _ _ _ (by norm_num)

/-! ### Newtonian fluid -/

/-- Equation of state of the fluid. -/
noncomputable def Spec.tait (bulk beta ratio : ℝ) : ℝ := bulk * (ratio ^ beta - 1)

theorem fluidStress_eq (pr : FluidParams ℝ) (L : Mat3 ℝ) (m v r : ℝ) :
    fluidStress realFns pr L m v r = (2 * pr.viscosity) • Spec.dev (Spec.strainRate L) +
      isoT (-fluidPressure realFns pr (m / v) r) := by
  unfold fluidStress
  simp only
  rw [strainRate_eq, show (1 / 3 * (Spec.strainRate L).trace) = (Spec.strainRate L).trace / 3 by ring,
    dev_of_trace, add_comm]

/-- The clipped equation of state: the Tait pressure above, zero below the reference density. -/
theorem fluidPressure_eq (pr : FluidParams ℝ) (hK : 0 < pr.bulk) (hb : 0 < pr.beta) (rho r : ℝ) :
    (1 ≤ rho / r → fluidPressure realFns pr rho r = Spec.tait pr.bulk pr.beta (rho / r)) ∧
    (rho / r ≤ 1 → fluidPressure realFns pr rho r = 0) := by
  unfold fluidPressure Spec.tait
  simp only [realFns_pow]
  constructor
  · intro h
    rw [max_eq_left (le_trans (by norm_num) h), max_eq_left]
    exact mul_nonneg hK.le (sub_nonneg.mpr (Real.one_le_rpow h hb.le))
  · intro h
    apply max_eq_right
    refine mul_nonpos_of_nonneg_of_nonpos hK.le (sub_nonpos.mpr ?_)
    exact Real.rpow_le_one (le_max_of_le_right (by norm_num)) (max_le h (by norm_num)) hb.le

/-- **C36** (partial): the magnitude of the reported pressure is that of the equation of state, an expanded point
has none, and viscosity dissipates. Missing: the sign of the pressure, which is wrong
(`fluid_pressure_sign_wrong`). -/
theorem fluid_pressure_partial (pr : FluidParams ℝ) (hK : 0 < pr.bulk) (hb : 0 < pr.beta)
    (hv : 0 ≤ pr.viscosity) (L : Mat3 ℝ) (m v r : ℝ) :
    (1 ≤ m / v / r → |Spec.meanStress (fluidStress realFns pr L m v r)| =
      Spec.tait pr.bulk pr.beta (m / v / r)) ∧
    (m / v / r ≤ 1 → Spec.meanStress (fluidStress realFns pr L m v r) = 0) ∧
    0 ≤ Spec.ddot (Spec.dev (fluidStress realFns pr L m v r)) (Spec.strainRate L) := by
  have hm : Spec.meanStress ((2 * pr.viscosity) • Spec.dev (Spec.strainRate L)) = 0 := by
    rw [meanStress_smul, meanStress_dev, mul_zero]
  rw [fluidStress_eq, mean_add_iso hm, dev_add_iso hm, ← ddot_dev_right hm]
  refine ⟨fun h => ?_, fun h => ?_, ?_⟩
  · rw [abs_neg, (fluidPressure_eq pr hK hb _ _).1 h, abs_of_nonneg]
    exact mul_nonneg hK.le (sub_nonneg.mpr (Real.one_le_rpow h hb.le))
  · rw [(fluidPressure_eq pr hK hb _ _).2 h, neg_zero]
  · rw [← one_smul ℝ (Spec.dev (Spec.strainRate L)), smul_smul, ddot_smul]
    refine mul_nonneg (by linarith) (ddot_self_nonneg _)

/-- Water compressed by one per cent in simple shear. -/
example := fluid_pressure_partial ⟨2 * 10 ^ 6, 1 / 1000, 7⟩ (by norm_num) (by norm_num) (by norm_num)
  !![0, 2, 0; 0, 0, 0; 0, 0, 0] 1010 1 1000

/-- **C36** refuted: every compressed fluid point reports the negative of its equation-of-state pressure, i.e.
tension in the compression-positive convention of `get_pressure` and of the solver. -/
theorem fluid_pressure_sign_wrong (pr : FluidParams ℝ) (hK : 0 < pr.bulk) (hb : 0 < pr.beta)
    (L : Mat3 ℝ) (m v r : ℝ) (h : 1 < m / v / r) :
    Spec.meanStress (fluidStress realFns pr L m v r) = -Spec.tait pr.bulk pr.beta (m / v / r) ∧
    Spec.meanStress (fluidStress realFns pr L m v r) < 0 := by
  have hm : Spec.meanStress ((2 * pr.viscosity) • Spec.dev (Spec.strainRate L)) = 0 := by
    rw [meanStress_smul, meanStress_dev, mul_zero]
  have e : Spec.meanStress (fluidStress realFns pr L m v r) = -Spec.tait pr.bulk pr.beta (m / v / r) := by
    rw [fluidStress_eq, mean_add_iso hm, (fluidPressure_eq pr hK hb _ _).1 h.le]
  refine ⟨e, ?_⟩
  rw [e, neg_lt_zero]
  exact mul_pos hK (sub_pos.mpr (Real.one_lt_rpow h hb))

/-- `create_state` of the fluid always fails, for every body. -/
theorem fluid_create_fails {K : Type*} {dim n : ℕ} (s : MPState K dim n) :
    fluidCreate s = .error .typeError := rfl

/-- Water compressed by 1 %. -/
example : Spec.meanStress (fluidStress realFns ⟨2 * 10 ^ 6, 1 / 1000, 7⟩ 0 1010 1 1000) < 0 :=
  (fluid_pressure_sign_wrong ⟨2 * 10 ^ 6, 1 / 1000, 7⟩ (by norm_num) (by norm_num) 0 1010 1 1000
    (by norm_num)).2

/-- The law of the solver sends each point through `fluidStress`, and `pressure_stack` is its mean. -/
theorem fluidLaw_pressure {dim n : ℕ} (pr : FluidParams ℝ) (reset : Bool) (s : MPState ℝ dim n)
    (r : ℕ → ℝ) (dt : ℝ) (hs : s.volScalar = false) (hK : 0 < pr.bulk) (hb : 0 < pr.beta) :
    ∃ s', (fluidLaw realFns pr reset).update s (.density r) dt = .ok (s', .density r) ∧
      ∀ p, 1 < s.mass p / s.volume p / r p.val →
        s'.pressure p = -Spec.tait pr.bulk pr.beta (s.mass p / s.volume p / r p.val) := by
  refine ⟨{ s with stress := fun p => fluidStress realFns pr (s.L p) (s.mass p) (s.volume p) (r p.val) },
    ?_, fun p h => ?_⟩
  · simp only [fluidLaw, hs]; rfl
  · have := (fluid_pressure_sign_wrong pr hK hb (s.L p) (s.mass p) (s.volume p) (r p.val) h).1
    rw [meanStress_trace] at this
    exact this

/-! ### C37: equation-of-state round trips -/

/-- **C37**, fluid: at the density used to build the state the equation of state returns the requested
pressure. -/
theorem fluid_eos_roundtrip (pr : FluidParams ℝ) (hK : 0 < pr.bulk) (hb : 0 < pr.beta) (rho p : ℝ)
    (hr : 0 < rho) (hp : 0 ≤ p) :
    fluidPressure realFns pr rho (fluidRefDensity realFns pr rho p) = p ∧
      0 < fluidRefDensity realFns pr rho p := by
  have h1 : (1 : ℝ) ≤ p / pr.bulk + 1 := by linarith [div_nonneg hp hK.le]
  have h0 : (0 : ℝ) < p / pr.bulk + 1 := by linarith
  have hf : 0 < (p / pr.bulk + 1) ^ (1 / pr.beta) := Real.rpow_pos_of_pos h0 _
  have hratio : rho / fluidRefDensity realFns pr rho p = (p / pr.bulk + 1) ^ (1 / pr.beta) := by
    unfold fluidRefDensity; simp only [realFns_pow]
    field_simp
  refine ⟨?_, div_pos hr hf⟩
  rw [(fluidPressure_eq pr hK hb rho _).1]
  · rw [hratio, Spec.tait, ← Real.rpow_mul h0.le, one_div_mul_cancel hb.ne', Real.rpow_one]
    field_simp; ring
  · rw [hratio]; exact Real.one_le_rpow h1 (by positivity)

/-- **C37**, mu(I): after `create_state` the law at the initial volume gives back the initial pressure of every
compressed point. -/
theorem muI_create_roundtrip {dim n : ℕ} (pr : MuIParams ℝ) (hK : 0 < pr.bulk) (s : MPState ℝ dim n)
    (p : Fin n) (hm : 0 < s.mass p) (hv : 0 < s.volume0 p) (hp : 0 < s.pressure p)
    (hmin : pr.pMin ≤ s.pressure p) (L : Mat3 ℝ) :
    Spec.meanStress (muIStress realFns pr L (s.mass p) (s.volume0 p) (muICreate pr s p)) = s.pressure p := by
  have hr : s.mass p / s.volume0 p / muICreate pr s p = s.pressure p / pr.bulk + 1 := by
    unfold muICreate muIRefDensity
    have : 0 < s.pressure p / pr.bulk + 1 := by positivity
    have hd : 0 < s.mass p / s.volume0 p := div_pos hm hv
    field_simp
  have h1 : 1 < s.mass p / s.volume0 p / muICreate pr s p := by
    rw [hr]; linarith [div_pos hp hK]
  rw [((muI_pressure realFns pr hK.le L _ _ _).1 h1).1, hr]
  rw [show pr.bulk * (s.pressure p / pr.bulk + 1 - 1) = s.pressure p by field_simp; ring]
  exact max_eq_left hmin

/-- Water at 2 % of the bulk modulus. -/
example := fluid_eos_roundtrip ⟨2 * 10 ^ 6, 1 / 1000, 7⟩ (by norm_num) (by norm_num) 1000 40000
  (by norm_num) (by norm_num)

end
end Hydrax
