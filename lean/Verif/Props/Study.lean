import Verif.Model.Study
import Verif.Props.Floor
import Verif.Props.Scripts

/-!
# Property C128: the parameter study of the collapse
-/

namespace Hydrax

/-! ### Specification -/

/-- The parameters a mode names, apart from the tilt. -/
def Spec.named : StudyMode → List (Fin 10)
  | .varyAngle => []
  | .varyFric => [1, 2, 3, 4, 5]
  | .varyGeom => [6, 7, 8, 9]

/-- A parameter vector within the bounds of the study. -/
def Spec.InStudy (v : Fin 10 → ℝ) : Prop := ∀ k, studyLo k ≤ v k ∧ v k ≤ studyHi k

/-! ### Sampling -/

/-- **C128**: numbers from [0, 1) become parameters within the bounds; the upper ones are never taken. -/
theorem study_sample (u : Fin 10 → ℝ) (hu : ∀ k, 0 ≤ u k ∧ u k < 1) :
    Spec.InStudy (studySample u) ∧ ∀ k, studySample u k < studyHi k ∧
      studySample u k = (1 - u k) * studyLo k + u k * studyHi k := by
  have hlt : ∀ k : Fin 10, (studyLo k : ℝ) < studyHi k := by
    intro k; fin_cases k <;> norm_num [studyLo, studyHi]
  have e : ∀ k, studySample u k = (1 - u k) * studyLo k + u k * studyHi k := by
    intro k
    have := mul_nonneg (hu k).1 (sub_pos.mpr (hlt k)).le
    rw [studySample, max_eq_right (by linarith)]
    ring
  have h2 : ∀ k, studySample u k < studyHi k := by
    intro k
    rw [e k]
    nlinarith [(hu k).2, hlt k]
  exact ⟨fun k => ⟨le_max_left _ _, (h2 k).le⟩, fun k => ⟨h2 k, e k⟩⟩

/-! ### What the modes vary -/

theorem flat_amplitudes (base : ℝ) (i : Fin 1) : (spectralNew realFns Real.pi 1 (flatArgs base)).amplitudes i = 0 := by
  simp [spectralNew, flatArgs]

theorem flat_waves (base x : ℝ) : (spectralNew realFns Real.pi 1 (flatArgs base)).waves realFns x = 0 := by
  unfold Spectral.waves
  exact Finset.sum_eq_zero fun i _ => by rw [flat_amplitudes, zero_mul]

theorem studyFric_good {v : Fin 10 → ℝ} (h : Spec.InStudy v) : (studyFric v).Good ∧ (studyFric v).lambdaMin < (studyFric v).lambdaMax := by
  have h3 := h 3
  have h4 := h 4
  have h5 := h 5
  simp [studyLo, studyHi] at h3 h4 h5
  refine ⟨⟨?_, ?_, ?_⟩, ?_⟩ <;> simp only [studyFric] <;> linarith

theorem studyBump_good {v : Fin 10 → ℝ} (h : Spec.InStudy v) : (studyBump v).Good ∧ (studyBump v).lambdaMin < (studyBump v).lambdaMax := by
  have h3 := h 7
  have h4 := h 8
  have h5 := h 9
  simp [studyLo, studyHi] at h3 h4 h5
  refine ⟨⟨?_, ?_, ?_⟩, ?_⟩ <;> simp only [studyBump] <;> linarith

theorem level_height {n m : ℕ} (g : FloorGeom ℝ) (st : FloorState ℝ n m) (hw : ∀ y, st.bumps.waves realFns y = 0)
    (hb : st.bumps.scaleBase = 0) (x : ℝ) : floorHeight realFns g st x = 0 := by
  simp only [floorHeight, hw, hb, zero_mul, add_zero, ite_self]

theorem friction_signal {n m : ℕ} (g : FloorGeom ℝ) (st : FloorState ℝ n m) (f : Spectral ℝ m) (hf : st.frictions = some f)
    (p : Fin 2 → ℝ) : floorFriction realFns g st p =
      max (1 / 10 ^ 6) (f.call realFns (if p 0 > g.xMax then p 0 - g.xMax else p 0 - g.xMin)) := by
  simp only [floorFriction, hf]

/-- **C128**: only the mode `VARY_GEOM` has bumps: in the others the floor is the plane at height 0. -/
theorem study_level (mode : StudyMode) (hm : mode ≠ .varyGeom) (v : Fin 10 → ℝ) (x : ℝ) :
    floorHeight realFns collapseGeom (studyFloor realFns Real.pi mode v) x = 0 := by
  cases mode with
  | varyGeom => exact absurd rfl hm
  | varyAngle => exact level_height _ (studyFloor realFns Real.pi .varyAngle v) (flat_waves 0) rfl x
  | varyFric => exact level_height _ (studyFloor realFns Real.pi .varyFric v) (flat_waves 0) rfl x

/-- **C128**: only the mode `VARY_FRIC` has varying friction: in the others it is one half everywhere. -/
theorem study_friction_half (mode : StudyMode) (hm : mode ≠ .varyFric) (v : Fin 10 → ℝ) (p : Fin 2 → ℝ) :
    floorFriction realFns collapseGeom (studyFloor realFns Real.pi mode v) p = 1 / 2 := by
  have hf : ∀ y, (spectralNew realFns Real.pi 1 (flatArgs (1 / 2))).call realFns y = 1 / 2 := by
    intro y
    rw [Spectral.call, flat_waves, add_zero]; rfl
  cases mode with
  | varyFric => exact absurd rfl hm
  | varyAngle =>
    refine (friction_signal _ (studyFloor realFns Real.pi .varyAngle v) _ rfl p).trans ?_
    exact (congrArg (max _) (hf _)).trans (by norm_num)
  | varyGeom =>
    refine (friction_signal _ (studyFloor realFns Real.pi .varyGeom v) _ rfl p).trans ?_
    exact (congrArg (max _) (hf _)).trans (by norm_num)

/-- **C128**: in the mode `VARY_GEOM` the floor has the sampled roughness and wave lengths. -/
theorem study_geometry (v : Fin 10 → ℝ) (h : Spec.InStudy v) :
    Spec.IsRms ((studyFloor realFns Real.pi .varyGeom v).bumps.waves realFns) (v 9) ∧
    (∀ i, v 7 ≤ 2 * Real.pi / (studyFloor realFns Real.pi .varyGeom v).bumps.wavenumbers i ∧
      2 * Real.pi / (studyFloor realFns Real.pi .varyGeom v).bumps.wavenumbers i ≤ v 8) ∧
    (studyFloor realFns Real.pi .varyGeom v).bumps.scaleBase = 0 :=
  ⟨spectral_roughness 16 (by norm_num) (studyBump v) (studyBump_good h).1 (studyBump_good h).2,
    fun i => ⟨(spectral_wavelengths 16 (studyBump v) (studyBump_good h).1 i).1,
      (spectral_wavelengths 16 (studyBump v) (studyBump_good h).1 i).2.1⟩, rfl⟩

/-- **C128**: in the mode `VARY_FRIC` the frictions have the sampled base, spread and wave lengths. -/
theorem study_friction (v : Fin 10 → ℝ) (h : Spec.InStudy v) : ∃ f, (studyFloor realFns Real.pi .varyFric v).frictions = some f ∧
    f.scaleBase = v 1 ∧ Spec.IsRms (f.waves realFns) (v 5) ∧
    ∀ i, v 3 ≤ 2 * Real.pi / f.wavenumbers i ∧ 2 * Real.pi / f.wavenumbers i ≤ v 4 :=
  ⟨_, rfl, rfl, spectral_roughness 16 (by norm_num) (studyFric v) (studyFric_good h).1 (studyFric_good h).2,
    fun i => ⟨(spectral_wavelengths 16 (studyFric v) (studyFric_good h).1 i).1,
      (spectral_wavelengths 16 (studyFric v) (studyFric_good h).1 i).2.1⟩⟩

/-- **C128**: the floor depends on nothing but the parameters the mode names, gravity on nothing but the tilt. -/
theorem study_depends (mode : StudyMode) (v w : Fin 10 → ℝ) (id id' : ℕ) :
    ((∀ k ∈ Spec.named mode, v k = w k) → studyFloor realFns Real.pi mode v = studyFloor realFns Real.pi mode w) ∧
    (v 0 = w 0 → (studyParams realFns Real.pi mode v id).gravity realFns Real.pi =
      (studyParams realFns Real.pi mode w id').gravity realFns Real.pi) ∧ (studyParams realFns Real.pi mode v id).simId = id := by
  refine ⟨fun h => ?_, fun h => ?_, by cases mode <;> rfl⟩
  · cases mode with
    | varyAngle => rfl
    | varyFric =>
      have : studyFric v = studyFric w := by
        simp only [studyFric, SpectralArgs.mk.injEq]
        refine ⟨h 2 ?_, h 3 ?_, h 4 ?_, h 5 ?_, h 1 ?_, trivial⟩ <;> simp [Spec.named]
      simp only [studyFloor, studyParams, this]
    | varyGeom =>
      have : studyBump v = studyBump w := by
        simp only [studyBump, SpectralArgs.mk.injEq]
        refine ⟨h 6 ?_, h 7 ?_, h 8 ?_, h 9 ?_, trivial, trivial⟩ <;> simp [Spec.named]
      simp only [studyFloor, studyParams, this]
  · cases mode <;> simp only [studyParams, CollapseParams.gravity, h]

/-- **C128**: every mode tilts by the sampled angle; gravity has its component along the floor. -/
theorem study_tilt (mode : StudyMode) (v : Fin 10 → ℝ) (id : ℕ) :
    (studyParams realFns Real.pi mode v id).gravity realFns Real.pi 0 = 981 / 100 * Real.sin (v 0 * Real.pi / 180) ∧
    (studyParams realFns Real.pi mode v id).gravity realFns Real.pi 1 = -(981 / 100 * Real.cos (v 0 * Real.pi / 180)) := by
  have h := tilt_gravity (studyParams realFns Real.pi mode v id)
  have e : (studyParams realFns Real.pi mode v id).tiltAngle = v 0 := by cases mode <;> rfl
  rw [e] at h
  exact h.2

/-- **C128** (refuted): the modes that are called after friction and geometry vary the tilt as well: two samples with the same
floor, but different gravity. -/
theorem study_varies_tilt (mode : StudyMode) (v w : Fin 10 → ℝ) (hv : Spec.InStudy v) (hw : Spec.InStudy w)
    (hne : v 0 < w 0) (id : ℕ) :
    (studyParams realFns Real.pi mode v id).gravity realFns Real.pi 0 <
      (studyParams realFns Real.pi mode w id).gravity realFns Real.pi 0 := by
  rw [(study_tilt mode v id).1, (study_tilt mode w id).1]
  have h1 := hv 0
  have h2 := hw 0
  simp [studyLo, studyHi] at h1 h2
  have hpi := Real.pi_pos
  have : Real.sin (v 0 * Real.pi / 180) < Real.sin (w 0 * Real.pi / 180) := by
    refine Real.sin_lt_sin_of_lt_of_le_pi_div_two ?_ ?_ ?_
    · have : 0 ≤ v 0 * Real.pi / 180 := by have := h1.1; positivity
      linarith
    · nlinarith [h2.2]
    · have := mul_lt_mul_of_pos_right hne hpi
      linarith
  linarith

/-! ### Friction under the column -/

theorem study_fric_left (v : Fin 10 → ℝ) (h : Spec.InStudy v) (δ : ℝ) (h0 : 0 < δ) (hδ : δ < v 3 / 2) :
    (spectralNew realFns Real.pi 16 (studyFric v)).waves realFns (-δ) < 0 := by
  unfold Spectral.waves
  refine Finset.sum_neg (fun i _ => ?_) ⟨0, Finset.mem_univ _⟩
  have hr : 0 < (studyFric v).rmsHeight := by
    have := h 5
    simp [studyLo, studyHi] at this
    simp only [studyFric]; linarith
  have ha := (spectral_power_law 16 (by norm_num) (studyFric v) hr i i).1
  have hk := spectral_k_pos 16 (studyFric v) i
  have hl := (spectral_wavelengths 16 (studyFric v) (studyFric_good h).1 i).1
  have hk' : 0 < (spectralNew realFns Real.pi 16 (studyFric v)).wavenumbers i := hk
  have hph : (spectralNew realFns Real.pi 16 (studyFric v)).phases i = 0 := by simp [spectralNew, studyFric]
  refine mul_neg_of_pos_of_neg ha ?_
  rw [hph, add_zero, mul_neg, realFns_sin, Real.sin_neg, neg_neg_iff_pos]
  refine Real.sin_pos_of_pos_of_lt_pi (mul_pos hk' h0) ?_
  have h3 : (studyFric v).lambdaMin = v 3 := rfl
  rw [h3, le_div_iff₀ hk'] at hl
  nlinarith

theorem study_fric_at (v : Fin 10 → ℝ) (δ y : ℝ) (h0 : 0 < δ) :
    floorFriction realFns collapseGeom (studyFloor realFns Real.pi .varyFric v) ![2 / 10 - δ, y] =
      max (1 / 10 ^ 6) ((spectralNew realFns Real.pi 16 (studyFric v)).call realFns (-δ)) := by
  refine (friction_signal _ (studyFloor realFns Real.pi .varyFric v) _ rfl _).trans ?_
  have e : (if (![2 / 10 - δ, y] : Fin 2 → ℝ) 0 > (collapseGeom : FloorGeom ℝ).xMax then
      (![2 / 10 - δ, y] : Fin 2 → ℝ) 0 - (collapseGeom : FloorGeom ℝ).xMax
      else (![2 / 10 - δ, y] : Fin 2 → ℝ) 0 - (collapseGeom : FloorGeom ℝ).xMin) = -δ := by
    rw [if_neg (by simp only [collapseGeom, Matrix.cons_val_zero]; linarith)]
    simp only [collapseGeom, Matrix.cons_val_zero]
    ring
  rw [e]
  rfl

/-- **C128** (refuted): the obstacle promises a transition of bumps and friction from `x_min` on, but friction is not ramped: just
under the edge of the column, where there are no bumps yet, it already deviates from its base. -/
theorem study_friction_not_ramped (v : Fin 10 → ℝ) (h : Spec.InStudy v) (hb : 1 / 10 ^ 6 < v 1) (δ y : ℝ) (h0 : 0 < δ)
    (hδ : δ < v 3 / 2) : floorFriction realFns collapseGeom (studyFloor realFns Real.pi .varyFric v) ![2 / 10 - δ, y] < v 1 := by
  have hw := study_fric_left v h δ h0 hδ
  rw [study_fric_at v δ y h0]
  refine max_lt hb ?_
  have : (spectralNew realFns Real.pi 16 (studyFric v)).scaleBase = v 1 := rfl
  rw [Spectral.call, this]
  linarith

/-- **C128** (refuted): the sampled base may be smaller than the spread; friction is then cut off and is not the sampled signal. -/
theorem study_friction_cut (v : Fin 10 → ℝ) (h : Spec.InStudy v) (hb : v 1 = 0) (δ y : ℝ) (h0 : 0 < δ) (hδ : δ < v 3 / 2) :
    floorFriction realFns collapseGeom (studyFloor realFns Real.pi .varyFric v) ![2 / 10 - δ, y] = 1 / 10 ^ 6 ∧
    (spectralNew realFns Real.pi 16 (studyFric v)).call realFns (-δ) < 0 := by
  have hw := study_fric_left v h δ h0 hδ
  have hs : (spectralNew realFns Real.pi 16 (studyFric v)).scaleBase = 0 := hb
  have hc : (spectralNew realFns Real.pi 16 (studyFric v)).call realFns (-δ) < 0 := by rw [Spectral.call, hs]; linarith
  refine ⟨?_, hc⟩
  rw [study_fric_at v δ y h0]
  refine max_eq_left (hc.le.trans (by norm_num))

/-! ### The initial stress -/

theorem columnStress_trace (rho height tilt y : ℝ) :
    (columnStress realFns Real.pi rho height tilt y).trace =
      2 * (rho * (981 / 100) * max (height - y) (5 / 100) * Real.cos (tilt * (Real.pi / 180))) := by
  simp only [columnStress, lithostatic, triaxialStress, Matrix.trace_diagonal, Fin.sum_univ_three, realFns_cos, realFns_sin,
    realFns_sqrt, Matrix.cons_val_zero, Matrix.cons_val_one, Matrix.cons_val]
  ring

/-- **C128** (partial): without tilt the points start with the stress their floor asks for. -/
theorem study_stress_partial (v : Fin 10 → ℝ) (h : v 0 = 0) (y : ℝ) :
    studyStress realFns Real.pi y = columnStress realFns Real.pi 2650 (2 / 10) (v 0) y := by rw [h]; rfl

/-- **C128** (refuted): tilted runs start from the stress of the level template, whose pressure is too large by the factor
`1 / cos`. -/
theorem study_stress_level (v : Fin 10 → ℝ) (h : Spec.InStudy v) (ht : 0 < v 0) (y : ℝ) :
    (columnStress realFns Real.pi 2650 (2 / 10) (v 0) y).trace < (studyStress realFns Real.pi y).trace := by
  rw [studyStress, columnStress_trace, columnStress_trace]
  have h0 := h 0
  simp [studyLo, studyHi] at h0
  have hpi := Real.pi_pos
  have hc : Real.cos (v 0 * (Real.pi / 180)) < 1 := by
    have hx : 0 < v 0 * (Real.pi / 180) := by positivity
    have := Real.cos_lt_cos_of_nonneg_of_le_pi le_rfl (by nlinarith [h0.2] : v 0 * (Real.pi / 180) ≤ Real.pi) hx
    rwa [Real.cos_zero] at this
  have hd : (0 : ℝ) < max (2 / 10 - y) (5 / 100) := lt_of_lt_of_le (by norm_num) (le_max_right _ _)
  rw [zero_mul, Real.cos_zero]
  have : (0 : ℝ) < 2650 * (981 / 100) * max (2 / 10 - y) (5 / 100) := by positivity
  nlinarith

/-! ### The metadata -/

/-- **C128** (refuted): the stored key does not tell the seed: it is 0 for every seed below 2^32. -/
theorem study_key_lost (seed : ℕ) (h : seed < 2 ^ 32) : studyKey seed = 0 ∧ prngKey seed 1 = seed := by
  constructor
  · change seed / 2 ^ 32 % 2 ^ 32 = 0
    rw [Nat.div_eq_of_lt h, Nat.zero_mod]
  · exact Nat.mod_eq_of_lt h

/-! ### Examples -/

/-- The middle of the bounds, with the given tilt and base friction. -/
noncomputable def exStudy (tilt base : ℝ) : Fin 10 → ℝ :=
  ![tilt, base, 1 / 2, 1 / 10, 1, 5 / 100, 1 / 2, 1 / 10, 1, 5 / 100]

theorem exStudy_in (tilt base : ℝ) (h1 : 0 ≤ tilt ∧ tilt ≤ 30) (h2 : 0 ≤ base ∧ base ≤ 2) : Spec.InStudy (exStudy tilt base) := by
  intro k
  fin_cases k <;> simp [studyLo, studyHi, exStudy, h1.1, h1.2, h2.1, h2.2] <;> norm_num

example := study_friction _ (exStudy_in 10 1 (by norm_num) (by norm_num))
example := study_friction_half .varyGeom (by decide) (exStudy 10 1) ![1, 0]
example := study_level .varyFric (by decide) (exStudy 10 1) (1 / 3)
example := study_stress_partial (exStudy 0 1) rfl (1 / 10)

example (k : Fin 10) : studySample (fun _ => (1 / 2 : ℝ)) k < studyHi k :=
  ((study_sample _ fun _ => by norm_num).2 k).1

example : Spec.IsRms ((studyFloor realFns Real.pi .varyGeom (exStudy 10 1)).bumps.waves realFns) (5 / 100) :=
  (study_geometry _ (exStudy_in 10 1 (by norm_num) (by norm_num))).1

example : (studyParams realFns Real.pi .varyFric (exStudy 0 1) 3).gravity realFns Real.pi 0 <
    (studyParams realFns Real.pi .varyFric (exStudy 30 1) 3).gravity realFns Real.pi 0 ∧
    studyFloor realFns Real.pi .varyFric (exStudy 0 1) = studyFloor realFns Real.pi .varyFric (exStudy 30 1) := by
  refine ⟨study_varies_tilt .varyFric _ _ (exStudy_in 0 1 (by norm_num) (by norm_num)) (exStudy_in 30 1 (by norm_num) (by norm_num))
    (by norm_num [exStudy]) 3, (study_depends .varyFric _ _ 3 3).1 ?_⟩
  intro k hk
  fin_cases hk <;> rfl

example : floorFriction realFns collapseGeom (studyFloor realFns Real.pi .varyFric (exStudy 0 1)) ![2 / 10 - 1 / 100, 0] < 1 :=
  study_friction_not_ramped (exStudy 0 1) (exStudy_in 0 1 (by norm_num) (by norm_num)) (by norm_num [exStudy]) (1 / 100) 0
    (by norm_num) (show (1 / 100 : ℝ) < (1 / 10) / 2 by norm_num)

example : floorFriction realFns collapseGeom (studyFloor realFns Real.pi .varyFric (exStudy 0 0)) ![2 / 10 - 1 / 100, 0] = 1 / 10 ^ 6 :=
  (study_friction_cut (exStudy 0 0) (exStudy_in 0 0 (by norm_num) (by norm_num)) rfl (1 / 100) 0
    (by norm_num) (show (1 / 100 : ℝ) < (1 / 10) / 2 by norm_num)).1

example : (columnStress realFns Real.pi 2650 (2 / 10) (exStudy 20 1 0) (1 / 10)).trace < (studyStress realFns Real.pi (1 / 10)).trace :=
  study_stress_level _ (exStudy_in 20 1 (by norm_num) (by norm_num)) (by norm_num [exStudy]) _

example : studyKey 7 = studyKey 8 := by rw [(study_key_lost 7 (by norm_num)).1, (study_key_lost 8 (by norm_num)).1]

end Hydrax
