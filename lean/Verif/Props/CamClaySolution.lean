import Verif.Props.CamClayReturn
import Verif.Props.Helpers
import Mathlib.Topology.Order.IntermediateValue
import Mathlib.Analysis.SpecialFunctions.Log.Basic

/-!
# A yielding step of the Cam-Clay law has a solution (C124)
-/

set_option linter.unusedSectionVars false

namespace Hydrax

/-- State of a point at the trial of a yielding step: pressure and preconsolidation pressure before the step, volumetric
strain increment, trial shear stress, slopes, friction and the shear modulus as a function of the pressure. -/
structure Spec.ReturnData where
  kap : ℝ
  cp : ℝ
  M : ℝ
  p0 : ℝ
  pc0 : ℝ
  dev : ℝ
  qtr : ℝ
  G : ℝ → ℝ

namespace Spec.ReturnData

/-- Pressure after a plastic volumetric strain `a` (log-linear elasticity). -/
noncomputable def p (d : ReturnData) (a : ℝ) : ℝ := d.p0 * Real.exp ((d.dev - a) / d.kap)

/-- Preconsolidation pressure after a plastic volumetric strain `a`. -/
noncomputable def pc (d : ReturnData) (a : ℝ) : ℝ := d.pc0 * Real.exp (a / d.cp)

/-- Shear stress after a plastic multiplier `lam`. -/
noncomputable def q (d : ReturnData) (lam a : ℝ) : ℝ := d.qtr / (1 + 6 * d.G (d.p a) * lam)

/-- A plastic multiplier and a plastic volumetric strain solve the implicit return to the yield surface: the stress lies on
the surface and the volumetric strain obeys the associated flow rule. -/
def Solves (d : ReturnData) (lam a : ℝ) : Prop :=
  (d.q lam a / d.M) ^ 2 + d.p a * (d.p a - d.pc a) = 0 ∧ a = lam * (2 * d.p a - d.pc a) * d.M ^ 2

/-- Positive constants; the shear modulus is positive, continuous and grows at most in proportion to the pressure. -/
structure Good (d : ReturnData) : Prop where
  kap : 0 < d.kap
  cp : 0 < d.cp
  M : 0 < d.M
  p0 : 0 < d.p0
  pc0 : 0 < d.pc0
  qtr : 0 < d.qtr
  Gpos : ∀ p, 0 < p → 0 < d.G p
  Gcont : Continuous d.G
  Gmono : ∀ p p', 0 < p → p ≤ p' → p / d.G p ≤ p' / d.G p'

/-- The trial state lies outside of the yield surface. -/
def Yields (d : ReturnData) : Prop := 0 < (d.qtr / d.M) ^ 2 + d.p 0 * (d.p 0 - d.pc 0)

end Spec.ReturnData

section
open Spec
variable {d : ReturnData} (hd : d.Good)
include hd

theorem ret_p_pos (a : ℝ) : 0 < d.p a := mul_pos hd.p0 (Real.exp_pos _)
theorem ret_pc_pos (a : ℝ) : 0 < d.pc a := mul_pos hd.pc0 (Real.exp_pos _)

theorem ret_p_anti {a b : ℝ} (h : a < b) : d.p b < d.p a :=
  mul_lt_mul_of_pos_left (Real.exp_lt_exp.mpr (div_lt_div_of_pos_right (by linarith) hd.kap)) hd.p0

theorem ret_pc_mono {a b : ℝ} (h : a < b) : d.pc a < d.pc b :=
  mul_lt_mul_of_pos_left (Real.exp_lt_exp.mpr (div_lt_div_of_pos_right h hd.cp)) hd.pc0

theorem ret_gap_anti {a b : ℝ} (h : a < b) : 2 * d.p b - d.pc b < 2 * d.p a - d.pc a := by
  linarith [ret_p_anti hd h, ret_pc_mono hd h]

/-- Plastic strain at which the critical state line is reached. -/
theorem ret_critical : ∃ c, 2 * d.p c - d.pc c = 0 := by
  have hk := hd.kap
  have hc := hd.cp
  refine ⟨(Real.log (2 * d.p0 / d.pc0) + d.dev / d.kap) / (1 / d.kap + 1 / d.cp), ?_⟩
  set c := (Real.log (2 * d.p0 / d.pc0) + d.dev / d.kap) / (1 / d.kap + 1 / d.cp) with hcdef
  have hne : 1 / d.kap + 1 / d.cp ≠ 0 := by positivity
  have h1 : c * (1 / d.kap + 1 / d.cp) = Real.log (2 * d.p0 / d.pc0) + d.dev / d.kap := by
    rw [hcdef]; field_simp
  have h2 : c / d.cp = Real.log (2 * d.p0 / d.pc0) + (d.dev - c) / d.kap := by
    rw [sub_div]; rw [mul_add, mul_one_div, mul_one_div] at h1; linarith
  have hp := hd.p0
  have hpc := hd.pc0
  rw [ReturnData.p, ReturnData.pc, h2, Real.exp_add, Real.exp_log (by positivity)]
  field_simp
  ring

/-- The multiplier that goes with a plastic strain off the critical state line. -/
theorem ret_solves_of {a : ℝ} (hg : 2 * d.p a - d.pc a ≠ 0)
    (hD : d.M ^ 2 * (2 * d.p a - d.pc a) + 6 * d.G (d.p a) * a ≠ 0)
    (hF : (d.qtr * d.M * (2 * d.p a - d.pc a) / (d.M ^ 2 * (2 * d.p a - d.pc a) + 6 * d.G (d.p a) * a)) ^ 2 +
      d.p a * (d.p a - d.pc a) = 0) : d.Solves (a / (d.M ^ 2 * (2 * d.p a - d.pc a))) a := by
  have hM := hd.M.ne'
  refine ⟨?_, by field_simp⟩
  rw [← hF]
  congr 2
  rw [ReturnData.q]
  have : 1 + 6 * d.G (d.p a) * (a / (d.M ^ 2 * (2 * d.p a - d.pc a))) =
      (d.M ^ 2 * (2 * d.p a - d.pc a) + 6 * d.G (d.p a) * a) / (d.M ^ 2 * (2 * d.p a - d.pc a)) := by
    field_simp
  rw [this]
  field_simp

theorem ret_cont : Continuous (fun a => d.p a) ∧ Continuous (fun a => d.pc a) := by
  constructor
  · unfold ReturnData.p; fun_prop
  · unfold ReturnData.pc; fun_prop

/-- **C124**: every yielding trial has a solution of the return mapping with a plastic multiplier that is not negative. On the
wet side the point hardens, on the dry side it softens, and the solution stays on its side. -/
theorem return_exists (hy : d.Yields) : ∃ lam a, 0 ≤ lam ∧ d.Solves lam a ∧
    (d.pc 0 < 2 * d.p 0 → 0 < a ∧ d.pc a < 2 * d.p a) ∧ (2 * d.p 0 < d.pc 0 → a < 0 ∧ 2 * d.p a < d.pc a) := by
  obtain ⟨c, hc⟩ := ret_critical hd
  have hM := hd.M
  have hM2 : 0 < d.M ^ 2 := by positivity
  obtain ⟨cp, cpc⟩ := ret_cont hd
  have hyF : 0 < (d.qtr * d.M * (2 * d.p 0 - d.pc 0) / (d.M ^ 2 * (2 * d.p 0 - d.pc 0) + 6 * d.G (d.p 0) * 0)) ^ 2 +
      d.p 0 * (d.p 0 - d.pc 0) ∨ 2 * d.p 0 - d.pc 0 = 0 := by
    by_cases h : 2 * d.p 0 - d.pc 0 = 0
    · exact .inr h
    · left
      rw [mul_zero, add_zero]
      rw [show d.qtr * d.M * (2 * d.p 0 - d.pc 0) / (d.M ^ 2 * (2 * d.p 0 - d.pc 0)) = d.qtr / d.M by field_simp]
      exact hy
  have hcF : (d.qtr * d.M * (2 * d.p c - d.pc c) / (d.M ^ 2 * (2 * d.p c - d.pc c) + 6 * d.G (d.p c) * c)) ^ 2 +
      d.p c * (d.p c - d.pc c) < 0 := by
    rw [hc, mul_zero, zero_div]
    have : d.pc c = 2 * d.p c := by linarith
    rw [this]
    nlinarith [ret_p_pos hd c, mul_pos (ret_p_pos hd c) (ret_p_pos hd c)]
  rcases lt_trichotomy (2 * d.p 0 - d.pc 0) 0 with h | h | h
  · -- dry
    have hc0 : c < 0 := by
      by_contra hcon
      rcases (not_lt.mp hcon).eq_or_lt with e | e
      · rw [← e] at hc; linarith
      · have := ret_gap_anti hd e; linarith
    have hneg : ∀ a ∈ Set.Icc c 0, d.M ^ 2 * (2 * d.p a - d.pc a) + 6 * d.G (d.p a) * a < 0 := by
      rintro a ⟨h1, h2⟩
      have hG := hd.Gpos _ (ret_p_pos hd a)
      rcases h1.eq_or_lt with e | e
      · rw [← e, hc]
        have hG := hd.Gpos _ (ret_p_pos hd c)
        nlinarith
      · have := ret_gap_anti hd e
        nlinarith
    have hcont : ContinuousOn (fun a => (d.qtr * d.M * (2 * d.p a - d.pc a) /
        (d.M ^ 2 * (2 * d.p a - d.pc a) + 6 * d.G (d.p a) * a)) ^ 2 + d.p a * (d.p a - d.pc a)) (Set.Icc c 0) := by
      refine ContinuousOn.add (ContinuousOn.pow (ContinuousOn.div ?_ ?_ fun a ha => (hneg a ha).ne) 2) ?_
      · exact Continuous.continuousOn (by fun_prop)
      · have := hd.Gcont.comp cp
        exact Continuous.continuousOn (by
          refine Continuous.add (by fun_prop) (Continuous.mul (continuous_const.mul this) continuous_id))
      · exact Continuous.continuousOn (by fun_prop)
    have hy0 := hyF.resolve_right h.ne
    obtain ⟨a, ⟨ha1, ha2⟩, ha⟩ := intermediate_value_Ioo hc0.le hcont ⟨hcF, hy0⟩
    have hga : 2 * d.p a - d.pc a < 0 := by have := ret_gap_anti hd ha1; linarith
    refine ⟨_, a, ?_, ret_solves_of hd hga.ne (hneg a ⟨ha1.le, ha2.le⟩).ne ha, fun h' => by linarith,
      fun _ => ⟨ha2, by linarith⟩⟩
    exact (div_pos_of_neg_of_neg ha2 (mul_neg_of_pos_of_neg hM2 hga)).le
  · -- critical
    have hp := ret_p_pos hd 0
    have hG := hd.Gpos _ hp
    have hpc : d.pc 0 = 2 * d.p 0 := by linarith
    have hq : d.M * d.p 0 < d.qtr := by
      have h1 : d.p 0 ^ 2 < (d.qtr / d.M) ^ 2 := by
        have : 0 < (d.qtr / d.M) ^ 2 + d.p 0 * (d.p 0 - d.pc 0) := hy
        rw [hpc] at this; nlinarith
      have h2 : d.p 0 < d.qtr / d.M := lt_of_pow_lt_pow_left₀ 2 (div_pos hd.qtr hM).le h1
      rw [lt_div_iff₀ hM] at h2; linarith
    refine ⟨(d.qtr / (d.M * d.p 0) - 1) / (6 * d.G (d.p 0)), 0, ?_, ⟨?_, by rw [h]; ring⟩, fun h' => by linarith,
      fun h' => by linarith⟩
    · apply div_nonneg _ (by positivity)
      rw [sub_nonneg, le_div_iff₀ (by positivity)]; linarith
    · have h1 : 1 + 6 * d.G (d.p 0) * ((d.qtr / (d.M * d.p 0) - 1) / (6 * d.G (d.p 0))) = d.qtr / (d.M * d.p 0) := by
        field_simp; ring
      have hqn := hd.qtr.ne'
      rw [ReturnData.q, h1, hpc]
      field_simp
      ring
  · -- wet
    have hc0 : 0 < c := by
      by_contra hcon
      rcases (not_lt.mp hcon).eq_or_lt with e | e
      · rw [e] at hc; linarith
      · have := ret_gap_anti hd e; linarith
    have hpos : ∀ a ∈ Set.Icc 0 c, 0 < d.M ^ 2 * (2 * d.p a - d.pc a) + 6 * d.G (d.p a) * a := by
      rintro a ⟨h1, h2⟩
      have hG := hd.Gpos _ (ret_p_pos hd a)
      rcases h2.eq_or_lt with e | e
      · rw [e, hc]
        have hG := hd.Gpos _ (ret_p_pos hd c)
        positivity
      · have := ret_gap_anti hd e
        nlinarith [mul_pos hM2 (show 0 < 2 * d.p a - d.pc a by linarith), mul_nonneg hG.le h1]
    have hcont : ContinuousOn (fun a => (d.qtr * d.M * (2 * d.p a - d.pc a) /
        (d.M ^ 2 * (2 * d.p a - d.pc a) + 6 * d.G (d.p a) * a)) ^ 2 + d.p a * (d.p a - d.pc a)) (Set.Icc 0 c) := by
      refine ContinuousOn.add (ContinuousOn.pow (ContinuousOn.div ?_ ?_ fun a ha => (hpos a ha).ne') 2) ?_
      · exact Continuous.continuousOn (by fun_prop)
      · have := hd.Gcont.comp cp
        exact Continuous.continuousOn (by
          refine Continuous.add (by fun_prop) (Continuous.mul (continuous_const.mul this) continuous_id))
      · exact Continuous.continuousOn (by fun_prop)
    have hy0 := hyF.resolve_right h.ne'
    obtain ⟨a, ⟨ha1, ha2⟩, ha⟩ := intermediate_value_Ioo' hc0.le hcont ⟨hcF, hy0⟩
    have hga : 0 < 2 * d.p a - d.pc a := by have := ret_gap_anti hd ha2; linarith
    exact ⟨_, a, div_nonneg ha1.le (mul_pos hM2 hga).le, ret_solves_of hd hga.ne' (hpos a ⟨ha1.le, ha2.le⟩).ne' ha,
      fun _ => ⟨ha1, by linarith⟩, fun h' => by linarith⟩

/-- A solution from a trial on the wet side stays on the wet side. -/
theorem return_wet (hw : d.pc 0 < 2 * d.p 0) {lam a : ℝ} (hl : 0 ≤ lam) (h : d.Solves lam a) :
    0 ≤ a ∧ d.pc a < 2 * d.p a := by
  have ha := h.2
  have hM2 : 0 < d.M ^ 2 := pow_pos hd.M 2
  by_cases hg : d.pc a < 2 * d.p a
  · refine ⟨?_, hg⟩
    rw [ha]
    exact mul_nonneg (mul_nonneg hl (by linarith)) hM2.le
  · exfalso
    have ha0 : a ≤ 0 := by
      rw [ha]
      have : lam * (2 * d.p a - d.pc a) ≤ 0 := mul_nonpos_of_nonneg_of_nonpos hl (by linarith)
      exact mul_nonpos_of_nonpos_of_nonneg this hM2.le
    rcases ha0.eq_or_lt with e | e
    · rw [e] at hg; exact hg hw
    · have := ret_gap_anti hd e; linarith

/-- Of two solutions on the wet side the one with more plastic strain would lie inside of the surface. -/
theorem return_wet_le (hw : d.pc 0 < 2 * d.p 0) {lam a lam' a' : ℝ} (hl : 0 ≤ lam) (h : d.Solves lam a) (hl' : 0 ≤ lam')
    (h' : d.Solves lam' a') : ¬ a < a' := by
  intro hlt
  obtain ⟨ha, hg⟩ := return_wet hd hw hl h
  obtain ⟨ha', hg'⟩ := return_wet hd hw hl' h'
  have hp := ret_p_pos hd a
  have hp' := ret_p_pos hd a'
  have hG := hd.Gpos _ hp
  have hG' := hd.Gpos _ hp'
  have hpp := ret_p_anti hd hlt
  have hcc := ret_pc_mono hd hlt
  have hc := ret_pc_pos hd a
  have hM2 : 0 < d.M ^ 2 := pow_pos hd.M 2
  -- the factor by which shear stress is reduced grows
  have hs : (2 * d.p a' - d.pc a') / d.G (d.p a') ≤ (2 * d.p a - d.pc a) / d.G (d.p a) := by
    have e : ∀ b, 0 < d.p b → (2 * d.p b - d.pc b) / d.G (d.p b) = (2 - d.pc b / d.p b) * (d.p b / d.G (d.p b)) := by
      intro b hb
      have := (hd.Gpos _ hb).ne'
      field_simp
    rw [e _ hp, e _ hp']
    have h1 : d.pc a / d.p a ≤ d.pc a' / d.p a' := div_le_div₀ (ret_pc_pos hd a').le hcc.le hp' hpp.le
    have h2 := hd.Gmono _ _ hp' hpp.le
    have h3 : 0 ≤ 2 - d.pc a' / d.p a' := by
      rw [sub_nonneg, div_le_iff₀ hp']; linarith
    exact mul_le_mul (by linarith) h2 (div_pos hp' hG').le (by linarith)
  set s := (2 * d.p a - d.pc a) / d.G (d.p a) with hsdef
  set s' := (2 * d.p a' - d.pc a') / d.G (d.p a') with hsdef'
  have hs0 : 0 < s' := div_pos (by linarith) hG'
  have ea : a = (d.G (d.p a) * lam) * s * d.M ^ 2 := by
    rw [hsdef]; conv_lhs => rw [h.2]
    field_simp
  have ea' : a' = (d.G (d.p a') * lam') * s' * d.M ^ 2 := by
    rw [hsdef']; conv_lhs => rw [h'.2]
    field_simp
  have ht : d.G (d.p a) * lam ≤ d.G (d.p a') * lam' := by
    by_contra hcon
    rw [not_le] at hcon
    have h0 : 0 ≤ d.G (d.p a') * lam' := mul_nonneg hG'.le hl'
    have : (d.G (d.p a') * lam') * s' ≤ (d.G (d.p a) * lam) * s :=
      mul_le_mul hcon.le hs hs0.le (by linarith)
    have := mul_le_mul_of_nonneg_right this hM2.le
    rw [← ea, ← ea'] at this
    linarith
  have ht0 : 0 ≤ d.G (d.p a) * lam := mul_nonneg hG.le hl
  have hq : (d.q lam' a' / d.M) ^ 2 ≤ (d.q lam a / d.M) ^ 2 := by
    have h0 : 0 < d.q lam' a' := div_pos hd.qtr (by nlinarith)
    have h1 : d.q lam' a' ≤ d.q lam a := div_le_div_of_nonneg_left hd.qtr.le (by nlinarith) (by nlinarith)
    exact pow_le_pow_left₀ (div_pos h0 hd.M).le (div_le_div_of_nonneg_right h1 hd.M.le) 2
  have hf : d.p a' * (d.p a' - d.pc a') < d.p a * (d.p a - d.pc a) := by
    nlinarith [mul_pos (sub_pos.mpr hpp) (show 0 < d.p a + d.p a' - d.pc a by linarith), mul_pos hp' (sub_pos.mpr hcc)]
  linarith [h.1, h'.1]

/-- **C124**: on the wet side of the critical state line the solution is the only one with a plastic multiplier that is not
negative. -/
theorem return_unique (hw : d.pc 0 < 2 * d.p 0) {lam a lam' a' : ℝ} (hl : 0 ≤ lam) (h : d.Solves lam a) (hl' : 0 ≤ lam')
    (h' : d.Solves lam' a') : lam = lam' ∧ a = a' := by
  have e : a = a' := le_antisymm (not_lt.mp (return_wet_le hd hw hl' h' hl h)) (not_lt.mp (return_wet_le hd hw hl h hl' h'))
  refine ⟨?_, e⟩
  have h1 := h.2
  have h2 := h'.2
  rw [← e] at h2
  have hg := (return_wet hd hw hl h).2
  have hM2 : d.M ^ 2 ≠ 0 := (pow_pos hd.M 2).ne'
  have hne : 2 * d.p a - d.pc a ≠ 0 := by linarith
  have := h1.symm.trans h2
  exact mul_right_cancel₀ hne (mul_right_cancel₀ hM2 this)

/-- On the dry side, between the critical state line and the trial, the reduced yield function is continuous. -/
theorem ret_dry_cont {c : ℝ} (hc : 2 * d.p c - d.pc c = 0) :
    (∀ a ∈ Set.Icc c 0, c < 0 → d.M ^ 2 * (2 * d.p a - d.pc a) + 6 * d.G (d.p a) * a < 0) ∧
    (c < 0 → ContinuousOn (fun a => (d.qtr * d.M * (2 * d.p a - d.pc a) /
        (d.M ^ 2 * (2 * d.p a - d.pc a) + 6 * d.G (d.p a) * a)) ^ 2 + d.p a * (d.p a - d.pc a)) (Set.Icc c 0)) := by
  obtain ⟨cp, cpc⟩ := ret_cont hd
  have hM2 : 0 < d.M ^ 2 := pow_pos hd.M 2
  have hneg : ∀ a ∈ Set.Icc c 0, c < 0 → d.M ^ 2 * (2 * d.p a - d.pc a) + 6 * d.G (d.p a) * a < 0 := by
    rintro a ⟨h1, h2⟩ hc0
    have hG := hd.Gpos _ (ret_p_pos hd a)
    rcases h1.eq_or_lt with e | e
    · rw [← e, hc]
      have hG := hd.Gpos _ (ret_p_pos hd c)
      nlinarith
    · have := ret_gap_anti hd e
      nlinarith
  refine ⟨hneg, fun hc0 => ?_⟩
  refine ContinuousOn.add (ContinuousOn.pow (ContinuousOn.div ?_ ?_ fun a ha => (hneg a ha hc0).ne) 2) ?_
  · exact Continuous.continuousOn (by fun_prop)
  · have := hd.Gcont.comp cp
    exact Continuous.continuousOn (by
      refine Continuous.add (by fun_prop) (Continuous.mul (continuous_const.mul this) continuous_id))
  · exact Continuous.continuousOn (by fun_prop)

end

/-! ### The residuals of the code -/

/-- Data of the return mapping of a step: pressure and preconsolidation pressure before it, volumetric strain increment and
trial shear stress (at least `10⁻⁶`). -/
noncomputable def Spec.mccReturn (pr : MCCParams ℝ) (L σ : Matrix (Fin 3) (Fin 3) ℝ) (pc dt : ℝ) : Spec.ReturnData :=
  { kap := pr.kap, cp := pr.lam - pr.kap, M := pr.M, p0 := Spec.meanStress σ, pc0 := pc,
    dev := (Spec.strainInc L dt).trace, qtr := max (Spec.qVM (Spec.mccTrialStress pr L σ dt)) (1 / 10 ^ 6),
    G := fun p => Spec.mccShear pr.nu (Spec.mccBulk pr.kap pr.KMin pr.KMax p) }

/-- Slopes, friction and stiffness limits of a clay. -/
structure MCCParams.Clay (pr : MCCParams ℝ) : Prop where
  kap : 0 < pr.kap
  lam : pr.kap < pr.lam
  M : 0 < pr.M
  nuLo : -1 < pr.nu
  nuHi : pr.nu < 1 / 2
  KMax : ∀ b, pr.KMax = some b → 0 < b

theorem MCCParams.Clay.elastic {pr : MCCParams ℝ} (h : pr.Clay) : pr.Elastic :=
  ⟨h.kap, h.nuLo, h.nuHi.le, fun b hb => (h.KMax b hb).le⟩

theorem clayBulk_pos {pr : MCCParams ℝ} (h : pr.Clay) (p : ℝ) : 0 < Spec.mccBulk pr.kap pr.KMin pr.KMax p := by
  have h0 : 0 < max p 1 / pr.kap := div_pos (lt_max_of_lt_right one_pos) h.kap
  unfold Spec.mccBulk
  cases hlo : pr.KMin <;> cases hhi : pr.KMax <;> simp only [Option.elim, id]
  · exact h0
  · exact lt_min h0 (h.KMax _ hhi)
  · exact lt_max_of_lt_left h0
  · exact lt_min (lt_max_of_lt_left h0) (h.KMax _ hhi)

theorem mccBulk_cont (pr : MCCParams ℝ) : Continuous (Spec.mccBulk pr.kap pr.KMin pr.KMax) := by
  unfold Spec.mccBulk
  cases pr.KMin <;> cases pr.KMax <;> simp only [Option.elim, id] <;> fun_prop

/-- The stiffness grows at most in proportion to the pressure. -/
theorem mccBulk_sub {pr : MCCParams ℝ} (h : pr.Clay) {p p' : ℝ} (hp : 0 < p) (hpp : p ≤ p') :
    p * Spec.mccBulk pr.kap pr.KMin pr.KMax p' ≤ p' * Spec.mccBulk pr.kap pr.KMin pr.KMax p := by
  have hp' : 0 < p' := hp.trans_le hpp
  have h0 : p * (max p' 1 / pr.kap) ≤ p' * (max p 1 / pr.kap) := by
    rw [mul_div_assoc', mul_div_assoc']
    refine div_le_div_of_nonneg_right ?_ h.kap.le
    rw [mul_max_of_nonneg _ _ hp.le, mul_max_of_nonneg _ _ hp'.le]
    rw [mul_one, mul_one, mul_comm p p']
    exact max_le_max le_rfl hpp
  have hx : 0 < max p 1 / pr.kap := div_pos (lt_max_of_lt_right one_pos) h.kap
  unfold Spec.mccBulk
  generalize max p' 1 / pr.kap = y' at h0 ⊢
  generalize max p 1 / pr.kap = y at h0 hx ⊢
  have hlo : ∀ a, p * max y' a ≤ p' * max y a := by
    intro a
    rw [mul_max_of_nonneg _ _ hp.le]
    refine max_le (h0.trans (mul_le_mul_of_nonneg_left (le_max_left _ _) hp'.le)) ?_
    by_cases ha : 0 ≤ a
    · exact (mul_le_mul_of_nonneg_right hpp ha).trans (mul_le_mul_of_nonneg_left (le_max_right _ _) hp'.le)
    · have : p * a ≤ 0 := mul_nonpos_of_nonneg_of_nonpos hp.le (not_le.mp ha).le
      exact this.trans (mul_nonneg hp'.le (hx.le.trans (le_max_left _ _)))
  have hhi : ∀ b z z' : ℝ, 0 < b → p * z' ≤ p' * z → p * min z' b ≤ p' * min z b := by
    intro b z z' hb hz
    rw [mul_min_of_nonneg _ _ hp'.le]
    exact le_min ((mul_le_mul_of_nonneg_left (min_le_left _ _) hp.le).trans hz)
      ((mul_le_mul_of_nonneg_left (min_le_right _ _) hp.le).trans (mul_le_mul_of_nonneg_right hpp hb.le))
  cases pr.KMin <;> cases hb : pr.KMax <;> simp only [Option.elim, id]
  · exact h0
  · exact hhi _ _ _ (h.KMax _ hb) h0
  · exact hlo _
  · exact hhi _ _ _ (h.KMax _ hb) (hlo _)

theorem mccReturn_good {pr : MCCParams ℝ} (h : pr.Clay) (L σ : Mat3 ℝ) {pc : ℝ} (dt : ℝ) (hσ : 0 < Spec.meanStress σ)
    (hpc : 0 < pc) : (Spec.mccReturn pr L σ pc dt).Good := by
  have hnu : 0 < 3 * (1 - 2 * pr.nu) / (2 * (1 + pr.nu)) :=
    div_pos (by linarith [h.nuHi]) (by linarith [h.nuLo])
  have hG : ∀ p, Spec.mccShear pr.nu (Spec.mccBulk pr.kap pr.KMin pr.KMax p) =
      3 * (1 - 2 * pr.nu) / (2 * (1 + pr.nu)) * Spec.mccBulk pr.kap pr.KMin pr.KMax p := fun p => by
    unfold Spec.mccShear; ring
  refine ⟨h.kap, sub_pos.mpr h.lam, h.M, hσ, hpc, lt_max_of_lt_right (by positivity), fun p _ => ?_, ?_, fun p p' hp hpp => ?_⟩
  · simp only [Spec.mccReturn, hG]
    exact mul_pos hnu (clayBulk_pos h p)
  · simp only [Spec.mccReturn, hG]
    exact continuous_const.mul (mccBulk_cont pr)
  · simp only [Spec.mccReturn, hG]
    have hk := clayBulk_pos h p
    have hk' := clayBulk_pos h p'
    rw [div_le_div_iff₀ (mul_pos hnu hk) (mul_pos hnu hk')]
    have := mul_le_mul_of_nonneg_left (mccBulk_sub h hp hpp) hnu.le
    linarith

/-- A trial that the code finds outside of the yield surface yields in the sense of the specification. -/
theorem mccReturn_yields {pr : MCCParams ℝ} (L σ : Mat3 ℝ) {pc : ℝ} (dt : ℝ)
    (hy : 0 < Spec.mccF pr.M pc (Spec.mccTrialStress pr L σ dt)) : (Spec.mccReturn pr L σ pc dt).Yields := by
  have hm : Spec.meanStress (Spec.mccTrialStress pr L σ dt) =
      Spec.meanStress σ * Real.exp ((Spec.strainInc L dt).trace / pr.kap) := by
    unfold Spec.mccTrialStress
    simp only
    rw [show ∀ c : ℝ, c • (1 : Matrix (Fin 3) (Fin 3) ℝ) = isoT c from fun _ => rfl, mean_add_iso]
    rw [meanStress_add, meanStress_smul, meanStress_dev, meanStress_dev]
    ring
  rw [Spec.mccF, hm] at hy
  have hq : 0 ≤ Spec.qVM (Spec.mccTrialStress pr L σ dt) := Real.sqrt_nonneg _
  have h1 : Spec.qVM (Spec.mccTrialStress pr L σ dt) ^ 2 / pr.M ^ 2 ≤
      (max (Spec.qVM (Spec.mccTrialStress pr L σ dt)) (1 / 10 ^ 6) / pr.M) ^ 2 := by
    rw [div_pow]
    exact div_le_div_of_nonneg_right (pow_le_pow_left₀ hq (le_max_left _ _) 2) (by positivity)
  simp only [Spec.ReturnData.Yields, Spec.mccReturn, Spec.ReturnData.p, Spec.ReturnData.pc, sub_zero, zero_div, Real.exp_zero,
    mul_one]
  nlinarith

/-- **C124**: the residuals of the code vanish exactly at the solutions of the return mapping. The first unknown is the
plastic multiplier, the second the logarithm of the preconsolidation pressure. -/
theorem mcc_residuals_zero_iff {pr : MCCParams ℝ} (h : pr.Clay) (L e σ : Mat3 ℝ) {pc : ℝ} (σref : Mat3 ℝ) (dt : ℝ)
    (hpc : 0 < pc) (hmin : pr.pMin ≤ Spec.meanStress σ) (hy : 0 < Spec.mccF pr.M pc (Spec.mccTrialStress pr L σ dt))
    (x : Fin 2 → ℝ) :
    (mccResiduals realFns pr (mccTrial realFns pr L e σ pc σref dt) pc x).res = 0 ↔
      (Spec.mccReturn pr L σ pc dt).Solves (x 0) ((pr.lam - pr.kap) * (x 1 - Real.log pc)) := by
  set t := mccTrial realFns pr L e σ pc σref dt with ht
  have hyf : 0 < t.yf := by rw [ht, mccTrial_yf_spec pr L e σ pc σref dt hmin]; exact hy
  have hpp : t.pPrev = Spec.meanStress σ := by rw [ht, mccTrial_pPrev, max_eq_left hmin]
  have hsm : Spec.meanStress t.sTr = 0 := by
    have := mccTrial_sMean pr L e σ pc σref dt
    rwa [max_eq_left hmin, sub_self] at this
  have htr : t.sTr + isoT t.pTr = Spec.mccTrialStress pr L σ dt := mccTrial_stress pr L e σ pc σref dt hmin
  have hq : Spec.qVM (Spec.mccTrialStress pr L σ dt) = t.qTr := by
    rw [← htr, Spec.qVM, J2_add_iso hsm, ht, ← mccTrial_qTr]
  have hK : 0 < t.KTr := by
    rw [ht, mccTrial_KTr pr L e σ pc σref dt hmin]; exact clayBulk_pos h _
  have hcp : 0 < pr.lam - pr.kap := sub_pos.mpr h.lam
  have hpcx : pc * Real.exp ((pr.lam - pr.kap) * (x 1 - Real.log pc) / (pr.lam - pr.kap)) = Real.exp (x 1) := by
    rw [mul_div_cancel_left₀ _ hcp.ne', Real.exp_sub, Real.exp_log hpc]
    field_simp
  obtain ⟨h0, h1⟩ := mccResiduals_values pr t pc hyf x
  set A := mccResiduals realFns pr t pc x with hA
  have hAp : A.p = Spec.meanStress σ *
      Real.exp (((Spec.strainInc L dt).trace - (pr.lam - pr.kap) * (x 1 - Real.log pc)) / pr.kap) := by
    rw [← hpp, ← strainInc_eq]
    simp only [hA, mccResiduals, if_pos hyf, mccPressure, realFns]
    rfl
  have hAG : A.G = Spec.mccShear pr.nu (Spec.mccBulk pr.kap pr.KMin pr.KMax A.p) := by
    rw [← mccK_spec, ← mccG_spec]
    rfl
  have hM := h.M.ne'
  have e0 : A.res 0 = 0 ↔ ((Spec.mccReturn pr L σ pc dt).q (x 0) ((pr.lam - pr.kap) * (x 1 - Real.log pc)) / pr.M) ^ 2 +
      A.p * (A.p - Real.exp (x 1)) = 0 := by
    rw [h0, div_eq_zero_iff, or_iff_left hK.ne', mccYield]
    simp only [Spec.ReturnData.q, Spec.ReturnData.p, Spec.mccReturn, ← hAp, ← hAG, hq]
    rw [mul_one_div]
    generalize max t.qTr (1 / 10 ^ 6) / (1 + 6 * A.G * x 0) = y
    rw [show (y / pr.M) ^ 2 + A.p * (A.p - Real.exp (x 1)) = y * y / (pr.M * pr.M) + A.p * A.p - Real.exp (x 1) * A.p by
      field_simp; ring]
  have e1 : A.res 1 = 0 ↔ (pr.lam - pr.kap) * (x 1 - Real.log pc) = x 0 * (2 * A.p - Real.exp (x 1)) * pr.M ^ 2 := by
    rw [h1, sub_eq_zero, eq_comm]; rfl
  rw [funext_iff, Fin.forall_fin_two, Pi.zero_apply, Pi.zero_apply, e0, e1]
  simp only [Spec.ReturnData.Solves, Spec.ReturnData.p, Spec.ReturnData.pc, Spec.mccReturn, hpcx, ← hAp]

theorem mccTrialStress_mean (pr : MCCParams ℝ) (L σ : Mat3 ℝ) (dt : ℝ) :
    Spec.meanStress (Spec.mccTrialStress pr L σ dt) =
      Spec.meanStress σ * Real.exp ((Spec.strainInc L dt).trace / pr.kap) := by
  unfold Spec.mccTrialStress
  simp only
  rw [show ∀ c : ℝ, c • (1 : Matrix (Fin 3) (Fin 3) ℝ) = isoT c from fun _ => rfl, mean_add_iso]
  rw [meanStress_add, meanStress_smul, meanStress_dev, meanStress_dev]
  ring

/-- **C124** for the code: the residuals of every yielding step have a zero with a plastic multiplier that is not negative. If
the trial pressure is above half of the preconsolidation pressure the clay hardens there and the zero is the only one; below,
it softens. -/
theorem mcc_return_solvable {pr : MCCParams ℝ} (h : pr.Clay) (L e σ : Mat3 ℝ) {pc : ℝ} (σref : Mat3 ℝ) (dt : ℝ)
    (hpc : 0 < pc) (hσ : 0 < Spec.meanStress σ) (hmin : pr.pMin ≤ Spec.meanStress σ)
    (hy : 0 < Spec.mccF pr.M pc (Spec.mccTrialStress pr L σ dt)) :
    let R := fun x => (mccResiduals realFns pr (mccTrial realFns pr L e σ pc σref dt) pc x).res
    let pT := Spec.meanStress (Spec.mccTrialStress pr L σ dt)
    ∃ x, 0 ≤ x 0 ∧ R x = 0 ∧ (pc < 2 * pT → Real.log pc < x 1 ∧ ∀ y, 0 ≤ y 0 → R y = 0 → y = x) ∧
      (2 * pT < pc → x 1 < Real.log pc) := by
  intro R pT
  have hg := mccReturn_good h L σ dt hσ hpc
  have hcp : 0 < pr.lam - pr.kap := sub_pos.mpr h.lam
  have hR : ∀ x, R x = 0 ↔ _ := mcc_residuals_zero_iff h L e σ σref dt hpc hmin hy
  have h0 : (Spec.mccReturn pr L σ pc dt).pc 0 = pc := by simp [Spec.ReturnData.pc, Spec.mccReturn]
  have h1 : (Spec.mccReturn pr L σ pc dt).p 0 = pT := by
    simp only [pT, mccTrialStress_mean, Spec.ReturnData.p, Spec.mccReturn, sub_zero]
  obtain ⟨lam, a, hl, hs, hwet, hdry⟩ := return_exists hg (mccReturn_yields L σ dt hy)
  rw [h0, h1] at hwet hdry
  have ea : (pr.lam - pr.kap) * ((a / (pr.lam - pr.kap) + Real.log pc) - Real.log pc) = a := by field_simp; ring
  refine ⟨![lam, a / (pr.lam - pr.kap) + Real.log pc], hl, ?_, fun hw => ⟨?_, fun y hy0 hyR => ?_⟩, fun hw => ?_⟩
  · rw [hR]
    simp only [Matrix.cons_val_zero, Matrix.cons_val_one, Matrix.cons_val_fin_one, ea]
    exact hs
  · have := div_pos (hwet hw).1 hcp
    simp only [Matrix.cons_val_one, Matrix.cons_val_fin_one]; linarith
  · obtain ⟨e1, e2⟩ := return_unique hg (by rw [h0, h1]; exact hw) hy0 ((hR y).mp hyR) hl hs
    ext i
    fin_cases i
    · exact e1
    · simp only [Fin.mk_one, Matrix.cons_val_one, Matrix.cons_val_fin_one, ← e2]
      field_simp; ring
  · have := div_neg_of_neg_of_pos (hdry hw).1 hcp
    simp only [Matrix.cons_val_one, Matrix.cons_val_fin_one]; linarith

/-- **C124**: a step whose loop ended with residuals zero returns the solution: on the wet side, whatever the iteration, pressure,
shear stress and preconsolidation pressure are those of the only solution. -/
theorem mcc_converged_solution (ops : NewtonOps ℝ) {pr : MCCParams ℝ} (h : pr.Clay) (L e σ : Mat3 ℝ) {pc : ℝ} (σref : Mat3 ℝ)
    (v dt : ℝ) (hv : v ≤ pr.N * (999999 / 1000000)) (hpc : 0 < pc) (hσ : 0 < Spec.meanStress σ)
    (hmin : pr.pMin ≤ Spec.meanStress σ) (hy : 0 < Spec.mccF pr.M pc (Spec.mccTrialStress pr L σ dt))
    (hw : pc < 2 * Spec.meanStress (Spec.mccTrialStress pr L σ dt))
    (hq : 1 / 10 ^ 6 ≤ Spec.qVM (Spec.mccTrialStress pr L σ dt))
    (hc : mccLeft ops pr (mccTrial realFns pr L e σ pc σref dt) pc = 0) {lam a : ℝ} (hl : 0 ≤ lam)
    (hs : (Spec.mccReturn pr L σ pc dt).Solves lam a) :
    let r := mccUpdate realFns ops pr L e σ pc σref v dt
    r.pc = (Spec.mccReturn pr L σ pc dt).pc a ∧ Spec.meanStress r.stress = (Spec.mccReturn pr L σ pc dt).p a ∧
      Spec.qVM r.stress = (Spec.mccReturn pr L σ pc dt).q lam a := by
  intro r
  have hg := mccReturn_good h L σ dt hσ hpc
  have hcp : 0 < pr.lam - pr.kap := sub_pos.mpr h.lam
  have h0 : (Spec.mccReturn pr L σ pc dt).pc 0 = pc := by simp [Spec.ReturnData.pc, Spec.mccReturn]
  have h1 : (Spec.mccReturn pr L σ pc dt).p 0 = Spec.meanStress (Spec.mccTrialStress pr L σ dt) := by
    simp only [mccTrialStress_mean, Spec.ReturnData.p, Spec.mccReturn, sub_zero]
  set t := mccTrial realFns pr L e σ pc σref dt with ht
  have hyf : 0 < t.yf := by rw [ht, mccTrial_yf_spec pr L e σ pc σref dt hmin]; exact hy
  have hpp : t.pPrev = Spec.meanStress σ := by rw [ht, mccTrial_pPrev, max_eq_left hmin]
  have hsm : Spec.meanStress t.sTr = 0 := by
    have := mccTrial_sMean pr L e σ pc σref dt
    rwa [max_eq_left hmin, sub_self] at this
  have htr : t.sTr + isoT t.pTr = Spec.mccTrialStress pr L σ dt := mccTrial_stress pr L e σ pc σref dt hmin
  have hqt : Spec.qVM (Spec.mccTrialStress pr L σ dt) = t.qTr := by
    rw [← htr, Spec.qVM, J2_add_iso hsm, ht, ← mccTrial_qTr]
  have hr : r = mccPlastic realFns ops pr t pc := by
    simp only [r, mccUpdate]
    rw [if_pos hv, if_pos hyf]
  obtain ⟨hpc', hst, hpn, hG, hlam⟩ := mccPlastic_values ops pr h.elastic t pc hyf (by rw [hpp]; exact hσ)
  rw [← hr] at hpc' hst
  have hx := (mcc_residuals_zero_iff h L e σ σref dt hpc hmin hy (mccFinal ops pr t pc)).mp hc
  obtain ⟨e1, e2⟩ := return_unique hg (by rw [h0, h1]; exact hw) hl hs hlam hx
  set x := mccFinal ops pr t pc with hxd
  set A := mccResiduals realFns pr t pc x with hA
  have hAp : A.p = (Spec.mccReturn pr L σ pc dt).p a := by
    rw [e2, Spec.ReturnData.p]
    simp only [Spec.mccReturn]
    rw [← hpp, ← strainInc_eq]
    simp only [hA, mccResiduals, if_pos hyf, mccPressure, realFns]
    rfl
  have hAG : A.G = (Spec.mccReturn pr L σ pc dt).G A.p := by
    simp only [Spec.mccReturn]
    rw [← mccK_spec, ← mccG_spec]
    rfl
  have hden : 0 < 1 + 6 * A.G * x 0 := by nlinarith [mul_nonneg hG hlam]
  have hfs : Spec.meanStress ((1 / (1 + 6 * A.G * x 0)) • t.sTr) = 0 := by rw [meanStress_smul, hsm, mul_zero]
  refine ⟨?_, ?_, ?_⟩
  · rw [hpc', e2, Spec.ReturnData.pc]
    simp only [Spec.mccReturn]
    rw [mul_div_cancel_left₀ _ hcp.ne', Real.exp_sub, Real.exp_log hpc]
    field_simp
  · rw [hst, mean_add_iso hfs, hAp]
  · set f := 1 / (1 + 6 * A.G * x 0) with hf
    have hf0 : 0 < f := one_div_pos.mpr hden
    have hrd : Spec.dev r.stress = f • t.sTr := by rw [hst]; exact dev_add_iso hfs _
    have hq2 : Spec.qVM r.stress ^ 2 = (f * t.qTr) ^ 2 := by
      rw [qVM_sq, Spec.J2, hrd, ddot_smul, mul_pow, ht, mccTrial_qTr, ← ht, Real.sq_sqrt]
      · ring
      · have := ddot_self_nonneg t.sTr; positivity
    have hq0 : 0 ≤ t.qTr := by rw [← hqt]; exact Real.sqrt_nonneg _
    have hqn : 0 ≤ Spec.qVM r.stress := Real.sqrt_nonneg _
    rw [(pow_left_inj₀ hqn (mul_nonneg hf0.le hq0) two_ne_zero).mp hq2, Spec.ReturnData.q, ← hAp, ← hAG, e1]
    simp only [Spec.mccReturn]
    rw [max_eq_left hq, hqt, hf]
    ring

/-! ### Several solutions on the dry side -/

/-- A stiff, nearly incompressible clay. -/
noncomputable def exDryClay : MCCParams ℝ :=
  { nu := 495 / 1000, M := 3 / 2, lam := 7 / 100, kap := 3 / 100, N := 2, pRef := 1000, KMin := none, KMax := none,
    pMin := 1, rhoP := 2650 }

theorem exDryClay_clay : exDryClay.Clay := by
  refine ⟨?_, ?_, ?_, ?_, ?_, fun b hb => by simp [exDryClay] at hb⟩ <;> norm_num [exDryClay]

/-- Strongly overconsolidated point, sheared at constant volume to a shear stress above the yield surface. -/
noncomputable def exDry : Spec.ReturnData :=
  { kap := exDryClay.kap, cp := exDryClay.lam - exDryClay.kap, M := exDryClay.M, p0 := 100, pc0 := 3200, dev := 0,
    qtr := 1725 / 2,
    G := fun p => Spec.mccShear exDryClay.nu (Spec.mccBulk exDryClay.kap exDryClay.KMin exDryClay.KMax p) }

theorem exDry_good : exDry.Good := by
  have h := mccReturn_good exDryClay_clay 0 (isoT 100) (pc := 3200) 1 (by rw [meanStress_isoT]; norm_num) (by norm_num)
  refine ⟨h.kap, h.cp, h.M, ?_, ?_, ?_, h.Gpos, h.Gcont, h.Gmono⟩ <;> norm_num [exDry]

/-- Values after the pressure has grown by a factor `u ^ 4`. -/
theorem exDry_at {u : ℝ} (hu : 1 ≤ u) : let a := -(12 / 100) * Real.log u
    exDry.p a = 100 * u ^ 4 ∧ exDry.pc a = 3200 / u ^ 3 ∧
      exDry.G (exDry.p a) = 3 * (100 * u ^ 4 / (3 / 100)) * (1 - 2 * (495 / 1000)) / (2 * (1 + 495 / 1000)) := by
  intro a
  have hu0 : 0 < u := by linarith
  have hexp : ∀ n : ℕ, Real.exp (n * Real.log u) = u ^ n := fun n => by
    rw [mul_comm, Real.exp_mul, Real.exp_log hu0, Real.rpow_natCast]
  have hp : exDry.p a = 100 * u ^ 4 := by
    simp only [Spec.ReturnData.p, exDry, exDryClay, a]
    rw [show (0 - -(12 / 100) * Real.log u) / (3 / 100) = (4 : ℕ) * Real.log u by push_cast; ring, hexp]
  have hpc : exDry.pc a = 3200 / u ^ 3 := by
    simp only [Spec.ReturnData.pc, exDry, exDryClay, a]
    rw [show -(12 / 100) * Real.log u / (7 / 100 - 3 / 100) = -((3 : ℕ) * Real.log u) by push_cast; ring, Real.exp_neg, hexp,
      div_eq_mul_inv]
  refine ⟨hp, hpc, ?_⟩
  rw [hp]
  simp only [exDry, exDryClay, Spec.mccShear, Spec.mccBulk, Option.elim, id]
  rw [max_eq_left]
  nlinarith [one_le_pow₀ hu (n := 4)]

/-- The stress after a plastic strain, reduced to one unknown. -/
noncomputable def exDryF (a : ℝ) : ℝ := (exDry.qtr * exDry.M * (2 * exDry.p a - exDry.pc a) /
  (exDry.M ^ 2 * (2 * exDry.p a - exDry.pc a) + 6 * exDry.G (exDry.p a) * a)) ^ 2 + exDry.p a * (exDry.p a - exDry.pc a)

theorem exDryF_neg : exDryF (-(12 / 100) * Real.log (5 / 4)) < 0 := by
  obtain ⟨hp, hpc, hG⟩ := exDry_at (u := 5 / 4) (by norm_num)
  have hl : 0 < Real.log (5 / 4) := Real.log_pos (by norm_num)
  rw [exDryF, hG, hp, hpc]
  simp only [exDry, exDryClay]
  set l := Real.log (5 / 4)
  have key : ∀ y : ℝ, 0 ≤ y → y ≤ 575 → y ^ 2 + 100 * (5 / 4) ^ 4 * (100 * (5 / 4) ^ 4 - 3200 / (5 / 4) ^ 3) < 0 := by
    intro y h0 h1
    nlinarith
  refine key _ (div_nonneg_of_nonpos (by norm_num) ?_) ?_
  · norm_num; nlinarith
  · rw [div_le_iff_of_neg (by norm_num; nlinarith)]
    norm_num; nlinarith

theorem exDryF_pos : 0 < exDryF (-(12 / 100) * Real.log (7 / 5)) := by
  obtain ⟨hp, hpc, hG⟩ := exDry_at (u := 7 / 5) (by norm_num)
  have hl : 0 < Real.log (7 / 5) := Real.log_pos (by norm_num)
  have hl' : Real.log (7 / 5) ≤ 2 / 5 := by
    have := Real.log_le_sub_one_of_pos (show (0 : ℝ) < 7 / 5 by norm_num)
    linarith
  rw [exDryF, hG, hp, hpc]
  simp only [exDry, exDryClay]
  set l := Real.log (7 / 5)
  have key : ∀ y : ℝ, 551 ≤ y → 0 < y ^ 2 + 100 * (7 / 5) ^ 4 * (100 * (7 / 5) ^ 4 - 3200 / (7 / 5) ^ 3) := by
    intro y h1
    nlinarith
  refine key _ ?_
  rw [le_div_iff_of_neg (by norm_num; nlinarith)]
  norm_num; nlinarith

/-- **C124** (refuted on the dry side): three solutions of one yielding step. -/
theorem dry_return_not_unique : exDry.Yields ∧ ∃ l1 a1 l2 a2 l3 a3, 0 ≤ l1 ∧ 0 ≤ l2 ∧ 0 ≤ l3 ∧ exDry.Solves l1 a1 ∧
    exDry.Solves l2 a2 ∧ exDry.Solves l3 a3 ∧ a1 < a2 ∧ a2 < a3 := by
  have hd := exDry_good
  have hy : exDry.Yields := by
    norm_num [Spec.ReturnData.Yields, Spec.ReturnData.p, Spec.ReturnData.pc, exDry, exDryClay]
  have hg0 : 2 * exDry.p 0 - exDry.pc 0 < 0 := by
    norm_num [Spec.ReturnData.p, Spec.ReturnData.pc, exDry]
  obtain ⟨c, hc⟩ := ret_critical hd
  have hc0 : c < 0 := by
    by_contra hcon
    rcases (not_lt.mp hcon).eq_or_lt with e | e
    · rw [← e] at hc; linarith
    · have := ret_gap_anti hd e; linarith
  have hcF : exDryF c < 0 := by
    rw [exDryF, hc, mul_zero, zero_div]
    have : exDry.pc c = 2 * exDry.p c := by linarith
    rw [this]
    nlinarith [mul_pos (ret_p_pos hd c) (ret_p_pos hd c)]
  have h0F : 0 < exDryF 0 := by
    rw [exDryF, mul_zero, add_zero]
    have hM := hd.M.ne'
    have := hg0.ne
    rw [show exDry.qtr * exDry.M * (2 * exDry.p 0 - exDry.pc 0) / (exDry.M ^ 2 * (2 * exDry.p 0 - exDry.pc 0)) =
      exDry.qtr / exDry.M by field_simp]
    exact hy
  set a5 := -(12 / 100) * Real.log (5 / 4) with ha5
  set a7 := -(12 / 100) * Real.log (7 / 5) with ha7
  have h57 : a7 < a5 := by
    have := Real.log_lt_log (show (0 : ℝ) < 5 / 4 by norm_num) (show (5 / 4 : ℝ) < 7 / 5 by norm_num)
    rw [ha5, ha7]; linarith
  have h50 : a5 < 0 := by
    have := Real.log_pos (show (1 : ℝ) < 5 / 4 by norm_num)
    rw [ha5]; linarith
  have hc7 : c < a7 := by
    by_contra hcon
    have h7 : 2 * exDry.p a7 - exDry.pc a7 < 0 := by
      obtain ⟨hp, hpc, -⟩ := exDry_at (u := 7 / 5) (by norm_num)
      rw [hp, hpc]; norm_num
    rcases (not_lt.mp hcon).eq_or_lt with e | e
    · rw [e] at h7; linarith
    · have := ret_gap_anti hd e; linarith
  obtain ⟨hneg, hcont⟩ := ret_dry_cont hd hc
  have hcont := hcont hc0
  have sol : ∀ a, c < a → a < 0 → exDryF a = 0 → ∃ l, 0 ≤ l ∧ exDry.Solves l a := by
    intro a h1 h2 h3
    have hga : 2 * exDry.p a - exDry.pc a < 0 := by have := ret_gap_anti hd h1; linarith
    exact ⟨_, (div_pos_of_neg_of_neg h2 (mul_neg_of_pos_of_neg (pow_pos hd.M 2) hga)).le,
      ret_solves_of hd hga.ne (hneg a ⟨h1.le, h2.le⟩ hc0).ne h3⟩
  obtain ⟨a1, ⟨b1, b1'⟩, e1⟩ := intermediate_value_Ioo hc7.le
    (hcont.mono (Set.Icc_subset_Icc le_rfl (by linarith))) ⟨hcF, exDryF_pos⟩
  obtain ⟨a2, ⟨b2, b2'⟩, e2⟩ := intermediate_value_Ioo' h57.le
    (hcont.mono (Set.Icc_subset_Icc hc7.le h50.le)) ⟨exDryF_neg, exDryF_pos⟩
  obtain ⟨a3, ⟨b3, b3'⟩, e3⟩ := intermediate_value_Ioo h50.le
    (hcont.mono (Set.Icc_subset_Icc (by linarith) le_rfl)) ⟨exDryF_neg, h0F⟩
  obtain ⟨l1, p1, s1⟩ := sol a1 b1 (by linarith) e1
  obtain ⟨l2, p2, s2⟩ := sol a2 (by linarith) (by linarith) e2
  obtain ⟨l3, p3, s3⟩ := sol a3 (by linarith) b3' e3
  exact ⟨hy, l1, a1, l2, a2, l3, a3, p1, p2, p3, s1, s2, s3, by linarith, by linarith⟩

/-! ### Examples -/

theorem exMCC_clay : exMCC.Clay := by
  refine ⟨?_, ?_, ?_, ?_, ?_, fun b hb => by simp [exMCC] at hb⟩ <;> norm_num [exMCC]

example := return_exists exDry_good dry_return_not_unique.1

example := mcc_return_solvable exMCC_clay exSqueeze 0 (isoT 100) (pc := 100) (isoT 100) 1 (by norm_num)
  (by rw [meanStress_isoT]; norm_num) (by rw [meanStress_isoT]; norm_num [exMCC]) exSqueeze_yields

theorem exSqueeze_wet : (100 : ℝ) < 2 * Spec.meanStress (Spec.mccTrialStress exMCC exSqueeze (isoT 100) 1) := by
  have htr : (Spec.strainInc exSqueeze 1).trace / exMCC.kap = 1 := by
    rw [trace3]
    simp [Spec.strainInc, exSqueeze, exMCC]
    norm_num
  rw [mccTrialStress_mean, htr, meanStress_isoT]
  have := Real.exp_one_gt_d9
  linarith

/-- The squeezed point hardens in the only solution. -/
example : ∃ x, 0 ≤ x 0 ∧ Real.log 100 < x 1 ∧ ∀ y, 0 ≤ y 0 →
    (mccResiduals realFns exMCC (mccTrial realFns exMCC exSqueeze 0 (isoT 100) 100 (isoT 100) 1) 100 y).res = 0 → y = x := by
  obtain ⟨x, h0, -, hw, -⟩ := mcc_return_solvable exMCC_clay exSqueeze 0 (isoT 100) (pc := 100) (isoT 100) 1 (by norm_num)
    (by rw [meanStress_isoT]; norm_num) (by rw [meanStress_isoT]; norm_num [exMCC]) exSqueeze_yields
  exact ⟨x, h0, (hw exSqueeze_wet).1, (hw exSqueeze_wet).2⟩

/-- Some Jacobian leads the loop to a given target in its first step and keeps it there. -/
theorem newton_can_hit (R : (Fin 2 → ℝ) → Fin 2 → ℝ) (s target : Fin 2 → ℝ) (h0 : R s 0 ≠ 0) (h1 : R s 1 = 0)
    (ht : ∀ i, 0 ≤ target i) (hne : target 0 ≠ s 0) (n : ℕ) : ∃ ops : NewtonOps ℝ, mccNewton ops R (n + 1) s = target := by
  classical
  set α := (s 0 - target 0) * (10 / 8) / R s 0 with hα
  set β := (s 1 - target 1) * (10 / 8) / R s 0 with hβ
  have hα0 : α ≠ 0 := by
    rw [hα]
    exact div_ne_zero (mul_ne_zero (sub_ne_zero.mpr hne.symm) (by norm_num)) h0
  have hn : 0 < α ^ 2 + β ^ 2 := by positivity
  set k := (1 - 1 / 10 ^ 20) / (α ^ 2 + β ^ 2) with hk
  set J : Matrix (Fin 2) (Fin 2) ℝ := !![k * α, k * β; -β, α] with hJ
  have hdet : J.det = 1 - 1 / 10 ^ 20 := by
    rw [hJ, Matrix.det_fin_two_of, hk]; field_simp; ring
  have hreg : Spec.regularised J.det = 1 := by
    rw [hdet, Spec.regularised, if_pos (by norm_num)]; norm_num
  refine ⟨⟨fun _ x => if x = s then J else 0, fun _ => false⟩, ?_⟩
  have hinv : inv2 (10 ^ 6) J = !![α, -(k * β); β, k * α] := by
    have hd : J 0 0 * J 1 1 - J 0 1 * J 1 0 = J.det := (Matrix.det_fin_two J).symm
    simp only [inv2, hd, (safeInv_value _ J.det).1, hreg]
    simp [hJ]
  have hfirst : mccNewtonStep ⟨fun _ x => if x = s then J else 0, fun _ => false⟩ R s = target := by
    funext i
    simp only [mccNewtonStep, if_true, hinv, Bool.false_eq_true, if_false]
    have h8 : ∀ a b : ℝ, a + 8 / 10 * -((a - b) * (10 / 8) / R s 0 * R s 0) = b := fun a b => by
      rw [div_mul_cancel₀ _ h0]; ring
    fin_cases i
    · simp only [Fin.zero_eta, Matrix.mulVec, dotProduct, Fin.sum_univ_two, Matrix.of_apply, Matrix.cons_val', Matrix.cons_val_zero,
        Matrix.cons_val_one, Matrix.cons_val_fin_one, h1, mul_zero, add_zero, hα, h8]
      exact max_eq_left (ht 0)
    · simp only [Fin.mk_one, Matrix.mulVec, dotProduct, Fin.sum_univ_two, Matrix.of_apply, Matrix.cons_val', Matrix.cons_val_zero,
        Matrix.cons_val_one, Matrix.cons_val_fin_one, h1, mul_zero, add_zero, hβ, h8]
      exact max_eq_left (ht 1)
  have hstay : ∀ m, mccNewton ⟨fun _ x => if x = s then J else 0, fun _ => false⟩ R m target = target := by
    intro m
    induction m with
    | zero => rfl
    | succ m ih =>
      rw [mccNewton]
      have : mccNewtonStep ⟨fun _ x => if x = s then J else 0, fun _ => false⟩ R target = target := by
        have ht' : target ≠ s := fun e => hne (congrFun e 0)
        have h00 : inv2 (10 ^ 6) (0 : Matrix (Fin 2) (Fin 2) ℝ) = 0 := by
          ext i j; fin_cases i <;> fin_cases j <;> simp [inv2]
        funext i
        simp only [mccNewtonStep, if_neg ht', h00, Matrix.zero_mulVec, Pi.zero_apply, neg_zero, mul_zero, add_zero,
          Bool.false_eq_true, if_false]
        exact max_eq_left (ht i)
      rw [this, ih]
  rw [mccNewton, hfirst, hstay]

/-- There are runs of the loop on the squeezed point that end with residuals zero, as `mcc_converged_solution` asks. -/
example : ∃ ops : NewtonOps ℝ,
    mccLeft ops exMCC (mccTrial realFns exMCC exSqueeze 0 (isoT 100) 100 (isoT 100) 1) 100 = 0 := by
  have hmin : exMCC.pMin ≤ Spec.meanStress (isoT (100 : ℝ)) := by rw [meanStress_isoT]; norm_num [exMCC]
  obtain ⟨x, h0, hx, hw, -⟩ := mcc_return_solvable exMCC_clay exSqueeze 0 (isoT 100) (pc := 100) (isoT 100) 1 (by norm_num)
    (by rw [meanStress_isoT]; norm_num) hmin exSqueeze_yields
  obtain ⟨hlt, huniq⟩ := hw exSqueeze_wet
  set t := mccTrial realFns exMCC exSqueeze 0 (isoT 100) 100 (isoT 100) 1 with ht
  have hyf : 0 < t.yf := by rw [ht, mccTrial_yf_spec _ _ _ _ _ _ _ hmin]; exact exSqueeze_yields
  have hR1 : ∀ y : Fin 2 → ℝ, y 0 = 0 → (mccResiduals realFns exMCC t 100 y).res 1 = -(exMCC.cp * (y 1 - Real.log 100)) := by
    intro y hy
    rw [(mccResiduals_values exMCC t 100 hyf y).2, hy]; ring
  have hcp : (0 : ℝ) < exMCC.cp := by norm_num [MCCParams.cp, exMCC]
  have hs1 := hR1 ![0, Real.log 100] rfl
  rw [Matrix.cons_val_one, Matrix.cons_val_fin_one, sub_self, mul_zero, neg_zero] at hs1
  have hs0 : (mccResiduals realFns exMCC t 100 ![0, Real.log 100]).res 0 ≠ 0 := by
    intro h
    have := huniq ![0, Real.log 100] le_rfl (by ext i; fin_cases i; exacts [h, hs1])
    rw [← this] at hlt
    exact lt_irrefl _ hlt
  have hx0 : x 0 ≠ 0 := by
    intro h
    have h1 := hR1 x h
    have h2 : (mccResiduals realFns exMCC t 100 x).res 1 = 0 := congrFun hx 1
    rw [h2] at h1
    have : 0 < exMCC.cp * (x 1 - Real.log 100) := mul_pos hcp (by linarith)
    linarith
  have hlog : 0 < Real.log 100 := Real.log_pos (by norm_num)
  obtain ⟨ops, h⟩ := newton_can_hit (fun y => (mccResiduals realFns exMCC t 100 y).res) ![0, Real.log 100] x hs0 hs1
    (fun i => by fin_cases i; exacts [h0, by change 0 ≤ x 1; linarith]) hx0 9
  exact ⟨ops, by rw [mccLeft, mccFinal, h]; exact hx⟩

end Hydrax
