import Verif.Props.ElasticWork

/-!
# C146: plastic deformation takes energy
-/

set_option linter.unusedSectionVars false

namespace Hydrax

open Spec

namespace Spec

/-- Work of a history on a point per unit of volume, with the stress at the end of each step. -/
noncomputable def endWork {S H : Type*} (stress : S → Mat3 ℝ) (strain : H → Mat3 ℝ) (upd : H → S → S) : S → List H → ℝ
  | _, [] => 0
  | s, h :: hs => ddot (stress (upd h s)) (strain h) + endWork stress strain upd (upd h s) hs

/-- Energy of an isotropic elastic solid per unit of volume, with the pressure `p0` where the strain is zero. -/
noncomputable def elasticEnergy (bulk shear p0 : ℝ) (e : Mat3 ℝ) : ℝ :=
  1 / 2 * ddot (hooke (bulk - 2 / 3 * shear) shear e) e + p0 * e.trace

end Spec

theorem ddot_parts {s t : Mat3 ℝ} (hs : meanStress s = 0) (ht : meanStress t = 0) (p q : ℝ) :
    ddot (s + isoT p) (t + isoT q) = ddot s t + 3 * p * q := by
  have h1 : s 0 0 + s 1 1 + s 2 2 = 0 := by simp only [meanStress] at hs; linarith
  have h2 : t 0 0 + t 1 1 + t 2 2 = 0 := by simp only [meanStress] at ht; linarith
  have h3 : ddot (s + isoT p) (t + isoT q) = ddot s t + 3 * p * q + q * (s 0 0 + s 1 1 + s 2 2) + p * (t 0 0 + t 1 1 + t 2 2) := by
    simp only [ddot, Matrix.add_apply, isoT_apply, Fin.sum_univ_three]
    simp
    ring
  rw [h3, h1, h2]; ring

theorem hooke_nonneg {K G : ℝ} (hK : 0 < K) (hG : 0 < G) (e : Mat3 ℝ) : 0 ≤ ddot (hooke (K - 2 / 3 * G) G e) e := by
  have : ddot (hooke (K - 2 / 3 * G) G e) e = K * (e 0 0 + e 1 1 + e 2 2) ^ 2 +
      2 * G * ((e 0 0 - e 1 1) ^ 2 / 3 + (e 1 1 - e 2 2) ^ 2 / 3 + (e 2 2 - e 0 0) ^ 2 / 3 +
        e 0 1 ^ 2 + e 0 2 ^ 2 + e 1 0 ^ 2 + e 1 2 ^ 2 + e 2 0 ^ 2 + e 2 1 ^ 2) := by
    simp only [ddot, hooke, Fin.sum_univ_three]
    simp
    ring
  rw [this]
  positivity

/-- The conditions on the parameters: no hardening. -/
structure DPParams.Frictional (pr : DPParams ℝ) : Prop where
  bulk : 0 < pr.bulk
  shear : 0 < pr.shear
  mu1 : 1 / 10 ^ 8 ≤ pr.mu1
  mu2 : 0 ≤ pr.mu2
  c0 : 0 ≤ pr.c0
  hat : 0 ≤ pr.mu1Hat
  H : pr.H = 0
  stiff : 1 / 10 ^ 12 ≤ pr.bulk * pr.mu1

/-- **C146**, Drucker-Prager: the stress at the end of a step does not do negative work on the plastic strain of the step, that is on the
part of the strain that is not stored. For any step, with or without rotation. Missing: dilatant material under tension, see
`dp_tension_gains`; hardening. -/
theorem dp_step_dissipates_partial {pr : DPParams ℝ} (h : pr.Frictional) (L e : Mat3 ℝ) (epsP p0 rho dt : ℝ)
    (hp : 0 ≤ meanStress (dpUpdate realFns pr L e epsP p0 rho dt).stress ∨ pr.mu1Hat = 0) :
    0 ≤ ddot (dpUpdate realFns pr L e epsP p0 rho dt).stress
      (jaumannRotated L e dt + strainInc L dt - (dpUpdate realFns pr L e epsP p0 rho dt).epsE) := by
  have hK := h.bulk
  have hG := h.shear
  have hm := dpTrial_mean realFns pr L e epsP p0 dt
  have hs := dpTrial_sTr realFns pr L e epsP p0 dt
  have hpT : (dpTrial realFns pr L e epsP p0 dt).pTr = pr.bulk * (dpTrial realFns pr L e epsP p0 dt).epsETr.trace + p0 := rfl
  have hyf : (dpTrial realFns pr L e epsP p0 dt).yf = (dpTrial realFns pr L e epsP p0 dt).sqrtJ2 -
      pr.mu1 * (dpTrial realFns pr L e epsP p0 dt).pTr - pr.mu2 * (pr.c0 + pr.H * epsP) := rfl
  have hsq : 0 < (dpTrial realFns pr L e epsP p0 dt).sqrtJ2 := by
    change 0 < Real.sqrt (max (J2dev (dpTrial realFns pr L e epsP p0 dt).sTr) (1 / 10 ^ 12))
    exact Real.sqrt_pos.mpr (lt_max_of_lt_right (by norm_num))
  have hetr : jaumannRotated L e dt + strainInc L dt = (dpTrial realFns pr L e epsP p0 dt).epsETr := by
    rw [← jaumannRotated_eq, ← strainInc_eq]; rfl
  rw [hetr]
  unfold dpUpdate at hp ⊢
  simp only at hp ⊢
  set t := dpTrial realFns pr L e epsP p0 dt
  have het : t.epsETr = (1 / (2 * pr.shear)) • t.sTr + isoT (1 / 3 * ((t.pTr - p0) / pr.bulk)) := by
    rw [hs, smul_smul, show 1 / (2 * pr.shear) * (2 * pr.shear) = 1 by field_simp, one_smul, hpT, add_sub_cancel_right, mul_div_cancel_left₀ _ hK.ne']
    have := dev_add_mean t.epsETr
    rw [meanStress_trace] at this
    rw [show 1 / 3 * t.epsETr.trace = t.epsETr.trace / 3 by ring]
    exact this.symm
  have hms : ∀ c : ℝ, meanStress (c • t.sTr) = 0 := fun c => by rw [meanStress_smul, hm, mul_zero]
  by_cases hr : rho ≥ pr.rho0
  swap
  · rw [if_neg hr]
    simp [ddot]
  rw [if_pos hr] at hp ⊢
  by_cases hy : t.yf > 0
  swap
  · rw [if_neg hy, dpElastic, sub_self]
    simp [ddot]
  rw [if_pos hy] at hp ⊢
  have hmu : 0 < pr.mu1 := lt_of_lt_of_le (by norm_num) h.mu1
  have hden : 0 < pr.shear + pr.bulk * pr.mu1 * pr.mu1Hat + pr.H * pr.mu2 * pr.mu2 := by
    have := h.hat
    rw [h.H, zero_mul, zero_mul, add_zero]; positivity
  have hpm : 0 ≤ dpMulti pr t := div_nonneg hy.le hden.le
  by_cases ha : t.sqrtJ2 - pr.shear * dpMulti pr t < 0
  · -- apex
    rw [if_pos ha] at hp ⊢
    simp only [dpApex]
    have hN : pr.mu1 * t.pTr + pr.mu2 * pr.c0 ≤ 0 := by
      rw [dpMulti] at ha
      have h1 : t.sqrtJ2 * (pr.shear + pr.bulk * pr.mu1 * pr.mu1Hat + pr.H * pr.mu2 * pr.mu2) < pr.shear * t.yf := by
        have := mul_lt_mul_of_pos_right ha hden
        rw [zero_mul, sub_mul, mul_assoc pr.shear (t.yf / _), div_mul_cancel₀ _ hden.ne'] at this
        linarith
      rw [h.H] at h1 hyf
      rw [hyf] at h1
      have h2 : 0 ≤ t.sqrtJ2 * (pr.bulk * pr.mu1 * pr.mu1Hat) := by have := h.hat; positivity
      by_contra hc
      rw [not_le] at hc
      nlinarith [mul_pos hG hc]
    simp only [h.H, zero_mul, sub_zero, add_zero]
    rw [max_eq_left h.stiff]
    set D := (pr.mu1 * t.pTr + pr.mu2 * pr.c0) / (pr.bulk * pr.mu1) with hD
    have hD0 : D ≤ 0 := div_nonpos_of_nonpos_of_nonneg hN (by positivity)
    have hpa : t.pTr - pr.bulk * D = -(pr.mu2 * pr.c0 / pr.mu1) := by
      rw [hD]; field_simp; ring
    have hpa0 : t.pTr - pr.bulk * D ≤ 0 := by
      rw [hpa, neg_nonpos]
      have := h.mu2
      have := h.c0
      positivity
    rw [het]
    have e1 : (1 / (2 * pr.shear)) • t.sTr + isoT (1 / 3 * ((t.pTr - p0) / pr.bulk)) - isoT (1 / 3 * ((t.pTr - pr.bulk * D - p0) / pr.bulk)) =
        (1 / (2 * pr.shear)) • t.sTr + isoT (1 / 3 * D) := by
      rw [add_sub_assoc]
      congr 1
      rw [isoT, isoT, isoT, ← sub_smul]
      congr 1
      field_simp; ring
    rw [e1, show isoT (t.pTr - pr.bulk * D) = (0 : ℝ) • t.sTr + isoT (t.pTr - pr.bulk * D) by rw [zero_smul, zero_add],
      ddot_parts (hms 0) (hms _), zero_smul]
    have : ddot (0 : Mat3 ℝ) ((1 / (2 * pr.shear)) • t.sTr) = 0 := by simp [ddot]
    rw [this]
    nlinarith [mul_nonneg_of_nonpos_of_nonpos hpa0 hD0]
  · -- cone
    rw [if_neg ha] at hp ⊢
    rw [not_lt] at ha
    simp only [dpCone] at hp ⊢
    set pm := dpMulti pr t
    set r := 1 - pr.shear * pm / t.sqrtJ2 with hr'
    have hr0 : 0 ≤ r := by
      rw [hr', sub_nonneg, div_le_one hsq]; linarith
    have hr1 : r ≤ 1 := by
      have : 0 ≤ pr.shear * pm / t.sqrtJ2 := by positivity
      linarith
    rw [mean_add_iso (hms r)] at hp
    set pC := t.pTr - pr.bulk * pm * pr.mu1Hat with hpC
    rw [het]
    have e1 : (1 / (2 * pr.shear)) • t.sTr + isoT (1 / 3 * ((t.pTr - p0) / pr.bulk)) -
        ((1 / (2 * pr.shear)) • (r • t.sTr) + isoT (1 / 3 * ((pC - p0) / pr.bulk))) =
        ((1 - r) / (2 * pr.shear)) • t.sTr + isoT (1 / 3 * (pm * pr.mu1Hat)) := by
      have h1 : isoT (1 / 3 * ((t.pTr - p0) / pr.bulk)) = isoT (1 / 3 * ((pC - p0) / pr.bulk)) + isoT (1 / 3 * (pm * pr.mu1Hat)) := by
        rw [isoT, isoT, isoT, ← add_smul]
        congr 1
        rw [hpC]; field_simp; ring
      have h2 : (1 / (2 * pr.shear)) • t.sTr = (1 / (2 * pr.shear)) • (r • t.sTr) + ((1 - r) / (2 * pr.shear)) • t.sTr := by
        rw [smul_smul, ← add_smul]
        congr 1
        field_simp; ring
      rw [h1, h2]; abel
    rw [e1, ddot_parts (hms _) (hms _), ddot_smul]
    have hss := ddot_self_nonneg t.sTr
    have h1 : 0 ≤ r * ((1 - r) / (2 * pr.shear)) * ddot t.sTr t.sTr := by
      have : 0 ≤ 1 - r := by linarith
      positivity
    have h2 : 0 ≤ 3 * pC * (1 / 3 * (pm * pr.mu1Hat)) := by
      rcases hp with hp | hp
      · have := h.hat
        positivity
      · rw [hp]; simp
    linarith

/-- **C146**, Drucker-Prager: over any history without spin of a point that stays connected, the work put in is at least the increase of the
stored energy. -/
theorem dp_path_dissipates_partial {pr : DPParams ℝ} (h : pr.Frictional) (p0 : ℝ) {dt : ℝ} (hdt : dt ≠ 0) (s : DPResult ℝ)
    (hs : List (Mat3 ℝ × ℝ))
    (hcon : Along (fun h s => h.1.IsSymm ∧ pr.rho0 ≤ h.2 ∧
      (0 ≤ meanStress (dpUpdate realFns pr (dt⁻¹ • h.1) s.epsE s.epsP p0 h.2 dt).stress ∨ pr.mu1Hat = 0))
      (fun h s => dpUpdate realFns pr (dt⁻¹ • h.1) s.epsE s.epsP p0 h.2 dt) s hs) :
    let upd := fun (h : Mat3 ℝ × ℝ) (s : DPResult ℝ) => dpUpdate realFns pr (dt⁻¹ • h.1) s.epsE s.epsP p0 h.2 dt
    elasticEnergy pr.bulk pr.shear p0 (pathEnd upd s hs).epsE - elasticEnergy pr.bulk pr.shear p0 s.epsE ≤
      endWork DPResult.stress Prod.fst upd s hs := by
  intro upd
  induction hs generalizing s with
  | nil => simp [pathEnd, endWork]
  | cons a hs ih =>
    obtain ⟨⟨hsym, hr, hp⟩, h2⟩ := hcon
    have i := ih _ h2
    have d := dp_step_dissipates_partial h (dt⁻¹ • a.1) s.epsE s.epsP p0 a.2 dt hp
    rw [jaumannRotated_strained hsym, strainInc_strained hsym hdt] at d
    have hσ := (dp_stress_strain_consistent realFns pr h.bulk.ne' h.shear.ne' (dt⁻¹ • a.1) s.epsE s.epsP p0 a.2 dt).1 hr
    change elasticEnergy pr.bulk pr.shear p0 (pathEnd upd (upd a s) hs).epsE - _ ≤ ddot (upd a s).stress a.1 + endWork DPResult.stress Prod.fst upd (upd a s) hs
    change 0 ≤ ddot (upd a s).stress (s.epsE + a.1 - (upd a s).epsE) at d
    set s' := upd a s
    have hσ' : s'.stress = hooke (pr.bulk - 2 / 3 * pr.shear) pr.shear s'.epsE + isoT p0 := by
      rw [dp_hooke]; exact hσ
    have conv : elasticEnergy pr.bulk pr.shear p0 s'.epsE - elasticEnergy pr.bulk pr.shear p0 s.epsE ≤ ddot s'.stress (s'.epsE - s.epsE) := by
      have := hooke_nonneg h.bulk h.shear (s'.epsE - s.epsE)
      rw [hσ']
      have e : ddot (hooke (pr.bulk - 2 / 3 * pr.shear) pr.shear s'.epsE + isoT p0) (s'.epsE - s.epsE) -
          (elasticEnergy pr.bulk pr.shear p0 s'.epsE - elasticEnergy pr.bulk pr.shear p0 s.epsE) =
          1 / 2 * ddot (hooke (pr.bulk - 2 / 3 * pr.shear) pr.shear (s'.epsE - s.epsE)) (s'.epsE - s.epsE) := by
        simp only [elasticEnergy, ddot, hooke, trace3, isoT_apply, Matrix.add_apply, Matrix.sub_apply, Fin.sum_univ_three]
        simp
        ring
      linarith
    have e2 : ddot s'.stress a.1 = ddot s'.stress (s'.epsE - s.epsE) + ddot s'.stress (s.epsE + a.1 - s'.epsE) := by
      rw [← ddot_add_right]; congr 1; abel
    rw [e2]
    linarith

namespace Spec

/-- A cohesive material with the slope `b` of its plastic potential. -/
def cohesive (b : ℝ) : DPParams ℝ := { bulk := 1, shear := 1, mu1 := 1, mu2 := 1, c0 := 10, mu1Hat := b, H := 0, rho0 := 1 }

/-- Shear with extension. -/
noncomputable def tearing : Mat3 ℝ := (4 : ℝ) • shearX + isoT (-1)

end Spec

theorem tearing_symm : tearing.IsSymm := (shearX_symm.smul 4).add (isoT_symm _)

theorem cohesive_frictional {b : ℝ} (hb : 0 ≤ b) : (cohesive b).Frictional := by
  constructor <;> norm_num [cohesive, hb]

theorem tearing_strain : jaumannRotated tearing 0 1 + strainInc tearing 1 = tearing := by
  have h1 : (1 : ℝ)⁻¹ • tearing = tearing := by rw [inv_one, one_smul]
  have a := jaumannRotated_strained tearing_symm 0 1
  have b := strainInc_strained tearing_symm (one_ne_zero (α := ℝ))
  rw [h1] at a b
  rw [a, b, zero_add]

/-- The trial state of the tearing step: the material yields. -/
theorem tearing_trial (b : ℝ) :
    (dpTrial realFns (cohesive b) tearing 0 0 0 1).sTr = (8 : ℝ) • shearX ∧
    (dpTrial realFns (cohesive b) tearing 0 0 0 1).pTr = -3 ∧
    (dpTrial realFns (cohesive b) tearing 0 0 0 1).sqrtJ2 = 8 ∧
    (dpTrial realFns (cohesive b) tearing 0 0 0 1).yf = 1 := by
  have hmean : meanStress ((4 : ℝ) • shearX) = 0 := shearX_mean 4
  have ht : (dpTrial realFns (cohesive b) tearing 0 0 0 1).epsETr = tearing := by
    refine Eq.trans ?_ tearing_strain
    rw [← jaumannRotated_eq, ← strainInc_eq]; rfl
  have hs : (dpTrial realFns (cohesive b) tearing 0 0 0 1).sTr = (8 : ℝ) • shearX := by
    rw [dpTrial_sTr, ht, tearing, dev_add_iso hmean, smul_smul]; norm_num [cohesive]
  have hpT : (dpTrial realFns (cohesive b) tearing 0 0 0 1).pTr = -3 := by
    change (cohesive b).bulk * (dpTrial realFns (cohesive b) tearing 0 0 0 1).epsETr.trace + 0 = -3
    have : tearing.trace = -3 := by
      have := mean_add_iso hmean (-1)
      rw [← tearing, meanStress_trace] at this
      linarith
    rw [ht, this]; norm_num [cohesive]
  have hq : (dpTrial realFns (cohesive b) tearing 0 0 0 1).sqrtJ2 = 8 := by
    change Real.sqrt (max (J2dev (dpTrial realFns (cohesive b) tearing 0 0 0 1).sTr) (1 / 10 ^ 12)) = 8
    have : J2dev ((8 : ℝ) • shearX) = 8 ^ 2 := by
      rw [J2dev_eq]
      simp [ddot, shearX, Fin.sum_univ_three]
      norm_num
    rw [hs, this, max_eq_left (by norm_num)]
    exact Real.sqrt_sq (by norm_num)
  refine ⟨hs, hpT, hq, ?_⟩
  change (dpTrial realFns (cohesive b) tearing 0 0 0 1).sqrtJ2 - (cohesive b).mu1 * (dpTrial realFns (cohesive b) tearing 0 0 0 1).pTr -
    (cohesive b).mu2 * ((cohesive b).c0 + (cohesive b).H * 0) = 1
  rw [hq, hpT]; norm_num [cohesive]

/-- **C146**, Drucker-Prager, refuted for cohesive dilatant material under tension: the plastic strain of this step gives off energy. -/
theorem dp_tension_gains : ∃ (pr : DPParams ℝ) (L : Mat3 ℝ), pr.Frictional ∧
    ddot (dpUpdate realFns pr L 0 0 0 1 1).stress (jaumannRotated L 0 1 + strainInc L 1 - (dpUpdate realFns pr L 0 0 0 1 1).epsE) < 0 := by
  refine ⟨cohesive 3, tearing, cohesive_frictional (by norm_num), ?_⟩
  obtain ⟨hs, hpT, hq, hyf⟩ := tearing_trial 3
  have hpm : dpMulti (cohesive 3) (dpTrial realFns (cohesive 3) tearing 0 0 0 1) = 1 / 4 := by
    rw [dpMulti, hyf]; norm_num [cohesive]
  rw [tearing_strain]
  unfold dpUpdate
  simp only
  rw [if_pos (show (1 : ℝ) ≥ (cohesive 3).rho0 from le_refl _), if_pos (by rw [hyf]; norm_num),
    if_neg (by rw [hpm, hq]; norm_num [cohesive]), dpCone]
  simp only [hpm, hq, hpT, hs]
  have e1 : tearing - ((1 / (2 * (cohesive 3).shear)) • (1 - (cohesive 3).shear * (1 / 4) / 8) • (8 : ℝ) • shearX +
      isoT (1 / 3 * ((-3 - (cohesive 3).bulk * (1 / 4) * (cohesive 3).mu1Hat - 0) / (cohesive 3).bulk))) =
      (1 / 8 : ℝ) • shearX + isoT (1 / 4) := by
    rw [tearing]
    ext i j
    simp only [Matrix.sub_apply, Matrix.add_apply, Matrix.smul_apply, isoT_apply, smul_eq_mul, cohesive]
    split_ifs <;> ring
  rw [e1, smul_smul, ddot_parts (shearX_mean _) (shearX_mean _), ddot_smul]
  have : ddot shearX shearX = 2 := by
    simp [ddot, shearX, Fin.sum_univ_three]
    norm_num
  rw [this]
  norm_num [cohesive]

/-- A yielding step that meets the conditions of `dp_step_dissipates_partial`. -/
example : (cohesive 0).Frictional ∧ 0 < (dpTrial realFns (cohesive 0) tearing 0 0 0 1).yf ∧
    0 ≤ ddot (dpUpdate realFns (cohesive 0) tearing 0 0 0 1 1).stress
      (jaumannRotated tearing 0 1 + strainInc tearing 1 - (dpUpdate realFns (cohesive 0) tearing 0 0 0 1 1).epsE) :=
  ⟨cohesive_frictional le_rfl, by rw [(tearing_trial 0).2.2.2]; norm_num,
    dp_step_dissipates_partial (cohesive_frictional le_rfl) _ _ _ _ _ _ (Or.inr rfl)⟩

/-- A history that meets the conditions of `dp_path_dissipates_partial`: tear twice, then press back. -/
example (s : DPResult ℝ) : Along (fun h s => h.1.IsSymm ∧ (cohesive 0).rho0 ≤ h.2 ∧
      (0 ≤ meanStress (dpUpdate realFns (cohesive 0) ((1 : ℝ)⁻¹ • h.1) s.epsE s.epsP 0 h.2 1).stress ∨ (cohesive 0).mu1Hat = 0))
      (fun h s => dpUpdate realFns (cohesive 0) ((1 : ℝ)⁻¹ • h.1) s.epsE s.epsP 0 h.2 1) s
      [(tearing, 1), (tearing, 1), (-tearing, 2)] :=
  ⟨⟨tearing_symm, le_refl _, Or.inr rfl⟩, ⟨tearing_symm, le_refl _, Or.inr rfl⟩,
    ⟨tearing_symm.neg, by norm_num [cohesive], Or.inr rfl⟩, trivial⟩

end Hydrax
