import Verif.Model.LawTable
import Verif.Props.CamClay
import Verif.Lemmas.RealFns
import Mathlib.Topology.Instances.Matrix
import Mathlib.Topology.Order.OrderClosed
import Mathlib.Analysis.SpecialFunctions.Pow.Continuity
import Mathlib.Analysis.SpecialFunctions.Pow.Real
import Mathlib.Analysis.SpecialFunctions.Sqrt

/-!
# C148: the stress changes continuously with the motion
-/

set_option linter.unusedSectionVars false

namespace Hydrax

open Filter Topology

section helpers
variable {X : Type*} [TopologicalSpace X]

theorem cont_isoT {f : X → ℝ} (hf : Continuous f) : Continuous fun x => isoT (f x) :=
  hf.smul continuous_const

theorem cont_dcontr {A B : X → Mat3 ℝ} (hA : Continuous A) (hB : Continuous B) :
    Continuous fun x => dcontr (A x) (B x) :=
  continuous_finsetSum _ fun i _ => continuous_finsetSum _ fun j _ => (hA.matrix_elem i j).mul (hB.matrix_elem i j)

theorem cont_csmul (c : ℝ) {M : X → Mat3 ℝ} (hM : Continuous M) : Continuous fun x => c • M x := hM.const_smul c

theorem cont_sym {L : X → Mat3 ℝ} (hL : Continuous L) : Continuous fun x => symTensor (L x) :=
  cont_csmul (1 / 2) (hL.add hL.matrix_transpose)

theorem cont_spin {L : X → Mat3 ℝ} (hL : Continuous L) : Continuous fun x => spinTensor (L x) :=
  cont_csmul (1 / 2) (hL.sub hL.matrix_transpose)

theorem cont_jaumann {T W : X → Mat3 ℝ} (hT : Continuous T) (hW : Continuous W) (dt : ℝ) :
    Continuous fun x => jaumann (T x) (W x) dt :=
  hT.add (cont_csmul dt ((hW.matrix_mul hT).sub (hT.matrix_mul hW)))

theorem cont_devV {e : X → Mat3 ℝ} {v : X → ℝ} (he : Continuous e) (hv : Continuous v) :
    Continuous fun x => devStrainV (e x) (v x) :=
  he.sub ((hv.div_const 3).smul continuous_const)

end helpers

/-- Linear elastic stress depends continuously on velocity gradient, stress and time step. -/
theorem elastic_continuous (E nu : ℝ) : Continuous fun x : Mat3 ℝ × Mat3 ℝ × ℝ => elasticStress E nu x.1 x.2.1 x.2.2 := by
  have hL : Continuous fun x : Mat3 ℝ × Mat3 ℝ × ℝ => x.1 := continuous_fst
  have hd : Continuous fun x : Mat3 ℝ × Mat3 ℝ × ℝ => x.2.2 • (1 / 2 : ℝ) • (x.1 + x.1.transpose) :=
    (continuous_snd.comp continuous_snd).smul (cont_csmul (1 / 2) (hL.add hL.matrix_transpose))
  exact ((continuous_fst.comp continuous_snd).add (cont_isoT (continuous_const.mul hd.matrix_trace))).add (cont_csmul (2 * shearModulus E nu) hd)

theorem fluid_continuousAt (pr : FluidParams ℝ) (x : Mat3 ℝ × ℝ × ℝ × ℝ) (h1 : x.2.2.1 ≠ 0) (h2 : x.2.2.2 ≠ 0) :
    ContinuousAt (fun x : Mat3 ℝ × ℝ × ℝ × ℝ => fluidStress realFns pr x.1 x.2.1 x.2.2.1 x.2.2.2) x := by
  have hL : Continuous fun x : Mat3 ℝ × ℝ × ℝ × ℝ => x.1 := continuous_fst
  have hs : Continuous fun x : Mat3 ℝ × ℝ × ℝ × ℝ => (1 / 2 : ℝ) • (x.1 + x.1.transpose) :=
    cont_csmul (1 / 2) (hL.add hL.matrix_transpose)
  have hdev : Continuous fun x : Mat3 ℝ × ℝ × ℝ × ℝ => (1 / 2 : ℝ) • (x.1 + x.1.transpose) -
      (1 / 3 * ((1 / 2 : ℝ) • (x.1 + x.1.transpose)).trace) • (1 : Mat3 ℝ) :=
    hs.sub ((continuous_const.mul hs.matrix_trace).smul continuous_const)
  have hr : ContinuousAt (fun x : Mat3 ℝ × ℝ × ℝ × ℝ => max (x.2.1 / x.2.2.1 / x.2.2.2) (1 / 10 ^ 6 : ℝ)) x := by
    refine Filter.Tendsto.max (ContinuousAt.div (ContinuousAt.div ?_ ?_ h1) ?_ h2) continuousAt_const
    · exact (continuous_fst.comp continuous_snd).continuousAt
    · exact (continuous_fst.comp (continuous_snd.comp continuous_snd)).continuousAt
    · exact (continuous_snd.comp (continuous_snd.comp continuous_snd)).continuousAt
  have hp : ContinuousAt (fun x : Mat3 ℝ × ℝ × ℝ × ℝ => fluidPressure realFns pr (x.2.1 / x.2.2.1) x.2.2.2) x := by
    refine Filter.Tendsto.max (continuousAt_const.mul (ContinuousAt.sub (ContinuousAt.rpow_const hr (Or.inl ?_)) continuousAt_const))
      continuousAt_const
    exact ne_of_gt (lt_of_lt_of_le (by norm_num) (le_max_right _ _))
  exact (ContinuousAt.smul hp.neg continuousAt_const).add (cont_csmul (2 * pr.viscosity) hdev).continuousAt

/-- Fluid stress depends continuously on velocity gradient, mass, volume and reference density as long as the latter two are not zero. -/
theorem fluid_continuous (pr : FluidParams ℝ) :
    ContinuousOn (fun x : Mat3 ℝ × ℝ × ℝ × ℝ => fluidStress realFns pr x.1 x.2.1 x.2.2.1 x.2.2.2)
      {x | x.2.2.1 ≠ 0 ∧ x.2.2.2 ≠ 0} := fun x h => (fluid_continuousAt pr x h.1 h.2).continuousWithinAt

/-- The trial state of Drucker-Prager depends continuously on its inputs. -/
theorem cont_dpTrial (pr : DPParams ℝ) (dt : ℝ) :
    Continuous (fun x : Mat3 ℝ × Mat3 ℝ × ℝ × ℝ => (dpTrial realFns pr x.1 x.2.1 x.2.2.1 x.2.2.2 dt).epsETr) ∧
    Continuous (fun x : Mat3 ℝ × Mat3 ℝ × ℝ × ℝ => (dpTrial realFns pr x.1 x.2.1 x.2.2.1 x.2.2.2 dt).pTr) ∧
    Continuous (fun x : Mat3 ℝ × Mat3 ℝ × ℝ × ℝ => (dpTrial realFns pr x.1 x.2.1 x.2.2.1 x.2.2.2 dt).sTr) ∧
    Continuous (fun x : Mat3 ℝ × Mat3 ℝ × ℝ × ℝ => (dpTrial realFns pr x.1 x.2.1 x.2.2.1 x.2.2.2 dt).sqrtJ2) ∧
    Continuous (fun x : Mat3 ℝ × Mat3 ℝ × ℝ × ℝ => (dpTrial realFns pr x.1 x.2.1 x.2.2.1 x.2.2.2 dt).yf) := by
  have hL : Continuous fun x : Mat3 ℝ × Mat3 ℝ × ℝ × ℝ => x.1 := continuous_fst
  have he : Continuous fun x : Mat3 ℝ × Mat3 ℝ × ℝ × ℝ => x.2.1 := continuous_fst.comp continuous_snd
  have ha : Continuous fun x : Mat3 ℝ × Mat3 ℝ × ℝ × ℝ => x.2.2.1 := continuous_fst.comp (continuous_snd.comp continuous_snd)
  have h0 : Continuous fun x : Mat3 ℝ × Mat3 ℝ × ℝ × ℝ => x.2.2.2 := continuous_snd.comp (continuous_snd.comp continuous_snd)
  have h1 : Continuous (fun x : Mat3 ℝ × Mat3 ℝ × ℝ × ℝ => (dpTrial realFns pr x.1 x.2.1 x.2.2.1 x.2.2.2 dt).epsETr) :=
    (cont_jaumann he (cont_spin hL) dt).add ((cont_sym hL).const_smul dt)
  have h2 : Continuous (fun x : Mat3 ℝ × Mat3 ℝ × ℝ × ℝ => (dpTrial realFns pr x.1 x.2.1 x.2.2.1 x.2.2.2 dt).pTr) :=
    (continuous_const.mul h1.matrix_trace).add h0
  have h3 : Continuous (fun x : Mat3 ℝ × Mat3 ℝ × ℝ × ℝ => (dpTrial realFns pr x.1 x.2.1 x.2.2.1 x.2.2.2 dt).sTr) :=
    (cont_devV h1 h1.matrix_trace).const_smul (2 * pr.shear)
  have h4 : Continuous (fun x : Mat3 ℝ × Mat3 ℝ × ℝ × ℝ => (dpTrial realFns pr x.1 x.2.1 x.2.2.1 x.2.2.2 dt).sqrtJ2) :=
    Real.continuous_sqrt.comp ((continuous_const.mul (cont_dcontr h3 h3)).max continuous_const)
  refine ⟨h1, h2, h3, h4, ?_⟩
  exact (h4.sub (continuous_const.mul h2)).sub (continuous_const.mul (continuous_const.add (continuous_const.mul ha)))

theorem dpTrial_sqrtJ2_pos_any (pr : DPParams ℝ) (L e : Mat3 ℝ) (a p0 dt : ℝ) : 0 < (dpTrial realFns pr L e a p0 dt).sqrtJ2 :=
  Real.sqrt_pos.2 (lt_of_lt_of_le (by norm_num) (le_max_right _ _))

/-- Without dilatancy and hardening the Drucker-Prager stress depends continuously on velocity gradient, elastic strain and
accumulated plastic strain and reference pressure: there is no jump at the onset of yielding or between cone and apex. -/
theorem dp_continuous_partial (pr : DPParams ℝ) (hG : 0 < pr.shear) (hhat : pr.mu1Hat = 0) (hH : pr.H = 0)
    (rho dt : ℝ) :
    Continuous fun x : Mat3 ℝ × Mat3 ℝ × ℝ × ℝ => (dpUpdate realFns pr x.1 x.2.1 x.2.2.1 x.2.2.2 rho dt).stress := by
  obtain ⟨h1, h2, h3, h4, h5⟩ := cont_dpTrial pr dt
  by_cases hr : rho ≥ pr.rho0
  swap
  · simp only [dpUpdate, if_neg hr]; exact continuous_const
  have hpm : Continuous fun x : Mat3 ℝ × Mat3 ℝ × ℝ × ℝ => dpMulti pr (dpTrial realFns pr x.1 x.2.1 x.2.2.1 x.2.2.2 dt) :=
    h5.div_const _
  have hco : Continuous fun x : Mat3 ℝ × Mat3 ℝ × ℝ × ℝ =>
      (dpCone pr (dpTrial realFns pr x.1 x.2.1 x.2.2.1 x.2.2.2 dt) x.2.2.1 x.2.2.2).stress := by
    refine ((Continuous.smul (continuous_const.sub ((continuous_const.mul hpm).div h4 fun x => ?_)) h3)).add
      (cont_isoT (h2.sub ((continuous_const.mul hpm).mul continuous_const)))
    exact (dpTrial_sqrtJ2_pos_any ..).ne'
  have hap : Continuous fun x : Mat3 ℝ × Mat3 ℝ × ℝ × ℝ =>
      (dpApex pr (dpTrial realFns pr x.1 x.2.1 x.2.2.1 x.2.2.2 dt) x.2.2.1 x.2.2.2).stress := by
    refine cont_isoT (h2.sub (continuous_const.mul (Continuous.div_const ?_ _)))
    exact (continuous_const.mul h2).add (continuous_const.mul (continuous_const.add
      (continuous_const.mul (continuous_fst.comp (continuous_snd.comp continuous_snd)))))
  have hel : Continuous fun x : Mat3 ℝ × Mat3 ℝ × ℝ × ℝ =>
      (dpElastic (dpTrial realFns pr x.1 x.2.1 x.2.2.1 x.2.2.2 dt) x.2.2.1).stress := h3.add (cont_isoT h2)
  have hin : Continuous fun x : Mat3 ℝ × Mat3 ℝ × ℝ × ℝ => if (0 : ℝ) ≤ (dpTrial realFns pr x.1 x.2.1 x.2.2.1 x.2.2.2 dt).sqrtJ2 - pr.shear * dpMulti pr (dpTrial realFns pr x.1 x.2.1 x.2.2.1 x.2.2.2 dt) then
      (dpCone pr (dpTrial realFns pr x.1 x.2.1 x.2.2.1 x.2.2.2 dt) x.2.2.1 x.2.2.2).stress else (dpApex pr (dpTrial realFns pr x.1 x.2.1 x.2.2.1 x.2.2.2 dt) x.2.2.1 x.2.2.2).stress := by
   refine Continuous.if_le hco hap continuous_const (h4.sub (continuous_const.mul hpm)) (fun x hx => ?_)
   · 
    have hy : dpMulti pr (dpTrial realFns pr x.1 x.2.1 x.2.2.1 x.2.2.2 dt) =
        (dpTrial realFns pr x.1 x.2.1 x.2.2.1 x.2.2.2 dt).yf / pr.shear := by simp [dpMulti, hhat, hH]
    have hz : pr.shear * dpMulti pr (dpTrial realFns pr x.1 x.2.1 x.2.2.1 x.2.2.2 dt) =
        (dpTrial realFns pr x.1 x.2.1 x.2.2.1 x.2.2.2 dt).sqrtJ2 := by linarith
    have hw : (dpTrial realFns pr x.1 x.2.1 x.2.2.1 x.2.2.2 dt).yf = (dpTrial realFns pr x.1 x.2.1 x.2.2.1 x.2.2.2 dt).sqrtJ2 := by
      rw [← hz, hy]; field_simp
    have hv : pr.mu1 * (dpTrial realFns pr x.1 x.2.1 x.2.2.1 x.2.2.2 dt).pTr + pr.mu2 * (pr.c0 + pr.H * x.2.2.1) = 0 := by
      have : (dpTrial realFns pr x.1 x.2.1 x.2.2.1 x.2.2.2 dt).yf = (dpTrial realFns pr x.1 x.2.1 x.2.2.1 x.2.2.2 dt).sqrtJ2 -
        pr.mu1 * (dpTrial realFns pr x.1 x.2.1 x.2.2.1 x.2.2.2 dt).pTr - pr.mu2 * (pr.c0 + pr.H * x.2.2.1) := rfl
      linarith
    have hs := (dpTrial_sqrtJ2_pos_any pr x.1 x.2.1 x.2.2.1 x.2.2.2 dt).ne'
    simp only [dpCone, dpApex, hv, hz, hhat, div_self hs]
    simp
  have hout : Continuous fun x : Mat3 ℝ × Mat3 ℝ × ℝ × ℝ => if (dpTrial realFns pr x.1 x.2.1 x.2.2.1 x.2.2.2 dt).yf ≤ 0 then (dpElastic (dpTrial realFns pr x.1 x.2.1 x.2.2.1 x.2.2.2 dt) x.2.2.1).stress else
      if (0 : ℝ) ≤ (dpTrial realFns pr x.1 x.2.1 x.2.2.1 x.2.2.2 dt).sqrtJ2 - pr.shear * dpMulti pr (dpTrial realFns pr x.1 x.2.1 x.2.2.1 x.2.2.2 dt) then
      (dpCone pr (dpTrial realFns pr x.1 x.2.1 x.2.2.1 x.2.2.2 dt) x.2.2.1 x.2.2.2).stress else (dpApex pr (dpTrial realFns pr x.1 x.2.1 x.2.2.1 x.2.2.2 dt) x.2.2.1 x.2.2.2).stress := by
    refine Continuous.if_le hel hin h5 continuous_const (fun x hx => ?_)
    have h0 : dpMulti pr (dpTrial realFns pr x.1 x.2.1 x.2.2.1 x.2.2.2 dt) = 0 := by simp [dpMulti, hx]
    have hs := (dpTrial_sqrtJ2_pos_any pr x.1 x.2.1 x.2.2.1 x.2.2.2 dt)
    rw [if_pos (by rw [h0]; simpa using hs.le)]
    simp [dpElastic, dpCone, h0]
  refine hout.congr fun x => ?_
  simp only [dpUpdate, if_pos hr]
  by_cases hy : (dpTrial realFns pr x.1 x.2.1 x.2.2.1 x.2.2.2 dt).yf ≤ 0
  · rw [if_pos hy, if_neg (not_lt.2 hy)]
  · rw [if_neg hy, if_pos (not_le.1 hy)]
    split_ifs with a b b <;> first | rfl | (exfalso; linarith)

example := dp_continuous_partial ⟨10, 4, 1 / 2, 1, 1, 0, 0, 1⟩ (by norm_num) rfl rfl 2 (1 / 100)

theorem muI_continuousAt (pr : MuIParams ℝ) (ha : pr.alpha ≠ 0) (hI : 0 < pr.I0) (hrho : 0 < pr.rhoP) (hd : 0 ≤ pr.dP)
    (hp : 0 < pr.pMin) (x : Mat3 ℝ × ℝ × ℝ × ℝ) (h1 : x.2.2.1 ≠ 0) (h2 : x.2.2.2 ≠ 0) (h3 : x.2.1 / x.2.2.1 / x.2.2.2 ≠ 1) :
    ContinuousAt (fun x : Mat3 ℝ × ℝ × ℝ × ℝ => muIStress realFns pr x.1 x.2.1 x.2.2.1 x.2.2.2) x := by
  have hL : Continuous fun x : Mat3 ℝ × ℝ × ℝ × ℝ => x.1 := continuous_fst
  have hs : Continuous fun x : Mat3 ℝ × ℝ × ℝ × ℝ => (1 / 2 : ℝ) • (x.1 + x.1.transpose) :=
    cont_csmul (1 / 2) (hL.add hL.matrix_transpose)
  have hdev : Continuous fun x : Mat3 ℝ × ℝ × ℝ × ℝ => (1 / 2 : ℝ) • (x.1 + x.1.transpose) -
      (((1 / 2 : ℝ) • (x.1 + x.1.transpose)).trace / 3) • (1 : Mat3 ℝ) :=
    hs.sub ((hs.matrix_trace.div_const _).smul continuous_const)
  have hr : ContinuousAt (fun x : Mat3 ℝ × ℝ × ℝ × ℝ => x.2.1 / x.2.2.1 / x.2.2.2) x := by
    refine (ContinuousAt.div (ContinuousAt.div ?_ ?_ h1) ?_ h2)
    · exact (continuous_fst.comp continuous_snd).continuousAt
    · exact (continuous_fst.comp (continuous_snd.comp continuous_snd)).continuousAt
    · exact (continuous_snd.comp (continuous_snd.comp continuous_snd)).continuousAt
  rcases lt_or_gt_of_ne h3 with h | h
  · refine (continuousAt_const (y := (0 : Mat3 ℝ))).congr ?_
    filter_upwards [hr.eventually (gt_mem_nhds h)] with y hy
    simp only [muIStress]
    rw [if_neg (not_lt.2 hy.le)]
  · have hgd : Continuous fun x : Mat3 ℝ × ℝ × ℝ × ℝ => shearRate realFns ((1 / 2 : ℝ) • (x.1 + x.1.transpose) -
      (((1 / 2 : ℝ) • (x.1 + x.1.transpose)).trace / 3) • (1 : Mat3 ℝ)) :=
      Real.continuous_sqrt.comp (continuous_const.mul (cont_dcontr hdev hdev))
    have hps : ContinuousAt (fun x : Mat3 ℝ × ℝ × ℝ × ℝ => max (pr.bulk * (x.2.1 / x.2.2.1 / x.2.2.2 - 1)) pr.pMin) x :=
      Filter.Tendsto.max (continuousAt_const.mul (hr.sub continuousAt_const)) continuousAt_const
    have hpp : 0 < max (pr.bulk * (x.2.1 / x.2.2.1 / x.2.2.2 - 1)) pr.pMin := lt_of_lt_of_le hp (le_max_right _ _)
    have hv : ContinuousAt (fun x : Mat3 ℝ × ℝ × ℝ × ℝ => muIViscosity realFns pr
        (max (pr.bulk * (x.2.1 / x.2.2.1 / x.2.2.2 - 1)) pr.pMin) (shearRate realFns ((1 / 2 : ℝ) • (x.1 + x.1.transpose) -
      (((1 / 2 : ℝ) • (x.1 + x.1.transpose)).trace / 3) • (1 : Mat3 ℝ)))) x := by
      refine ContinuousAt.add (ContinuousAt.div (continuousAt_const.mul hps) ?_ ?_) (ContinuousAt.div ?_ ?_ ?_)
      · exact Real.continuous_sqrt.continuousAt.comp ((hgd.continuousAt.pow 2).add continuousAt_const)
      · exact (Real.sqrt_pos.2 (by positivity)).ne'
      · exact (continuousAt_const.mul hps).mul continuousAt_const
      · exact (continuousAt_const.mul (Real.continuous_sqrt.continuousAt.comp (hps.div_const _))).add (continuousAt_const.mul hgd.continuousAt)
      · have h0 : 0 ≤ shearRate realFns ((1 / 2 : ℝ) • (x.1 + x.1.transpose) -
          (((1 / 2 : ℝ) • (x.1 + x.1.transpose)).trace / 3) • (1 : Mat3 ℝ)) := Real.sqrt_nonneg _
        have h1 : 0 < Real.sqrt (max (pr.bulk * (x.2.1 / x.2.2.1 / x.2.2.2 - 1)) pr.pMin / pr.rhoP) := Real.sqrt_pos.2 (by positivity)
        exact (add_pos_of_pos_of_nonneg (mul_pos hI h1) (mul_nonneg hd h0)).ne'
    refine ((ContinuousAt.smul hps (continuousAt_const (y := (1 : Mat3 ℝ)))).add (ContinuousAt.smul hv hdev.continuousAt)).congr ?_
    filter_upwards [hr.eventually (lt_mem_nhds h)] with y hy
    simp only [muIStress]
    rw [if_pos hy]
    rfl

/-- The stress of the mu(I) rheology depends continuously on velocity gradient, mass, volume and reference density
away from the reference density. -/
theorem muI_continuous_partial (pr : MuIParams ℝ) (ha : pr.alpha ≠ 0) (hI : 0 < pr.I0) (hrho : 0 < pr.rhoP) (hd : 0 ≤ pr.dP)
    (hp : 0 < pr.pMin) :
    ContinuousOn (fun x : Mat3 ℝ × ℝ × ℝ × ℝ => muIStress realFns pr x.1 x.2.1 x.2.2.1 x.2.2.2)
      {x | x.2.2.1 ≠ 0 ∧ x.2.2.2 ≠ 0 ∧ x.2.1 / x.2.2.1 / x.2.2.2 ≠ 1} :=
  fun x h => (muI_continuousAt pr ha hI hrho hd hp x h.1 h.2.1 h.2.2).continuousWithinAt

example := muI_continuous_partial ⟨1, 2, 1, 100, 2, 1 / 100, 1 / 10, 1⟩ (by norm_num) (by norm_num) (by norm_num) (by norm_num)
  (by norm_num)

theorem jump_right {f : ℝ → ℝ} {a c : ℝ} (h : ∀ x, a < x → c ≤ f x) (ha : f a < c) : ¬ ContinuousAt f a := fun hc =>
  absurd (ge_of_tendsto (hc.tendsto.mono_left (nhdsWithin_le_nhds (s := Set.Ioi a)))
    (Filter.eventually_of_mem self_mem_nhdsWithin h)) (not_le.2 ha)

theorem jump_left {f g : ℝ → ℝ} {a : ℝ} (h : ∀ x, x < a → f x = g x) (hg : ContinuousAt g a) (ha : f a ≠ g a) :
    ¬ ContinuousAt f a := by
  intro hc
  have h1 : Tendsto f (𝓝[<] a) (𝓝 (f a)) := hc.tendsto.mono_left nhdsWithin_le_nhds
  have h2 : Tendsto g (𝓝[<] a) (𝓝 (g a)) := hg.tendsto.mono_left nhdsWithin_le_nhds
  have h3 : f =ᶠ[𝓝[<] a] g := by filter_upwards [self_mem_nhdsWithin] with x hx; exact h x hx
  exact ha (tendsto_nhds_unique (h1.congr' h3) h2)

theorem cont_trace {f : ℝ → Mat3 ℝ} {a : ℝ} (h : ContinuousAt f a) : ContinuousAt (fun x => (f x).trace) a :=
  (continuous_id.matrix_trace (n := Fin 3) (R := ℝ)).continuousAt.comp h

/-- At the reference density the stress of the mu(I) rheology jumps, whatever the motion: it is zero at this density and has at
least the lowest pressure at every higher density. -/
theorem muI_jumps (pr : MuIParams ℝ) (hp : 0 < pr.pMin) (L : Mat3 ℝ) (volume rhoRef : ℝ) (hv : 0 < volume) (hr : 0 < rhoRef) :
    ¬ ContinuousAt (fun mass => muIStress realFns pr L mass volume rhoRef) (rhoRef * volume) := by
  intro hc
  have key := cont_trace hc
  refine jump_right (c := 3 * pr.pMin) ?_ ?_ key
  · intro x hx
    have h1 : 1 < x / volume / rhoRef := by rw [lt_div_iff₀ hr, lt_div_iff₀ hv]; linarith
    simp only [muIStress]
    rw [if_pos h1]
    have ht : ((1 / 2 : ℝ) • (L + L.transpose) - (((1 / 2 : ℝ) • (L + L.transpose)).trace / 3) • (1 : Mat3 ℝ)).trace = 0 := by
      rw [Matrix.trace_sub, Matrix.trace_smul _ (1 : Mat3 ℝ), Matrix.trace_one]
      simp
    rw [Matrix.trace_add, Matrix.trace_smul, ht, isoT, Matrix.trace_smul, Matrix.trace_one]
    have := le_max_right (pr.bulk * (x / volume / rhoRef - 1)) pr.pMin
    simp
    linarith
  · have h1 : ¬ rhoRef * volume / volume / rhoRef > 1 := by
      rw [mul_div_cancel_right₀ _ hv.ne', div_self hr.ne']; simp
    simp only [muIStress]
    rw [if_neg h1]
    simp [hp]

example := muI_jumps ⟨1, 2, 1, 100, 2, 1 / 100, 1 / 10, 1⟩ (by norm_num) 0 2 3 (by norm_num) (by norm_num)

/-- At the density of separation the Drucker-Prager stress jumps to zero unless it is zero already. -/
theorem dp_jumps_at_separation (pr : DPParams ℝ) (L e : Mat3 ℝ) (a p0 dt : ℝ)
    (h : (dpUpdate realFns pr L e a p0 pr.rho0 dt).stress ≠ 0) :
    ¬ ContinuousAt (fun rho => (dpUpdate realFns pr L e a p0 rho dt).stress) pr.rho0 := by
  intro hc
  apply h
  refine tendsto_nhds_unique (hc.tendsto.mono_left (nhdsWithin_le_nhds (s := Set.Iio pr.rho0))) ?_
  refine (tendsto_const_nhds (x := (0 : Mat3 ℝ))).congr' (Filter.eventually_of_mem self_mem_nhdsWithin fun r hr => ?_)
  simp only [dpUpdate]
  rw [if_neg (not_le.2 hr)]

/-- A sheared point. -/
noncomputable def exShearStrain : Mat3 ℝ := !![0, 1 / 2, 0; 1 / 2, 0, 0; 0, 0, 0]

theorem exShear_trial (pr : DPParams ℝ) (hG : pr.shear = 1) (hc : pr.c0 = 0) (h1 : pr.mu1 = 1) (p0 : ℝ) :
    (dpTrial realFns pr 0 exShearStrain 0 p0 0).sqrtJ2 = 1 ∧ (dpTrial realFns pr 0 exShearStrain 0 p0 0).pTr = p0 ∧
    (dpTrial realFns pr 0 exShearStrain 0 p0 0).yf = 1 - p0 ∧ (dpTrial realFns pr 0 exShearStrain 0 p0 0).sTr.trace = 0 := by
  have he : jaumann exShearStrain (spinTensor (0 : Mat3 ℝ)) 0 + (0 : ℝ) • symTensor (0 : Mat3 ℝ) = exShearStrain := by simp [jaumann]
  have ht : exShearStrain.trace = 0 := by simp [exShearStrain, Matrix.trace, Fin.sum_univ_three]
  have hs : (dpTrial realFns pr 0 exShearStrain 0 p0 0).sTr = (2 : ℝ) • exShearStrain := by
    simp only [dpTrial, he, volStrain, devStrainV, ht, hG]; simp
  have hp : (dpTrial realFns pr 0 exShearStrain 0 p0 0).pTr = p0 := by simp only [dpTrial, he, volStrain, ht]; simp
  have hj : (dpTrial realFns pr 0 exShearStrain 0 p0 0).sqrtJ2 = 1 := by
    change Real.sqrt (max (J2dev (dpTrial realFns pr 0 exShearStrain 0 p0 0).sTr) (1 / 10 ^ 12)) = 1
    rw [hs]
    have : J2dev ((2 : ℝ) • exShearStrain) = 1 := by
      simp [J2dev, dcontr, exShearStrain, Fin.sum_univ_three]; norm_num
    rw [this]
    norm_num
  refine ⟨hj, hp, ?_, by rw [hs, Matrix.trace_smul, ht]; simp⟩
  change (dpTrial realFns pr 0 exShearStrain 0 p0 0).sqrtJ2 - pr.mu1 * (dpTrial realFns pr 0 exShearStrain 0 p0 0).pTr - pr.mu2 * (pr.c0 + pr.H * 0) = _
  rw [hj, hp, hc, h1]; ring

/-- With dilatancy the stress jumps where the return changes from the cone to the apex. -/
theorem dp_jumps_dilatant : ∃ pr : DPParams ℝ, pr.H = 0 ∧ 0 < pr.mu1Hat ∧
    ¬ ContinuousAt (fun p0 => (dpUpdate realFns pr 0 exShearStrain 0 p0 1 0).stress) (-1) := by
  refine ⟨⟨1, 1, 1, 1, 0, 1, 0, 1⟩, rfl, by norm_num, fun hc => ?_⟩
  have ht := fun p0 => exShear_trial ⟨1, 1, 1, 1, 0, 1, 0, 1⟩ rfl rfl rfl p0
  refine jump_left (g := fun _ => 0) (fun x hx => ?_) continuousAt_const ?_ (cont_trace hc)
  · obtain ⟨a, b, c, d⟩ := ht x
    have hm : dpMulti ⟨1, 1, 1, 1, 0, 1, 0, 1⟩ (dpTrial realFns ⟨1, 1, 1, 1, 0, 1, 0, 1⟩ 0 exShearStrain 0 x 0) = (1 - x) / 2 := by
      rw [dpMulti, c]; norm_num
    simp only [dpUpdate]
    rw [if_pos (le_refl _), if_pos (by rw [c]; linarith), if_pos (by rw [a, hm]; linarith)]
    simp only [dpApex, b, isoT, Matrix.trace_smul]
    norm_num
  · obtain ⟨a, b, c, d⟩ := ht (-1)
    have hm : dpMulti ⟨1, 1, 1, 1, 0, 1, 0, 1⟩ (dpTrial realFns ⟨1, 1, 1, 1, 0, 1, 0, 1⟩ 0 exShearStrain 0 (-1) 0) = 1 := by
      rw [dpMulti, c]; norm_num
    simp only [dpUpdate]
    rw [if_pos (le_refl _), if_pos (by rw [c]; norm_num), if_neg (by rw [a, hm]; norm_num)]
    simp only [dpCone, b, hm, isoT, Matrix.trace_add, Matrix.trace_smul, d, Matrix.trace_one]
    norm_num

/-- With hardening the stress jumps there also, even without dilatancy. -/
theorem dp_jumps_hardening : ∃ pr : DPParams ℝ, 0 < pr.H ∧ pr.mu1Hat = 0 ∧
    ¬ ContinuousAt (fun p0 => (dpUpdate realFns pr 0 exShearStrain 0 p0 1 0).stress) (-1) := by
  refine ⟨⟨2, 1, 1, 1, 0, 0, 1, 1⟩, by norm_num, rfl, fun hc => ?_⟩
  have ht := fun p0 => exShear_trial ⟨2, 1, 1, 1, 0, 0, 1, 1⟩ rfl rfl rfl p0
  refine jump_left (g := fun x => 3 * -x) (fun x hx => ?_) (by fun_prop) ?_ (cont_trace hc)
  · obtain ⟨a, b, c, d⟩ := ht x
    have hm : dpMulti ⟨2, 1, 1, 1, 0, 0, 1, 1⟩ (dpTrial realFns ⟨2, 1, 1, 1, 0, 0, 1, 1⟩ 0 exShearStrain 0 x 0) = (1 - x) / 2 := by
      rw [dpMulti, c]; norm_num
    simp only [dpUpdate]
    rw [if_pos (le_refl _), if_pos (by rw [c]; linarith), if_pos (by rw [a, hm]; linarith)]
    simp only [dpApex, b, isoT, Matrix.trace_smul, Matrix.trace_one]
    norm_num
    ring
  · obtain ⟨a, b, c, d⟩ := ht (-1)
    have hm : dpMulti ⟨2, 1, 1, 1, 0, 0, 1, 1⟩ (dpTrial realFns ⟨2, 1, 1, 1, 0, 0, 1, 1⟩ 0 exShearStrain 0 (-1) 0) = 1 := by
      rw [dpMulti, c]; norm_num
    simp only [dpUpdate]
    rw [if_pos (le_refl _), if_pos (by rw [c]; norm_num), if_neg (by rw [a, hm]; norm_num)]
    simp only [dpCone, b, hm, isoT, Matrix.trace_add, Matrix.trace_smul, d, Matrix.trace_one]
    norm_num

/-- The accumulated plastic strain jumps between cone and apex even without dilatancy and hardening. -/
theorem dp_plastic_strain_jumps : ∃ pr : DPParams ℝ, pr.H = 0 ∧ pr.mu1Hat = 0 ∧
    ¬ ContinuousAt (fun p0 => (dpUpdate realFns pr 0 exShearStrain 0 p0 1 0).epsP) 0 := by
  refine ⟨⟨1, 1, 1, 1, 0, 0, 0, 1⟩, rfl, rfl, fun hc => ?_⟩
  have ht := fun p0 => exShear_trial ⟨1, 1, 1, 1, 0, 0, 0, 1⟩ rfl rfl rfl p0
  refine jump_left (g := fun x => x) (fun x hx => ?_) continuousAt_id ?_ hc
  · obtain ⟨a, b, c, d⟩ := ht x
    have hm : dpMulti ⟨1, 1, 1, 1, 0, 0, 0, 1⟩ (dpTrial realFns ⟨1, 1, 1, 1, 0, 0, 0, 1⟩ 0 exShearStrain 0 x 0) = 1 - x := by
      rw [dpMulti, c]; norm_num
    simp only [dpUpdate]
    rw [if_pos (le_refl _), if_pos (by rw [c]; linarith), if_pos (by rw [a, hm]; linarith)]
    simp only [dpApex, b]
    norm_num
  · obtain ⟨a, b, c, d⟩ := ht 0
    have hm : dpMulti ⟨1, 1, 1, 1, 0, 0, 0, 1⟩ (dpTrial realFns ⟨1, 1, 1, 1, 0, 0, 0, 1⟩ 0 exShearStrain 0 0 0) = 1 := by
      rw [dpMulti, c]; norm_num
    simp only [dpUpdate]
    rw [if_pos (le_refl _), if_pos (by rw [c]; norm_num), if_neg (by rw [a, hm]; norm_num)]
    simp only [dpCone, hm]
    norm_num

/-- `clipOpt` is continuous. -/
theorem cont_clipOpt (lo hi : Option ℝ) : Continuous (clipOpt lo hi) := by
  cases lo <;> cases hi
  · exact continuous_id
  · exact continuous_id.min continuous_const
  · exact continuous_id.max continuous_const
  · exact (continuous_id.max continuous_const).min continuous_const

/-- The trial pressure, stress and yield function of Cam-Clay depend continuously on velocity gradient, stress and
preconsolidation pressure. -/
theorem cont_mccTrial (pr : MCCParams ℝ) (e σref : Mat3 ℝ) (dt : ℝ) :
    Continuous (fun x : Mat3 ℝ × Mat3 ℝ × ℝ => (mccTrial realFns pr x.1 e x.2.1 x.2.2 σref dt).pTr) ∧
    Continuous (fun x : Mat3 ℝ × Mat3 ℝ × ℝ => (mccTrial realFns pr x.1 e x.2.1 x.2.2 σref dt).sTr) ∧
    Continuous (fun x : Mat3 ℝ × Mat3 ℝ × ℝ => (mccTrial realFns pr x.1 e x.2.1 x.2.2 σref dt).yf) := by
  have hL : Continuous fun x : Mat3 ℝ × Mat3 ℝ × ℝ => x.1 := continuous_fst
  have hσ : Continuous fun x : Mat3 ℝ × Mat3 ℝ × ℝ => x.2.1 := continuous_fst.comp continuous_snd
  have hc : Continuous fun x : Mat3 ℝ × Mat3 ℝ × ℝ => x.2.2 := continuous_snd.comp continuous_snd
  have hr := cont_jaumann hσ (cont_spin hL) dt
  have hd := cont_csmul dt (cont_sym hL)
  have hpp : Continuous fun x : Mat3 ℝ × Mat3 ℝ × ℝ => max (pressureOf (jaumann x.2.1 (spinTensor x.1) dt)) pr.pMin :=
    (continuous_const.mul hr.matrix_trace).max continuous_const
  have h1 : Continuous (fun x : Mat3 ℝ × Mat3 ℝ × ℝ => (mccTrial realFns pr x.1 e x.2.1 x.2.2 σref dt).pTr) :=
    hpp.mul (Real.continuous_exp.comp (hd.matrix_trace.div_const _))
  have hK : Continuous (fun x : Mat3 ℝ × Mat3 ℝ × ℝ => mccK pr.kap (max (mccTrial realFns pr x.1 e x.2.1 x.2.2 σref dt).pTr pr.pMin) pr.KMin pr.KMax) :=
    (cont_clipOpt _ _).comp (continuous_const.mul ((h1.max continuous_const).max continuous_const))
  have hG : Continuous (fun x : Mat3 ℝ × Mat3 ℝ × ℝ => 2 * mccG pr.nu
      (mccK pr.kap (max (mccTrial realFns pr x.1 e x.2.1 x.2.2 σref dt).pTr pr.pMin) pr.KMin pr.KMax)) :=
    continuous_const.mul (continuous_const.mul hK)
  have h2 : Continuous (fun x : Mat3 ℝ × Mat3 ℝ × ℝ => (mccTrial realFns pr x.1 e x.2.1 x.2.2 σref dt).sTr) :=
    (hG.smul (cont_devV hd hd.matrix_trace)).add (hr.sub (hpp.smul continuous_const))
  refine ⟨h1, h2, ?_⟩
  have hq : Continuous (fun x : Mat3 ℝ × Mat3 ℝ × ℝ => qVmDev realFns (mccTrial realFns pr x.1 e x.2.1 x.2.2 σref dt).sTr) :=
    Real.continuous_sqrt.comp (continuous_const.mul (continuous_const.mul (cont_dcontr h2 h2)))
  exact (((hq.mul hq).div_const _).add (h1.mul h1)).sub (hc.mul h1)

/-- Inside the yield surface and below the volume of separation the stress of Cam-Clay depends continuously on velocity gradient,
stress, preconsolidation pressure and volume. -/
theorem mcc_continuous_partial (ops : NewtonOps ℝ) (pr : MCCParams ℝ) (e σref : Mat3 ℝ) (dt : ℝ)
    (x : (Mat3 ℝ × Mat3 ℝ × ℝ) × ℝ) (hy : (mccTrial realFns pr x.1.1 e x.1.2.1 x.1.2.2 σref dt).yf < 0)
    (hv : x.2 < pr.N * (999999 / 1000000)) :
    ContinuousAt (fun x : (Mat3 ℝ × Mat3 ℝ × ℝ) × ℝ => (mccUpdate realFns ops pr x.1.1 e x.1.2.1 x.1.2.2 σref x.2 dt).stress) x := by
  obtain ⟨h1, h2, h3⟩ := cont_mccTrial pr e σref dt
  have h4 : Continuous fun x : Mat3 ℝ × Mat3 ℝ × ℝ => (mccElastic (mccTrial realFns pr x.1 e x.2.1 x.2.2 σref dt) x.2.2).stress :=
    h2.add (cont_isoT h1)
  generalize hs : (fun x : Mat3 ℝ × Mat3 ℝ × ℝ => (mccElastic (mccTrial realFns pr x.1 e x.2.1 x.2.2 σref dt) x.2.2).stress) = S at h4
  generalize hg : (fun x : Mat3 ℝ × Mat3 ℝ × ℝ => (mccTrial realFns pr x.1 e x.2.1 x.2.2 σref dt).yf) = Y at h3
  have hyx : Y x.1 < 0 := by rw [← hg]; exact hy
  refine ((h4.comp continuous_fst).continuousAt (x := x)).congr ?_
  filter_upwards [(h3.comp continuous_fst).continuousAt.eventually (gt_mem_nhds hyx), continuous_snd.continuousAt.eventually (gt_mem_nhds hv)] with y a b
  have a' : (mccTrial realFns pr y.1.1 e y.1.2.1 y.1.2.2 σref dt).yf < 0 := by
    rw [show _ = Y y.1 from congrFun hg y.1]; exact a
  have hb : (mccElastic (mccTrial realFns pr y.1.1 e y.1.2.1 y.1.2.2 σref dt) y.1.2.2).stress = S y.1 := congrFun hs y.1
  simp only [mccUpdate, Function.comp]
  rw [if_pos b.le, if_neg (not_lt.2 (le_of_lt a')), hb]

/-- At the volume of separation the stress of Cam-Clay jumps to zero unless it is zero already. -/
theorem mcc_jumps_at_separation (ops : NewtonOps ℝ) (pr : MCCParams ℝ) (L e σ σref : Mat3 ℝ) (pc dt : ℝ)
    (h : (mccUpdate realFns ops pr L e σ pc σref (pr.N * (999999 / 1000000)) dt).stress ≠ 0) :
    ¬ ContinuousAt (fun v => (mccUpdate realFns ops pr L e σ pc σref v dt).stress) (pr.N * (999999 / 1000000)) := by
  intro hc
  apply h
  have h1 : Tendsto (fun v => (mccUpdate realFns ops pr L e σ pc σref v dt).stress) (𝓝[>] (pr.N * (999999 / 1000000))) _ :=
    hc.tendsto.mono_left nhdsWithin_le_nhds
  refine tendsto_nhds_unique h1 ?_
  refine (tendsto_const_nhds (x := (0 : Mat3 ℝ))).congr' ?_
  filter_upwards [self_mem_nhdsWithin] with v hv
  simp only [mccUpdate]
  rw [if_neg (not_le.2 hv)]

/-- At yield the material jumps if its preconsolidation pressure is below one: at the preconsolidation pressure whose yield
surface passes through the trial stress nothing changes, but from every lower one the step ends at one or above. -/
theorem mcc_jumps_at_yield (ops : NewtonOps ℝ) (pr : MCCParams ℝ) (L e σ σref : Mat3 ℝ) (v dt pc : ℝ)
    (hv : v ≤ pr.N * (999999 / 1000000)) (hp : 0 < (mccTrial realFns pr L e σ pc σref dt).pTr)
    (hy : (mccTrial realFns pr L e σ pc σref dt).yf = 0) (h1 : pc < 1) :
    ¬ ContinuousAt (fun c => (mccUpdate realFns ops pr L e σ c σref v dt).pc) pc := by
  intro hc
  have he : (mccUpdate realFns ops pr L e σ pc σref v dt).pc = pc := by
    simp only [mccUpdate]; rw [if_pos hv, if_neg (by rw [hy]; exact lt_irrefl _)]; rfl
  have h2 : Tendsto (fun c => (mccUpdate realFns ops pr L e σ c σref v dt).pc) (𝓝[<] pc) _ :=
    hc.tendsto.mono_left nhdsWithin_le_nhds
  have h3 := ge_of_tendsto (b := (1 : ℝ)) h2 (by
    filter_upwards [self_mem_nhdsWithin] with c hcc
    refine mcc_pc_ge_one ops pr L e σ c σref v dt hv ?_
    have e1 : (mccTrial realFns pr L e σ c σref dt).yf = (mccTrial realFns pr L e σ pc σref dt).yf +
        (pc - c) * (mccTrial realFns pr L e σ pc σref dt).pTr := by
      simp only [mccTrial, mccYield]; ring
    rw [e1, hy, zero_add]
    exact mul_pos (sub_pos.2 hcc) hp)
  simp only [he] at h3
  linarith

/-- A clay point at rest under pressure. -/
theorem rest_trial (pr : MCCParams ℝ) (p pc : ℝ) (hp : pr.pMin ≤ p) (hp0 : 0 < p) :
    (mccTrial realFns pr 0 0 (isoT p) pc 0 0).pTr = p ∧ (mccTrial realFns pr 0 0 (isoT p) pc 0 0).sTr = 0 ∧
    (mccTrial realFns pr 0 0 (isoT p) pc 0 0).yf = p * p - pc * p := by
  have h1 : jaumann (isoT p) (spinTensor (0 : Mat3 ℝ)) 0 = isoT p := by simp [jaumann]
  have h2 : pressureOf (isoT p) = p := by simp [pressureOf, isoT, Matrix.trace_smul, Matrix.trace_one]; ring
  have h3 : (mccTrial realFns pr 0 0 (isoT p) pc 0 0).pTr = p := by
    simp [mccTrial, h1, h2, max_eq_left hp, mccPressure, volStrain]
  have h4 : (mccTrial realFns pr 0 0 (isoT p) pc 0 0).sTr = 0 := by
    simp only [mccTrial, h1, h2, max_eq_left hp]
    simp [mccS, devStrainV, devStressP, isoT, volStrain]
  refine ⟨h3, h4, ?_⟩
  change mccYield (mccTrial realFns pr 0 0 (isoT p) pc 0 0).pTr pc (qVmDev realFns (mccTrial realFns pr 0 0 (isoT p) pc 0 0).sTr) pr.M = _
  rw [h3, h4]
  simp [mccYield, qVmDev, J2dev, dcontr]

/-- Parameters of a clay. -/
noncomputable def exClay : MCCParams ℝ := ⟨1 / 4, 1, 1 / 5, 1 / 20, 2, 1, none, none, 1 / 10, 2600⟩

example (ops : NewtonOps ℝ) := mcc_continuous_partial ops exClay 0 0 0 ((0, isoT 1, 2), 1)
  (by rw [(rest_trial exClay 1 2 (by norm_num [exClay]) one_pos).2.2]; norm_num) (by norm_num [exClay])

example (ops : NewtonOps ℝ) := mcc_jumps_at_yield ops exClay 0 0 (isoT (1 / 2)) 0 1 0 (1 / 2) (by norm_num [exClay])
  (by rw [(rest_trial exClay (1 / 2) (1 / 2) (by norm_num [exClay]) (by norm_num)).1]; norm_num)
  (by rw [(rest_trial exClay (1 / 2) (1 / 2) (by norm_num [exClay]) (by norm_num)).2.2]; norm_num) (by norm_num)

example (ops : NewtonOps ℝ) := mcc_jumps_at_separation ops exClay 0 0 (isoT 1) 0 2 0 (by
  obtain ⟨a, b, c⟩ := rest_trial exClay 1 2 (by norm_num [exClay]) one_pos
  simp only [mccUpdate]
  rw [if_pos (le_refl _), if_neg (by rw [c]; norm_num)]
  simp only [mccElastic, a, b]
  intro h
  have := congrFun (congrFun h 0) 0
  norm_num [isoT] at this)

example := dp_jumps_at_separation ⟨10, 4, 1 / 2, 1, 1, 0, 0, 1⟩ 0 0 0 1 0 (by
  have h1 : (dpTrial realFns ⟨10, 4, 1 / 2, 1, 1, 0, 0, 1⟩ 0 0 0 1 0).pTr = 1 := by simp [dpTrial, jaumann, volStrain]
  have h2 : (dpTrial realFns ⟨10, 4, 1 / 2, 1, 1, 0, 0, 1⟩ 0 0 0 1 0).sTr = 0 := by simp [dpTrial, jaumann, volStrain, devStrainV]
  have h3 : (dpTrial realFns ⟨10, 4, 1 / 2, 1, 1, 0, 0, 1⟩ 0 0 0 1 0).yf ≤ 0 := by
    change Real.sqrt (max (J2dev (dpTrial realFns ⟨10, 4, 1 / 2, 1, 1, 0, 0, 1⟩ 0 0 0 1 0).sTr) (1 / 10 ^ 12)) - 1 / 2 *
      (dpTrial realFns ⟨10, 4, 1 / 2, 1, 1, 0, 0, 1⟩ 0 0 0 1 0).pTr - 1 * (1 + 0 * 0) ≤ 0
    rw [h1, h2]
    have : Real.sqrt (max (J2dev (0 : Mat3 ℝ)) (1 / 10 ^ 12)) ≤ 1 := by
      refine Real.sqrt_le_one.2 ?_
      simp [J2dev, dcontr]
      norm_num
    linarith
  simp only [dpUpdate]
  rw [if_pos (le_refl _), if_neg (not_lt.2 h3)]
  simp only [dpElastic, h1, h2]
  intro h
  have := congrFun (congrFun h 0) 0
  norm_num [isoT] at this)

end Hydrax
