import Verif.Props.Continuity
import Verif.Props.NewtonLoop

/-!
# C148: Cam-Clay stresses are continuous where yielding begins

The Newton loop starts at the trial state. On the yield surface the trial state solves the equations, and by continuity of the
residuals and of their Jacobian ten steps end close by for trial states a little outside.
-/

set_option linter.unusedSectionVars false

namespace Hydrax

open Filter Topology

/-- For determinants that are not negative the regularised inverse is that of a slightly larger number. -/
theorem safeInv_of_nonneg (c : ℝ) {d : ℝ} (h : 0 ≤ d) : safeInv c d = 1 / (d + 1 / 10 ^ 20) := by
  simp only [safeInv, if_pos h.ge]
  ring

/-- Automatic differentiation returns the derivative wherever there is one. -/
def Spec.ExactJacs (ops : NewtonOps ℝ) : Prop :=
  ∀ (R : (Fin 2 → ℝ) → Fin 2 → ℝ) x, DifferentiableAt ℝ R x → HasFDerivAt R (Spec.linear (ops.jac R x)) x

theorem exactOps_exactJacs : Spec.ExactJacs exactOps := fun R x => (exactOps_exact R x).self_of_nhds

section
variable {X : Type*} {l : Filter X}

/-- Along a family of trial states that approach a solution of the equations on the wet side, and with starting values that
approach that solution, one step of the loop still approaches it. -/
theorem clay_step_tendsto {ops : NewtonOps ℝ} (hbad : ∀ x, ops.bad x = false) {kap cp M g : ℝ} (hk : 0 < kap) (hcp : 0 < cp) (hM : 0 < M)
    (hg : 0 < g) {R : X → (Fin 2 → ℝ) → Fin 2 → ℝ} {P0 DV U0 Q K : X → ℝ} {p0 dv u0 q Kt : ℝ} (hP0 : Tendsto P0 l (𝓝 p0))
    (hDV : Tendsto DV l (𝓝 dv)) (hU0 : Tendsto U0 l (𝓝 u0)) (hQ : Tendsto Q l (𝓝 q)) (hK : Tendsto K l (𝓝 Kt)) (hp0 : 0 < p0)
    (hKt : 0 < Kt) {u : X → Fin 2 → ℝ} {us : Fin 2 → ℝ} (hu : Tendsto u l (𝓝 us)) (hus : ∀ i, 0 ≤ us i)
    (hwet : Real.exp (us 1) < 2 * Spec.clayP kap cp p0 dv u0 (us 1)) (hroot : Spec.clayR kap cp p0 dv u0 M g q Kt us = 0)
    (hp1 : 1 < Spec.clayP kap cp p0 dv u0 (us 1))
    (hj : Spec.ExactJacs ops)
    (hR : ∀ᶠ y in l, ∀ x : Fin 2 → ℝ, 1 < Spec.clayP kap cp (P0 y) (DV y) (U0 y) (x 1) →
      R y x = Spec.clayR kap cp (P0 y) (DV y) (U0 y) M g (Q y) (K y) x) :
    Tendsto (fun y => mccNewtonStep ops (R y) (u y)) l (𝓝 us) := by
  have hu0 : Tendsto (fun y => u y 0) l (𝓝 (us 0)) := (continuous_apply 0).continuousAt.tendsto.comp hu
  have hu1 : Tendsto (fun y => u y 1) l (𝓝 (us 1)) := (continuous_apply 1).continuousAt.tendsto.comp hu
  have hP : Tendsto (fun y => Spec.clayP kap cp (P0 y) (DV y) (U0 y) (u y 1)) l (𝓝 (Spec.clayP kap cp p0 dv u0 (us 1))) :=
    hP0.mul (((hDV.sub ((hu1.sub hU0).const_mul cp)).div_const kap).rexp)
  have hE : Tendsto (fun y => Real.exp (u y 1)) l (𝓝 (Real.exp (us 1))) := hu1.rexp
  set Pl := Spec.clayP kap cp p0 dv u0 (us 1) with hPl
  have hPl0 : 0 < Pl := one_pos.trans hp1
  have hD : Tendsto (fun y => 1 + 6 * (g * Spec.clayP kap cp (P0 y) (DV y) (U0 y) (u y 1)) * u y 0) l (𝓝 (1 + 6 * (g * Pl) * us 0)) :=
    (((hP.const_mul g).const_mul 6).mul hu0).const_add 1
  have hDl : 0 < 1 + 6 * (g * Pl) * us 0 := by have := hus 0; positivity
  have hDM : (1 + 6 * (g * Pl) * us 0) * M ^ 2 ≠ 0 := by positivity
  have hQD := (hQ.div hD hDl.ne').pow 2
  -- the entries of the Jacobian
  have j00 : Tendsto (fun y => Spec.clayJ kap cp (P0 y) (DV y) (U0 y) M g (Q y) (K y) (u y) 0 0) l (𝓝 (Spec.clayJ kap cp p0 dv u0 M g q Kt us 0 0)) :=
    ((((hP.const_mul g).const_mul 12).mul hQD).div (hD.mul_const _) hDM).neg.div hK hKt.ne'
  have j01 : Tendsto (fun y => Spec.clayJ kap cp (P0 y) (DV y) (U0 y) M g (Q y) (K y) (u y) 0 1) l (𝓝 (Spec.clayJ kap cp p0 dv u0 M g q Kt us 0 1)) :=
    ((((((hQD.const_mul 12).mul (hP.const_mul g)).mul hu0).mul_const (cp / kap)).div (hD.mul_const _) hDM).sub
      ((((hP.const_mul 2).sub hE).mul_const (cp / kap)).mul hP) |>.sub (hE.mul hP)).div hK hKt.ne'
  have j10 : Tendsto (fun y => Spec.clayJ kap cp (P0 y) (DV y) (U0 y) M g (Q y) (K y) (u y) 1 0) l (𝓝 (Spec.clayJ kap cp p0 dv u0 M g q Kt us 1 0)) :=
    ((hP.const_mul 2).sub hE).mul_const _
  have j11 : Tendsto (fun y => Spec.clayJ kap cp (P0 y) (DV y) (U0 y) M g (Q y) (K y) (u y) 1 1) l (𝓝 (Spec.clayJ kap cp p0 dv u0 M g q Kt us 1 1)) :=
    (((hu0.mul ((hP.const_mul (2 * (cp / kap))).neg.sub hE)).mul_const _).sub_const cp)
  -- the residuals
  have r0 : Tendsto (fun y => Spec.clayR kap cp (P0 y) (DV y) (U0 y) M g (Q y) (K y) (u y) 0) l (𝓝 (Spec.clayR kap cp p0 dv u0 M g q Kt us 0)) :=
    (((hQD.div_const _).add (hP.pow 2)).sub (hE.mul hP)).div hK hKt.ne'
  have r1 : Tendsto (fun y => Spec.clayR kap cp (P0 y) (DV y) (U0 y) M g (Q y) (K y) (u y) 1) l (𝓝 (Spec.clayR kap cp p0 dv u0 M g q Kt us 1)) :=
    ((hu0.mul ((hP.const_mul 2).sub hE)).mul_const _).sub ((hu1.sub hU0).const_mul cp)
  rw [hroot] at r0 r1
  -- the determinant
  have hder : HasFDerivAt (Spec.clayR kap cp p0 dv u0 M g q Kt) (Spec.linear (exactOps.jac (Spec.clayR kap cp p0 dv u0 M g q Kt) us)) us :=
    exactOps_exactJacs _ _ ((clayR_smooth kap cp p0 dv u0 M g q Kt us hDl.ne').differentiableAt (by simp))
  have hJs := clay_entries kap cp p0 dv u0 M g q Kt hk.ne' hM.ne' hKt.ne' hDl.ne' hder
  rw [hJs] at hder
  have hdet0 := clay_det kap cp p0 dv u0 M g q Kt hk hcp hp0 hM hg hKt (hus 0) hwet hder
  have hdet1 : 0 < (Spec.clayJ kap cp p0 dv u0 M g q Kt us).det := by
    refine lt_of_lt_of_le ?_ hdet0
    have h1 : 0 < 2 * Pl - Real.exp (us 1) := by linarith
    have h2 := Real.exp_pos (us 1)
    positivity
  rw [Matrix.det_fin_two] at hdet1
  have hdet := (j00.mul j11).sub (j01.mul j10)
  obtain ⟨c, hinv⟩ : ∃ c, Tendsto (fun y => safeInv (10 ^ 6) (Spec.clayJ kap cp (P0 y) (DV y) (U0 y) M g (Q y) (K y) (u y) 0 0 *
      Spec.clayJ kap cp (P0 y) (DV y) (U0 y) M g (Q y) (K y) (u y) 1 1 - Spec.clayJ kap cp (P0 y) (DV y) (U0 y) M g (Q y) (K y) (u y) 0 1 *
      Spec.clayJ kap cp (P0 y) (DV y) (U0 y) M g (Q y) (K y) (u y) 1 0)) l (𝓝 c) := by
    refine ⟨_, ((tendsto_const_nhds (x := (1 : ℝ))).div (hdet.add_const (1 / 10 ^ 20)) (by positivity)).congr' ?_⟩
    filter_upwards [hdet.eventually (lt_mem_nhds hdet1)] with y hy
    exact (safeInv_of_nonneg _ hy.le).symm
  -- the step
  have hmain : ∀ᶠ y in l, mccNewtonStep ops (R y) (u y) = fun i => max (u y i + 8 / 10 *
      -((inv2 (10 ^ 6) (Spec.clayJ kap cp (P0 y) (DV y) (U0 y) M g (Q y) (K y) (u y))).mulVec
        (Spec.clayR kap cp (P0 y) (DV y) (U0 y) M g (Q y) (K y) (u y)) i)) 0 := by
    filter_upwards [hR, hP.eventually (lt_mem_nhds hp1), hD.eventually (lt_mem_nhds hDl), hK.eventually (lt_mem_nhds hKt)] with y e1 e2 e3 e4
    have heq : R y =ᶠ[𝓝 (u y)] Spec.clayR kap cp (P0 y) (DV y) (U0 y) M g (Q y) (K y) := by
      have hc : Continuous fun x : Fin 2 → ℝ => Spec.clayP kap cp (P0 y) (DV y) (U0 y) (x 1) := by
        unfold Spec.clayP; fun_prop
      filter_upwards [continuousAt_const.eventually_lt hc.continuousAt e2] with x hx
      exact e1 x hx
    have hdiff : DifferentiableAt ℝ (R y) (u y) :=
      ((clayR_smooth kap cp (P0 y) (DV y) (U0 y) M g (Q y) (K y) (u y) e3.ne').differentiableAt (by simp)).congr_of_eventuallyEq heq
    have hent := clay_entries kap cp (P0 y) (DV y) (U0 y) M g (Q y) (K y) hk.ne' hM.ne' e4.ne' e3.ne'
      ((hj _ _ hdiff).congr_of_eventuallyEq heq.symm)
    funext i
    simp only [mccNewtonStep, hbad, hent, e1 _ e2, Bool.false_eq_true, if_false]
  refine Tendsto.congr' (EventuallyEq.symm hmain) (tendsto_pi_nhds.2 fun i => ?_)
  have hz : Tendsto (fun y => (inv2 (10 ^ 6) (Spec.clayJ kap cp (P0 y) (DV y) (U0 y) M g (Q y) (K y) (u y))).mulVec
        (Spec.clayR kap cp (P0 y) (DV y) (U0 y) M g (Q y) (K y) (u y)) i) l (𝓝 0) := by
    fin_cases i
    · have := hinv.mul ((j11.mul r0).sub (j01.mul r1))
      simp only [Pi.zero_apply, mul_zero, sub_zero] at this
      refine this.congr fun y => ?_
      simp only [inv2, Matrix.mulVec, dotProduct, Fin.sum_univ_two, Matrix.smul_apply, smul_eq_mul, Fin.zero_eta, Matrix.of_apply, Matrix.cons_val', Matrix.cons_val_zero,
        Matrix.cons_val_one, Matrix.cons_val_fin_one]
      ring
    · have := hinv.mul ((j00.mul r1).sub (j10.mul r0))
      simp only [Pi.zero_apply, mul_zero, sub_zero] at this
      refine this.congr fun y => ?_
      simp only [inv2, Matrix.mulVec, dotProduct, Fin.sum_univ_two, Matrix.smul_apply, smul_eq_mul, Fin.mk_one, Matrix.of_apply, Matrix.cons_val', Matrix.cons_val_zero,
        Matrix.cons_val_one, Matrix.cons_val_fin_one]
      ring
  have hfin := ((((continuous_apply i).continuousAt.tendsto.comp hu).add (hz.neg.const_mul (8 / 10))).max (tendsto_const_nhds (x := (0 : ℝ))))
  simp only [neg_zero, mul_zero, add_zero, max_eq_left (hus i)] at hfin
  exact hfin

/-- The same for any number of steps. -/
theorem clay_newton_tendsto {ops : NewtonOps ℝ} (hbad : ∀ x, ops.bad x = false) {kap cp M g : ℝ} (hk : 0 < kap) (hcp : 0 < cp) (hM : 0 < M)
    (hg : 0 < g) {R : X → (Fin 2 → ℝ) → Fin 2 → ℝ} {P0 DV U0 Q K : X → ℝ} {p0 dv u0 q Kt : ℝ} (hP0 : Tendsto P0 l (𝓝 p0))
    (hDV : Tendsto DV l (𝓝 dv)) (hU0 : Tendsto U0 l (𝓝 u0)) (hQ : Tendsto Q l (𝓝 q)) (hK : Tendsto K l (𝓝 Kt)) (hp0 : 0 < p0)
    (hKt : 0 < Kt) {us : Fin 2 → ℝ} (hus : ∀ i, 0 ≤ us i)
    (hwet : Real.exp (us 1) < 2 * Spec.clayP kap cp p0 dv u0 (us 1)) (hroot : Spec.clayR kap cp p0 dv u0 M g q Kt us = 0)
    (hp1 : 1 < Spec.clayP kap cp p0 dv u0 (us 1)) (hj : Spec.ExactJacs ops)
    (hR : ∀ᶠ y in l, ∀ x : Fin 2 → ℝ, 1 < Spec.clayP kap cp (P0 y) (DV y) (U0 y) (x 1) →
      R y x = Spec.clayR kap cp (P0 y) (DV y) (U0 y) M g (Q y) (K y) x) (n : ℕ) :
    ∀ {u : X → Fin 2 → ℝ}, Tendsto u l (𝓝 us) → Tendsto (fun y => mccNewton ops (R y) n (u y)) l (𝓝 us) := by
  induction n with
  | zero => exact fun hu => hu
  | succ n ih => exact fun hu => ih (clay_step_tendsto hbad hk hcp hM hg hP0 hDV hU0 hQ hK hp0 hKt hu hus hwet hroot hp1 hj hR)

end

/-- Without limits of the stiffness and above unit pressure the residuals of the code are those of the formula, for any trial state
outside of the yield surface. -/
theorem mcc_residuals_clayR {pr : MCCParams ℝ} (hlo : pr.KMin = none) (hhi : pr.KMax = none) (t : MCCTrial ℝ) (hy : 0 < t.yf) (pc : ℝ)
    (x : Fin 2 → ℝ) (hp : 1 < Spec.clayP pr.kap pr.cp t.pPrev t.deV (Real.log pc) (x 1)) :
    (mccResiduals realFns pr t pc x).res = Spec.clayR pr.kap pr.cp t.pPrev t.deV (Real.log pc) pr.M
      (3 * (1 - 2 * pr.nu) / (2 * (1 + pr.nu)) / pr.kap) (max t.qTr (1 / 10 ^ 6)) t.KTr x := by
  have hAp : (mccResiduals realFns pr t pc x).p = Spec.clayP pr.kap pr.cp t.pPrev t.deV (Real.log pc) (x 1) := by
    simp only [mccResiduals, if_pos hy, mccPressure, realFns, Spec.clayP]
  have hAG : (mccResiduals realFns pr t pc x).G = 3 * (1 - 2 * pr.nu) / (2 * (1 + pr.nu)) / pr.kap * (mccResiduals realFns pr t pc x).p := by
    have : (mccResiduals realFns pr t pc x).G = mccG pr.nu (mccK pr.kap (mccResiduals realFns pr t pc x).p pr.KMin pr.KMax) := rfl
    rw [this, hlo, hhi]
    simp only [mccG, mccK, clipOpt]
    rw [max_eq_left (by rw [hAp]; exact hp.le)]
    ring
  obtain ⟨h0, h1⟩ := mccResiduals_values pr t pc hy x
  ext i
  fin_cases i
  · change (mccResiduals realFns pr t pc x).res 0 = _
    rw [h0]
    simp only [Spec.clayR, Fin.zero_eta, Matrix.cons_val_zero, ← hAp, ← hAG, mccYield]
    rw [mul_one_div]
    ring
  · change (mccResiduals realFns pr t pc x).res 1 = _
    rw [h1]
    simp only [Spec.clayR, Fin.mk_one, Matrix.cons_val_one, Matrix.cons_val_fin_one, ← hAp]

/-- The remaining parts of the trial state depend continuously on velocity gradient and stress, too. -/
theorem cont_mccTrial_parts (pr : MCCParams ℝ) (e σref : Mat3 ℝ) (dt : ℝ) :
    Continuous (fun x : Mat3 ℝ × Mat3 ℝ × ℝ => (mccTrial realFns pr x.1 e x.2.1 x.2.2 σref dt).pPrev) ∧
    Continuous (fun x : Mat3 ℝ × Mat3 ℝ × ℝ => (mccTrial realFns pr x.1 e x.2.1 x.2.2 σref dt).deV) ∧
    Continuous (fun x : Mat3 ℝ × Mat3 ℝ × ℝ => (mccTrial realFns pr x.1 e x.2.1 x.2.2 σref dt).qTr) ∧
    Continuous (fun x : Mat3 ℝ × Mat3 ℝ × ℝ => (mccTrial realFns pr x.1 e x.2.1 x.2.2 σref dt).KTr) := by
  obtain ⟨h1, h2, -⟩ := cont_mccTrial pr e σref dt
  have hL : Continuous fun x : Mat3 ℝ × Mat3 ℝ × ℝ => x.1 := continuous_fst
  have hσ : Continuous fun x : Mat3 ℝ × Mat3 ℝ × ℝ => x.2.1 := continuous_fst.comp continuous_snd
  have hr := cont_jaumann hσ (cont_spin hL) dt
  have hd := cont_csmul dt (cont_sym hL)
  refine ⟨(continuous_const.mul hr.matrix_trace).max continuous_const, hd.matrix_trace, ?_, ?_⟩
  · exact Real.continuous_sqrt.comp (continuous_const.mul (continuous_const.mul (cont_dcontr h2 h2)))
  · exact (cont_clipOpt _ _).comp (continuous_const.mul ((h1.max continuous_const).max continuous_const))

/-- Along trial states outside of the yield surface that approach a trial state on it, the stress and the preconsolidation pressure
returned by the plastic branch approach those of the elastic branch. -/
theorem mcc_plastic_tendsto {X : Type*} {l : Filter X} {ops : NewtonOps ℝ} (hbad : ∀ x, ops.bad x = false) (hj : Spec.ExactJacs ops)
    {pr : MCCParams ℝ} (h : pr.Clay) (hlo : pr.KMin = none) (hhi : pr.KMax = none) {T : X → MCCTrial ℝ} {t : MCCTrial ℝ} {C : X → ℝ} {pc : ℝ}
    (c2 : Tendsto (fun y => (T y).sTr) l (𝓝 t.sTr)) (c3 : ∀ᶠ y in l, 0 < (T y).yf) (c4 : Tendsto (fun y => (T y).pPrev) l (𝓝 t.pPrev))
    (c5 : Tendsto (fun y => (T y).deV) l (𝓝 t.deV)) (c6 : Tendsto (fun y => (T y).qTr) l (𝓝 t.qTr))
    (c7 : Tendsto (fun y => (T y).KTr) l (𝓝 t.KTr)) (c8 : Tendsto C l (𝓝 pc)) (hK : 0 < t.KTr)
    (hy : t.qTr * t.qTr / (pr.M * pr.M) + t.pTr * t.pTr - pc * t.pTr = 0) (hpT : t.pTr = t.pPrev * Real.exp (t.deV / pr.kap))
    (hq : 1 / 10 ^ 6 ≤ t.qTr) (hp : 1 < t.pTr) (hw : pc < 2 * t.pTr) (hpc : 1 ≤ pc) :
    Tendsto (fun y => (mccPlastic realFns ops pr (T y) (C y)).stress) l (𝓝 (t.sTr + isoT t.pTr)) ∧
    Tendsto (fun y => (mccPlastic realFns ops pr (T y) (C y)).pc) l (𝓝 pc) := by
  have hpc0 : 0 < pc := one_pos.trans_le hpc
  have hlog : Tendsto (fun y => Real.log (C y)) l (𝓝 (Real.log pc)) := c8.log hpc0.ne'
  have hcp : 0 < pr.cp := sub_pos.2 h.lam
  have hM := h.M
  have hg : 0 < 3 * (1 - 2 * pr.nu) / (2 * (1 + pr.nu)) / pr.kap :=
    div_pos (div_pos (by linarith [h.nuHi]) (by linarith [h.nuLo])) h.kap
  have hp0 : 0 < t.pPrev := by
    rcases lt_trichotomy t.pPrev 0 with hn | hn | hn
    · have := mul_neg_of_neg_of_pos hn (Real.exp_pos (t.deV / pr.kap)); linarith
    · rw [hn, zero_mul] at hpT; linarith
    · exact hn
  set us : Fin 2 → ℝ := ![0, Real.log pc] with hus
  have hPs : Spec.clayP pr.kap pr.cp t.pPrev t.deV (Real.log pc) (us 1) = t.pTr := by
    simp only [hus, Spec.clayP, Matrix.cons_val_one, Matrix.cons_val_fin_one, sub_self, mul_zero, sub_zero, hpT]
  have hEs : Real.exp (us 1) = pc := by
    simp only [hus, Matrix.cons_val_one, Matrix.cons_val_fin_one]; exact Real.exp_log hpc0
  have hN := clay_newton_tendsto (ops := ops) hbad h.kap hcp hM hg (R := fun y x => (mccResiduals realFns pr (T y) (C y) x).res)
    (Q := fun y => max (T y).qTr (1 / 10 ^ 6)) (q := max t.qTr (1 / 10 ^ 6)) (us := us) c4 c5 hlog (c6.max tendsto_const_nhds) c7 hp0 hK
    (fun i => by fin_cases i; exacts [le_rfl, Real.log_nonneg hpc]) (by rw [hPs, hEs]; exact hw)
    (by
      ext i
      fin_cases i
      · simp only [Spec.clayR, Fin.zero_eta, Matrix.cons_val_zero, hPs, hEs, Pi.zero_apply, max_eq_left hq]
        simp only [hus, Matrix.cons_val_zero, mul_zero, add_zero, div_one]
        rw [show t.qTr ^ 2 / pr.M ^ 2 + t.pTr ^ 2 - pc * t.pTr = t.qTr * t.qTr / (pr.M * pr.M) + t.pTr * t.pTr - pc * t.pTr by ring, hy, zero_div]
      · simp only [Spec.clayR, Fin.mk_one, Matrix.cons_val_one, Matrix.cons_val_fin_one, hPs, hEs, Pi.zero_apply]
        simp [hus])
    (by rw [hPs]; exact hp) hj
    (by filter_upwards [c3] with y hyy x hx; exact mcc_residuals_clayR hlo hhi (T y) hyy (C y) x hx) 10
    (u := fun y => ![0, Real.log (C y)])
    (tendsto_pi_nhds.2 fun i => by fin_cases i; exacts [tendsto_const_nhds, hlog])
  set U : X → Fin 2 → ℝ := fun y => mccNewton ops (fun x => (mccResiduals realFns pr (T y) (C y) x).res) 10 ![0, Real.log (C y)] with hU
  have hu0 : Tendsto (fun y => U y 0) l (𝓝 0) := (continuous_apply 0).continuousAt.tendsto.comp hN
  have hu1 : Tendsto (fun y => U y 1) l (𝓝 (Real.log pc)) := (continuous_apply 1).continuousAt.tendsto.comp hN
  -- pressure, stiffness and factor of the last evaluation
  have hP : Tendsto (fun y => Spec.clayP pr.kap pr.cp (T y).pPrev (T y).deV (Real.log (C y)) (U y 1)) l (𝓝 t.pTr) := by
    have := c4.mul (((c5.sub ((hu1.sub hlog).const_mul pr.cp)).div_const pr.kap).rexp)
    simp only [sub_self, mul_zero, sub_zero, ← hpT] at this
    exact this
  have hG : Tendsto (fun y => mccG pr.nu (mccK pr.kap (Spec.clayP pr.kap pr.cp (T y).pPrev (T y).deV (Real.log (C y)) (U y 1)) pr.KMin pr.KMax)) l
      (𝓝 (mccG pr.nu (mccK pr.kap t.pTr pr.KMin pr.KMax))) := by
    have hc : Continuous fun p : ℝ => mccG pr.nu (mccK pr.kap p pr.KMin pr.KMax) :=
      continuous_const.mul ((cont_clipOpt _ _).comp (continuous_const.mul (continuous_id.max continuous_const)))
    exact hc.continuousAt.tendsto.comp hP
  have hf : Tendsto (fun y => 1 / (1 + 6 * mccG pr.nu (mccK pr.kap (Spec.clayP pr.kap pr.cp (T y).pPrev (T y).deV (Real.log (C y)) (U y 1)) pr.KMin pr.KMax) *
      U y 0)) l (𝓝 1) := by
    have := (tendsto_const_nhds (x := (1 : ℝ))).div (((hG.const_mul 6).mul hu0).const_add 1) (by simp)
    rw [mul_zero, add_zero, div_one] at this
    exact this
  have hs := hf.smul c2
  rw [one_smul] at hs
  have hEu : Tendsto (fun y => Real.exp (U y 1)) l (𝓝 pc) := by
    have := hu1.rexp
    rwa [Real.exp_log hpc0] at this
  have hf0 := hf.eventually (lt_mem_nhds one_pos)
  have hPp := hP.eventually (lt_mem_nhds (one_pos.trans hp))
  constructor
  · have hi : Tendsto (fun y => isoT (Spec.clayP pr.kap pr.cp (T y).pPrev (T y).deV (Real.log (C y)) (U y 1)) : X → Mat3 ℝ) l (𝓝 (isoT t.pTr)) :=
      (cont_isoT continuous_id).continuousAt.tendsto.comp hP
    refine (hs.add hi).congr' ?_
    filter_upwards [c3, hf0, hPp] with y e1 e2 e3
    have ep : (mccResiduals realFns pr (T y) (C y) (U y)).p = Spec.clayP pr.kap pr.cp (T y).pPrev (T y).deV (Real.log (C y)) (U y 1) := by
      simp only [mccResiduals, if_pos e1, mccPressure, realFns, Spec.clayP]
    have es : (mccResiduals realFns pr (T y) (C y) (U y)).s = (1 / (1 + 6 * mccG pr.nu (mccK pr.kap (mccResiduals realFns pr (T y) (C y) (U y)).p pr.KMin pr.KMax) *
      U y 0)) • (T y).sTr := rfl
    rw [ep] at es
    have eU : mccNewton ops (fun x => (mccResiduals realFns pr (T y) (C y) x).res) 10 ![0, realFns.log (if (T y).yf > 0 then C y else 2)] = U y := by
      rw [if_pos e1]; rfl
    simp only [mccPlastic, eU, ep, es, if_pos e3.ne']
    congr 1
    ext i j
    rw [Matrix.smul_apply, smul_eq_mul]
    split
    · rfl
    · rename_i hz
      rw [ne_eq, not_not, mul_eq_zero] at hz
      rcases hz with hz | hz
      · exact absurd hz e2.ne'
      · rw [hz, mul_zero]
  · refine hEu.congr' ?_
    filter_upwards [c3] with y e1
    have eU : mccNewton ops (fun x => (mccResiduals realFns pr (T y) (C y) x).res) 10 ![0, realFns.log (if (T y).yf > 0 then C y else 2)] = U y := by
      rw [if_pos e1]; rfl
    simp only [mccPlastic, eU]
    rw [if_pos (show realFns.exp (U y 1) ≠ 0 from (Real.exp_pos _).ne')]
    rfl

/-- **C148**: where yielding begins, on the wet side, the stress and the preconsolidation pressure of Cam-Clay are continuous. The
preconsolidation pressure must be at least one unit (below, they jump: `mcc_jumps_at_yield`), the trial pressure above one unit, the
trial shear stress at least the bound 1e-6 that the code puts in its place, and the stiffness without limits. -/
theorem mcc_continuous_at_yield_partial {ops : NewtonOps ℝ} (hbad : ∀ x, ops.bad x = false) (hj : Spec.ExactJacs ops) {pr : MCCParams ℝ}
    (h : pr.Clay) (hlo : pr.KMin = none) (hhi : pr.KMax = none) (e σref : Mat3 ℝ) (dt : ℝ) (x : (Mat3 ℝ × Mat3 ℝ × ℝ) × ℝ)
    (hy : (mccTrial realFns pr x.1.1 e x.1.2.1 x.1.2.2 σref dt).yf = 0)
    (hq : 1 / 10 ^ 6 ≤ (mccTrial realFns pr x.1.1 e x.1.2.1 x.1.2.2 σref dt).qTr)
    (hp : 1 < (mccTrial realFns pr x.1.1 e x.1.2.1 x.1.2.2 σref dt).pTr)
    (hw : x.1.2.2 < 2 * (mccTrial realFns pr x.1.1 e x.1.2.1 x.1.2.2 σref dt).pTr) (hpc : 1 ≤ x.1.2.2)
    (hv : x.2 < pr.N * (999999 / 1000000)) :
    ContinuousAt (fun x : (Mat3 ℝ × Mat3 ℝ × ℝ) × ℝ => (mccUpdate realFns ops pr x.1.1 e x.1.2.1 x.1.2.2 σref x.2 dt).stress) x ∧
    ContinuousAt (fun x : (Mat3 ℝ × Mat3 ℝ × ℝ) × ℝ => (mccUpdate realFns ops pr x.1.1 e x.1.2.1 x.1.2.2 σref x.2 dt).pc) x := by
  obtain ⟨c1, c2, c3⟩ := cont_mccTrial pr e σref dt
  obtain ⟨c4, c5, c6, c7⟩ := cont_mccTrial_parts pr e σref dt
  set T : (Mat3 ℝ × Mat3 ℝ × ℝ) × ℝ → MCCTrial ℝ := fun x => mccTrial realFns pr x.1.1 e x.1.2.1 x.1.2.2 σref dt with hT
  have c1 : Continuous fun x => (T x).pTr := c1.comp continuous_fst
  have c2 : Continuous fun x => (T x).sTr := c2.comp continuous_fst
  have c3 : Continuous fun x => (T x).yf := c3.comp continuous_fst
  have c4 : Continuous fun x => (T x).pPrev := c4.comp continuous_fst
  have c5 : Continuous fun x => (T x).deV := c5.comp continuous_fst
  have c6 : Continuous fun x => (T x).qTr := c6.comp continuous_fst
  have c7 : Continuous fun x => (T x).KTr := c7.comp continuous_fst
  have c8 : Continuous fun x : (Mat3 ℝ × Mat3 ℝ × ℝ) × ℝ => x.1.2.2 := continuous_snd.comp (continuous_snd.comp continuous_fst)
  have hyT : (T x).yf = (T x).qTr * (T x).qTr / (pr.M * pr.M) + (T x).pTr * (T x).pTr - x.1.2.2 * (T x).pTr := rfl
  have hpT : (T x).pTr = (T x).pPrev * Real.exp ((T x).deV / pr.kap) := rfl
  have hup : ∀ y, mccUpdate realFns ops pr y.1.1 e y.1.2.1 y.1.2.2 σref y.2 dt =
      if y.2 ≤ pr.N * (999999 / 1000000) then
        if (T y).yf > 0 then mccPlastic realFns ops pr (T y) y.1.2.2 else mccElastic (T y) y.1.2.2
      else { stress := 0, epsE := (T y).epsERot, pc := y.1.2.2 } := fun y => rfl
  have hKx : 0 < (T x).KTr := by
    have : (T x).KTr = Spec.mccBulk pr.kap pr.KMin pr.KMax (max (T x).pTr pr.pMin) := by rw [← mccK_spec]; rfl
    rw [this]; exact clayBulk_pos h _
  replace hy : (T x).yf = 0 := hy
  replace hq : 1 / 10 ^ 6 ≤ (T x).qTr := hq
  replace hp : 1 < (T x).pTr := hp
  replace hw : x.1.2.2 < 2 * (T x).pTr := hw
  clear_value T
  have hvx : ∀ᶠ y in 𝓝 x, y.2 < pr.N * (999999 / 1000000) := continuous_snd.continuousAt.eventually (gt_mem_nhds hv)
  have hxe : mccUpdate realFns ops pr x.1.1 e x.1.2.1 x.1.2.2 σref x.2 dt = mccElastic (T x) x.1.2.2 := by
    rw [hup, if_pos hv.le, if_neg (by rw [hy]; exact lt_irrefl _)]
  have hpos := mcc_plastic_tendsto (l := 𝓝[{y | 0 < (T y).yf}] x) hbad hj h hlo hhi (T := T) (t := T x) (C := fun y => y.1.2.2) (pc := x.1.2.2)
    c2.continuousWithinAt self_mem_nhdsWithin c4.continuousWithinAt c5.continuousWithinAt c6.continuousWithinAt c7.continuousWithinAt
    c8.continuousWithinAt hKx (by rw [← hyT]; exact hy) hpT hq hp hw hpc
  have hsplit : ∀ {Z : Type} [TopologicalSpace Z] {f : (Mat3 ℝ × Mat3 ℝ × ℝ) × ℝ → Z}, ContinuousWithinAt f {y | 0 < (T y).yf} x →
      ContinuousWithinAt f {y | 0 < (T y).yf}ᶜ x → ContinuousAt f x := by
    intro Z _ f h1 h2
    have := h1.union h2
    rwa [Set.union_compl_self, continuousWithinAt_univ] at this
  constructor
  · refine hsplit ?_ ?_
    · rw [ContinuousWithinAt, hxe]
      refine hpos.1.congr' ?_
      filter_upwards [self_mem_nhdsWithin, mem_nhdsWithin_of_mem_nhds hvx] with y h1 h2
      rw [hup, if_pos h2.le, if_pos (show (T y).yf > 0 from h1)]
    · rw [ContinuousWithinAt, hxe]
      refine (((c2.add (cont_isoT c1)).continuousWithinAt (s := {y | 0 < (T y).yf}ᶜ) (x := x)).tendsto).congr' ?_
      filter_upwards [self_mem_nhdsWithin, mem_nhdsWithin_of_mem_nhds hvx] with y h1 h2
      rw [hup, if_pos h2.le, if_neg (show ¬ (T y).yf > 0 from h1)]; rfl
  · refine hsplit ?_ ?_
    · rw [ContinuousWithinAt, hxe]
      refine hpos.2.congr' ?_
      filter_upwards [self_mem_nhdsWithin, mem_nhdsWithin_of_mem_nhds hvx] with y h1 h2
      rw [hup, if_pos h2.le, if_pos (show (T y).yf > 0 from h1)]
    · rw [ContinuousWithinAt, hxe]
      refine ((c8.continuousWithinAt (s := {y | 0 < (T y).yf}ᶜ) (x := x)).tendsto).congr' ?_
      filter_upwards [self_mem_nhdsWithin, mem_nhdsWithin_of_mem_nhds hvx] with y h1 h2
      rw [hup, if_pos h2.le, if_neg (show ¬ (T y).yf > 0 from h1)]; rfl

/-- A stress with pressure 2 and shear stress 1. -/
noncomputable def exYieldStress : Mat3 ℝ := Matrix.diagonal ![8 / 3, 5 / 3, 5 / 3]

theorem exYield_trial : (mccTrial realFns exClay 0 0 exYieldStress (5 / 2) 0 0).pTr = 2 ∧
    (mccTrial realFns exClay 0 0 exYieldStress (5 / 2) 0 0).qTr = 1 ∧ (mccTrial realFns exClay 0 0 exYieldStress (5 / 2) 0 0).yf = 0 := by
  have h1 : jaumann exYieldStress (spinTensor (0 : Mat3 ℝ)) 0 = exYieldStress := by simp [jaumann]
  have h2 : pressureOf exYieldStress = 2 := by
    simp only [pressureOf, exYieldStress, Matrix.trace_diagonal, Fin.sum_univ_three, show (![8 / 3, 5 / 3, 5 / 3] : Fin 3 → ℝ) 2 = 5 / 3 from rfl]
    norm_num
  have hmin : max (2 : ℝ) exClay.pMin = 2 := max_eq_left (by norm_num [exClay])
  have h3 : (mccTrial realFns exClay 0 0 exYieldStress (5 / 2) 0 0).pTr = 2 := by
    simp [mccTrial, h1, h2, hmin, mccPressure, volStrain]
  have h4 : (mccTrial realFns exClay 0 0 exYieldStress (5 / 2) 0 0).sTr = exYieldStress - isoT 2 := by
    simp only [mccTrial, h1, h2, hmin]
    simp [mccS, devStrainV, devStressP, isoT, volStrain]
  have h5 : (mccTrial realFns exClay 0 0 exYieldStress (5 / 2) 0 0).qTr = 1 := by
    change qVmDev realFns (mccTrial realFns exClay 0 0 exYieldStress (5 / 2) 0 0).sTr = 1
    rw [h4]
    have : dcontr (exYieldStress - isoT 2) (exYieldStress - isoT 2) = 2 / 3 := by
      simp only [dcontr, Fin.sum_univ_three, Matrix.sub_apply, isoT_apply, exYieldStress, Matrix.diagonal_apply,
        show (![8 / 3, 5 / 3, 5 / 3] : Fin 3 → ℝ) 2 = 5 / 3 from rfl, if_neg (show (0 : Fin 3) ≠ 2 by decide),
        if_neg (show (1 : Fin 3) ≠ 2 by decide), if_neg (show (2 : Fin 3) ≠ 0 by decide), if_neg (show (2 : Fin 3) ≠ 1 by decide)]
      norm_num
    simp only [qVmDev, J2dev, this, realFns]
    norm_num
  refine ⟨h3, h5, ?_⟩
  change mccYield (mccTrial realFns exClay 0 0 exYieldStress (5 / 2) 0 0).pTr (5 / 2) (mccTrial realFns exClay 0 0 exYieldStress (5 / 2) 0 0).qTr exClay.M = 0
  rw [h3, h5]
  norm_num [mccYield, exClay]

example := mcc_continuous_at_yield_partial (ops := exactOps) (fun _ => rfl) exactOps_exactJacs (pr := exClay)
  ⟨by norm_num [exClay], by norm_num [exClay], by norm_num [exClay], by norm_num [exClay], by norm_num [exClay], by simp [exClay]⟩ rfl rfl 0 0 0
  ((0, exYieldStress, 5 / 2), 1) exYield_trial.2.2 (by rw [exYield_trial.2.1]; norm_num) (by rw [exYield_trial.1]; norm_num)
  (by rw [exYield_trial.1]; norm_num) (by norm_num) (by norm_num [exClay])

end Hydrax
