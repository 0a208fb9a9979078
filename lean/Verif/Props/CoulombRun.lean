import Verif.Lemmas.StressRun
import Verif.Props.Coulomb
import Verif.Props.Flow
import Verif.Props.Dependence

/-!
# Properties C32 and C155 over runs

Any number of steps of either solver keeps every stress of a scene of granular bodies within the cone, and
with it under Coulomb's line on every plane.
-/

namespace Hydrax

open Spec

/-- Drucker-Prager materials without dilatancy and hardening that share the coefficient `mu` and cohesion `k`. -/
structure DPShared (mu k : ℝ) (pr : DPParams ℝ) : Prop where
  shear : 0 < pr.shear
  mu1 : pr.mu1 = mu
  coh : pr.mu2 * pr.c0 = k
  hard : pr.H = 0
  dil : pr.mu1Hat = 0
  apex : 1 / 10 ^ 12 ≤ pr.bulk * pr.mu1

/-- The granular laws of the package with friction up to that of the cone `mu`, `k`. -/
inductive ConeLaw {dim : ℕ} (mu k : ℝ) : Law ℝ dim (LawState ℝ) → Prop
  | dp (pr : DPParams ℝ) (reset : Bool) : DPShared mu k pr → ConeLaw mu k (dpLaw realFns pr reset)
  | muI (pr : MuIParams ℝ) (reset : Bool) : pr.Valid → pr.muD / 2 ≤ mu → ConeLaw mu k (muILaw realFns pr reset)

theorem dpYield_zero {mu k : ℝ} (hk : 0 ≤ k) : dpYield mu 1 k 0 ≤ 0 := by
  have hz : J2 (0 : Mat3 ℝ) = 0 := by simp [J2, ddot, dev, meanStress]
  have hm : meanStress (0 : Mat3 ℝ) = 0 := meanStress_zero
  unfold dpYield
  rw [hz, hm, Real.sqrt_zero]
  linarith

/-- The stress of the mu(I) law lies in the cone of half its dynamic coefficient. -/
theorem muI_in_cone (pr : MuIParams ℝ) (h : pr.Valid) {mu k : ℝ} (hmu : pr.muD / 2 ≤ mu) (hk : 0 ≤ k) (L : Mat3 ℝ)
    (m v r : ℝ) : dpYield mu 1 k (muIStress realFns pr L m v r) ≤ 0 := by
  rcases le_or_gt (m / v / r) 1 with hr | hr
  · rw [(muI_pressure realFns pr h.bulk.le L m v r).2 hr]
    exact dpYield_zero hk
  · have hb := (muI_friction_bound_partial pr h L m v r hr).1
    have hp := ((muI_pressure realFns pr h.bulk.le L m v r).1 hr).2
    set p := meanStress (muIStress realFns pr L m v r)
    have hI : 0 ≤ inertial pr.dP pr.rhoP (gammaDot L) p := by
      have := gammaDot_nonneg L
      have := h.dP
      unfold inertial
      positivity
    have hd : muOfI pr.muS pr.muD pr.I0 (inertial pr.dP pr.rhoP (gammaDot L) p) ≤ pr.muD := by
      unfold muOfI
      have h1 : inertial pr.dP pr.rhoP (gammaDot L) p / (pr.I0 + inertial pr.dP pr.rhoP (gammaDot L) p) ≤ 1 :=
        div_le_one_of_le₀ (by linarith [h.I0]) (by linarith [h.I0])
      have := mul_le_mul_of_nonneg_left h1 (sub_nonneg.mpr h.muD)
      rw [mul_div_assoc]
      linarith
    have : 1 / 2 * muOfI pr.muS pr.muD pr.I0 (inertial pr.dP pr.rhoP (gammaDot L) p) * p ≤ mu * p :=
      mul_le_mul_of_nonneg_right (by linarith) hp
    unfold dpYield
    linarith

section
variable {z : Sz} {dim : ℕ} {SS : Type*} {fn : MathFns ℝ} {sv : Solver z ℝ dim SS (LawState ℝ) (ForceState ℝ dim)}

/-- **C32** over runs: in a scene of Drucker-Prager and mu(I) bodies whose stresses start within the cone, all stresses stay
within it for any number of steps of either solver, with any obstacles, loads and damping. -/
theorem dp_admissible_run_partial {mu k : ℝ} (hmu : 1 / 10 ^ 8 ≤ mu) (hk : 0 ≤ k)
    (hL : ∀ c, ConeLaw mu k (sv.laws c))
    (hf : ∀ f ∈ sv.forces, LibForce f) {call} (hcall : IsSolverCall fn sv call) (n : ℕ)
    (st st' : SimState z ℝ dim SS (LawState ℝ) (ForceState ℝ dim)) (h : runSteps call n st = .ok st')
    (h0 : SceneAll (fun σ => dpYield mu 1 k σ ≤ 0) st.world st.mech) :
    SceneAll (fun σ => dpYield mu 1 k σ ≤ 0) st'.world st'.mech := by
  refine stress_invariant_run _ (fun c => ?_) ?_ hf hcall n st st' h h0
  · have hc := hL c
    revert hc
    generalize sv.laws c = l
    intro hc
    cases hc with
    | dp pr reset _ => exact .dp _ _ _
    | muI pr reset _ _ => exact .muI _ _ _
  · intro c m s ls dt r hr hs hls p
    have hc := hL c
    revert hr hc
    generalize sv.laws c = l
    intro hr hc
    cases hc with
    | muI pr reset hv hle =>
      simp only [muILaw] at hr
      split at hr
      · split_ifs at hr
        simp only [Except.ok.injEq] at hr
        subst hr
        exact muI_in_cone pr hv hle hk _ _ _ _
      · simp at hr
    | dp pr reset g =>
      simp only [dpLaw] at hr
      split at hr
      · rename_i eps epsP p0
        simp only [Except.ok.injEq] at hr
        subst hr
        change dpYield mu 1 k
          (dpUpdate realFns pr (s.L p) (eps p.val) (epsP p.val) (p0 p.val) (s.density p) dt).stress ≤ 0
        rcases le_or_gt pr.rho0 (s.density p) with hρ | hρ
        · have := dp_admissible_partial pr g.shear g.hard.ge g.dil (g.mu1 ▸ hmu)
            (by rw [g.hard]; simpa using g.apex) (s.L p) (eps p.val) (epsP p.val) (p0 p.val) (s.density p) dt hρ
          rw [g.hard, zero_mul, add_zero, g.mu1] at this
          unfold dpYield at this ⊢
          rw [g.coh] at this
          linarith
        · unfold dpUpdate
          simp only
          rw [if_neg (not_le.mpr hρ)]
          exact dpYield_zero hk
      · simp at hr

/-- **C155** over runs: no point of such a scene ever carries more shear stress on a plane than the raised Coulomb
line allows. -/
theorem coulomb_run_partial {mu k : ℝ} (hmu : 1 / 10 ^ 8 ≤ mu) (hlt : 4 * mu ^ 2 < 3) (hk : 0 ≤ k)
    (hL : ∀ c, ConeLaw mu k (sv.laws c))
    (hf : ∀ f ∈ sv.forces, LibForce f) {call} (hcall : IsSolverCall fn sv call) (n : ℕ)
    (st st' : SimState z ℝ dim SS (LawState ℝ) (ForceState ℝ dim)) (h : runSteps call n st = .ok st')
    (h0 : SceneAll (fun σ => dpYield mu 1 k σ ≤ 0) st.world st.mech) (p : Fin z.P) (s : MPState ℝ dim (z.np p))
    (hs : st'.world.bodies p = .deformable s) (q : Fin (z.np p)) :
    CoulombLaw (mu * coneFactor mu) (k * coneFactor mu) (s.stress q) := by
  obtain ⟨a, b⟩ := (dp_admissible_run_partial hmu hk hL hf hcall n st st' h h0).1 p s hs q
  have := cone_coulomb (le_trans (by norm_num) hmu) hlt a b
  rwa [one_mul] at this

end

/-! ### A scene meeting the conditions -/

/-- Flowing mu(I) material lies in the cone of half its dynamic coefficient. -/
example : dpYield (exMuI.muD / 2) 1 0 (muIStress realFns exMuI (!![0, 1, 0; 0, 0, 0; 0, 0, 0]) 3 1 2) ≤ 0 :=
  muI_in_cone exMuI exMuI_valid le_rfl le_rfl _ _ _ _

noncomputable def sandPr : DPParams ℝ :=
  { bulk := 1000, shear := 600, mu1 := 1 / 2, mu2 := 0, c0 := 0, mu1Hat := 0, H := 0, rho0 := 1 / 2 }

/-- A thrown grain of sand under pressure. -/
noncomputable def sandSv : Solver { exSz with np := fun _ => 1 } ℝ 2 Unit (LawState ℝ) (ForceState ℝ 2) :=
  { thrownSv with laws := fun _ => dpLaw realFns sandPr true }

noncomputable def sandSt : SimState { exSz with np := fun _ => 1 } ℝ 2 Unit (LawState ℝ) (ForceState ℝ 2) :=
  { thrownSt 0 with mech := { (thrownSt 0).mech with laws := fun _ => .dp (fun _ => 0) (fun _ => 0) (fun _ => 0) } }

/-- A step runs, and ends with stresses under the line. -/
example : ∃ st', runSteps (uslCall realFns sandSv) 1 sandSt = .ok st' ∧
    ∀ s, st'.world.bodies (0 : Fin 1) = .deformable s →
      CoulombLaw (1 / 2 * coneFactor (1 / 2)) (0 * coneFactor (1 / 2)) (s.stress 0) := by
  obtain ⟨st', hst⟩ : ∃ y, runSteps (uslCall realFns sandSv) 1 sandSt = .ok y := by
    obtain ⟨y, hy⟩ : ∃ y, uslCall realFns sandSv sandSt = .ok y := ⟨_, rfl⟩
    exact ⟨y, hy⟩
  refine ⟨st', hst, fun s hs => ?_⟩
  refine coulomb_run_partial (sv := sandSv) (by norm_num) (by norm_num) le_rfl (fun c => .dp _ _ ?_) ?_
    (.inl rfl) 1 sandSt st' hst ?_ 0 s hs 0
  · exact ⟨by norm_num [sandPr], rfl, by norm_num [sandPr], rfl, rfl, by norm_num [sandPr]⟩
  · intro f hf
    exact gravityList_lib _ f hf
  · refine ⟨fun p s hs q => ?_, fun c i => Matrix.isSymm_zero⟩
    have : s = { pointAt 0 with velocity := fun _ => ![1, 0] } := by
      have := hs.symm
      simp only [sandSt, thrownSt] at this
      cases this; rfl
    subst this
    have hz : (pointAt (0 : ℝ)).stress q = isoT 1 := (one_smul _ _).symm
    change ((pointAt (0 : ℝ)).stress q).IsSymm ∧ dpYield (1 / 2) 1 0 ((pointAt (0 : ℝ)).stress q) ≤ 0
    rw [hz]
    refine ⟨isoT_symm _, ?_⟩
    rw [dpYield, J2_isoT, meanStress_isoT]
    norm_num

end Hydrax
