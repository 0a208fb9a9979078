import Verif.Props.ElementTest
import Verif.Props.Flow
import Verif.Props.CamClayReturn
import Verif.Lemmas.SceneEst
import Verif.Lemmas.ExampleScene
import Mathlib.Analysis.Calculus.Deriv.Basic
import Mathlib.Analysis.Calculus.Deriv.Add
import Mathlib.Analysis.Calculus.Deriv.Mul

/-!
# Stress control and density in element tests (C87, C88)

`grad` is the derivative taken by `jax.grad`; all that is assumed of it is `TrueGrad`, that it returns the derivative where
there is one.
-/

set_option linter.unusedSectionVars false

namespace Hydrax

/-- `grad` returns the derivative of a differentiable function. -/
def TrueGrad (grad : (ℝ → ℝ) → ℝ → ℝ) : Prop := ∀ f f' x, HasDerivAt f f' x → grad f x = f'

theorem trueGrad_deriv : TrueGrad deriv := fun _ _ _ h => h.deriv

/-! ### C88: the confining stress -/

theorem newton_succ (grad : (ℝ → ℝ) → ℝ → ℝ) (f : ℝ → ℝ) (n : ℕ) (a : ℝ) (ha : a ≠ 0)
    (hg : grad f (newtonIterate grad f n) = a) :
    newtonIterate grad f (n + 1) =
      newtonIterate grad f n + 4 / 5 * (-f (newtonIterate grad f n) / a) := by
  simp only [newtonIterate]
  rw [hg, if_neg ha]

/-- On an affine function every damped step leaves a fifth of the residual. -/
theorem newton_affine (grad : (ℝ → ℝ) → ℝ → ℝ) (hg : TrueGrad grad) (f : ℝ → ℝ) (a : ℝ) (ha : a ≠ 0)
    (hf : ∀ x, f x = a * x + f 0) (n : ℕ) : f (newtonIterate grad f n) = (1 / 5) ^ n * f 0 := by
  have hd : ∀ x, grad f x = a := fun x => by
    apply hg
    have h1 : HasDerivAt (fun x : ℝ => a * x + f 0) (a * 1) x := ((hasDerivAt_id x).const_mul a).add_const _
    rw [mul_one] at h1
    have h2 : f = fun x => a * x + f 0 := funext hf
    rw [h2]
    simpa using h1
  induction n with
  | zero => simp [newtonIterate]
  | succ n ih =>
    rw [newton_succ grad f n a ha (hd _), hf, mul_add, ← add_right_comm, ← hf, ih]
    field_simp
    ring

/-- If the derivative is zero everywhere the iteration never moves. -/
theorem newton_constant (grad : (ℝ → ℝ) → ℝ → ℝ) (hg : TrueGrad grad) (f : ℝ → ℝ) (hf : ∀ x, f x = f 0) (n : ℕ) :
    newtonIterate grad f n = 0 := by
  have hd : ∀ x, grad f x = 0 := fun x => by
    apply hg
    have h2 : f = fun _ => f 0 := funext hf
    rw [h2]
    exact hasDerivAt_const x _
  induction n with
  | zero => rfl
  | succ n ih => simp only [newtonIterate]; rw [hd, if_pos rfl, ih]

/-- The stress a drained test controls: the mean stress, or the lateral stress. -/
noncomputable def Spec.controlled (pConstant : Bool) (σ : Mat3 ℝ) : ℝ :=
  if pConstant then (σ 0 0 + σ 1 1 + σ 2 2) / 3 else σ 0 0

/-- Change of the controlled stress of a linear elastic solid per lateral strain. -/
noncomputable def Spec.lateralStiffness (pConstant : Bool) (E nu : ℝ) : ℝ :=
  if pConstant then 2 * E / (3 * (1 - 2 * nu)) else E / ((1 + nu) * (1 - 2 * nu))

/-- Change of the controlled stress of a linear elastic solid per axial strain. -/
noncomputable def Spec.axialStiffness (pConstant : Bool) (E nu : ℝ) : ℝ :=
  if pConstant then E / (3 * (1 - 2 * nu)) else nu * E / ((1 + nu) * (1 - 2 * nu))

section
variable {dim : ℕ}

theorem elastic_controlled (b : Bool) (E nu : ℝ) (h1 : 1 + nu ≠ 0) (h2 : 1 - 2 * nu ≠ 0) (σ : Mat3 ℝ) (lat rate dt : ℝ) :
    Spec.controlled b (elasticStress E nu (triaxialL lat rate) σ dt) =
      Spec.controlled b σ + dt * (Spec.lateralStiffness b E nu * lat + Spec.axialStiffness b E nu * rate) := by
  have e : ∀ i, elasticStress E nu (triaxialL lat rate) σ dt i i =
      σ i i + lameModulus E nu * (dt * (lat + lat + rate)) + 2 * shearModulus E nu * (dt * ![lat, lat, rate] i) := by
    intro i
    have ht : (dt • ((1 / 2 : ℝ) • (triaxialL lat rate + (triaxialL lat rate).transpose))).trace = dt * (lat + lat + rate) := by
      simp [triaxialL, Matrix.trace, Fin.sum_univ_three]
      ring
    unfold elasticStress
    simp only [Matrix.add_apply, ht, isoT, Matrix.smul_apply, Matrix.one_apply_eq, smul_eq_mul, mul_one]
    have hd : (triaxialL lat rate) i i = ![lat, lat, rate] i := by simp [triaxialL]
    rw [Matrix.transpose_apply, hd]
    ring
  have h2' : 1 - nu * 2 ≠ 0 := by rwa [mul_comm]
  cases b
  · simp only [Spec.controlled, Spec.lateralStiffness, Spec.axialStiffness, Bool.false_eq_true, if_false, e,
      Matrix.cons_val, lameModulus, shearModulus]
    field_simp
    ring
  · simp only [Spec.controlled, Spec.lateralStiffness, Spec.axialStiffness, if_true, e,
      Matrix.cons_val, lameModulus, shearModulus]
    field_simp
    ring

theorem residual_eq {LS : Type*} (t : TriaxialTest ℝ dim LS) (mp : MPState ℝ dim 1) (ls : LS) (rate dt x : ℝ)
    (r : MPState ℝ dim 1 × LS) (h : t.solver.step realExpm mp ls (triaxialL x rate) dt = .ok r) :
    t.residual realExpm mp ls rate dt x = Spec.controlled t.isPConstant (r.1.stress 0) - t.confine := by
  unfold TriaxialTest.residual Spec.controlled
  rw [h]
  simp only [Matrix.trace, Fin.sum_univ_three, Matrix.diag_apply]
  split_ifs <;> rfl

/-- What the driver does to the stress of an elastic point. -/
theorem step_elastic (d : Driver ℝ dim (LawState ℝ)) (E nu : ℝ) (reset : Bool) (hd : d.law = elasticLaw E nu reset)
    (mp : MPState ℝ dim 1) (ls : LawState ℝ) (L : Mat3 ℝ) (dt : ℝ) :
    ∃ r, d.step realExpm mp ls L dt = .ok r ∧ ∀ p, r.1.stress p = elasticStress E nu L (mp.stress p) dt := by
  unfold Driver.step
  rw [hd]
  exact ⟨_, rfl, fun p => rfl⟩

/-- **C88**, one step: after a step of a drained test of a linear elastic point with `n` Newton iterations, the
deviation of the controlled stress from the confining stress is `5⁻ⁿ` times what it would have been without lateral strain. -/
theorem drained_elastic_step (grad : (ℝ → ℝ) → ℝ → ℝ) (hg : TrueGrad grad) (t : TriaxialTest ℝ dim (LawState ℝ))
    (E nu : ℝ) (reset : Bool) (hd : t.solver.law = elasticLaw E nu reset) (hE : 0 < E) (h1 : -1 < nu) (h2 : nu < 1 / 2)
    (hu : t.isUndrained = false) (mp mp' : MPState ℝ dim 1) (ls ls' : LawState ℝ) (idx : ℕ) (hdt : t.dt.at idx ≠ 0)
    (hst : ¬ (t.startStatic = true ∧ idx = 0))
    (h : t.stepIdx realExpm grad (mp, ls) idx = .ok (mp', ls')) :
    Spec.controlled t.isPConstant (mp'.stress 0) - t.confine = (1 / 5) ^ t.numNewton *
      (Spec.controlled t.isPConstant (mp.stress 0) - t.confine +
        Spec.axialStiffness t.isPConstant E nu * (t.axialRate.at idx * t.dt.at idx)) := by
  have hn1 : 1 + nu ≠ 0 := by linarith
  have hn2 : 1 - 2 * nu ≠ 0 := by linarith
  have hp1 : 0 < 1 + nu := by linarith
  have hp2 : 0 < 1 - 2 * nu := by linarith
  unfold TriaxialTest.stepIdx at h
  rw [if_neg hst] at h
  simp only at h
  generalize t.axialRate.at idx = rate at *
  generalize t.dt.at idx = dt at *
  have hres : ∀ x, t.residual realExpm mp ls rate dt x =
      Spec.controlled t.isPConstant (mp.stress 0) +
        dt * (Spec.lateralStiffness t.isPConstant E nu * x + Spec.axialStiffness t.isPConstant E nu * rate) - t.confine := by
    intro x
    obtain ⟨r, hr, hs⟩ := step_elastic t.solver E nu reset hd mp ls (triaxialL x rate) dt
    rw [residual_eq t mp ls rate dt x r hr, hs, elastic_controlled _ _ _ hn1 hn2]
  have hk : Spec.lateralStiffness t.isPConstant E nu ≠ 0 := by
    unfold Spec.lateralStiffness
    split_ifs <;> positivity
  have key := newton_affine grad hg (t.residual realExpm mp ls rate dt) (dt * Spec.lateralStiffness t.isPConstant E nu)
    (mul_ne_zero hdt hk) (fun x => by rw [hres, hres]; ring) t.numNewton
  have hl : t.lateral realExpm grad mp ls rate dt = newtonIterate grad (t.residual realExpm mp ls rate dt) t.numNewton := by
    unfold TriaxialTest.lateral
    rw [hu]
    rfl
  rw [hl] at h
  rw [residual_eq t mp ls rate dt _ _ h, hres] at key
  rw [key]
  ring

/-- **C88**: a drained test of a linear elastic point that starts within `M` of the confining stress, where `M` bounds the
stress change that the axial strain of one step would cause alone, stays within `2 * 5⁻ⁿ * M` of it in every recorded state
(for the default of 20 iterations, within `2.1e-14 * M`), however long the test is. -/
theorem drained_elastic_control (grad : (ℝ → ℝ) → ℝ → ℝ) (hg : TrueGrad grad) (t : TriaxialTest ℝ dim (LawState ℝ))
    (E nu : ℝ) (reset : Bool) (hd : t.solver.law = elasticLaw E nu reset) (hE : 0 < E) (h1 : -1 < nu) (h2 : nu < 1 / 2)
    (hu : t.isUndrained = false) (hs : t.startStatic = false) (hn : 1 ≤ t.numNewton) (hdt : ∀ i, t.dt.at i ≠ 0)
    (mp : MPState ℝ dim 1) (ls : LawState ℝ) (M : ℝ)
    (hM : ∀ i, |Spec.axialStiffness t.isPConstant E nu * (t.axialRate.at i * t.dt.at i)| ≤ M)
    (h0 : |Spec.controlled t.isPConstant (mp.stress 0) - t.confine| ≤ M)
    (tr : List (MPState ℝ dim 1 × LawState ℝ)) (h : t.run realExpm grad mp ls = .ok tr)
    (r : MPState ℝ dim 1 × LawState ℝ) (hr : r ∈ tr) :
    |Spec.controlled t.isPConstant (r.1.stress 0) - t.confine| ≤ 2 * (1 / 5) ^ t.numNewton * M := by
  have hq : (0 : ℝ) ≤ (1 / 5) ^ t.numNewton := by positivity
  have hq5 : ((1 : ℝ) / 5) ^ t.numNewton ≤ 1 / 5 := by
    calc ((1 : ℝ) / 5) ^ t.numNewton ≤ (1 / 5) ^ 1 := pow_le_pow_of_le_one (by norm_num) (by norm_num) hn
      _ = 1 / 5 := pow_one _
  have hM0 : 0 ≤ M := le_trans (abs_nonneg _) h0
  have inv : ∀ m (c : MPState ℝ dim 1 × LawState ℝ),
      scanCarry (t.stepIdx realExpm grad) (mp, ls) (List.range m) = .ok c →
      |Spec.controlled t.isPConstant (c.1.stress 0) - t.confine| ≤ M ∧
      (0 < m → |Spec.controlled t.isPConstant (c.1.stress 0) - t.confine| ≤ 2 * (1 / 5) ^ t.numNewton * M) := by
    intro m
    induction m with
    | zero =>
      intro c hc
      have : (mp, ls) = c := Except.ok.inj hc
      subst this
      exact ⟨h0, fun h => absurd h (lt_irrefl 0)⟩
    | succ m ih =>
      intro c hc
      rw [List.range_succ, scanCarry_append] at hc
      cases hb : scanCarry (t.stepIdx realExpm grad) (mp, ls) (List.range m) with
      | error e => rw [hb] at hc; cases hc
      | ok b =>
        rw [hb] at hc
        simp only [andThen, scanCarry] at hc
        cases hst : t.stepIdx realExpm grad b m with
        | error e => rw [hst] at hc; cases hc
        | ok c' =>
          rw [hst] at hc
          have : c' = c := Except.ok.inj hc
          subst this
          have e := drained_elastic_step grad hg t E nu reset hd hE h1 h2 hu b.1 c'.1 b.2 c'.2 m (hdt m)
            (by rw [hs]; simp) hst
          have hb2 := (ih b hb).1
          have hc2 : |Spec.controlled t.isPConstant (c'.1.stress 0) - t.confine| ≤ 2 * (1 / 5) ^ t.numNewton * M := by
            rw [e, abs_mul, abs_of_nonneg hq]
            have := abs_add_le (Spec.controlled t.isPConstant (b.1.stress 0) - t.confine)
              (Spec.axialStiffness t.isPConstant E nu * (t.axialRate.at m * t.dt.at m))
            have h3 := mul_le_mul_of_nonneg_left (this.trans (add_le_add hb2 (hM m))) hq
            linarith
          refine ⟨hc2.trans ?_, fun _ => hc2⟩
          have := mul_le_mul_of_nonneg_right hq5 hM0
          linarith
  simp only [TriaxialTest.run] at h
  split_ifs at h with hs0 hdiv
  obtain ⟨k, hk, rfl⟩ := List.getElem_of_mem hr
  obtain ⟨-, h3⟩ := scanRows_index _ _ _ _ _ h
  exact (inv _ _ (h3 k hk)).2 (Nat.mul_pos (Nat.succ_pos k) (Nat.pos_of_ne_zero hs0))

/-! ### Laws with an equation of state -/

/-- What the driver does to the stress of a point of a law with an equation of state: the law sees the volume before the
step. -/
theorem step_muI (d : Driver ℝ dim (LawState ℝ)) (fn : MathFns ℝ) (pr : MuIParams ℝ) (reset : Bool)
    (hd : d.law = muILaw fn pr reset) (mp : MPState ℝ dim 1) (r : ℕ → ℝ) (hv : mp.volScalar = false) (L : Mat3 ℝ) (dt : ℝ) :
    ∃ c, d.step realExpm mp (.density r) L dt = .ok c ∧ c.2 = .density r ∧
      ∀ p, c.1.stress p = muIStress fn pr L (mp.mass p) (mp.volume p) (r p.val) := by
  unfold Driver.step
  rw [hd]
  simp only [muILaw, hv]
  exact ⟨_, rfl, rfl, fun p => rfl⟩

theorem step_fluid (d : Driver ℝ dim (LawState ℝ)) (fn : MathFns ℝ) (pr : FluidParams ℝ) (reset : Bool)
    (hd : d.law = fluidLaw fn pr reset) (mp : MPState ℝ dim 1) (r : ℕ → ℝ) (hv : mp.volScalar = false) (L : Mat3 ℝ)
    (dt : ℝ) :
    ∃ c, d.step realExpm mp (.density r) L dt = .ok c ∧ c.2 = .density r ∧
      ∀ p, c.1.stress p = fluidStress fn pr L (mp.mass p) (mp.volume p) (r p.val) := by
  unfold Driver.step
  rw [hd]
  simp only [fluidLaw, hv]
  exact ⟨_, rfl, rfl, fun p => rfl⟩

theorem fluid_controlled (pr : FluidParams ℝ) (lat rate m v r : ℝ) :
    Spec.controlled false (fluidStress realFns pr (triaxialL lat rate) m v r) =
      2 / 3 * pr.viscosity * (lat - rate) - fluidPressure realFns pr (m / v) r := by
  rw [fluidStress_eq]
  simp [Spec.controlled, isoT, triaxialL, Spec.dev, Spec.strainRate, Spec.meanStress]
  ring

/-- **C88**: a drained test of a viscous fluid point with lateral stress control also leaves `5⁻ⁿ` of the deviation. -/
theorem drained_fluid_step (grad : (ℝ → ℝ) → ℝ → ℝ) (hg : TrueGrad grad) (t : TriaxialTest ℝ dim (LawState ℝ))
    (pr : FluidParams ℝ) (reset : Bool) (hd : t.solver.law = fluidLaw realFns pr reset) (hv : 0 < pr.viscosity)
    (hu : t.isUndrained = false) (hpc : t.isPConstant = false) (mp mp' : MPState ℝ dim 1) (r : ℕ → ℝ) (ls' : LawState ℝ)
    (hvs : mp.volScalar = false) (idx : ℕ) (hst : ¬ (t.startStatic = true ∧ idx = 0))
    (h : t.stepIdx realExpm grad (mp, .density r) idx = .ok (mp', ls')) :
    mp'.stress 0 0 0 - t.confine = (1 / 5) ^ t.numNewton *
      (-(2 / 3 * pr.viscosity * t.axialRate.at idx) - fluidPressure realFns pr (mp.mass 0 / mp.volume 0) (r 0) - t.confine) := by
  unfold TriaxialTest.stepIdx at h
  rw [if_neg hst] at h
  simp only at h
  generalize t.axialRate.at idx = rate at *
  generalize t.dt.at idx = dt at *
  have hres : ∀ x, t.residual realExpm mp (.density r) rate dt x =
      2 / 3 * pr.viscosity * (x - rate) - fluidPressure realFns pr (mp.mass 0 / mp.volume 0) (r 0) - t.confine := by
    intro x
    obtain ⟨c, hc, -, hs⟩ := step_fluid t.solver realFns pr reset hd mp r hvs (triaxialL x rate) dt
    rw [residual_eq t mp _ rate dt x c hc, hs, hpc, fluid_controlled]
    rfl
  have key := newton_affine grad hg (t.residual realExpm mp (.density r) rate dt) (2 / 3 * pr.viscosity)
    (by positivity) (fun x => by rw [hres, hres]; ring) t.numNewton
  have hl : t.lateral realExpm grad mp (.density r) rate dt =
      newtonIterate grad (t.residual realExpm mp (.density r) rate dt) t.numNewton := by
    unfold TriaxialTest.lateral
    rw [hu]
    rfl
  rw [hl] at h
  have hk := residual_eq t mp (.density r) rate dt _ _ h
  rw [hpc] at hk
  rw [hk, hres] at key
  have key' : mp'.stress 0 0 0 - t.confine = _ := key
  rw [key']
  ring

/-- Mean stress of a mu(I) point: the equation of state, whatever the rate of deformation. -/
theorem muI_mean_indep (fn : MathFns ℝ) (pr : MuIParams ℝ) (hK : 0 ≤ pr.bulk) (L L' : Mat3 ℝ) (m v r : ℝ) :
    Spec.meanStress (muIStress fn pr L m v r) = Spec.meanStress (muIStress fn pr L' m v r) := by
  by_cases hr : 1 < m / v / r
  · rw [((muI_pressure fn pr hK L m v r).1 hr).1, ((muI_pressure fn pr hK L' m v r).1 hr).1]
  · rw [(muI_pressure fn pr hK L m v r).2 (not_lt.mp hr), (muI_pressure fn pr hK L' m v r).2 (not_lt.mp hr)]

/-- **C88** (refuted), mu(I) under mean stress control: the law is given the volume before the step, so no lateral rate
changes the mean stress; the residual is constant, its derivative is zero, every Newton update is discarded and the lateral
rate is zero. The test is one-dimensional compression. -/
theorem p_constant_no_control (grad : (ℝ → ℝ) → ℝ → ℝ) (hg : TrueGrad grad) (t : TriaxialTest ℝ dim (LawState ℝ))
    (fn : MathFns ℝ) (pr : MuIParams ℝ) (reset : Bool) (hd : t.solver.law = muILaw fn pr reset) (hK : 0 ≤ pr.bulk)
    (hu : t.isUndrained = false) (hp : t.isPConstant = true) (mp : MPState ℝ dim 1) (r : ℕ → ℝ)
    (hvs : mp.volScalar = false) (rate dt : ℝ) :
    (∀ lat lat', t.residual realExpm mp (.density r) rate dt lat = t.residual realExpm mp (.density r) rate dt lat') ∧
    t.lateral realExpm grad mp (.density r) rate dt = 0 := by
  have hres : ∀ x, t.residual realExpm mp (.density r) rate dt x =
      Spec.meanStress (muIStress fn pr (triaxialL x rate) (mp.mass 0) (mp.volume 0) (r 0)) - t.confine := by
    intro x
    obtain ⟨c, hc, -, hs⟩ := step_muI t.solver fn pr reset hd mp r hvs (triaxialL x rate) dt
    rw [residual_eq t mp _ rate dt x c hc, hs, hp]
    rfl
  have hconst : ∀ lat lat', t.residual realExpm mp (.density r) rate dt lat =
      t.residual realExpm mp (.density r) rate dt lat' := fun a b => by
    rw [hres, hres, muI_mean_indep fn pr hK (triaxialL a rate) (triaxialL b rate)]
  refine ⟨hconst, ?_⟩
  unfold TriaxialTest.lateral
  rw [hu]
  exact newton_constant grad hg _ (fun x => hconst x 0) _

/-- Equation of state of the mu(I) law: pressure at density ratio `ratio`. -/
noncomputable def Spec.muIEos (bulk pMin ratio : ℝ) : ℝ := if 1 < ratio then max (bulk * (ratio - 1)) pMin else 0

theorem muI_mean (fn : MathFns ℝ) (pr : MuIParams ℝ) (hK : 0 ≤ pr.bulk) (L : Mat3 ℝ) (m v r : ℝ) :
    Spec.meanStress (muIStress fn pr L m v r) = Spec.muIEos pr.bulk pr.pMin (m / v / r) := by
  unfold Spec.muIEos
  split_ifs with hr
  · exact ((muI_pressure fn pr hK L m v r).1 hr).1
  · rw [(muI_pressure fn pr hK L m v r).2 (not_lt.mp hr)]
    simp [Spec.meanStress]

/-- **C88** (refuted), the run: whatever the confining stress, a mean-stress-controlled test of a mu(I) point follows
one-dimensional compression: after step `m` the volume is the initial one times `exp (-ε_m)`, `ε_m` the axial strain, and
the mean stress is the equation of state at the volume after step `m - 1`. -/
theorem p_constant_run (grad : (ℝ → ℝ) → ℝ → ℝ) (hg : TrueGrad grad) (t : TriaxialTest ℝ dim (LawState ℝ))
    (fn : MathFns ℝ) (pr : MuIParams ℝ) (reset : Bool) (hd : t.solver.law = muILaw fn pr reset) (hK : 0 ≤ pr.bulk)
    (hu : t.isUndrained = false) (hp : t.isPConstant = true) (hs : t.startStatic = false) (mp : MPState ℝ dim 1) (r : ℕ → ℝ)
    (hvs : mp.volScalar = false) (hvol : mp.volume 0 = (mp.F 0).det * mp.volume0 0)
    (tr : List (MPState ℝ dim 1 × LawState ℝ)) (h : t.run realExpm grad mp (.density r) = .ok tr) (k : ℕ)
    (hk : k < tr.length) :
    tr[k].1.volume 0 = Real.exp (-Spec.axialStrain t.axialRate.at t.dt.at false ((k + 1) * t.stride)) * mp.volume 0 ∧
    Spec.meanStress (tr[k].1.stress 0) = Spec.muIEos pr.bulk pr.pMin (mp.mass 0 /
      (Real.exp (-Spec.axialStrain t.axialRate.at t.dt.at false ((k + 1) * t.stride - 1)) * mp.volume 0) / r 0) := by
  have inv : ∀ m (c : MPState ℝ dim 1 × LawState ℝ),
      scanCarry (t.stepIdx realExpm grad) (mp, .density r) (List.range m) = .ok c →
      c.2 = .density r ∧ c.1.volScalar = false ∧ c.1.mass = mp.mass ∧ c.1.volume0 = mp.volume0 ∧
      c.1.volume 0 = (c.1.F 0).det * c.1.volume0 0 ∧
      c.1.volume 0 = Real.exp (-Spec.axialStrain t.axialRate.at t.dt.at false m) * mp.volume 0 ∧
      (0 < m → Spec.meanStress (c.1.stress 0) = Spec.muIEos pr.bulk pr.pMin (mp.mass 0 /
        (Real.exp (-Spec.axialStrain t.axialRate.at t.dt.at false (m - 1)) * mp.volume 0) / r 0)) := by
    intro m
    induction m with
    | zero =>
      intro c hc
      have : (mp, .density r) = c := Except.ok.inj hc
      subst this
      exact ⟨rfl, hvs, rfl, rfl, hvol, by simp [Spec.axialStrain], fun h => absurd h (lt_irrefl 0)⟩
    | succ m ih =>
      intro c hc
      rw [List.range_succ, scanCarry_append] at hc
      cases hb : scanCarry (t.stepIdx realExpm grad) (mp, .density r) (List.range m) with
      | error e => rw [hb] at hc; cases hc
      | ok b =>
        obtain ⟨b1, b2, b3, b4, b5, b6, -⟩ := ih b hb
        rw [hb] at hc
        simp only [andThen, scanCarry] at hc
        cases hst : t.stepIdx realExpm grad b m with
        | error e => rw [hst] at hc; cases hc
        | ok c' =>
          rw [hst] at hc
          have : c' = c := Except.ok.inj hc
          subst this
          obtain ⟨bm, bl⟩ := b
          simp only at b1 b2 b3 b4 b5 b6
          subst b1
          unfold TriaxialTest.stepIdx at hst
          rw [if_neg (by rw [hs]; simp)] at hst
          simp only at hst
          rw [(p_constant_no_control grad hg t fn pr reset hd hK hu hp bm r b2 _ _).2] at hst
          obtain ⟨s1, s2, s3, s4, -, -⟩ := step_ok t.solver bm c'.1 _ c'.2 _ _ _ hst
          obtain ⟨d, hd1, hd2, hd3⟩ := step_muI t.solver fn pr reset hd bm r b2 (triaxialL 0 (t.axialRate.at m)) (t.dt.at m)
          have hdc : d = c' := by rw [hd1] at hst; exact Except.ok.inj hst
          subst hdc
          have hdet : (d.1.F 0).det = Real.exp (-(t.dt.at m * t.axialRate.at m)) * (bm.F 0).det := by
            rw [s1 0, Matrix.det_mul, Matrix.det_diagonal, Fin.prod_univ_three]
            simp only [Matrix.cons_val, mul_zero, neg_zero, Real.exp_zero, one_mul]
          refine ⟨hd2, ?_, s4.trans b3, s3.trans b4, ?_, ?_, fun _ => ?_⟩
          · unfold Driver.step at hst
            obtain ⟨a, -, ha⟩ := andThen_ok.mp hst
            rw [← Except.ok.inj ha]
          · rw [s2 0, s3]
          · have e : Spec.axialStrain t.axialRate.at t.dt.at false (m + 1) =
                Spec.axialStrain t.axialRate.at t.dt.at false m + t.axialRate.at m * t.dt.at m := by
              unfold Spec.axialStrain
              rw [Finset.sum_range_succ]
              simp
            rw [s2 0, hdet, mul_assoc, ← b5, b6, e, ← mul_assoc, ← Real.exp_add]
            congr 2
            ring
          · rw [hd3 0, muI_mean fn pr hK, b3, b6]
            rfl
  simp only [TriaxialTest.run] at h
  split_ifs at h with hs0 hdiv
  obtain ⟨-, h3⟩ := scanRows_index _ _ _ _ _ h
  obtain ⟨-, -, -, -, -, i6, i7⟩ := inv _ _ (h3 k hk)
  exact ⟨i6, i7 (Nat.mul_pos (Nat.succ_pos k) (Nat.pos_of_ne_zero hs0))⟩

/-- **C88** (refuted): a mean-stress-controlled test of a mu(I) point at constant compression rate, starting exactly at
the confining stress and with the stress-free pressure below it, has a mean stress above the confining stress in every
entry but the first. -/
theorem p_constant_drifts (grad : (ℝ → ℝ) → ℝ → ℝ) (hg : TrueGrad grad) (t : TriaxialTest ℝ dim (LawState ℝ))
    (fn : MathFns ℝ) (pr : MuIParams ℝ) (reset : Bool) (hd : t.solver.law = muILaw fn pr reset) (hK : 0 < pr.bulk)
    (hu : t.isUndrained = false) (hp : t.isPConstant = true) (hs : t.startStatic = false) (mp : MPState ℝ dim 1) (r : ℕ → ℝ)
    (hvs : mp.volScalar = false) (hvol : mp.volume 0 = (mp.F 0).det * mp.volume0 0)
    (rate dt : ℝ) (hra : t.axialRate = .scalar rate) (hdt : t.dt = .scalar dt) (hpos : 0 < rate * dt)
    (hstr : t.stride = 1) (ρ : ℝ) (hρ : ρ = mp.mass 0 / mp.volume 0 / r 0) (h1 : 1 < ρ)
    (hconf : t.confine = pr.bulk * (ρ - 1)) (hmin : pr.pMin ≤ t.confine)
    (tr : List (MPState ℝ dim 1 × LawState ℝ)) (h : t.run realExpm grad mp (.density r) = .ok tr) (k : ℕ)
    (hk : k < tr.length) :
    Spec.meanStress (tr[k].1.stress 0) = pr.bulk * (ρ * Real.exp (k * (rate * dt)) - 1) ∧
    (0 < k → t.confine < Spec.meanStress (tr[k].1.stress 0)) := by
  have e : Spec.axialStrain t.axialRate.at t.dt.at false ((k + 1) * t.stride - 1) = k * (rate * dt) := by
    rw [hra, hdt, hstr]
    simp [Spec.axialStrain, Sched.at]
  have e2 := (p_constant_run grad hg t fn pr reset hd hK.le hu hp hs mp r hvs hvol tr h k hk).2
  have e3 : mp.mass 0 / (Real.exp (-(k * (rate * dt))) * mp.volume 0) / r 0 = ρ * Real.exp (k * (rate * dt)) := by
    rw [hρ, Real.exp_neg]
    have := Real.exp_pos (k * (rate * dt))
    rw [inv_mul_eq_div, div_div_eq_mul_div]
    ring
  have h0 : 0 ≤ (k : ℝ) * (rate * dt) := by positivity
  have hexp : 1 ≤ Real.exp (k * (rate * dt)) := Real.one_le_exp h0
  have h2 : ρ ≤ ρ * Real.exp (k * (rate * dt)) := le_mul_of_one_le_right (by linarith) hexp
  have h3 : pr.bulk * (ρ - 1) ≤ pr.bulk * (ρ * Real.exp (k * (rate * dt)) - 1) :=
    mul_le_mul_of_nonneg_left (by linarith) hK.le
  have e4 : Spec.meanStress (tr[k].1.stress 0) = pr.bulk * (ρ * Real.exp (k * (rate * dt)) - 1) := by
    rw [e2, e, e3, Spec.muIEos, if_pos (by linarith), max_eq_left]
    rw [hconf] at hmin
    exact hmin.trans h3
  refine ⟨e4, fun hk0 => ?_⟩
  rw [e4, hconf]
  have hk1 : (0 : ℝ) < k := by exact_mod_cast hk0
  have : 1 < Real.exp (k * (rate * dt)) := Real.one_lt_exp_iff.mpr (mul_pos hk1 hpos)
  have h5 : ρ < ρ * Real.exp (k * (rate * dt)) := lt_mul_of_one_lt_right (by linarith) this
  exact mul_lt_mul_of_pos_left (by linarith) hK

/-! ### C87: stress and density of a recorded state -/

/-- **C87** (refuted): a mu(I) point at its reference density that is compressed by any amount in one driver step is
recorded with the increased density but without stress. -/
theorem driver_stress_lags (d : Driver ℝ dim (LawState ℝ)) (fn : MathFns ℝ) (pr : MuIParams ℝ) (reset : Bool)
    (hd : d.law = muILaw fn pr reset) (hK : 0 < pr.bulk) (mp : MPState ℝ dim 1) (r : ℕ → ℝ) (hvs : mp.volScalar = false)
    (hvol : mp.volume 0 = (mp.F 0).det * mp.volume0 0) (hm : 0 < mp.mass 0) (hv : 0 < mp.volume 0) (hr : 0 < r 0)
    (hρ : mp.mass 0 / mp.volume 0 = r 0) (lat rate dt : ℝ) (hc : 0 < dt * (2 * lat + rate)) :
    ∃ c, d.step realExpm mp (.density r) (triaxialL lat rate) dt = .ok c ∧ c.1.stress 0 = 0 ∧
      c.1.mass 0 / c.1.volume 0 / r 0 = Real.exp (dt * (2 * lat + rate)) ∧
      Spec.meanStress (c.1.stress 0) < Spec.muIEos pr.bulk pr.pMin (c.1.mass 0 / c.1.volume 0 / r 0) := by
  obtain ⟨c, hc1, hc2, hc3⟩ := step_muI d fn pr reset hd mp r hvs (triaxialL lat rate) dt
  obtain ⟨s1, s2, s3, s4, -, -⟩ := step_ok d mp c.1 _ c.2 _ _ _ hc1
  have h0 : c.1.stress 0 = 0 := by
    rw [hc3 0]
    refine (muI_pressure fn pr hK.le _ _ _ _).2 ?_
    rw [hρ]
    exact (div_self hr.ne').le
  have hV : c.1.volume 0 = Real.exp (-(dt * (2 * lat + rate))) * mp.volume 0 := by
    rw [s2 0, s1 0, Matrix.det_mul, Matrix.det_diagonal, Fin.prod_univ_three]
    simp only [Matrix.cons_val]
    rw [mul_assoc, ← hvol, ← Real.exp_add, ← Real.exp_add]
    congr 2
    ring
  have hq : c.1.mass 0 / c.1.volume 0 / r 0 = Real.exp (dt * (2 * lat + rate)) := by
    rw [hV, s4, Real.exp_neg, ← hρ]
    have := Real.exp_pos (dt * (2 * lat + rate))
    field_simp
  refine ⟨c, hc1, h0, hq, ?_⟩
  rw [h0, hq]
  have he : 1 < Real.exp (dt * (2 * lat + rate)) := Real.one_lt_exp_iff.mpr hc
  unfold Spec.muIEos
  rw [if_pos he]
  have : (0 : ℝ) < pr.bulk * (Real.exp (dt * (2 * lat + rate)) - 1) := mul_pos hK (by linarith)
  exact lt_of_lt_of_le (by simpa [Spec.meanStress] using this) (le_max_left _ _)

/-- **C87** (partial): in general the mean stress after a driver step is the equation of state at the density *before* the
step; so it is that of the recorded density if the step preserves volume, as every step of an undrained test does. -/
theorem driver_density_partial (d : Driver ℝ dim (LawState ℝ)) (fn : MathFns ℝ) (pr : MuIParams ℝ) (reset : Bool)
    (hd : d.law = muILaw fn pr reset) (hK : 0 ≤ pr.bulk) (mp : MPState ℝ dim 1) (r : ℕ → ℝ) (hvs : mp.volScalar = false)
    (hvol : mp.volume 0 = (mp.F 0).det * mp.volume0 0) (lat rate dt : ℝ) :
    ∃ c, d.step realExpm mp (.density r) (triaxialL lat rate) dt = .ok c ∧
      Spec.meanStress (c.1.stress 0) = Spec.muIEos pr.bulk pr.pMin (mp.mass 0 / mp.volume 0 / r 0) ∧
      (2 * lat + rate = 0 →
        Spec.meanStress (c.1.stress 0) = Spec.muIEos pr.bulk pr.pMin (c.1.mass 0 / c.1.volume 0 / r 0)) := by
  obtain ⟨c, hc1, hc2, hc3⟩ := step_muI d fn pr reset hd mp r hvs (triaxialL lat rate) dt
  obtain ⟨s1, s2, s3, s4, -, -⟩ := step_ok d mp c.1 _ c.2 _ _ _ hc1
  have e : Spec.meanStress (c.1.stress 0) = Spec.muIEos pr.bulk pr.pMin (mp.mass 0 / mp.volume 0 / r 0) := by
    rw [hc3 0, muI_mean fn pr hK]
    rfl
  refine ⟨c, hc1, e, fun hz => ?_⟩
  have hV : c.1.volume 0 = mp.volume 0 := by
    rw [s2 0, s1 0, Matrix.det_mul, Matrix.det_diagonal, Fin.prod_univ_three]
    simp only [Matrix.cons_val]
    rw [mul_assoc, ← hvol, ← Real.exp_add, ← Real.exp_add]
    have : -(dt * lat) + -(dt * lat) + -(dt * rate) = 0 := by linear_combination (-dt) * hz
    rw [this, Real.exp_zero, one_mul]
  rw [e, hV, s4]

/-! ### C85: Cam-Clay points in the element test -/

/-- The specific volume of the recorded state lies on the compression lines of the recorded stress and preconsolidation
pressure, which are positive. -/
structure Spec.OnLines (pr : MCCParams ℝ) (mass volume : ℝ) (σ : Mat3 ℝ) (pc : ℝ) : Prop where
  pos : 0 < Spec.meanStress σ
  posPc : 0 < pc
  line : pr.rhoP * volume / mass = Spec.mccLine pr.N pr.pRef pr.lam pr.kap pc (Spec.meanStress σ)

/-- **C85**, element test: the driver's volume follows the logarithmic strain, so a triaxial step of a connected Cam-Clay
point with mean stress at least `p_min_calc`, elastic or plastic, converged or not, leads from the compression lines to the
compression lines. -/
theorem driver_mcc_line_step (d : Driver ℝ dim (LawState ℝ)) (ops : NewtonOps ℝ) (pr : MCCParams ℝ) (reset : Bool)
    (hd : d.law = mccLaw realFns ops pr reset) (h : pr.Elastic) (hN : 0 < pr.N) (hr : 0 < pr.pRef) (hp : 0 < pr.pMin)
    (mp : MPState ℝ dim 1) (pc : ℕ → ℝ) (ref eps : ℕ → Mat3 ℝ) (hvol : mp.volume 0 = (mp.F 0).det * mp.volume0 0)
    (hv : pr.rhoP / mp.density 0 ≤ pr.N * (999999 / 1000000)) (hmin : pr.pMin ≤ Spec.meanStress (mp.stress 0))
    (hl : Spec.OnLines pr (mp.mass 0) (mp.volume 0) (mp.stress 0) (pc 0)) (lat rate dt : ℝ) :
    ∃ c pc' eps', d.step realExpm mp (.mcc pc (some ref) eps) (triaxialL lat rate) dt = .ok c ∧
      c.2 = .mcc pc' (some ref) eps' ∧ c.1.volume 0 = (c.1.F 0).det * c.1.volume0 0 ∧
      Spec.OnLines pr (c.1.mass 0) (c.1.volume 0) (c.1.stress 0) (pc' 0) := by
  have hex : ∃ c, d.step realExpm mp (.mcc pc (some ref) eps) (triaxialL lat rate) dt = .ok c := by
    unfold Driver.step
    rw [hd]
    exact ⟨_, rfl⟩
  obtain ⟨c, hc⟩ := hex
  obtain ⟨s1, s2, s3, s4, -, -⟩ := step_ok d mp c.1 _ c.2 _ _ _ hc
  have hres : ∃ pc' eps', c.2 = .mcc pc' (some ref) eps' ∧
      pc' 0 = (mccUpdate realFns ops pr (triaxialL lat rate) (eps 0) (mp.stress 0) (pc 0) (ref 0)
        (pr.rhoP / mp.density 0) dt).pc ∧
      c.1.stress 0 = (mccUpdate realFns ops pr (triaxialL lat rate) (eps 0) (mp.stress 0) (pc 0) (ref 0)
        (pr.rhoP / mp.density 0) dt).stress := by
    unfold Driver.step at hc
    rw [hd] at hc
    simp only [mccLaw, andThen] at hc
    have := Except.ok.inj hc
    subst this
    exact ⟨_, _, rfl, rfl, rfl⟩
  obtain ⟨pc', eps', e1, e2, e3⟩ := hres
  obtain ⟨a1, a2, a3⟩ := mcc_line_step ops pr h (triaxialL lat rate) (eps 0) (mp.stress 0) (pc 0) (ref 0)
    (pr.rhoP / mp.density 0) dt hv hl.posPc hp hmin
  have htr : (Spec.strainInc (triaxialL lat rate) dt).trace = dt * lat + dt * lat + dt * rate := by
    simp [Spec.strainInc, triaxialL, Matrix.trace, Fin.sum_univ_three]
    ring
  have hV : c.1.volume 0 = Real.exp (-(Spec.strainInc (triaxialL lat rate) dt).trace) * mp.volume 0 := by
    rw [s2 0, s1 0, Matrix.det_mul, Matrix.det_diagonal, Fin.prod_univ_three]
    simp only [Matrix.cons_val]
    rw [mul_assoc, ← hvol, ← Real.exp_add, ← Real.exp_add, htr]
    congr 2
    ring
  refine ⟨c, pc', eps', hc, e1, by rw [s2 0, s3], ?_⟩
  rw [e2, e3]
  refine ⟨a1, a2, ?_⟩
  have hpos : ∀ pc p : ℝ, 0 < pc → 0 < p → 0 < Spec.mccLine pr.N pr.pRef pr.lam pr.kap pc p :=
    fun pc p h1 h2 => mul_pos (mul_pos hN (Real.rpow_pos_of_pos (div_pos hr h1) _))
      (Real.rpow_pos_of_pos (div_pos h1 h2) _)
  have hw : pr.rhoP * c.1.volume 0 / c.1.mass 0 =
      pr.rhoP * mp.volume 0 / mp.mass 0 * Real.exp (-(Spec.strainInc (triaxialL lat rate) dt).trace) := by
    rw [hV, s4]
    ring
  have hw0 : 0 < pr.rhoP * mp.volume 0 / mp.mass 0 := by rw [hl.line]; exact hpos _ _ hl.posPc hl.pos
  rw [hw]
  apply Real.log_injOn_pos (mul_pos hw0 (Real.exp_pos _)) (hpos _ _ a2 a1)
  rw [Real.log_mul hw0.ne' (Real.exp_pos _).ne', Real.log_exp, hl.line,
    mccLine_log _ _ _ _ _ _ hN hr hl.posPc hl.pos, mccLine_log _ _ _ _ _ _ hN hr a2 a1, ← a3]
  ring

/-- **C85**, element test: in a triaxial test of a Cam-Clay point, drained or undrained, that starts on the compression
lines, every state reached while the states before are connected and have mean stress at least `p_min_calc` lies on the
compression lines of its stress and preconsolidation pressure. -/
theorem driver_mcc_line_run (grad : (ℝ → ℝ) → ℝ → ℝ) (t : TriaxialTest ℝ dim (LawState ℝ)) (ops : NewtonOps ℝ)
    (pr : MCCParams ℝ) (reset : Bool) (hd : t.solver.law = mccLaw realFns ops pr reset) (h : pr.Elastic) (hN : 0 < pr.N)
    (hr : 0 < pr.pRef) (hp : 0 < pr.pMin) (mp : MPState ℝ dim 1) (pc : ℕ → ℝ) (ref eps : ℕ → Mat3 ℝ)
    (hvol : mp.volume 0 = (mp.F 0).det * mp.volume0 0)
    (hl : Spec.OnLines pr (mp.mass 0) (mp.volume 0) (mp.stress 0) (pc 0)) (m : ℕ)
    (hconn : ∀ k < m, ∀ b, scanCarry (t.stepIdx realExpm grad) (mp, .mcc pc (some ref) eps) (List.range k) = .ok b →
      pr.rhoP / b.1.density 0 ≤ pr.N * (999999 / 1000000) ∧ pr.pMin ≤ Spec.meanStress (b.1.stress 0)) :
    ∃ c pc' eps', scanCarry (t.stepIdx realExpm grad) (mp, .mcc pc (some ref) eps) (List.range m) = .ok c ∧
      c.2 = .mcc pc' (some ref) eps' ∧ Spec.OnLines pr (c.1.mass 0) (c.1.volume 0) (c.1.stress 0) (pc' 0) := by
  have key : ∃ c pc' eps', scanCarry (t.stepIdx realExpm grad) (mp, .mcc pc (some ref) eps) (List.range m) = .ok c ∧
      c.2 = .mcc pc' (some ref) eps' ∧ c.1.volume 0 = (c.1.F 0).det * c.1.volume0 0 ∧
      Spec.OnLines pr (c.1.mass 0) (c.1.volume 0) (c.1.stress 0) (pc' 0) := by
    induction m with
    | zero => exact ⟨_, pc, eps, rfl, rfl, hvol, hl⟩
    | succ m ih =>
      obtain ⟨b, bpc, beps, hb, b2, b3, b4⟩ := ih fun k hk => hconn k (by omega)
      obtain ⟨bm, bl⟩ := b
      simp only at b2 b3 b4
      subst b2
      obtain ⟨c1, c2⟩ := hconn m (Nat.lt_succ_self m) _ hb
      rw [List.range_succ, scanCarry_append, hb]
      simp only [andThen, scanCarry]
      unfold TriaxialTest.stepIdx
      split_ifs with h0
      · exact ⟨_, bpc, beps, rfl, rfl, b3, b4⟩
      · obtain ⟨c, pc', eps', hc, r⟩ := driver_mcc_line_step t.solver ops pr reset hd h hN hr hp bm bpc ref beps b3 c1 c2 b4
          (t.lateral realExpm grad bm (.mcc bpc (some ref) beps) (t.axialRate.at m) (t.dt.at m)) (t.axialRate.at m) (t.dt.at m)
        simp only [hc]
        exact ⟨c, pc', eps', rfl, r⟩
  obtain ⟨c, pc', eps', k1, k2, -, k4⟩ := key
  exact ⟨c, pc', eps', k1, k2, k4⟩

/-! ### Examples -/

theorem scanRows_total {St : Type*} (f : St → ℕ → Except PyErr St) (hf : ∀ s i, ∃ s', f s i = .ok s')
    (rows : List (List ℕ)) (s : St) : ∃ tr, scanRows f s rows = .ok tr ∧ tr.length = rows.length := by
  have hc : ∀ (l : List ℕ) (s : St), ∃ s', scanCarry f s l = .ok s' := by
    intro l
    induction l with
    | nil => exact fun s => ⟨s, rfl⟩
    | cons i l ih =>
      intro s
      obtain ⟨s1, h1⟩ := hf s i
      simp only [scanCarry, h1, andThen]
      exact ih s1
  induction rows generalizing s with
  | nil => exact ⟨[], rfl, rfl⟩
  | cons r rs ih =>
    obtain ⟨s1, h1⟩ := hc r s
    obtain ⟨tr, h2, h3⟩ := ih s1
    refine ⟨s1 :: tr, ?_, by simp [h3]⟩
    simp only [scanRows, h1, andThen, h2]

theorem run_total {LS : Type*} (grad : (ℝ → ℝ) → ℝ → ℝ) (t : TriaxialTest ℝ dim LS)
    (hf : ∀ c i, ∃ c', t.stepIdx realExpm grad c i = .ok c') (mp : MPState ℝ dim 1) (ls : LS) (hs : 0 < t.stride)
    (hdiv : t.stride ∣ t.steps) :
    ∃ tr, t.run realExpm grad mp ls = .ok tr ∧ tr.length = t.steps / t.stride := by
  rw [run_eq realExpm grad t mp ls hs hdiv]
  obtain ⟨tr, h1, h2⟩ := scanRows_total (t.stepIdx realExpm grad) hf (indexRows (t.steps / t.stride) t.stride) (mp, ls)
  exact ⟨tr, h1, by rw [h2]; simp [indexRows]⟩

/-- A drained elastic test with the default 20 iterations, from the confining stress 5. -/
noncomputable def exDrained (pc : Bool) : TriaxialTest ℝ 3 (LawState ℝ) :=
  { solver := { law := elasticLaw 1000 (1 / 4) false }
    confine := 5
    axialRate := .scalar 1
    dt := .scalar (1 / 1000)
    isPConstant := pc
    numSteps := 3 }

/-- One point of unit volume under the isotropic stress `p`. -/
noncomputable def exPoint (m p : ℝ) : MPState ℝ 3 1 :=
  { position := 0, velocity := 0, force := 0, mass := fun _ => m, volume := fun _ => 1, volume0 := fun _ => 1
    L := 0, stress := fun _ => p • (1 : Mat3 ℝ), F := fun _ => 1, FStore := none, volScalar := false }

example (pc : Bool) : ∃ tr, (exDrained pc).run realExpm deriv (exPoint 1 5) (.elastic fun _ => 0) = .ok tr ∧ tr.length = 3 ∧
    ∀ r ∈ tr, |Spec.controlled pc (r.1.stress 0) - 5| ≤ 2 * (1 / 5) ^ 20 * 1 := by
  obtain ⟨tr, h1, h2⟩ := run_total deriv (exDrained pc) (fun c i => (step_elastic (exDrained pc).solver 1000 (1 / 4) false rfl
    c.1 c.2 (triaxialL ((exDrained pc).lateral realExpm deriv c.1 c.2 ((exDrained pc).axialRate.at i) ((exDrained pc).dt.at i))
      ((exDrained pc).axialRate.at i)) ((exDrained pc).dt.at i)).imp fun _ h => h.1)
    (exPoint 1 5) (.elastic fun _ => 0) Nat.one_pos (one_dvd _)
  have h2 : tr.length = 3 := h2.trans (by simp [TriaxialTest.steps, exDrained])
  refine ⟨tr, h1, h2, fun r hr => ?_⟩
  refine drained_elastic_control deriv trueGrad_deriv (exDrained pc) 1000 (1 / 4) false rfl (by norm_num) (by norm_num)
    (by norm_num) rfl rfl (by simp [exDrained]) (fun i => by simp [exDrained, Sched.at]) _ _ 1 (fun i => ?_) ?_ tr h1 r hr
  · cases pc <;> norm_num [exDrained, Sched.at, Spec.axialStiffness, abs_of_pos]
  · cases pc <;> norm_num [exDrained, exPoint, Spec.controlled]

/-- A Cam-Clay point under isotropic stress on its normal compression line, compressed in one direction. -/
example (ops : NewtonOps ℝ) : ∃ c pc' eps', Driver.step realExpm { law := mccLaw realFns ops exMCC false }
    (exPoint (2650 / Spec.mccLine 2 1000 (2 / 100) (1 / 100) 2000 2000) 2000)
    (.mcc (fun _ => 2000) (some fun _ => 0) fun _ => 0) (triaxialL 0 1) (1 / 100) = .ok c ∧
    c.2 = .mcc pc' (some fun _ => 0) eps' ∧ c.1.volume 0 = (c.1.F 0).det * c.1.volume0 0 ∧
    Spec.OnLines exMCC (c.1.mass 0) (c.1.volume 0) (c.1.stress 0) (pc' 0) := by
  set v := Spec.mccLine 2 1000 (2 / 100) (1 / 100) 2000 2000 with hv
  have h0 : v = 2 * (1 / 2) ^ ((2 : ℝ) / 100) := by
    rw [hv, Spec.mccLine, div_self (by norm_num), Real.one_rpow]
    norm_num
  have hpos : 0 < v := by rw [h0]; positivity
  have hle : v ≤ 199 / 100 := by
    have h1 : ((1 : ℝ) / 2) ^ ((2 : ℝ) / 100) ≤ 995 / 1000 := by
      have h2 : ((1 : ℝ) / 2) ≤ (995 / 1000) ^ (50 : ℝ) := by
        rw [show (50 : ℝ) = ((50 : ℕ) : ℝ) by norm_num, Real.rpow_natCast]
        norm_num
      calc ((1 : ℝ) / 2) ^ ((2 : ℝ) / 100) ≤ ((995 / 1000) ^ (50 : ℝ)) ^ ((2 : ℝ) / 100) :=
            Real.rpow_le_rpow (by norm_num) h2 (by norm_num)
        _ = 995 / 1000 := by rw [← Real.rpow_mul (by norm_num)]; norm_num
    rw [h0]
    linarith
  have hmean : Spec.meanStress ((exPoint (2650 / v) 2000).stress 0) = 2000 := by
    norm_num [exPoint, Spec.meanStress]
  refine driver_mcc_line_step _ ops exMCC false rfl exMCC_elastic (by norm_num [exMCC]) (by norm_num [exMCC])
    (by norm_num [exMCC]) _ _ _ _ (by simp [exPoint]) ?_ (by rw [hmean]; norm_num [exMCC]) ⟨by rw [hmean]; norm_num, by norm_num, ?_⟩
    _ _ _
  · have : exMCC.rhoP / (exPoint (2650 / v) 2000).density 0 = v * (1 + 1 / 10 ^ 16) := by
      simp only [MPState.density, exPoint, exMCC]
      field_simp
    rw [this]
    have : v * (1 + 1 / 10 ^ 16) ≤ 199 / 100 * (1 + 1 / 10 ^ 16) := mul_le_mul_of_nonneg_right hle (by norm_num)
    refine this.trans ?_
    norm_num [exMCC]
  · rw [hmean]
    have : exMCC.rhoP * (exPoint (2650 / v) 2000).volume 0 / (exPoint (2650 / v) 2000).mass 0 = v := by
      simp only [exPoint, exMCC]
      field_simp
    rw [this, hv]
    rfl

/-- The same test of a mu(I) point with mean stress control. -/
noncomputable def exPTest : TriaxialTest ℝ 3 (LawState ℝ) :=
  { solver := { law := muILaw realFns exMuI false }
    confine := exMuI.bulk * (11 / 10 - 1)
    axialRate := .scalar 1
    dt := .scalar (1 / 1000)
    isPConstant := true
    numSteps := 3 }

example : ∃ tr, exPTest.run realExpm deriv (exPoint 1100 0) (.density fun _ => 1000) = .ok tr ∧ tr.length = 3 ∧
    ∀ k (hk : k < tr.length), 0 < k → exPTest.confine < Spec.meanStress (tr[k].1.stress 0) := by
  have h : ∃ tr, exPTest.run realExpm deriv (exPoint 1100 0) (.density fun _ => 1000) = .ok tr ∧ tr.length = 3 := by
    refine ⟨_, rfl, ?_⟩
    rfl
  obtain ⟨tr, h1, h2⟩ := h
  exact ⟨tr, h1, h2, fun k hk => (p_constant_drifts deriv trueGrad_deriv exPTest realFns exMuI false rfl
    (by norm_num [exMuI]) rfl rfl rfl (exPoint 1100 0) _ rfl (by simp [exPoint]) 1 (1 / 1000) rfl rfl (by norm_num) rfl
    (11 / 10) (by norm_num [exPoint]) (by norm_num) rfl (by norm_num [exPTest, exMuI]) tr h1 k hk).2⟩

example : ∃ c, Driver.step realExpm { law := muILaw realFns exMuI false } (exPoint 1000 0) (.density fun _ => 1000)
    (triaxialL (1 / 10) 1) (1 / 100) = .ok c ∧ c.1.stress 0 = 0 ∧ 1000 < c.1.mass 0 / c.1.volume 0 := by
  obtain ⟨c, h1, h2, h3, -⟩ := driver_stress_lags (dim := 3) { law := muILaw realFns exMuI false } realFns exMuI false rfl
    (by norm_num [exMuI]) (exPoint 1000 0) (fun _ => 1000) rfl (by simp [exPoint]) (by norm_num [exPoint])
    (by norm_num [exPoint]) (by norm_num) (by norm_num [exPoint]) (1 / 10) 1 (1 / 100) (by norm_num)
  refine ⟨c, h1, h2, ?_⟩
  have : (1 : ℝ) < Real.exp (1 / 100 * (2 * (1 / 10) + 1)) := Real.one_lt_exp_iff.mpr (by norm_num)
  rw [← h3, lt_div_iff₀ (by norm_num)] at this
  linarith

end

section
variable {z : Sz} {K : Type*} [Field K] [LinearOrder K] [IsStrictOrderedRing K] [FloorRing K] {dim : ℕ} {SS : Type*}
  {fn : MathFns K} {sv : Solver z K dim SS (LawState K) (ForceState K dim)}
  {call : SimState z K dim SS (LawState K) (ForceState K dim) →
    Except PyErr (SimState z K dim SS (LawState K) (ForceState K dim))}

/-- The stress law of a point as a function of its velocity gradient, mass, volume and reference density. -/
inductive DensityLaw : Law K dim (LawState K) → (Mat3 K → K → K → K → Mat3 K) → Prop
  | fluid (fn pr reset) : DensityLaw (fluidLaw fn pr reset) (fluidStress fn pr)
  | muI (fn pr reset) : DensityLaw (muILaw fn pr reset) (muIStress fn pr)

theorem DensityLaw.update {law : Law K dim (LawState K)} {σ} (h : DensityLaw law σ) {n : ℕ} (s : MPState K dim n)
    (r : ℕ → K) (dt : K) (c : MPState K dim n × LawState K) (hu : law.update s (.density r) dt = .ok c) :
    c = ({ s with stress := fun q => σ (s.L q) (s.mass q) (s.volume q) (r q.val) }, .density r) := by
  cases h with
  | fluid fn pr reset =>
    simp only [fluidLaw] at hu
    split_ifs at hu
    exact (Except.ok.inj hu).symm
  | muI fn pr reset =>
    simp only [muILaw] at hu
    split_ifs at hu
    exact (Except.ok.inj hu).symm

/-- **C87**: after every call of either solver, a body whose active couplings use one law with an equation of state has at
every point the stress of that law at the velocity gradient, mass and volume that the call returns, and the same reference
densities as before. -/
theorem solver_stress_current (hf : ∀ f ∈ sv.forces, LibForce f) (hcall : IsSolverCall fn sv call)
    (st st' : SimState z K dim SS (LawState K) (ForceState K dim)) (h : call st = .ok st')
    (c : Coupling z) (hc : c ∈ sv.couplings) (hs : c.skip = false) (σ : Mat3 K → K → K → K → Mat3 K)
    (hlaw : DensityLaw (sv.laws c.c) σ) (honly : ∀ b ∈ sv.couplings, b.skip = false → b.p = c.p → b.c = c.c)
    (r : ℕ → K) (hr : st.mech.laws c.c = .density r) :
    st'.mech.laws c.c = .density r ∧ ∃ s, st'.world.bodies c.p = .deformable s ∧
      ∀ q, s.stress q = σ (s.L q) (s.mass q) (s.volume q) (r q.val) := by
  obtain ⟨w, x0, x2, x3, x4, g2p, -, -, -, -, hg2p, h3, h4, hw, hm, hm2⟩ := call_stages hf hcall h
  rw [hw, hm]
  have hx3 : x3.mech.laws = st.mech.laws := by
    rw [← hm2]
    refine foldE_inv (I := fun y => y.mech.laws = x2.mech.laws) sv.couplings x2 x3 rfl ?_ h3
    intro b _ y y' hy hyy
    rcases hg2p with rfl | ⟨pr, rfl⟩
    · cases hb : b.skip with
      | true =>
        unfold g2pCoupling at hyy
        rw [if_pos hb] at hyy
        rw [← Except.ok.inj hyy]; exact hy
      | false =>
        unfold g2pCoupling at hyy
        rw [if_neg (by simp [hb])] at hyy
        split at hyy
        · cases hyy
        · split at hyy
          · cases hyy
          · split_ifs at hyy
            rw [← Except.ok.inj hyy]; exact hy
    · cases hb : b.skip with
      | true => rw [aflipG2pCoupling_skip hb hyy]; exact hy
      | false =>
        obtain ⟨ker, ic, s, rr, hS, -, -, -, rfl⟩ := aflipG2pCoupling_ok hb hyy
        exact hy
  refine foldE_establish' (P := fun y => y.mech.laws c.c = .density r)
    (I := fun y => ∃ s, y.world.bodies c.p = .deformable s ∧ ∀ q, s.stress q = σ (s.L q) (s.mass q) (s.volume q) (r q.val))
    sv.couplings x3 x4 c hc (by rw [hx3, hr]) ?_ ?_ ?_ h4
  · intro b _ y y' hy hyy
    cases hb : b.skip with
    | true => rw [lawCoupling_skip hb hyy]; exact hy
    | false =>
      obtain ⟨s, rr, hbb, hu, rfl⟩ := lawCoupling_ok hb hyy
      by_cases hq : c.c = b.c
      · rw [← hq, hy] at hu
        change Function.update y.mech.laws b.c rr.2 c.c = _
        rw [hq, Function.update_self, hlaw.update _ _ _ _ hu]
      · change Function.update y.mech.laws b.c rr.2 c.c = _
        rw [Function.update_of_ne hq]; exact hy
  · intro y y' hy hyy
    obtain ⟨s, rr, hbb, hu, rfl⟩ := lawCoupling_ok hs hyy
    rw [hy] at hu
    refine ⟨_, setBody_self _ _ _, fun q => ?_⟩
    rw [hlaw.update _ _ _ _ hu]
    unfold removeShear
    split_ifs <;> rfl
  · intro b hbm y y' hy hI hyy
    cases hb : b.skip with
    | true => rw [lawCoupling_skip hb hyy]; exact hI
    | false =>
      obtain ⟨s, rr, hbb, hu, rfl⟩ := lawCoupling_ok hb hyy
      by_cases hq : c.p = b.p
      · have hcc := honly b hbm hb hq.symm
        rw [hcc, hy] at hu
        rw [hq]
        refine ⟨_, setBody_self _ _ _, fun q => ?_⟩
        rw [hlaw.update _ _ _ _ hu]
        unfold removeShear
        split_ifs <;> rfl
      · exact (setBody_ne y hq (.deformable (removeShear fn (sv.laws b.c).requiresFReset rr.1))) ▸ hI

end

/-- The example scene with a mu(I) law. -/
def exFlowSolver : Solver exSz ℚ 2 Unit (LawState ℚ) (ForceState ℚ 2) :=
  { exSolver .linear false with
    laws := fun _ => muILaw ratFns
      { muS := 38 / 100, muD := 64 / 100, I0 := 279 / 1000, bulk := 1000, rhoP := 2500, dP := 1 / 100, alpha := 1, pMin := 0 } true }

def exFlowState : SimState exSz ℚ 2 Unit (LawState ℚ) (ForceState ℚ 2) :=
  { exState with mech := { exState.mech with laws := fun _ => .density fun _ => 1 } }

set_option maxRecDepth 100000 in
theorem exFlow_ok : (uslCall ratFns exFlowSolver exFlowState).isOk = true := by decide +kernel

example : ∃ st' s, uslCall ratFns exFlowSolver exFlowState = .ok st' ∧ st'.world.bodies (0 : Fin 1) = .deformable s ∧
    ∀ q : Fin 2, s.stress q = muIStress ratFns
      { muS := 38 / 100, muD := 64 / 100, I0 := 279 / 1000, bulk := 1000, rhoP := 2500, dP := 1 / 100, alpha := 1, pMin := 0 }
      (s.L q) (s.mass q) (s.volume q) 1 := by
  have hok := exFlow_ok
  cases hr : uslCall ratFns exFlowSolver exFlowState with
  | error e => rw [hr] at hok; simp [Except.isOk, Except.toBool] at hok
  | ok st' =>
    obtain ⟨-, s, hs, h⟩ := solver_stress_current (sv := exFlowSolver)
      (fun f hf => by
        have : f = gravityForce true [] [(0 : Fin 1)] 0 := by simpa [exFlowSolver, exSolver] using hf
        subst this; exact LibForce.gravity _ _ _ _)
      (.inl rfl) exFlowState st' hr (exCoupling .linear) (by simp [exFlowSolver, exSolver]) rfl _ (.muI _ _ _)
      (fun b hb _ _ => by
        have : b = exCoupling .linear := by simpa [exFlowSolver, exSolver] using hb
        rw [this]) (fun _ => 1) rfl
    exact ⟨st', s, rfl, hs, h⟩

end Hydrax
