import Verif.Model.LawTable
import Verif.Lemmas.RealFns
import Mathlib.LinearAlgebra.Matrix.Trace
import Mathlib.Tactic.Ring
import Mathlib.Tactic.FieldSimp
import Mathlib.Tactic.Linarith
import Mathlib.Tactic.Positivity
import Mathlib.Tactic.NormNum
import Mathlib.Algebra.BigOperators.Group.List.Basic

/-!
# Properties C30, C62: linear elasticity
-/

set_option linter.unusedSectionVars false

namespace Hydrax

namespace Spec
variable {K : Type*} [Field K]

/-- Symmetric part of a velocity gradient. -/
def symPart (L : Mat3 K) : Mat3 K := fun i j => (L i j + L j i) / 2

/-- Isotropic Hooke law with Lamé constants. -/
def hooke (lam G : K) (e : Mat3 K) : Mat3 K := fun i j =>
  lam * (e 0 0 + e 1 1 + e 2 2) * (if i = j then 1 else 0) + 2 * G * e i j

/-- Total strain of a history of velocity gradients and time steps. -/
def totalStrain (h : List (Mat3 K × K)) : Mat3 K := (h.map fun a => a.2 • symPart a.1).sum

end Spec

section
variable {K : Type*} [Field K] [LinearOrder K] [IsStrictOrderedRing K]

/-- Successive updates of one point by the elastic law. -/
def elasticRun (E nu : K) (σ : Mat3 K) (h : List (Mat3 K × K)) : Mat3 K :=
  h.foldl (fun σ a => elasticStress E nu a.1 σ a.2) σ

theorem elasticStress_eq (E nu : K) (L σ : Mat3 K) (dt : K) :
    elasticStress E nu L σ dt =
      σ + Spec.hooke (lameModulus E nu) (shearModulus E nu) (dt • Spec.symPart L) := by
  have h : (dt • ((1 / 2 : K) • (L + L.transpose)) : Mat3 K) = dt • Spec.symPart L := by
    ext i j; simp only [Spec.symPart, Matrix.smul_apply, Matrix.add_apply, Matrix.transpose_apply, smul_eq_mul]; ring
  unfold elasticStress
  simp only [h]
  rw [add_assoc]
  congr 1
  ext i j
  simp only [isoT, Spec.hooke, Matrix.add_apply, Matrix.smul_apply, Matrix.trace, Matrix.diag,
    Fin.sum_univ_three, smul_eq_mul, Matrix.one_apply]

theorem hooke_add (lam G : K) (a b : Mat3 K) :
    Spec.hooke lam G (a + b) = Spec.hooke lam G a + Spec.hooke lam G b := by
  ext i j; simp only [Spec.hooke, Matrix.add_apply]; ring

theorem hooke_zero (lam G : K) : Spec.hooke lam G (0 : Mat3 K) = 0 := by
  ext i j; simp [Spec.hooke]

/-- **C30.** The stress after any history is the initial stress plus Hooke's law of the total strain. -/
theorem elastic_total_strain (E nu : K) (σ : Mat3 K) (h : List (Mat3 K × K)) :
    elasticRun E nu σ h =
      σ + Spec.hooke (lameModulus E nu) (shearModulus E nu) (Spec.totalStrain h) := by
  induction h generalizing σ with
  | nil => simp [elasticRun, Spec.totalStrain, hooke_zero]
  | cons a h ih =>
    have : elasticRun E nu σ (a :: h) = elasticRun E nu (elasticStress E nu a.1 σ a.2) h := rfl
    rw [this, ih, elasticStress_eq]
    simp only [Spec.totalStrain, List.map_cons, List.sum_cons, hooke_add]
    rw [add_assoc]

/-- **C30.** The order of the increments does not matter. -/
theorem elastic_order_independent (E nu : K) (σ : Mat3 K) {h h' : List (Mat3 K × K)} (hp : h.Perm h') :
    elasticRun E nu σ h = elasticRun E nu σ h' := by
  rw [elastic_total_strain, elastic_total_strain]
  simp only [Spec.totalStrain, (hp.map _).sum_eq]

example (A B : Mat3 ℚ) : elasticRun 1000 (1 / 4) 0 [(A, 1 / 10), (B, 1 / 5)] = elasticRun 1000 (1 / 4) 0 [(B, 1 / 5), (A, 1 / 10)] :=
  elastic_order_independent _ _ _ (List.Perm.swap _ _ _)

/-- **C30.** A closed strain cycle returns to the initial stress. -/
theorem elastic_closed_cycle (E nu : K) (σ : Mat3 K) (h : List (Mat3 K × K))
    (hc : Spec.totalStrain h = 0) : elasticRun E nu σ h = σ := by
  rw [elastic_total_strain, hc, hooke_zero, add_zero]

/-- **C30.** Histories that differ by spins give the same stress. -/
theorem elastic_spin_irrelevant (E nu : K) (σ : Mat3 K) (h : List (Mat3 K × Mat3 K × K))
    (hW : ∀ a ∈ h, a.2.1.transpose = -a.2.1) :
    elasticRun E nu σ (h.map fun a => (a.1 + a.2.1, a.2.2)) =
      elasticRun E nu σ (h.map fun a => (a.1, a.2.2)) := by
  rw [elastic_total_strain, elastic_total_strain]
  simp only [Spec.totalStrain, List.map_map]
  congr 3
  refine List.map_congr_left fun a ha => ?_
  simp only [Function.comp]
  congr 1
  ext i j
  have : a.2.1 j i = -a.2.1 i j := by
    have := congrFun (congrFun (hW a ha) i) j
    simpa using this
  simp only [Spec.symPart, Matrix.add_apply, this]
  ring

/-- A shear with a spin on top. -/
example := elastic_spin_irrelevant (1000 : ℚ) (1 / 4) 0
  [(!![0, 1, 0; 0, 0, 0; 0, 0, 0], !![0, 3, 0; -3, 0, 0; 0, 0, 0], 1 / 10)] (by
    intro a ha
    rw [List.mem_singleton.mp ha]
    decide +kernel)

/-- **C30.** The pressure changes by the bulk modulus times the total volumetric strain. -/
theorem elastic_pressure (E nu : K) (hnu : nu ≠ -1) (hnu2 : nu ≠ 1 / 2) (σ : Mat3 K)
    (h : List (Mat3 K × K)) :
    pressureOf (elasticRun E nu σ h) =
      pressureOf σ + bulkModulus E nu * (Spec.totalStrain h).trace := by
  rw [elastic_total_strain]
  have h1 : 1 + nu ≠ 0 := fun e => hnu (by linarith)
  have h2 : 1 - 2 * nu ≠ 0 := fun e => hnu2 (by linarith)
  have hK : bulkModulus E nu = lameModulus E nu + 2 / 3 * shearModulus E nu := by
    have h3 : (3 : K) * (2 * (1 + nu)) ≠ 0 := mul_ne_zero three_ne_zero (mul_ne_zero two_ne_zero h1)
    unfold bulkModulus shearModulus lameModulus
    rw [div_mul_div_comm, div_add_div _ _ (mul_ne_zero h1 h2) h3,
      div_eq_div_iff (mul_ne_zero three_ne_zero h2) (mul_ne_zero (mul_ne_zero h1 h2) h3)]
    ring
  rw [hK]
  simp only [pressureOf, Matrix.trace, Matrix.diag, Fin.sum_univ_three, Matrix.add_apply, Spec.hooke,
    if_true]
  ring

example (A B : Mat3 ℚ) := elastic_pressure 1000 (1 / 4) (by norm_num) (by norm_num) 0 [(A, 1 / 10), (B, 1 / 5)]

/-- The points of a body under the elastic law of the solver follow `elasticStress`. -/
theorem elasticLaw_point {dim n : ℕ} (E nu : K) (reset : Bool) (s : MPState K dim n) (ls : LawState K)
    (dt : K) : ∃ s', (elasticLaw E nu reset).update s ls dt = .ok (s', ls) ∧
      ∀ p, s'.stress p = s.stress p +
        Spec.hooke (lameModulus E nu) (shearModulus E nu) (dt • Spec.symPart (s.L p)) :=
  ⟨_, rfl, fun _ => elasticStress_eq _ _ _ _ _⟩

/-- A shear cycle and back again, with a spin in between. -/
example : elasticRun (1000 : ℚ) (1 / 4) (isoT 5)
    [(!![0, 1, 0; 0, 0, 0; 0, 0, 0], 1 / 10), (!![0, 3, 0; -3, 0, 0; 0, 0, 0], 1),
      (!![0, 0, 0; -1, 0, 0; 0, 0, 0], 1 / 10)] = isoT 5 := by
  apply elastic_closed_cycle
  ext i j
  fin_cases i <;> fin_cases j <;> norm_num [Spec.totalStrain, Spec.symPart]

end

/-! ### C62 -/

section

theorem maxOver_ok {K : Type*} [LinearOrder K] {n : ℕ} (hn : 0 < n) (f : Fin n → K) :
    ∃ m, maxOver f = .ok m ∧ (∀ p, f p ≤ m) ∧ ∃ p, m = f p := by
  unfold maxOver
  rw [dif_pos hn]
  refine ⟨_, rfl, fun p => Finset.le_sup' f (Finset.mem_univ p), ?_⟩
  obtain ⟨p, -, hp⟩ := Finset.exists_mem_eq_sup' ⟨⟨0, hn⟩, Finset.mem_univ _⟩ f
  exact ⟨p, hp⟩

/-- **C62** (general form, used by three laws): for non-negative wave speeds the critical step is positive,
at most `alpha h / (c_p + |v_p|)` for every moving or sounding point, and doubles with the cell size. -/
theorem dtCrit_bound {dim n : ℕ} (hn : 0 < n) (c : Fin n → ℝ) (hc : ∀ p, 0 ≤ c p)
    (vel : Fin n → Fin dim → ℝ) (cell alpha : ℝ) (hcell : 0 < cell) (ha : 0 < alpha) :
    ∃ r, dtCrit realFns c vel cell alpha = .ok r ∧ 0 < r ∧
      (∀ p, r * (c p + Real.sqrt (∑ a, vel p a ^ 2)) ≤ alpha * cell) ∧
      (∀ p, 0 < c p + Real.sqrt (∑ a, vel p a ^ 2) →
        r ≤ alpha * cell / (c p + Real.sqrt (∑ a, vel p a ^ 2))) ∧
      dtCrit realFns c vel (2 * cell) alpha = .ok (2 * r) := by
  obtain ⟨m, hm, hle, p0, hp0⟩ := maxOver_ok hn fun p => c p + Real.sqrt (∑ a, vel p a ^ 2)
  have hm0 : 0 ≤ m := by
    rw [hp0]; exact add_nonneg (hc _) (Real.sqrt_nonneg _)
  have hm1 : 0 < m + 1 / 10 ^ 9 := by positivity
  have hr : dtCrit realFns c vel cell alpha = .ok (alpha * cell / (m + 1 / 10 ^ 9)) := by
    unfold dtCrit
    simp only [realFns_sqrt]
    rw [hm]; rfl
  have hb : ∀ p, alpha * cell / (m + 1 / 10 ^ 9) * (c p + Real.sqrt (∑ a, vel p a ^ 2)) ≤ alpha * cell := by
    intro p
    have h1 : c p + Real.sqrt (∑ a, vel p a ^ 2) ≤ m + 1 / 10 ^ 9 :=
      (hle p).trans (by norm_num)
    rw [div_mul_eq_mul_div, div_le_iff₀ hm1]
    exact mul_le_mul_of_nonneg_left h1 (by positivity)
  refine ⟨_, hr, by positivity, hb, fun p hp => ?_, ?_⟩
  · rw [le_div_iff₀ hp]; exact hb p
  · unfold dtCrit
    simp only [realFns_sqrt]
    rw [hm]
    simp only [andThen]
    congr 1
    ring

example := dtCrit_bound (n := 2) (by norm_num) ![100, 120] (fun p => by fin_cases p <;> norm_num) ![![1, 0], ![0, -2]] (1 / 10)
  (1 / 2) (by norm_num) (by norm_num)

/-- **C62.** The critical time step of the elastic law. `E > 0`, `-1 < nu < 1/2`, positive densities; the
wave speed is `sqrt((K + 4/3 G)/rho)`. -/
theorem elastic_dt_crit {dim n : ℕ} (hn : 0 < n) (E nu : ℝ) (hE : 0 < E) (hnu : -1 < nu)
    (hnu2 : nu < 1 / 2) (s : MPState ℝ dim n) (hm : ∀ p, 0 < s.mass p) (hv : ∀ p, 0 < s.volume p)
    (cell alpha : ℝ) (hcell : 0 < cell) (ha : 0 < alpha) :
    ∃ r, elasticDtCrit realFns E nu s cell alpha = .ok r ∧ 0 < r ∧
      (∀ p, r ≤ alpha * cell /
        (Real.sqrt ((E / (3 * (1 - 2 * nu)) + 4 / 3 * (E / (2 * (1 + nu)))) / (s.mass p / s.volume p)) +
          Real.sqrt (∑ a, s.velocity p a ^ 2))) ∧
      elasticDtCrit realFns E nu s (2 * cell) alpha = .ok (2 * r) := by
  have hc : ∀ p, 0 < Real.sqrt ((E / (3 * (1 - 2 * nu)) + 4 / 3 * (E / (2 * (1 + nu)))) /
      (s.mass p / s.volume p)) := by
    intro p
    apply Real.sqrt_pos.mpr
    have h1 : 0 < 1 - 2 * nu := by linarith
    have h2 : 0 < 1 + nu := by linarith
    have := hm p
    have := hv p
    positivity
  obtain ⟨r, h1, h2, -, h4, h5⟩ := dtCrit_bound hn _ (fun p => (hc p).le) s.velocity cell alpha hcell ha
  exact ⟨r, h1, h2, fun p => h4 p (add_pos_of_pos_of_nonneg (hc p) (Real.sqrt_nonneg _)), h5⟩

/-- The hypotheses are met by a moving two-point body. -/
example : ∃ s : MPState ℝ 2 2, (∀ p, 0 < s.mass p) ∧ (∀ p, 0 < s.volume p) ∧ s.velocity 0 0 = 1 :=
  ⟨MPState.create { position := ![![1 / 3, 9 / 10], ![1 / 2, 1 / 4]], velocity := some ![![1, 2], ![-3, 1]]
                    mass := some ![1, 2], volume := some ![1 / 4, 1 / 2] },
    by intro p; fin_cases p <;> norm_num [MPState.create],
    by intro p; fin_cases p <;> norm_num [MPState.create], by norm_num [MPState.create]⟩

end
end Hydrax
