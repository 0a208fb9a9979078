import Mathlib.Analysis.SpecialFunctions.Log.Basic
import Mathlib.Topology.Order.MonotoneConvergence
import Mathlib.Topology.Algebra.Order.LiminfLimsup
import Mathlib.Tactic.FieldSimp
import Mathlib.Tactic.Linarith
import Mathlib.Tactic.Positivity

/-!
Lemmas for C138: the sequences of stresses of a drained test of Cam-Clay.

`x` is the difference between axial and lateral stress, counted positive in the direction of loading,
and the mean stress is a linear function `σ + k x` of it: `k` is zero when the mean stress is held,
and a third (with the sign of the loading) when the lateral stress is held.
-/

namespace Hydrax
open Filter Topology

namespace Drained

/-- The yield function of Cam-Clay on the path of a drained test. -/
noncomputable def Y (M σ k x pc : ℝ) : ℝ := x ^ 2 / M ^ 2 + (σ + k * x) * (σ + k * x - pc)

/-- The preconsolidation pressure at the critical state. -/
noncomputable def pcs (M σ k : ℝ) : ℝ := 2 * σ / (1 - k * M)

/-- The stress difference at the critical state. -/
noncomputable def xcs (M σ k : ℝ) : ℝ := M * σ / (1 - k * M)

section
variable {M σ k x pc : ℝ}

/-- At yield everything is a function of the stress ratio, measured by its critical value. -/
theorem yield_ratio (hM : 0 < M) (hp : 0 < σ + k * x) (hx : 0 ≤ x) (hk1 : k * M < 1) (hY : Y M σ k x pc = 0) :
    ∃ t p, 0 ≤ t ∧ 0 < p ∧ p = σ + k * x ∧ x = M * p * t ∧ pc = p * (1 + t ^ 2) ∧
      pcs M σ k - pc = p * (1 - t) * ((1 + k * M) + t * (1 - k * M)) / (1 - k * M) ∧
      xcs M σ k - x = M * p * (1 - t) / (1 - k * M) := by
  set p := σ + k * x with hpd
  have h1 : 0 < 1 - k * M := by linarith
  have e0 : x = M * p * (x / (M * p)) := by field_simp
  have e1 : pc = p * (1 + (x / (M * p)) ^ 2) := by
    unfold Y at hY
    rw [← hpd] at hY
    have : x ^ 2 / M ^ 2 = p * (pc - p) := by linarith
    have h2 : (x / (M * p)) ^ 2 = (pc - p) / p := by
      rw [div_pow, mul_pow, ← div_div, this]; field_simp
    rw [h2]; field_simp; ring
  refine ⟨x / (M * p), p, by positivity, hp, rfl, e0, e1, ?_, ?_⟩
  all_goals
    generalize x / (M * p) = t at e0 e1
    have es : σ = p - k * (M * p * t) := by rw [← e0]; linarith
  · rw [pcs, e1, es]; field_simp; ring
  · rw [xcs, e0, es, eq_div_iff h1.ne', sub_mul, div_mul_cancel₀ _ h1.ne']; ring

/-- At yield the gap of the preconsolidation pressure and the direction of hardening have one sign. -/
theorem yield_same_sign (hM : 0 < M) (hp : 0 < σ + k * x) (hx : 0 ≤ x) (hk1 : k * M < 1) (hk0 : -1 < k * M)
    (hY : Y M σ k x pc = 0) : 0 ≤ (2 * (σ + k * x) - pc) * (pcs M σ k - pc) := by
  obtain ⟨t, p, ht, hp0, e1, e2, e3, e4, -⟩ := yield_ratio hM hp hx hk1 hY
  rw [e4, ← e1, e3]
  have h1 : 0 < 1 - k * M := by linarith
  have h2 : 0 < 1 + k * M := by linarith
  have : (2 * p - p * (1 + t ^ 2)) * (p * (1 - t) * ((1 + k * M) + t * (1 - k * M)) / (1 - k * M)) =
      p ^ 2 * (1 - t) ^ 2 * (1 + t) * ((1 + k * M) + t * (1 - k * M)) / (1 - k * M) := by ring
  rw [this]
  positivity

/-- The direction of hardening vanishes only near the critical state. -/
theorem yield_gap_le (hM : 0 < M) (hp : 0 < σ + k * x) (hx : 0 ≤ x) (hk1 : k * M < 1) (hk0 : -1 < k * M)
    (hY : Y M σ k x pc = 0) : |pcs M σ k - pc| * ((1 - k * M) / 2) ≤ |2 * (σ + k * x) - pc| := by
  obtain ⟨t, p, ht, hp0, e1, e2, e3, e4, -⟩ := yield_ratio hM hp hx hk1 hY
  have h1 : 0 < 1 - k * M := by linarith
  have h2 : 0 < 1 + k * M := by linarith
  have hb : 0 < (1 + k * M) + t * (1 - k * M) := by positivity
  have a1 : |pcs M σ k - pc| * ((1 - k * M) / 2) = p * |1 - t| * (((1 + k * M) + t * (1 - k * M)) / 2) := by
    rw [e4, abs_div, abs_mul, abs_mul, abs_of_pos hp0, abs_of_pos hb, abs_of_pos h1]; field_simp
  have a2 : |2 * (σ + k * x) - pc| = p * |1 - t| * (1 + t) := by
    rw [← e1, e3, show 2 * p - p * (1 + t ^ 2) = p * (1 - t) * (1 + t) by ring, abs_mul, abs_mul, abs_of_pos hp0,
      abs_of_nonneg (by linarith : 0 ≤ 1 + t)]
  rw [a1, a2]
  refine mul_le_mul_of_nonneg_left ?_ (by positivity)
  nlinarith

/-- At yield the stress difference is near its critical value when the preconsolidation pressure is. -/
theorem yield_stress_le (hM : 0 < M) (hp : 0 < σ + k * x) (hx : 0 ≤ x) (hk1 : k * M < 1) (hk0 : -1 < k * M)
    (hY : Y M σ k x pc = 0) : |xcs M σ k - x| ≤ M / (1 + k * M) * |pcs M σ k - pc| := by
  obtain ⟨t, p, ht, hp0, e1, e2, e3, e4, e5⟩ := yield_ratio hM hp hx hk1 hY
  have h1 : 0 < 1 - k * M := by linarith
  have h2 : 0 < 1 + k * M := by linarith
  have hb : 0 < (1 + k * M) + t * (1 - k * M) := by positivity
  rw [e4, e5, abs_div, abs_div, abs_mul, abs_mul, abs_mul, abs_mul, abs_of_pos hp0, abs_of_pos hb, abs_of_pos h1,
    abs_of_pos hM]
  rw [← mul_div_assoc, div_mul_eq_mul_div, div_div, div_le_div_iff₀ h1 (by positivity)]
  have : M * p * |1 - t| * ((1 - k * M) * (1 + k * M)) ≤
      M * p * |1 - t| * ((1 - k * M) * ((1 + k * M) + t * (1 - k * M))) := by
    refine mul_le_mul_of_nonneg_left (mul_le_mul_of_nonneg_left ?_ h1.le) (by positivity)
    nlinarith
  nlinarith

/-- Loading from inside the yield surface passes it once. -/
theorem yield_leaves {x' : ℝ} (hM : 0 < M) (h0 : Y M σ k 0 pc ≤ 0) (hx : 0 < x) (hxx : x < x')
    (hY : Y M σ k x pc = 0) : 0 < Y M σ k x' pc := by
  have hM2 : 0 < 1 / M ^ 2 := by positivity
  have e : x * Y M σ k x' pc = x' * Y M σ k x pc - (x' - x) * Y M σ k 0 pc + (1 / M ^ 2 + k ^ 2) * (x * x' * (x' - x)) := by
    unfold Y; ring
  have h1 : 0 < x * x' * (x' - x) := mul_pos (mul_pos hx (hx.trans hxx)) (sub_pos.mpr hxx)
  have h2 : 0 < (1 / M ^ 2 + k ^ 2) * (x * x' * (x' - x)) := mul_pos (by positivity) h1
  have h3 : 0 ≤ (x' - x) * -Y M σ k 0 pc := mul_nonneg (by linarith) (by linarith)
  have : 0 < x * Y M σ k x' pc := by rw [e, hY]; linarith
  exact pos_of_mul_pos_right this hx.le

/-- Inside the yield surface the stress difference is bounded. -/
theorem yield_bound (hM : 0 < M) (hpc : 0 ≤ pc) (hY : Y M σ k x pc ≤ 0) : x ≤ M * pc := by
  unfold Y at hY
  have h : (x / M) ^ 2 ≤ pc ^ 2 := by
    rw [div_pow]; nlinarith [sq_nonneg (σ + k * x - pc / 2), sq_nonneg pc]
  have := abs_le_of_sq_le_sq h hpc
  rw [abs_le] at this
  have := (div_le_iff₀ hM).mp this.2
  linarith

end

/-- One step of a test in which the plastic strain is small moves the stress difference on. -/
theorem step_grows {s k σ κ Δ g0 m x x' w c G : ℝ} (hs : s = 1 ∨ s = -1) (hsk : 0 ≤ s * k) (hκ : 0 < κ) (hΔ : 0 < Δ)
    (hg0 : 0 < g0) (hm : 0 < m) (hp : m ≤ σ + k * x) (hp' : m ≤ σ + k * x') (hG : g0 ≤ G) (hw : w ≤ g0 * Δ / 2)
    (hc : |c| ≤ Δ)
    (h : x' + w = x + G * (3 * Δ - s * (κ * (Real.log (σ + k * x') - Real.log (σ + k * x)) + c))) :
    x + min (g0 * Δ / 2) (Δ * m / (κ * (|k| + 1))) ≤ x' := by
  set p := σ + k * x with hpd
  set p' := σ + k * x' with hpd'
  have hp0 : 0 < p := hm.trans_le hp
  have hp0' : 0 < p' := hm.trans_le hp'
  have hsc : s * c ≤ Δ := by
    rcases hs with rfl | rfl
    · linarith [le_abs_self c]
    · linarith [neg_abs_le c]
  have hgΔ : 0 < g0 * Δ := mul_pos hg0 hΔ
  set d := min (g0 * Δ / 2) (Δ * m / (κ * (|k| + 1))) with hd
  have hk1 : 0 < |k| + 1 := by positivity
  have hd0 : 0 < d := lt_min (by positivity) (by positivity)
  by_contra hlt
  push Not at hlt
  have hlog : s * (Real.log p' - Real.log p) ≤ |k| * d / m := by
    have hdiv : p' - p = k * (x' - x) := by rw [hpd, hpd']; ring
    have hbound : s * (p' - p) ≤ |k| * d := by
      have e : s * (p' - p) = s * k * (x' - x) := by rw [hdiv]; ring
      rw [e]
      have h1 : s * k ≤ |k| := by
        rcases hs with rfl | rfl
        · rw [one_mul]; exact le_abs_self k
        · rw [neg_one_mul]; exact neg_le_abs k
      calc s * k * (x' - x) ≤ s * k * d := mul_le_mul_of_nonneg_left (by linarith) hsk
        _ ≤ |k| * d := mul_le_mul_of_nonneg_right h1 hd0.le
    have hkd : 0 ≤ |k| * d := by positivity
    rcases hs with rfl | rfl
    · rw [one_mul] at hbound ⊢
      have h1 : Real.log p' - Real.log p = Real.log (p' / p) := (Real.log_div hp0'.ne' hp0.ne').symm
      have h2 := Real.log_le_sub_one_of_pos (div_pos hp0' hp0)
      have h3 : p' / p - 1 = (p' - p) / p := by field_simp
      rw [h1]
      refine h2.trans ?_
      rw [h3, div_le_div_iff₀ hp0 hm]
      nlinarith
    · have h1 : -1 * (Real.log p' - Real.log p) = Real.log (p / p') := by
        rw [Real.log_div hp0.ne' hp0'.ne']; ring
      have h2 := Real.log_le_sub_one_of_pos (div_pos hp0 hp0')
      have h3 : p / p' - 1 = (-1 * (p' - p)) / p' := by field_simp; ring
      rw [h1]
      refine h2.trans ?_
      rw [h3, div_le_div_iff₀ hp0' hm]
      nlinarith
  have hkd : κ * (|k| * d / m) ≤ Δ := by
    have h1 : d ≤ Δ * m / (κ * (|k| + 1)) := min_le_right _ _
    have h2 : |k| * d ≤ (|k| + 1) * (Δ * m / (κ * (|k| + 1))) := by
      refine mul_le_mul (by linarith) h1 hd0.le hk1.le
    have h3 : (|k| + 1) * (Δ * m / (κ * (|k| + 1))) = Δ * m / κ := by field_simp
    rw [h3, le_div_iff₀ hκ] at h2
    rw [← mul_div_assoc, div_le_iff₀ hm]
    linarith
  have hbr : Δ ≤ 3 * Δ - s * (κ * (Real.log p' - Real.log p) + c) := by
    have h1 := mul_le_mul_of_nonneg_left hlog hκ.le
    nlinarith
  have h1 : g0 * Δ ≤ G * (3 * Δ - s * (κ * (Real.log p' - Real.log p) + c)) :=
    mul_le_mul hG hbr hΔ.le (hg0.le.trans hG)
  have h2 : d ≤ g0 * Δ / 2 := min_le_left _ _
  linarith

/-- The sequences of a drained test: the stress difference `x`, the preconsolidation pressure, the plastic multiplier, and
the shear modulus of the trial stress; `g` is the shear modulus as a function of the pressure. -/
structure Path (M σ k s κ cp Δ g0 m : ℝ) (g : ℝ → ℝ) (x pc lam Gt : ℕ → ℝ) : Prop where
  pos_M : 0 < M
  pos_σ : 0 < σ
  pos_κ : 0 < κ
  pos_cp : 0 < cp
  pos_Δ : 0 < Δ
  pos_g0 : 0 < g0
  pos_m : 0 < m
  sign : s = 1 ∨ s = -1
  slope : 0 ≤ s * k
  slope_lt : k * M < 1
  slope_gt : -1 < k * M
  x_nonneg : ∀ n, 0 ≤ x n
  p_ge : ∀ n, m ≤ σ + k * x n
  pc_pos : ∀ n, 0 < pc n
  pc_ge : σ ≤ pc 0
  lam_nonneg : ∀ n, 0 ≤ lam n
  Gt_ge : ∀ n, g0 ≤ Gt n
  g_nonneg : ∀ p, 0 ≤ g p
  g_mono : Monotone g
  start : Y M σ k (x 0) (pc 0) ≤ 0
  stress : ∀ n, x (n + 1) * (1 + 6 * g (σ + k * x (n + 1)) * lam n) = x n + Gt n * (3 * Δ -
    s * (κ * (Real.log (σ + k * x (n + 1)) - Real.log (σ + k * x n)) + cp * (Real.log (pc (n + 1)) - Real.log (pc n))))
  harden : ∀ n, cp * (Real.log (pc (n + 1)) - Real.log (pc n)) =
    lam n * (2 * (σ + k * x (n + 1)) - pc (n + 1)) * M ^ 2
  yield : ∀ n, Y M σ k (x (n + 1)) (pc (n + 1)) = 0 ∨ (lam n = 0 ∧ Y M σ k (x (n + 1)) (pc (n + 1)) ≤ 0)

namespace Path
variable {M σ k s κ cp Δ g0 m : ℝ} {g : ℝ → ℝ} {x pc lam Gt : ℕ → ℝ}

theorem p_pos (h : Path M σ k s κ cp Δ g0 m g x pc lam Gt) (n : ℕ) : 0 < σ + k * x n := h.pos_m.trans_le (h.p_ge n)

theorem inside (h : Path M σ k s κ cp Δ g0 m g x pc lam Gt) (n : ℕ) : Y M σ k (x n) (pc n) ≤ 0 := by
  cases n with
  | zero => exact h.start
  | succ n => rcases h.yield n with h1 | h1
              · exact h1.le
              · exact h1.2

theorem pcs_pos (h : Path M σ k s κ cp Δ g0 m g x pc lam Gt) : 0 < pcs M σ k :=
  div_pos (by linarith [h.pos_σ]) (by linarith [h.slope_lt])

theorem pcs_ge (h : Path M σ k s κ cp Δ g0 m g x pc lam Gt) : σ ≤ pcs M σ k := by
  have := h.slope_lt; have := h.slope_gt; have := h.pos_σ
  rw [pcs, le_div_iff₀ (by linarith)]; nlinarith

/-- The preconsolidation pressure moves towards its critical value and does not pass it. -/
theorem towards (h : Path M σ k s κ cp Δ g0 m g x pc lam Gt) (n : ℕ) :
    0 ≤ (Real.log (pc (n + 1)) - Real.log (pc n)) * (Real.log (pcs M σ k) - Real.log (pc (n + 1))) := by
  have hh := h.harden n
  have hcp := h.pos_cp
  rcases h.yield n with hY | ⟨hl, -⟩
  · have h1 := yield_same_sign h.pos_M (h.p_pos (n + 1)) (h.x_nonneg _) h.slope_lt h.slope_gt hY
    set a := 2 * (σ + k * x (n + 1)) - pc (n + 1) with ha
    have hM2 : 0 < M ^ 2 := pow_pos h.pos_M 2
    have e : Real.log (pc (n + 1)) - Real.log (pc n) = lam n * M ^ 2 / cp * a := by field_simp; linarith
    rw [e]
    have hc : 0 ≤ lam n * M ^ 2 / cp := div_nonneg (mul_nonneg (h.lam_nonneg n) hM2.le) hcp.le
    rw [mul_assoc]
    refine mul_nonneg hc ?_
    rcases lt_trichotomy (pc (n + 1)) (pcs M σ k) with h2 | h2 | h2
    · have h3 : 0 ≤ a := by by_contra hn; push Not at hn; nlinarith
      exact mul_nonneg h3 (sub_nonneg.mpr (Real.log_le_log (h.pc_pos _) h2.le))
    · rw [h2]; simp
    · have h3 : a ≤ 0 := by by_contra hn; push Not at hn; nlinarith
      exact mul_nonneg_of_nonpos_of_nonpos h3 (sub_nonpos.mpr (Real.log_le_log h.pcs_pos h2.le))
  · rw [hl, zero_mul, zero_mul] at hh
    have : Real.log (pc (n + 1)) - Real.log (pc n) = 0 := by
      rcases mul_eq_zero.mp hh with h1 | h1
      · exact absurd h1 hcp.ne'
      · exact h1
    rw [this, zero_mul]

/-- The logarithmic distance of the preconsolidation pressure from its critical value. -/
noncomputable def gap (M σ k : ℝ) (pc : ℕ → ℝ) (n : ℕ) : ℝ := Real.log (pcs M σ k) - Real.log (pc n)

theorem gap_step (h : Path M σ k s κ cp Δ g0 m g x pc lam Gt) (n : ℕ) :
    |Real.log (pc (n + 1)) - Real.log (pc n)| = |gap M σ k pc n| - |gap M σ k pc (n + 1)| := by
  have h1 := h.towards n
  have e : gap M σ k pc n = (Real.log (pc (n + 1)) - Real.log (pc n)) + gap M σ k pc (n + 1) := by unfold gap; ring
  rw [e, (abs_add_eq_add_abs_iff _ (gap M σ k pc (n + 1))).mpr (mul_nonneg_iff.mp h1)]; ring

theorem gap_anti (h : Path M σ k s κ cp Δ g0 m g x pc lam Gt) : Antitone fun n => |gap M σ k pc n| :=
  antitone_nat_of_succ_le fun n => by linarith [h.gap_step n, abs_nonneg (Real.log (pc (n + 1)) - Real.log (pc n))]

theorem pc_ge_all (h : Path M σ k s κ cp Δ g0 m g x pc lam Gt) (n : ℕ) : σ ≤ pc n := by
  induction n with
  | zero => exact h.pc_ge
  | succ n ih =>
    by_contra hn
    push Not at hn
    have h1 : Real.log (pc (n + 1)) < Real.log (pc n) := Real.log_lt_log (h.pc_pos _) (hn.trans_le ih)
    have h2 : Real.log (pc (n + 1)) < Real.log (pcs M σ k) := Real.log_lt_log (h.pc_pos _) (hn.trans_le h.pcs_ge)
    nlinarith [h.towards n]

/-- The preconsolidation pressure stays bounded. -/
theorem pc_le (h : Path M σ k s κ cp Δ g0 m g x pc lam Gt) (n : ℕ) :
    pc n ≤ Real.exp (Real.log (pcs M σ k) + |gap M σ k pc 0|) := by
  have h1 := h.gap_anti (Nat.zero_le n)
  have h2 := neg_abs_le (gap M σ k pc n)
  rw [← Real.log_le_iff_le_exp (h.pc_pos n)]
  simp only at h1
  unfold gap at *
  linarith

theorem x_le (h : Path M σ k s κ cp Δ g0 m g x pc lam Gt) (n : ℕ) :
    x n ≤ M * Real.exp (Real.log (pcs M σ k) + |gap M σ k pc 0|) :=
  (yield_bound h.pos_M (h.pc_pos n).le (h.inside n)).trans (mul_le_mul_of_nonneg_left (h.pc_le n) h.pos_M.le)

/-- The stress difference cannot grow for ever. -/
theorem not_grows (h : Path M σ k s κ cp Δ g0 m g x pc lam Gt) {d : ℝ} (hd : 0 < d) (N : ℕ)
    (hg : ∀ n, N ≤ n → x n + d ≤ x (n + 1)) : False := by
  have hgrow : ∀ j : ℕ, x N + j * d ≤ x (N + j) := by
    intro j
    induction j with
    | zero => simp
    | succ j ih =>
      have := hg (N + j) (Nat.le_add_right _ _)
      push_cast
      rw [← add_assoc]
      linarith
  obtain ⟨j, hj⟩ := exists_nat_gt ((M * Real.exp (Real.log (pcs M σ k) + |gap M σ k pc 0|) - x N) / d)
  rw [div_lt_iff₀ hd] at hj
  linarith [hgrow j, h.x_le (N + j)]

/-- A step without plastic strain moves the stress difference on. -/
theorem elastic_grows (h : Path M σ k s κ cp Δ g0 m g x pc lam Gt) {n : ℕ} (hl : lam n = 0) :
    x n + min (g0 * Δ / 2) (Δ * m / (κ * (|k| + 1))) ≤ x (n + 1) := by
  have h1 := h.stress n
  rw [h.harden n, hl] at h1
  refine step_grows (w := 0) (c := 0) h.sign h.slope h.pos_κ h.pos_Δ h.pos_g0 h.pos_m (h.p_ge n) (h.p_ge (n + 1)) (h.Gt_ge n)
    (by have := h.pos_g0; have := h.pos_Δ; positivity) (by rw [abs_zero]; exact h.pos_Δ.le) ?_
  linarith

theorem d_pos (h : Path M σ k s κ cp Δ g0 m g x pc lam Gt) : 0 < min (g0 * Δ / 2) (Δ * m / (κ * (|k| + 1))) := by
  have := h.pos_g0; have := h.pos_Δ; have := h.pos_m; have := h.pos_κ
  exact lt_min (by positivity) (by positivity)

theorem x_pos (h : Path M σ k s κ cp Δ g0 m g x pc lam Gt) (n : ℕ) : 0 < x (n + 1) := by
  have hd := h.d_pos
  by_contra hn
  have hx0 : x (n + 1) = 0 := le_antisymm (not_lt.mp hn) (h.x_nonneg _)
  have hgr : lam n = 0 → False := fun hl => by linarith [h.elastic_grows hl, h.x_nonneg n]
  rcases h.yield n with hY | ⟨hl, -⟩
  · unfold Y at hY
    rw [hx0] at hY
    have hσ := h.pos_σ
    have hpc : pc (n + 1) = σ := by
      have : σ * (σ - pc (n + 1)) = 0 := by
        simpa using hY
      rcases mul_eq_zero.mp this with h1 | h1 <;> linarith
    have hle : Real.log (pc (n + 1)) ≤ Real.log (pc n) := by
      rw [hpc]; exact Real.log_le_log hσ (h.pc_ge_all n)
    have hh := h.harden n
    rw [hx0] at hh
    have h1 : 0 ≤ lam n * (2 * (σ + k * 0) - pc (n + 1)) * M ^ 2 := by
      refine mul_nonneg (mul_nonneg (h.lam_nonneg n) ?_) (sq_nonneg M)
      rw [hpc]; linarith
    have h2 : cp * (Real.log (pc (n + 1)) - Real.log (pc n)) ≤ 0 :=
      mul_nonpos_of_nonneg_of_nonpos h.pos_cp.le (by linarith)
    have h3 : lam n * (2 * (σ + k * 0) - pc (n + 1)) * M ^ 2 = 0 := by linarith
    rw [hpc] at h3
    refine hgr ?_
    have hM := h.pos_M
    rcases mul_eq_zero.mp h3 with h4 | h4
    · rcases mul_eq_zero.mp h4 with h5 | h5
      · exact h5
      · linarith
    · exact absurd h4 (by positivity)
  · exact hgr hl

/-- Once the material yields it goes on yielding. -/
theorem keeps_yielding (h : Path M σ k s κ cp Δ g0 m g x pc lam Gt) {n : ℕ} (hY : Y M σ k (x (n + 1)) (pc (n + 1)) = 0) :
    Y M σ k (x (n + 2)) (pc (n + 2)) = 0 := by
  rcases h.yield (n + 1) with h1 | ⟨hl, h1⟩
  · exact h1
  exfalso
  have hg := h.elastic_grows hl
  have hh := h.harden (n + 1)
  rw [hl, zero_mul, zero_mul] at hh
  have hpc : pc (n + 2) = pc (n + 1) := by
    rcases mul_eq_zero.mp hh with h2 | h2
    · exact absurd h2 h.pos_cp.ne'
    · exact Real.log_injOn_pos (h.pc_pos _) (h.pc_pos _) (by linarith)
  have h0 : Y M σ k 0 (pc (n + 1)) ≤ 0 := by
    have := h.pc_ge_all (n + 1)
    have := h.pos_σ
    unfold Y
    simp only [mul_zero, add_zero]
    have : σ * (σ - pc (n + 1)) ≤ 0 := mul_nonpos_of_nonneg_of_nonpos (by linarith) (by linarith)
    simpa using this
  have := yield_leaves h.pos_M h0 (h.x_pos n) (by linarith [h.d_pos] : x (n + 1) < x (n + 2)) hY
  rw [show n + 1 + 1 = n + 2 from rfl, hpc] at h1
  linarith

theorem yields_eventually (h : Path M σ k s κ cp Δ g0 m g x pc lam Gt) :
    ∃ N, ∀ n, N ≤ n → Y M σ k (x n) (pc n) = 0 := by
  by_cases hex : ∃ n, Y M σ k (x (n + 1)) (pc (n + 1)) = 0
  · obtain ⟨N, hN⟩ := hex
    refine ⟨N + 1, fun n hn => ?_⟩
    induction n, hn using Nat.le_induction with
    | base => exact hN
    | succ n hn ih =>
      obtain ⟨j, rfl⟩ := Nat.exists_eq_add_of_le' hn
      rw [← add_assoc] at ih ⊢
      exact h.keeps_yielding ih
  · exfalso
    push Not at hex
    refine h.not_grows h.d_pos 0 fun n _ => h.elastic_grows ?_
    rcases h.yield n with h1 | h1
    · exact absurd h1 (hex n)
    · exact h1.1

/-- **The preconsolidation pressure reaches its critical value in the limit.** -/
theorem gap_tendsto (h : Path M σ k s κ cp Δ g0 m g x pc lam Gt) : Tendsto (gap M σ k pc) atTop (𝓝 0) := by
  have hanti := h.gap_anti
  have hbdd : BddBelow (Set.range fun n => |gap M σ k pc n|) := ⟨0, by rintro _ ⟨n, rfl⟩; exact abs_nonneg _⟩
  have hlim := tendsto_atTop_ciInf hanti hbdd
  set l := ⨅ n, |gap M σ k pc n| with hl
  have hl0 : 0 ≤ l := le_ciInf fun n => abs_nonneg _
  rcases eq_or_lt_of_le hl0 with h0 | h0
  · rw [← h0] at hlim
    exact (tendsto_zero_iff_abs_tendsto_zero _).mpr hlim
  exfalso
  have hgl : ∀ n, l ≤ |gap M σ k pc n| := fun n => ciInf_le hbdd n
  have hσ := h.pos_σ
  have hM := h.pos_M
  have hcp := h.pos_cp
  -- the pressures stay apart
  have hsep : ∀ n, σ * l ≤ |pcs M σ k - pc n| := by
    intro n
    have hP := h.pcs_pos
    have hp := h.pc_pos n
    have a1 := h.pc_ge_all n
    have a2 := h.pcs_ge
    have key : ∀ a b : ℝ, 0 < a → σ ≤ b → a ≤ b → σ ≤ a → σ * (Real.log b - Real.log a) ≤ b - a := by
      intro a b ha hb hab hsa
      have hb0 : 0 < b := ha.trans_le hab
      have h1 := Real.log_le_sub_one_of_pos (div_pos hb0 ha)
      rw [Real.log_div hb0.ne' ha.ne'] at h1
      have h2 : b / a - 1 = (b - a) / a := by field_simp
      rw [h2, le_div_iff₀ ha] at h1
      have h3 : 0 ≤ Real.log b - Real.log a := sub_nonneg.mpr (Real.log_le_log ha hab)
      nlinarith
    have hg := hgl n
    unfold gap at hg
    rcases le_total (pc n) (pcs M σ k) with hle | hle
    · rw [abs_of_nonneg (sub_nonneg.mpr (Real.log_le_log hp hle))] at hg
      rw [abs_of_nonneg (sub_nonneg.mpr hle)]
      exact (mul_le_mul_of_nonneg_left hg hσ.le).trans (key _ _ hp a2 hle a1)
    · rw [abs_of_nonpos (sub_nonpos.mpr (Real.log_le_log hP hle)), neg_sub] at hg
      rw [abs_of_nonpos (sub_nonpos.mpr hle), neg_sub]
      exact (mul_le_mul_of_nonneg_left hg hσ.le).trans (key _ _ hP a1 hle a2)
  set b := σ * l * ((1 - k * M) / 2) with hb
  have hb0 : 0 < b := by have := h.slope_lt; exact mul_pos (mul_pos hσ h0) (by linarith)
  have hM2 : 0 < M ^ 2 := by positivity
  have hlam : ∀ n, lam n * (b * M ^ 2) ≤ cp * (|gap M σ k pc n| - |gap M σ k pc (n + 1)|) := by
    intro n
    rw [← h.gap_step n]
    have hh := h.harden n
    rcases h.yield n with hY | ⟨hl', -⟩
    · have h1 := yield_gap_le h.pos_M (h.p_pos (n + 1)) (h.x_nonneg _) h.slope_lt h.slope_gt hY
      have h2 : b ≤ |2 * (σ + k * x (n + 1)) - pc (n + 1)| :=
        (mul_le_mul_of_nonneg_right (hsep (n + 1)) (by linarith [h.slope_lt])).trans h1
      have h3 : cp * |Real.log (pc (n + 1)) - Real.log (pc n)| =
          lam n * |2 * (σ + k * x (n + 1)) - pc (n + 1)| * M ^ 2 := by
        rw [← abs_of_pos hcp, ← abs_mul, hh, abs_mul, abs_mul, abs_of_nonneg (h.lam_nonneg n), abs_of_pos hM2]
      rw [h3]
      have := mul_le_mul_of_nonneg_left h2 (mul_nonneg (h.lam_nonneg n) hM2.le)
      nlinarith
    · rw [hl', zero_mul]; positivity
  have hdiff : Tendsto (fun n => |gap M σ k pc n| - |gap M σ k pc (n + 1)|) atTop (𝓝 0) := by
    have := hlim.sub (hlim.comp (tendsto_add_atTop_nat 1))
    simpa using this
  set X := M * Real.exp (Real.log (pcs M σ k) + |gap M σ k pc 0|) with hX
  have hX0 : 0 < X := mul_pos hM (Real.exp_pos _)
  set g1 := g (σ + |k| * X) with hg1d
  have hg1 : 0 ≤ g1 := h.g_nonneg _
  have hG_le : ∀ n, g (σ + k * x n) ≤ g1 := by
    intro n
    refine h.g_mono ?_
    have a1 : k * x n ≤ |k| * x n := mul_le_mul_of_nonneg_right (le_abs_self k) (h.x_nonneg n)
    have a2 : |k| * x n ≤ |k| * X := mul_le_mul_of_nonneg_left (h.x_le n) (abs_nonneg k)
    linarith
  have hΔ := h.pos_Δ
  have hg0 := h.pos_g0
  set ε := min (Δ / cp) (g0 * Δ / 2 * (b * M ^ 2) / ((6 * g1 * X + 1) * cp)) with hε
  have hε0 : 0 < ε := lt_min (by positivity) (by positivity)
  obtain ⟨N, hN⟩ := eventually_atTop.mp (hdiff.eventually (gt_mem_nhds hε0))
  refine h.not_grows h.d_pos N fun n hn => ?_
  have h1 := (hN n hn).le
  have hstep := h.stress n
  refine step_grows (w := 6 * g (σ + k * x (n + 1)) * lam n * x (n + 1)) (c := cp * (Real.log (pc (n + 1)) - Real.log (pc n))) h.sign h.slope
    h.pos_κ h.pos_Δ h.pos_g0 h.pos_m (h.p_ge n) (h.p_ge (n + 1)) (h.Gt_ge n) ?_ ?_ (by linarith)
  · have h2 : cp * (|gap M σ k pc n| - |gap M σ k pc (n + 1)|) ≤ g0 * Δ / 2 * (b * M ^ 2) / (6 * g1 * X + 1) := by
      have h3 := mul_le_mul_of_nonneg_left (h1.trans (min_le_right _ _)) hcp.le
      refine h3.trans (le_of_eq ?_)
      field_simp
    have h3 := (hlam n).trans h2
    rw [le_div_iff₀ (by positivity)] at h3
    have hbM : 0 < b * M ^ 2 := by positivity
    have h4 : lam n * (6 * g1 * X + 1) ≤ g0 * Δ / 2 := by
      refine le_of_mul_le_mul_right ?_ hbM
      linarith
    have h5 : 6 * g (σ + k * x (n + 1)) * lam n * x (n + 1) ≤ 6 * g1 * lam n * X := by
      have a1 := h.lam_nonneg n
      have a2 : g (σ + k * x (n + 1)) * lam n ≤ g1 * lam n := mul_le_mul_of_nonneg_right (hG_le (n + 1)) a1
      have a3 : g (σ + k * x (n + 1)) * lam n * x (n + 1) ≤ g1 * lam n * X :=
        mul_le_mul a2 (h.x_le _) (h.x_nonneg _) (mul_nonneg hg1 a1)
      linarith
    have := h.lam_nonneg n
    linarith
  · rw [abs_mul, abs_of_pos hcp, h.gap_step n]
    have := (le_div_iff₀ hcp).mp (h1.trans (min_le_left _ _))
    linarith

theorem pc_tendsto (h : Path M σ k s κ cp Δ g0 m g x pc lam Gt) : Tendsto pc atTop (𝓝 (pcs M σ k)) := by
  have h1 : Tendsto (fun n => Real.exp (Real.log (pcs M σ k) - gap M σ k pc n)) atTop (𝓝 (Real.exp (Real.log (pcs M σ k) - 0))) :=
    (Real.continuous_exp.tendsto _).comp (tendsto_const_nhds.sub h.gap_tendsto)
  rw [sub_zero, Real.exp_log h.pcs_pos] at h1
  refine h1.congr fun n => ?_
  rw [gap, sub_sub_cancel, Real.exp_log (h.pc_pos n)]

/-- **The stress reaches the critical state in the limit.** -/
theorem x_tendsto (h : Path M σ k s κ cp Δ g0 m g x pc lam Gt) : Tendsto x atTop (𝓝 (xcs M σ k)) := by
  obtain ⟨N, hN⟩ := h.yields_eventually
  have h1 : Tendsto (fun n => M / (1 + k * M) * |pcs M σ k - pc n|) atTop (𝓝 0) := by
    have h2 : Tendsto (fun n => pcs M σ k - pc n) atTop (𝓝 0) := by
      have := (tendsto_const_nhds (x := pcs M σ k)).sub h.pc_tendsto
      simpa using this
    have := (h2.abs).const_mul (M / (1 + k * M))
    simpa using this
  have h3 : Tendsto (fun n => xcs M σ k - x n) atTop (𝓝 0) := by
    refine squeeze_zero_norm' ?_ h1
    filter_upwards [eventually_ge_atTop N] with n hn
    exact yield_stress_le h.pos_M (h.p_pos n) (h.x_nonneg n) h.slope_lt h.slope_gt (hN n hn)
  have := (tendsto_const_nhds (x := xcs M σ k)).sub h3
  simpa using this

end Path

end Drained

end Hydrax
