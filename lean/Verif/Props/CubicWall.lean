import Verif.Model.ShapeFn
import Mathlib.Algebra.BigOperators.Intervals
import Mathlib.Algebra.BigOperators.Fin
import Mathlib.Algebra.Order.Floor.Ring
import Mathlib.Algebra.Order.Floor.Semiring
import Mathlib.Analysis.Calculus.Deriv.Basic
import Mathlib.Analysis.Calculus.Deriv.Add
import Mathlib.Analysis.Calculus.Deriv.Mul
import Mathlib.Analysis.Calculus.Deriv.Pow
import Mathlib.Tactic.LinearCombination
import Mathlib.Tactic.FieldSimp
import Mathlib.Tactic.IntervalCases
import Mathlib.Tactic.Linarith
import Mathlib.Tactic.NormNum
import Mathlib.Tactic.Ring

/-!
# Cubic splines at walls (C89)

`cubic.py` has, besides the interior spline, splines for the wall nodes ("Boundary Nodes (Left/Right Edge)") and for the
nodes next to them ("Near Boundary Left (0 + h)", "Near Boundary Right (L - h)"). Positions are in cells; nodes are
`0, …, N`.
-/

set_option linter.unusedSectionVars false

namespace Hydrax

/-- The node type that the comments of cubic.py give to node `i` of `0, …, N`. -/
def Spec.wallType (N i : ℕ) : CubicType :=
  if i = 0 ∨ i = N then .boundary else if i = 1 then .leftPlus else if i + 1 = N then .rightMinus else .middle

section
variable {K : Type*} [Field K] [LinearOrder K] [IsStrictOrderedRing K]

theorem cubicBasis_out (ty : CubicType) (x : K) (h : x < -2 ∨ 2 ≤ x) : cubicBasis ty x = 0 := by
  unfold cubicBasis
  rw [if_neg, if_neg, if_neg, if_neg] <;> rintro ⟨h1, h2⟩ <;> rcases h with h | h <;> linarith

theorem cubicDBasis_out (ty : CubicType) (g x : K) (h : x < -2 ∨ 2 ≤ x) : cubicDBasis ty g x = 0 := by
  unfold cubicDBasis
  rw [if_neg, if_neg, if_neg, if_neg] <;> rintro ⟨h1, h2⟩ <;> rcases h with h | h <;> linarith

/-- Only the four nodes around a point contribute. -/
theorem wall_window (f : ℕ → K) (N k : ℕ) (hk : k < N) (hf : ∀ i, i + 1 < k ∨ k + 2 < i → f i = 0) :
    ∑ i ∈ Finset.range (N + 1), f i =
      (if 1 ≤ k then f (k - 1) else 0) + f k + f (k + 1) + (if k + 2 ≤ N then f (k + 2) else 0) := by
  have h1 : ∑ i ∈ Finset.range (N + 1), f i = ∑ i ∈ (Finset.range (N + 1)).filter (fun i => k ≤ i + 1 ∧ i ≤ k + 2), f i := by
    rw [Finset.sum_filter]
    refine Finset.sum_congr rfl fun i _ => ?_
    split_ifs with h
    · rfl
    · exact hf i (by omega)
  have h2 : (Finset.range (N + 1)).filter (fun i => k ≤ i + 1 ∧ i ≤ k + 2) =
      (if 1 ≤ k then {k - 1} else ∅) ∪ ({k, k + 1} ∪ (if k + 2 ≤ N then {k + 2} else ∅)) := by
    ext i
    split_ifs <;> simp <;> omega
  rw [h1, h2, Finset.sum_union, Finset.sum_union, Finset.sum_pair (by omega)]
  · split_ifs <;> simp <;> ring
  · split_ifs <;> simp
  · split_ifs <;> simp <;> omega

theorem wallType_succ (N k : ℕ) (hN : 3 ≤ N) : Spec.wallType N (k + 1) = if k = 0 then .leftPlus else
    if k + 1 = N then .boundary else if k + 2 = N then .rightMinus else .middle := by
  unfold Spec.wallType
  by_cases a : k = 0
  · rw [if_neg (by omega), if_pos (by omega), if_pos a]
  · rw [if_neg a]
    by_cases b : k + 1 = N
    · rw [if_pos (by omega), if_pos b]
    · rw [if_neg (by omega), if_neg (by omega), if_neg b]

/-- The values of the four nodes around a point at `k + t`. -/
theorem wall_values (N k : ℕ) (hN : 3 ≤ N) (hk : k < N) (t : K) (h0 : 0 ≤ t) (h1 : t < 1) :
    (1 ≤ k → cubicBasis (Spec.wallType N (k - 1)) (1 + t) = (1 - t) ^ 3 / 6) ∧
    cubicBasis (Spec.wallType N k) t = (if k = 0 then t ^ 3 / 6 - t + 1 else if k + 1 = N then t ^ 3 / 3 - t ^ 2 + 2 / 3
      else t ^ 3 / 2 - t ^ 2 + 2 / 3) ∧
    cubicBasis (Spec.wallType N (k + 1)) (t - 1) = (if k = 0 then t - t ^ 3 / 3 else if k + 1 = N then
      1 - (1 - t) + (1 - t) ^ 3 / 6 else (1 - t) ^ 3 / 2 - (1 - t) ^ 2 + 2 / 3) ∧
    (k + 2 ≤ N → cubicBasis (Spec.wallType N (k + 2)) (t - 2) = t ^ 3 / 6) := by
  have ev1 : ∀ ty, ty ≠ .rightMinus → cubicBasis ty (1 + t) = (1 - t) ^ 3 / 6 := by
    intro ty hty
    unfold cubicBasis
    rw [if_neg (by rintro ⟨a, b⟩; linarith), if_neg (by rintro ⟨a, b⟩; linarith), if_neg (by rintro ⟨a, b⟩; linarith),
      if_pos ⟨by linarith, by linarith⟩]
    cases ty <;> first | exact absurd rfl hty | (simp only; ring)
  have ev4 : ∀ ty, ty ≠ .leftPlus → cubicBasis ty (t - 2) = t ^ 3 / 6 := by
    intro ty hty
    unfold cubicBasis
    rw [if_pos ⟨by linarith, by linarith⟩]
    cases ty <;> first | exact absurd rfl hty | (simp only; ring)
  have ev2 : ∀ ty, cubicBasis ty t = match ty with
      | .boundary => t ^ 3 / 6 - t + 1
      | .rightMinus => t ^ 3 / 3 - t ^ 2 + 2 / 3
      | _ => t ^ 3 / 2 - t ^ 2 + 2 / 3 := by
    intro ty
    unfold cubicBasis
    rw [if_neg (by rintro ⟨a, b⟩; linarith), if_neg (by rintro ⟨a, b⟩; linarith), if_pos ⟨h0, h1⟩]
    cases ty <;> simp only <;> ring
  have ev3 : ∀ ty, cubicBasis ty (t - 1) = match ty with
      | .boundary => 1 - (1 - t) + (1 - t) ^ 3 / 6
      | .leftPlus => t - t ^ 3 / 3
      | _ => (1 - t) ^ 3 / 2 - (1 - t) ^ 2 + 2 / 3 := by
    intro ty
    unfold cubicBasis
    rw [if_neg (by rintro ⟨a, b⟩; linarith), if_pos ⟨by linarith, by linarith⟩]
    cases ty <;> simp only <;> ring
  refine ⟨fun hk1 => ev1 _ ?_, ?_, ?_, fun hk2 => ev4 _ ?_⟩
  · unfold Spec.wallType; split_ifs <;> simp; omega
  · rw [ev2]; unfold Spec.wallType; split_ifs <;> first | rfl | omega
  · rw [ev3, show Spec.wallType N (k + 1) = if k = 0 then .leftPlus else if k + 1 = N then .boundary else
      if k + 2 = N then .rightMinus else .middle from wallType_succ N k hN]
    split_ifs <;> rfl
  · unfold Spec.wallType; split_ifs <;> simp <;> omega

/-- The derivatives of the four nodes around a point at `k + t`. -/
theorem wall_derivs (N k : ℕ) (hN : 3 ≤ N) (hk : k < N) (g t : K) (h0 : 0 ≤ t) (h1 : t < 1) :
    (1 ≤ k → cubicDBasis (Spec.wallType N (k - 1)) g (1 + t) = g * (-(1 - t) ^ 2 / 2)) ∧
    cubicDBasis (Spec.wallType N k) g t = g * (if k = 0 then t ^ 2 / 2 - 1 else if k + 1 = N then t ^ 2 - 2 * t
      else 3 * t ^ 2 / 2 - 2 * t) ∧
    cubicDBasis (Spec.wallType N (k + 1)) g (t - 1) = g * (if k = 0 then 1 - t ^ 2 else if k + 1 = N then
      1 - (1 - t) ^ 2 / 2 else -3 * (1 - t) ^ 2 / 2 + 2 * (1 - t)) ∧
    (k + 2 ≤ N → cubicDBasis (Spec.wallType N (k + 2)) g (t - 2) = g * (t ^ 2 / 2)) := by
  have ev1 : ∀ ty, ty ≠ .rightMinus → cubicDBasis ty g (1 + t) = g * (-(1 - t) ^ 2 / 2) := by
    intro ty hty
    unfold cubicDBasis
    rw [if_neg (by rintro ⟨a, b⟩; linarith), if_neg (by rintro ⟨a, b⟩; linarith), if_neg (by rintro ⟨a, b⟩; linarith),
      if_pos ⟨by linarith, by linarith⟩]
    cases ty <;> first | exact absurd rfl hty | (simp only; ring)
  have ev4 : ∀ ty, ty ≠ .leftPlus → cubicDBasis ty g (t - 2) = g * (t ^ 2 / 2) := by
    intro ty hty
    unfold cubicDBasis
    rw [if_pos ⟨by linarith, by linarith⟩]
    cases ty <;> first | exact absurd rfl hty | (simp only; ring)
  have ev2 : ∀ ty, cubicDBasis ty g t = g * match ty with
      | .boundary => t ^ 2 / 2 - 1
      | .rightMinus => t ^ 2 - 2 * t
      | _ => 3 * t ^ 2 / 2 - 2 * t := by
    intro ty
    unfold cubicDBasis
    rw [if_neg (by rintro ⟨a, b⟩; linarith), if_neg (by rintro ⟨a, b⟩; linarith), if_pos ⟨h0, h1⟩]
    cases ty <;> simp only <;> ring
  have ev3 : ∀ ty, cubicDBasis ty g (t - 1) = g * match ty with
      | .boundary => 1 - (1 - t) ^ 2 / 2
      | .leftPlus => 1 - t ^ 2
      | _ => -3 * (1 - t) ^ 2 / 2 + 2 * (1 - t) := by
    intro ty
    unfold cubicDBasis
    rw [if_neg (by rintro ⟨a, b⟩; linarith), if_pos ⟨by linarith, by linarith⟩]
    cases ty <;> simp only <;> ring
  refine ⟨fun hk1 => ev1 _ ?_, ?_, ?_, fun hk2 => ev4 _ ?_⟩
  · unfold Spec.wallType; split_ifs <;> simp; omega
  · rw [ev2]; unfold Spec.wallType; split_ifs <;> first | rfl | omega
  · rw [ev3, show Spec.wallType N (k + 1) = if k = 0 then .leftPlus else if k + 1 = N then .boundary else
      if k + 2 = N then .rightMinus else .middle from wallType_succ N k hN]
    split_ifs <;> rfl
  · unfold Spec.wallType; split_ifs <;> simp <;> omega

/-- A position between the walls, other than the right wall, lies in a cell. -/
theorem wall_cell [FloorRing K] (N : ℕ) (x : K) (h0 : 0 ≤ x) (h1 : x < N) :
    ∃ k < N, ∃ t, 0 ≤ t ∧ t < 1 ∧ x = k + t := by
  refine ⟨⌊x⌋₊, ?_, x - ⌊x⌋₊, ?_, ?_, by ring⟩
  · exact (Nat.floor_lt h0).mpr h1
  · exact sub_nonneg.mpr (Nat.floor_le h0)
  · have := Nat.lt_floor_add_one x
    linarith

theorem wall_sum (φ : ℕ → K → K) (N k : ℕ) (hk : k < N) (t : K) (h0 : 0 ≤ t) (h1 : t < 1)
    (hout : ∀ i x, x < -2 ∨ 2 ≤ x → φ i x = 0) :
    ∑ i ∈ Finset.range (N + 1), φ i (k + t - i) =
      (if 1 ≤ k then φ (k - 1) (1 + t) else 0) + φ k t + φ (k + 1) (t - 1) + (if k + 2 ≤ N then φ (k + 2) (t - 2) else 0) := by
  rw [wall_window (fun i => φ i (k + t - i)) N k hk]
  · have e2 : (k : K) + t - k = t := by ring
    have e3 : (k : K) + t - ((k + 1 : ℕ) : K) = t - 1 := by push_cast; ring
    have e4 : (k : K) + t - ((k + 2 : ℕ) : K) = t - 2 := by push_cast; ring
    rw [e2, e3, e4]
    congr 3
    split_ifs with h
    · obtain ⟨j, rfl⟩ : ∃ j, k = j + 1 := ⟨k - 1, by omega⟩
      congr 1
      simp only [Nat.add_sub_cancel]
      push_cast; ring
    · rfl
  · rintro i (h | h)
    · refine hout i _ (.inr ?_)
      have : ((i + 2 : ℕ) : K) ≤ (k : K) := by exact_mod_cast h
      push_cast at this; linarith
    · refine hout i _ (.inl ?_)
      have : ((k + 3 : ℕ) : K) ≤ (i : K) := by exact_mod_cast h
      push_cast at this; linarith

/-- At the right wall only its node contributes. -/
theorem wall_sum_right (φ : ℕ → K → K) (N : ℕ) (hN : 3 ≤ N) (hout : ∀ i x, x < -2 ∨ 2 ≤ x → φ i x = 0)
    (h1 : φ (N - 1) 1 = 0) : ∑ i ∈ Finset.range (N + 1), φ i ((N : K) - i) = φ N 0 := by
  obtain ⟨M, rfl⟩ : ∃ M, N = M + 1 := ⟨N - 1, by omega⟩
  rw [Finset.sum_range_succ, Finset.sum_range_succ, sub_self]
  have e : ((M + 1 : ℕ) : K) - M = 1 := by push_cast; ring
  rw [e, show M = M + 1 - 1 by omega, h1, add_zero, Finset.sum_eq_zero, zero_add]
  intro i hi
  refine hout i _ (.inr ?_)
  have : i + 1 ≤ M := by simpa using Finset.mem_range.mp hi
  have : ((i + 1 : ℕ) : K) ≤ (M : K) := by exact_mod_cast this
  push_cast at this ⊢; linarith

theorem wallType_right (N : ℕ) (hN : 3 ≤ N) : Spec.wallType N (N - 1) = .rightMinus ∧ Spec.wallType N N = .boundary := by
  unfold Spec.wallType
  constructor
  · split_ifs <;> first | rfl | omega
  · simp

/-- **C89**, partition of unity: with the documented node types the weights of the nodes `0, …, N` sum to one at every
position between the walls, walls included. -/
theorem cubic_wall_unity [FloorRing K] (N : ℕ) (hN : 3 ≤ N) (x : K) (h0 : 0 ≤ x) (h1 : x ≤ N) :
    ∑ i ∈ Finset.range (N + 1), cubicBasis (Spec.wallType N i) (x - i) = 1 := by
  rcases h1.lt_or_eq with h1 | rfl
  · obtain ⟨k, hk, t, ht0, ht1, rfl⟩ := wall_cell N x h0 h1
    rw [wall_sum (fun i x => cubicBasis (Spec.wallType N i) x) N k hk t ht0 ht1 fun i x => cubicBasis_out _ x]
    obtain ⟨v1, v2, v3, v4⟩ := wall_values N k hN hk t ht0 ht1
    by_cases a : k = 0
    · subst a
      simp only [if_true] at v2 v3
      rw [if_neg (by omega), if_pos (by omega), v2, v3, v4 (by omega)]
      ring
    · rw [if_neg a] at v2 v3
      by_cases b : k + 1 = N
      · rw [if_pos b] at v2 v3
        rw [if_pos (by omega), if_neg (by omega), v1 (by omega), v2, v3]
        ring
      · rw [if_neg b] at v2 v3
        rw [if_pos (by omega), if_pos (by omega), v1 (by omega), v2, v3, v4 (by omega)]
        ring
  · rw [wall_sum_right (fun i x => cubicBasis (Spec.wallType N i) x) N hN (fun i x => cubicBasis_out _ x)]
    · simp only [(wallType_right N hN).2, cubicBasis]; norm_num
    · simp only [(wallType_right N hN).1, cubicBasis]; norm_num

/-- **C89**, linear completeness: the weighted node positions give the position. -/
theorem cubic_wall_linear [FloorRing K] (N : ℕ) (hN : 3 ≤ N) (x : K) (h0 : 0 ≤ x) (h1 : x ≤ N) :
    ∑ i ∈ Finset.range (N + 1), (i : K) * cubicBasis (Spec.wallType N i) (x - i) = x := by
  rcases h1.lt_or_eq with h1 | rfl
  · obtain ⟨k, hk, t, ht0, ht1, rfl⟩ := wall_cell N x h0 h1
    rw [wall_sum (fun i x => (i : K) * cubicBasis (Spec.wallType N i) x) N k hk t ht0 ht1
      fun i x h => by rw [cubicBasis_out _ x h, mul_zero]]
    obtain ⟨v1, v2, v3, v4⟩ := wall_values N k hN hk t ht0 ht1
    by_cases a : k = 0
    · subst a
      simp only [if_true] at v2 v3
      rw [if_neg (by omega), if_pos (by omega), v2, v3, v4 (by omega)]
      push_cast
      ring
    · obtain ⟨j, rfl⟩ : ∃ j, k = j + 1 := ⟨k - 1, by omega⟩
      rw [if_neg a] at v2 v3
      by_cases b : j + 1 + 1 = N
      · rw [if_pos b] at v2 v3
        rw [if_pos (by omega), if_neg (by omega), v1 (by omega), v2, v3]
        simp only [Nat.add_sub_cancel]
        push_cast
        ring
      · rw [if_neg b] at v2 v3
        rw [if_pos (by omega), if_pos (by omega), v1 (by omega), v2, v3, v4 (by omega)]
        simp only [Nat.add_sub_cancel]
        push_cast
        ring
  · rw [wall_sum_right (fun i x => (i : K) * cubicBasis (Spec.wallType N i) x) N hN
      (fun i x h => by rw [cubicBasis_out _ x h, mul_zero])]
    · simp only [(wallType_right N hN).2, cubicBasis]; norm_num
    · simp only [(wallType_right N hN).1, cubicBasis]; norm_num

example : ∑ i ∈ Finset.range (3 + 1), (i : ℚ) * cubicBasis (Spec.wallType 3 i) ((5 / 2 : ℚ) - i) = 5 / 2 :=
  cubic_wall_linear 3 le_rfl _ (by norm_num) (by norm_num)

/-- **C89** (partial), gradients: at every position between the walls other than the right wall, the gradients reproduce the
gradient of constants (zero) and of the position (`g` is the inverse cell size). Missing: the right wall, where it is false
(`cubic_wall_grad_fails`). -/
theorem cubic_wall_grad_partial [FloorRing K] (N : ℕ) (hN : 3 ≤ N) (g x : K) (h0 : 0 ≤ x) (h1 : x < N) :
    ∑ i ∈ Finset.range (N + 1), cubicDBasis (Spec.wallType N i) g (x - i) = 0 ∧
    ∑ i ∈ Finset.range (N + 1), (i : K) * cubicDBasis (Spec.wallType N i) g (x - i) = g := by
  obtain ⟨k, hk, t, ht0, ht1, rfl⟩ := wall_cell N x h0 h1
  rw [wall_sum (fun i x => cubicDBasis (Spec.wallType N i) g x) N k hk t ht0 ht1 fun i x => cubicDBasis_out _ g x,
    wall_sum (fun i x => (i : K) * cubicDBasis (Spec.wallType N i) g x) N k hk t ht0 ht1
      fun i x h => by rw [cubicDBasis_out _ g x h, mul_zero]]
  obtain ⟨v1, v2, v3, v4⟩ := wall_derivs N k hN hk g t ht0 ht1
  by_cases a : k = 0
  · subst a
    simp only [if_true] at v2 v3
    rw [if_neg (by omega), if_pos (by omega), if_neg (by omega), if_pos (by omega), v2, v3, v4 (by omega)]
    push_cast
    constructor <;> ring
  · obtain ⟨j, rfl⟩ : ∃ j, k = j + 1 := ⟨k - 1, by omega⟩
    rw [if_neg a] at v2 v3
    by_cases b : j + 1 + 1 = N
    · rw [if_pos b] at v2 v3
      rw [if_pos (by omega), if_neg (by omega), if_pos (by omega), if_neg (by omega), v1 (by omega), v2, v3]
      simp only [Nat.add_sub_cancel]
      push_cast
      constructor <;> ring
    · rw [if_neg b] at v2 v3
      rw [if_pos (by omega), if_pos (by omega), if_pos (by omega), if_pos (by omega), v1 (by omega), v2, v3, v4 (by omega)]
      simp only [Nat.add_sub_cancel]
      push_cast
      constructor <;> ring

example : ∑ i ∈ Finset.range (3 + 1), cubicDBasis (Spec.wallType 3 i) 10 ((5 / 2 : ℚ) - i) = 0 :=
  (cubic_wall_grad_partial 3 le_rfl 10 _ (by norm_num) (by norm_num)).1

/-- **C89** (refuted at the right wall): at `x = N` the gradients do not sum to zero but to `-g`. -/
theorem cubic_wall_grad_fails (N : ℕ) (hN : 3 ≤ N) (g : K) :
    ∑ i ∈ Finset.range (N + 1), cubicDBasis (Spec.wallType N i) g ((N : K) - i) = -g := by
  rw [wall_sum_right (fun i x => cubicDBasis (Spec.wallType N i) g x) N hN (fun i x => cubicDBasis_out _ g x)]
  · simp only [(wallType_right N hN).2, cubicDBasis]; norm_num
  · simp only [(wallType_right N hN).1, cubicDBasis]; norm_num

example : ∑ i ∈ Finset.range (3 + 1), cubicDBasis (Spec.wallType 3 i) 10 (((3 : ℕ) : ℚ) - i) = -10 :=
  cubic_wall_grad_fails 3 le_rfl 10

/-- **C89** (refuted for the solver): `compute` passes node type 0 for every node; then the weights at the wall sum to
`5/6`. -/
theorem cubic_wall_unused (N : ℕ) (hN : 3 ≤ N) :
    ∑ i ∈ Finset.range (N + 1), basis1 .cubic ((0 : K) - i) = 5 / 6 := by
  have h := wall_sum (fun _ x => basis1 Kernel.cubic x) N 0 (by omega) (0 : K) le_rfl zero_lt_one
    fun i x => cubicBasis_out .middle x
  simp only [Nat.cast_zero, zero_add, zero_sub] at h ⊢
  rw [h]
  simp only [basis1, cubicBasis]
  norm_num

example : ∑ i ∈ Finset.range (3 + 1), basis1 .cubic ((0 : ℚ) - i) = 5 / 6 := cubic_wall_unused 3 le_rfl

/-- `vmap_cubic_shapefunction` (cubic.py:171-179, 200), the weight: one node type
selects the spline of all axes. -/
def cubicWeight (ty : CubicType) {dim : ℕ} (dist : Fin dim → K) : K := ∏ d, cubicBasis ty (dist d)

/-- **C89** (refuted in the plane): the node type is one number used for all axes. On the wall `x = 0`, at the height of an
interior node `m`, with the wall nodes of boundary type and the next column of type `leftPlus` as in one dimension, the
weights sum to `4/3`. -/
theorem cubic_wall_plane_fails (N M m : ℕ) (hN : 3 ≤ N) (hm : 2 ≤ m) (hM : m + 2 ≤ M) :
    ∑ i ∈ Finset.range (N + 1), ∑ j ∈ Finset.range (M + 1),
      cubicWeight (Spec.wallType N i) ![(0 : K) - i, (m : K) - j] = 4 / 3 := by
  simp only [cubicWeight, Fin.prod_univ_two, Matrix.cons_val_zero, Matrix.cons_val_one, ← Finset.mul_sum]
  have h := wall_sum (fun i x => cubicBasis (Spec.wallType N i) x *
    ∑ j ∈ Finset.range (M + 1), cubicBasis (Spec.wallType N i) ((m : K) - j)) N 0 (by omega) (0 : K) le_rfl zero_lt_one
    fun i x h => by rw [cubicBasis_out _ x h, zero_mul]
  simp only [Nat.cast_zero, zero_add, zero_sub] at h ⊢
  rw [h, if_neg (by omega), if_pos (by omega)]
  have t1 : Spec.wallType N 1 = .leftPlus := by rw [wallType_succ N 0 hN, if_pos rfl]
  have t0 : Spec.wallType N 0 = .boundary := by simp [Spec.wallType]
  have e1 : cubicBasis CubicType.leftPlus (-1 : K) = 0 := by simp only [cubicBasis]; norm_num
  have e2 : ∀ ty, cubicBasis ty (-2 : K) = 0 := fun ty => by simp only [cubicBasis]; cases ty <;> norm_num
  have e0 : cubicBasis CubicType.boundary (0 : K) = 1 := by simp only [cubicBasis]; norm_num
  rw [t1, t0, e1, e2, e0]
  have hs := wall_sum (fun _ x => cubicBasis CubicType.boundary x) M m (by omega) (0 : K) le_rfl zero_lt_one
    fun i x => cubicBasis_out _ x
  simp only [add_zero, zero_sub] at hs
  rw [hs, if_pos (by omega), if_pos (by omega)]
  simp only [cubicBasis]
  norm_num

example : ∑ i ∈ Finset.range (3 + 1), ∑ j ∈ Finset.range (4 + 1),
    cubicWeight (Spec.wallType 3 i) ![(0 : ℚ) - i, ((2 : ℕ) : ℚ) - j] = 4 / 3 := cubic_wall_plane_fails 3 4 2 le_rfl le_rfl le_rfl

/-- **C89**: no spline of any node type is negative. -/
theorem cubic_types_nonneg (ty : CubicType) (x : K) : 0 ≤ cubicBasis ty x := by
  have hb : ∀ s : K, 0 ≤ s → s < 1 → 0 ≤ s ^ 3 / 6 - s + 1 := fun s h0 h1 => by
    have := pow_nonneg h0 3; linarith
  have hm : ∀ s : K, 0 ≤ s → s ≤ 1 → 0 ≤ s ^ 3 / 2 - s ^ 2 + 2 / 3 := fun s h0 h1 => by
    have := pow_nonneg h0 3
    have : s ^ 2 ≤ s := by nlinarith
    have e : s ^ 3 / 2 - s ^ 2 + 2 / 3 = (1 - s) * (1 + s - s ^ 2) / 2 + 1 / 6 := by ring
    have : 0 ≤ (1 - s) * (1 + s - s ^ 2) := mul_nonneg (by linarith) (by linarith)
    rw [e]; linarith
  have hr : ∀ s : K, 0 ≤ s → s ≤ 1 → 0 ≤ s ^ 3 / 3 - s ^ 2 + 2 / 3 := fun s h0 h1 => by
    have e : s ^ 3 / 3 - s ^ 2 + 2 / 3 = (1 - s) * (2 + s * (2 - s)) / 3 := by ring
    have : 0 ≤ (1 - s) * (2 + s * (2 - s)) :=
      mul_nonneg (by linarith) (by have := mul_nonneg h0 (show (0 : K) ≤ 2 - s by linarith); linarith)
    rw [e]; linarith
  have hc : ∀ s : K, 0 ≤ s → 0 ≤ s ^ 3 / 6 := fun s h0 => by have := pow_nonneg h0 3; linarith
  unfold cubicBasis
  split_ifs with h1 h2 h3 h4
  · have := hc (x + 2) (by linarith)
    cases ty <;> simp only <;> first | exact le_rfl | (convert this using 1; ring)
  · cases ty <;> simp only
    · convert hm (-x) (by linarith) (by linarith) using 1; ring
    · have : 0 ≤ (-x) ^ 3 / 6 - (-x) + 1 := by
        have := pow_nonneg (show (0 : K) ≤ -x by linarith) 3; linarith
      convert this using 1; ring
    · convert hr (-x) (by linarith) (by linarith) using 1; ring
    · convert hm (-x) (by linarith) (by linarith) using 1; ring
  · cases ty <;> simp only
    · convert hm x h3.1 h3.2.le using 1; ring
    · convert hb x h3.1 h3.2 using 1; ring
    · convert hm x h3.1 h3.2.le using 1; ring
    · convert hr x h3.1 h3.2.le using 1; ring
  · have := hc (2 - x) (by linarith)
    cases ty <;> simp only <;> first | exact le_rfl | (convert this using 1; ring)
  · exact le_rfl

example : ∑ i ∈ Finset.range 4, cubicBasis (Spec.wallType 3 i) ((5 / 2 : ℚ) - i) = 1 :=
  cubic_wall_unity 3 le_rfl _ (by norm_num) (by norm_num)

end

theorem cubic_deriv (a b c d x : ℝ) :
    HasDerivAt (fun y : ℝ => a * y ^ 3 + b * y ^ 2 + c * y + d) (3 * a * x ^ 2 + 2 * b * x + c) x := by
  refine ((((hasDerivAt_pow 3 x).const_mul a).add ((hasDerivAt_pow 2 x).const_mul b)).add
    ((hasDerivAt_id' x).const_mul c)).add_const d |>.congr_deriv ?_
  push_cast; ring

theorem cubic_piece {f : ℝ → ℝ} {x b f' : ℝ} (a₃ a₂ a₁ a₀ : ℝ) (hxb : x < b)
    (hf : ∀ y, x ≤ y → y < b → f y = a₃ * y ^ 3 + a₂ * y ^ 2 + a₁ * y + a₀)
    (hf' : f' = 3 * a₃ * x ^ 2 + 2 * a₂ * x + a₁) : HasDerivWithinAt f f' (Set.Ici x) x := by
  rw [hf']
  refine (cubic_deriv a₃ a₂ a₁ a₀ x).hasDerivWithinAt.congr_of_eventuallyEq ?_ (hf x le_rfl hxb)
  filter_upwards [Ico_mem_nhdsGE hxb] with y hy
  exact hf y hy.1 hy.2

/-- **C89**, what the gradient branch computes: for every node type and position it is the derivative of the weight to the
right of the position. Hence on the right wall the derivative of the side outside the body is used. -/
theorem cubicDBasis_right_deriv (ty : CubicType) (x : ℝ) :
    HasDerivWithinAt (cubicBasis ty) (cubicDBasis ty 1 x) (Set.Ici x) x := by
  by_cases h0 : x < -2
  · rw [cubicDBasis_out ty 1 x (.inl h0)]
    exact cubic_piece 0 0 0 0 h0 (fun y _ hy => by rw [cubicBasis_out ty y (.inl hy)]; ring) (by ring)
  by_cases h1 : x < -1
  · have e : ∀ y, x ≤ y → y < -1 → -2 ≤ y ∧ y < -1 := fun y a b => ⟨by linarith, b⟩
    cases ty
    case leftPlus =>
      exact cubic_piece 0 0 0 0 h1 (fun y a b => by unfold cubicBasis; rw [if_pos (e y a b)]; ring)
        (by unfold cubicDBasis; rw [if_pos (e x le_rfl h1)]; ring)
    all_goals
      exact cubic_piece (1 / 6) 1 2 (4 / 3) h1 (fun y a b => by unfold cubicBasis; rw [if_pos (e y a b)]; ring)
        (by unfold cubicDBasis; rw [if_pos (e x le_rfl h1)]; ring)
  by_cases h2 : x < 0
  · have n : ∀ y, x ≤ y → ¬(-2 ≤ y ∧ y < -1) := fun y a => by rintro ⟨_, b⟩; linarith
    have e : ∀ y, x ≤ y → y < 0 → -1 ≤ y ∧ y < 0 := fun y a b => ⟨by linarith, b⟩
    have fin : ∀ a₃ a₂ a₁ a₀ : ℝ, (∀ y, -1 ≤ y → y < 0 → cubicBasis ty y = a₃ * y ^ 3 + a₂ * y ^ 2 + a₁ * y + a₀) →
        cubicDBasis ty 1 x = 3 * a₃ * x ^ 2 + 2 * a₂ * x + a₁ →
        HasDerivWithinAt (cubicBasis ty) (cubicDBasis ty 1 x) (Set.Ici x) x := fun a₃ a₂ a₁ a₀ ha hb =>
      cubic_piece a₃ a₂ a₁ a₀ h2 (fun y a b => ha y (e y a b).1 b) hb
    have v : ∀ y : ℝ, -1 ≤ y → ¬(-2 ≤ y ∧ y < -1) := fun y a => by rintro ⟨_, b⟩; linarith
    cases ty
    · exact fin (-1 / 2) (-1) 0 (2 / 3) (fun y a b => by unfold cubicBasis; rw [if_neg (v y a), if_pos ⟨a, b⟩]; ring)
        (by unfold cubicDBasis; rw [if_neg (n x le_rfl), if_pos (e x le_rfl h2)]; ring)
    · exact fin (-1 / 6) 0 1 1 (fun y a b => by unfold cubicBasis; rw [if_neg (v y a), if_pos ⟨a, b⟩]; ring)
        (by unfold cubicDBasis; rw [if_neg (n x le_rfl), if_pos (e x le_rfl h2)]; ring)
    · exact fin (-1 / 3) (-1) 0 (2 / 3) (fun y a b => by unfold cubicBasis; rw [if_neg (v y a), if_pos ⟨a, b⟩]; ring)
        (by unfold cubicDBasis; rw [if_neg (n x le_rfl), if_pos (e x le_rfl h2)]; ring)
    · exact fin (-1 / 2) (-1) 0 (2 / 3) (fun y a b => by unfold cubicBasis; rw [if_neg (v y a), if_pos ⟨a, b⟩]; ring)
        (by unfold cubicDBasis; rw [if_neg (n x le_rfl), if_pos (e x le_rfl h2)]; ring)
  by_cases h3 : x < 1
  · have n1 : ∀ y, x ≤ y → ¬(-2 ≤ y ∧ y < -1) := fun y a => by rintro ⟨_, b⟩; linarith
    have n2 : ∀ y, x ≤ y → ¬(-1 ≤ y ∧ y < 0) := fun y a => by rintro ⟨_, b⟩; linarith
    have e : ∀ y, x ≤ y → y < 1 → 0 ≤ y ∧ y < 1 := fun y a b => ⟨by linarith, b⟩
    cases ty
    · exact cubic_piece (1 / 2) (-1) 0 (2 / 3) h3
        (fun y a b => by unfold cubicBasis; rw [if_neg (n1 y a), if_neg (n2 y a), if_pos (e y a b)]; ring)
        (by unfold cubicDBasis; rw [if_neg (n1 x le_rfl), if_neg (n2 x le_rfl), if_pos (e x le_rfl h3)]; ring)
    · exact cubic_piece (1 / 6) 0 (-1) 1 h3
        (fun y a b => by unfold cubicBasis; rw [if_neg (n1 y a), if_neg (n2 y a), if_pos (e y a b)]; ring)
        (by unfold cubicDBasis; rw [if_neg (n1 x le_rfl), if_neg (n2 x le_rfl), if_pos (e x le_rfl h3)]; ring)
    · exact cubic_piece (1 / 2) (-1) 0 (2 / 3) h3
        (fun y a b => by unfold cubicBasis; rw [if_neg (n1 y a), if_neg (n2 y a), if_pos (e y a b)]; ring)
        (by unfold cubicDBasis; rw [if_neg (n1 x le_rfl), if_neg (n2 x le_rfl), if_pos (e x le_rfl h3)]; ring)
    · exact cubic_piece (1 / 3) (-1) 0 (2 / 3) h3
        (fun y a b => by unfold cubicBasis; rw [if_neg (n1 y a), if_neg (n2 y a), if_pos (e y a b)]; ring)
        (by unfold cubicDBasis; rw [if_neg (n1 x le_rfl), if_neg (n2 x le_rfl), if_pos (e x le_rfl h3)]; ring)
  by_cases h4 : x < 2
  · have n1 : ∀ y, x ≤ y → ¬(-2 ≤ y ∧ y < -1) := fun y a => by rintro ⟨_, b⟩; linarith
    have n2 : ∀ y, x ≤ y → ¬(-1 ≤ y ∧ y < 0) := fun y a => by rintro ⟨_, b⟩; linarith
    have n3 : ∀ y, x ≤ y → ¬(0 ≤ y ∧ y < 1) := fun y a => by rintro ⟨_, b⟩; linarith
    have e : ∀ y, x ≤ y → y < 2 → 1 ≤ y ∧ y < 2 := fun y a b => ⟨by linarith, b⟩
    cases ty
    case rightMinus =>
      exact cubic_piece 0 0 0 0 h4
        (fun y a b => by
          unfold cubicBasis; rw [if_neg (n1 y a), if_neg (n2 y a), if_neg (n3 y a), if_pos (e y a b)]; ring)
        (by unfold cubicDBasis
            rw [if_neg (n1 x le_rfl), if_neg (n2 x le_rfl), if_neg (n3 x le_rfl), if_pos (e x le_rfl h4)]; ring)
    all_goals
      exact cubic_piece (-1 / 6) 1 (-2) (4 / 3) h4
        (fun y a b => by
          unfold cubicBasis; rw [if_neg (n1 y a), if_neg (n2 y a), if_neg (n3 y a), if_pos (e y a b)]; ring)
        (by unfold cubicDBasis
            rw [if_neg (n1 x le_rfl), if_neg (n2 x le_rfl), if_neg (n3 x le_rfl), if_pos (e x le_rfl h4)]; ring)
  · rw [cubicDBasis_out ty 1 x (.inr (not_lt.mp h4))]
    exact cubic_piece 0 0 0 0 (lt_add_one x)
      (fun y hy _ => by rw [cubicBasis_out ty y (.inr ((not_lt.mp h4).trans hy))]; ring) (by ring)

end Hydrax
